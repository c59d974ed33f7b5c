import Verif.Props.WholeGhe
import Verif.Spec.Response

/-!
# What the whole exchanger object computes (C92)
-/

set_option linter.unusedSectionVars false

namespace Ghedt.Whole
open Real Ghedt.GHE Ghedt.Bhe Ghedt.Radial Ghedt.Spec

noncomputable section

theorem interpNodes_polyline (pts : List (ℝ × ℝ)) (v d : ℝ) (h : interpNodes pts v = .ok d) :
    OnPolyline pts v d := by
  induction pts with
  | nil => cases h
  | cons p pts ih =>
    cases pts with
    | nil =>
      unfold interpNodes at h
      split at h
      · rename_i e
        cases h
        left
        rw [e]
        exact List.mem_cons_self
      · cases h
    | cons q rest =>
      unfold interpNodes at h
      split at h
      · cases h
      · rename_i h1
        split at h
        · rename_i h2
          cases h
          exact Or.inr ⟨0, p, q, rfl, rfl, not_lt.1 h1, h2, by ring⟩
        · rcases ih h with hm | ⟨k, p', q', e1, e2, e⟩
          · exact Or.inl (List.mem_cons_of_mem _ hm)
          · exact Or.inr ⟨k + 1, p', q', e1, e2, e⟩

theorem interp1d_polyline {x y : List ℝ} (hx : x.Pairwise (· ≤ ·)) {v d : ℝ} (h : interp1d x y v = .ok d) :
    OnPolyline (x.zip y) v d := by
  unfold interp1d at h
  split at h
  · cases h
  · have hz : (x.zip y).Pairwise (fun a b => a.1 ≤ b.1) := by
      rename_i hl
      have := hx
      rw [← List.map_fst_zip (l₁ := x) (l₂ := y) (by omega), List.pairwise_map] at this
      exact this
    rw [List.Pairwise.insertionSort_eq hz] at h
    exact interpNodes_polyline _ _ _ h

variable {env : Env} {lo hi : ℝ} {x : Exchanger} {s0 : State}

/-- the points of the combined response: short-time samples up to the first long time `a`, then the long-time
g-function, corrected for the borehole radius -/
def responsePoints (env : Env) (rb a : ℝ) (lt gs : List ℝ) (ans : GF.Answer ℝ) : List (ℝ × ℝ) :=
  (lt.zip gs).filter (fun p => decide (p.1 ≤ a)) ++
    env.db.logTime.zip (ans.g.map fun v => v - log (rb / ans.rb))

/-- the field as the specification describes it -/
def siteOf (env : Env) (x : Exchanger) (h : ℝ) : Site where
  boreholes := env.db.locations.length
  height := h
  conductivity := (soilOf x).k
  ground := (soilOf x).ugt
  resistance := effectiveRb env.ext (setHeight h x)
  flow := flowOf x
  cp := cpOf x

theorem thermalOf_value {h : ℝ} {s : UTube} {a b : ℝ} (hk : Known x) (ans : GF.Answer ℝ) (hrb : ans.rb ≠ 0)
    (hansl : ans.g.length = env.db.logTime.length) (hR : Works env x h s) (hT : Times env s a b) :
    ∃ th rad lt gs, thermalOf env x h ans = .ok th ∧
      calcSts env.solve (radialTube env.ext s) none false env.fuel = .ok (rad, lt, gs) ∧
      (∀ τ v, th.g τ = .ok v →
        OnPolyline (responsePoints env (borehole x).rb a lt gs ans) (log (3600 * τ / charTime s)) v) ∧
      th.nbh = (env.db.locations.length : ℝ) ∧ th.H = h ∧ th.twoPiK = 2 * π * (soilOf x).k ∧
      th.Tg = (soilOf x).ugt ∧ th.Rb = effectiveRb env.ext (setHeight h x) ∧ th.mdot = flowOf x ∧
      th.cp = cpOf x := by
  have hts := charTime_pos hR.sound
  obtain ⟨N, rad, gs, h0, hgs, hrts, hsts⟩ := calcSts_ok hR
  have hrbx : (borehole (setHeight h x)).rb = (borehole x).rb := by cases x <;> rfl
  have hsoil : soilOf (setHeight h x) = soilOf x := by cases x <;> rfl
  have hflow : flowOf (setHeight h x) = flowOf x := by cases x <;> rfl
  have hcp : cpOf (setHeight h x) = cpOf x := by cases x <;> rfl
  have hc : GF.radiusCorrection log ans.g ans.rb (borehole (setHeight h x)).rb =
      .ok (ans.g.map fun v => v - log ((borehole x).rb / ans.rb)) := by
    unfold GF.radiusCorrection
    refine mapM_ok fun v _ => ?_
    rw [pyDiv_ok hrb, hrbx]
    rfl
  set c := ans.g.map fun v => v - log ((borehole x).rb / ans.rb) with hcd
  have hcl : c.length = env.db.logTime.length := by rw [hcd, List.length_map, hansl]
  set sts := (List.range N).map (fun j => log (sampleTime j / charTime s)) with hstsd
  have hst_lt : sts.Pairwise (· < ·) := by
    rw [hstsd, List.pairwise_map]
    refine List.Pairwise.imp ?_ List.pairwise_lt_range
    intro i j hij
    have hij' : (i : ℝ) < j := by exact_mod_cast hij
    apply log_lt_log
    · exact div_pos (by unfold sampleTime; positivity) hts
    · apply div_lt_div_of_pos_right _ hts
      unfold sampleTime
      linarith
  have hlast : sts.getLast? = some (log (sampleTime (N - 1) / charTime s)) := by
    obtain ⟨M, rfl⟩ : ∃ M, N = M + 1 := ⟨N - 1, by omega⟩
    rw [hstsd, List.range_succ, List.map_append]
    simp
  have hseam : log (sampleTime (N - 1) / charTime s) ≠ a := by
    intro e
    have hpos : 0 < sampleTime (N - 1) / charTime s := div_pos (by unfold sampleTime; positivity) hts
    have := congrArg exp e
    rw [exp_log hpos, div_eq_iff hts.ne', mul_comm] at this
    exact hT.seam (N - 1) this.symm
  have hgl : gs.length = sts.length := by
    rw [hgs, hstsd, List.length_map, List.length_range]
  obtain ⟨xs, ys, hcomb, -, hzip, hlen, hsort, -⟩ := (C46_combine env.db.logTime c sts _ hT.increasing hst_lt hcl hgl
    a _ hT.first hlast).2 hseam
  unfold thermalOf
  rw [pyDiv_ok hR.nonzero, Except.ok_bind, hR.converts, Except.ok_bind]
  dsimp only
  rw [hsts, Except.ok_bind]
  dsimp only
  rw [hc, Except.ok_bind]
  change ∃ th rad lt gs, (combineStsLts env.db.logTime c sts _ >>= _) = _ ∧ _
  rw [hcomb, Except.ok_bind, borehole_setHeight hk, hsoil, hflow, hcp]
  refine ⟨_, rad, sts, gs, rfl, rfl, ?_, rfl, rfl, rfl, rfl, rfl, rfl, rfl⟩
  intro τ v hv
  change response rad.ts xs ys τ = .ok v at hv
  rw [hrts] at hv
  unfold response at hv
  split at hv
  · cases hv
  · unfold responsePoints
    rw [← hcd, ← hzip, mul_comm 3600 τ]
    exact interp1d_polyline hsort hv

/-- what `simulate` stores, for any loads `Q` and times `t` -/
theorem simulate_value (hc : Covered env lo hi x s0) (ops : List Op)
    (hops : ∀ y, Op.height y ∈ ops → Within env lo hi y) (h : ℝ) (s : UTube) (hR : Ready env lo hi x h s) (a b : ℝ)
    (hT : Times env s a b) (method : String) (Ql tl : List ℝ)
    (hin : simulationInput (gheEnv env fun _ => .error .valueError) method = .ok (Ql, tl)) (r : ℝ × ℝ) (s' : State)
    (hsim : simulate env method ((ops.foldl (perform env) s0).at h) = (.ok r, s')) :
    ∃ rad lt gs ans tb G, calcSts env.solve (radialTube env.ext s) none false env.fuel = .ok (rad, lt, gs) ∧
      GF.request env.spl env.db (env.bSpacing / h) "default" {} = (.ok ans, tb) ∧
      (∀ i ≤ Ql.length, ∀ j < i, at0 tl j ≤ at0 tl i → OnPolyline (responsePoints env (borehole x).rb a lt gs ans)
        (log (3600 * (at0 tl i - at0 tl j) / charTime s)) (G (at0 tl i - at0 tl j))) ∧
      s'.HPEFT = (List.range Ql.length).map (fun k => if Late tl (k + 1) then none else
        some (exitTemp (siteOf env x h) G (at0 Ql) (at0 tl) (k + 1))) ∧
      s'.dTb = (List.range Ql.length).map (fun k => if Late tl (k + 1) then none else
        some (wallRise (siteOf env x h) G (at0 Ql) (at0 tl) (k + 1))) := by
  obtain ⟨hk, hx, ht, -⟩ := hc.facts
  obtain ⟨⟨z, hz, -⟩, htb⟩ := hc.used ops hops s0 hc.start
  have hreq := request_within hc.db hc.range hR.within {} (Or.inl rfl)
  obtain ⟨th, rad, lt, gs, hth, hsts, hg, e1, e2, e3, e4, e5, e6, e7⟩ :=
    thermalOf_value hk _ (hR.radius _ _ hreq) (by simp [GF.answerAt]) hR.toWorks hT
  obtain ⟨e, st, tb, hp, htb'⟩ := prepare_eq hc.settled hk hc.db hc.range hR.within
    ((ops.foldl (perform env) s0).at h) (by show setHeight h _ = _; rw [hz, setHeight_setHeight]) htb
  rw [hth] at hp
  unfold simulate at hsim
  rw [St.bind_ok hp, hin, St.lift_ok rfl] at hsim
  dsimp only at hsim
  cases hd : simulateDetailed th Ql tl with
  | error er => rw [hd, St.lift_error rfl] at hsim; cases hsim
  | ok p =>
    obtain ⟨T, d⟩ := p
    rw [hd, St.lift_ok rfl] at hsim
    dsimp only at hsim
    rw [St.modify_bind] at hsim
    obtain ⟨⟨h1, h2⟩, rfl, rfl⟩ := simulateDetailed_eq_ok.1 hd
    have hat : ∀ i, at0 (Ql.map (· / th.nbh)) i = at0 Ql i / th.nbh := by
      intro i
      cases i with
      | zero => simp
      | succ i =>
        rw [at0_succ, at0_succ, List.getD_eq_getElem?_getD, List.getD_eq_getElem?_getD, List.getElem?_map]
        cases Ql[i]? <;> simp
    have hrise : ∀ i, rise th (resp th) Ql tl i = wallRise (siteOf env x h) (resp th) (at0 Ql) (at0 tl) i := by
      intro i
      unfold rise wallRise siteOf
      refine Finset.sum_congr rfl fun j _ => ?_
      rw [hat, hat, e1, e2, e3, ← sub_div, div_div (at0 Ql (j + 1) - at0 Ql j)]
    have htemp : ∀ i, temp th (resp th) Ql tl i = exitTemp (siteOf env x h) (resp th) (at0 Ql) (at0 tl) i := by
      intro i
      unfold temp exitTemp
      rw [hrise, hat, e4, e5, e6, e7, e1, e2, div_div]
      rfl
    refine ⟨rad, lt, gs, _, _, resp th, hsts, hreq, ?_, ?_, ?_⟩
    · intro i hi j hj hle
      exact hg _ _ (h2.eq hi hj hle)
    all_goals
      simp only [← htemp, ← hrise]
      generalize hmx : maxNumber ((List.range Ql.length).map fun k => tempN th (resp th) Ql tl (k + 1)) = mx at hsim
      generalize hmn : minNumber ((List.range Ql.length).map fun k => tempN th (resp th) Ql tl (k + 1)) = mn at hsim
      cases mx with
      | error er => rw [St.lift_error rfl] at hsim; cases hsim
      | ok u =>
        rw [St.lift_ok rfl] at hsim
        cases mn with
        | error er => rw [St.lift_error rfl] at hsim; cases hsim
        | ok w =>
          rw [St.lift_ok rfl] at hsim
          obtain ⟨-, rfl⟩ := Prod.mk.inj hsim
          rfl

/-- The site a field of exchangers of one of the three classes is: the soil, flow and fluid they were given, and the
resistance the library gives for them at the height `h`. -/
inductive IsSite (ext : Ext) (n h : ℝ) : Exchanger → Site → Prop
  | single (t : UTube) : IsSite ext n h (.single t) ⟨n, h, t.soil.k, t.soil.ugt,
      ext.rbStar t.circuit { t.b with H := h } t.mBorehole t.fluid.cp, t.mBorehole, t.fluid.cp⟩
  | multiple (t : UTube) : IsSite ext n h (.multiple t) ⟨n, h, t.soil.k, t.soil.ugt,
      ext.rbStar t.circuit { t.b with H := h } t.mBorehole t.fluid.cp, t.mBorehole, t.fluid.cp⟩
  | coaxial (c : Coax) : IsSite ext n h (.coaxial c) ⟨n, h, c.soil.k, c.soil.ugt,
      ext.rbStarCoax c.pipe.rInner c.pipe.rOuter c.soil.k c.grout.k c.Rff c.Rfp { c.b with H := h } c.mBorehole
        c.fluid.cp, c.mBorehole, c.fluid.cp⟩

/-- C92: the site in the theorems below is the one the exchanger describes. -/
theorem C92_site (hk : Known x) (h : ℝ) : IsSite env.ext env.db.locations.length h x ⟨env.db.locations.length, h,
    (soilOf x).k, (soilOf x).ugt, effectiveRb env.ext (setHeight h x), flowOf x, cpOf x⟩ := by
  cases x with
  | single t => exact .single t
  | multiple t => exact .multiple t
  | coaxial c => exact .coaxial c
  | other => exact absurd hk id

/-- C92: after any use within the range of the database, whenever `simulate('hybrid')` returns at height `h`, the
temperatures it stores are those of the superposition formula for the loads `1000·load[2], 1000·load[3], …` ending at the
hours `hour[2], hour[3], …` (not a number at an hour before an earlier one, see C129), with the height, ground, flow and fluid of the exchanger, the resistance the library gives
for that height, and a response that at every time difference is on the polyline, over `log (t/t_s)`, through the
short-time samples (of the equivalent tube `s` at that height) up to the first long time followed by the points of the
g-function for that height, corrected for the borehole radius. -/
theorem C92_hybrid (hc : Covered env lo hi x s0) (ops : List Op)
    (hops : ∀ y, Op.height y ∈ ops → Within env lo hi y) (h : ℝ) (s : UTube) (hR : Ready env lo hi x h s) (a b : ℝ)
    (hT : Times env s a b) (Q t : ℕ → ℝ) (hQ0 : Q 0 = 0) (ht0 : t 0 = 0)
    (hQ : ∀ k, k + 2 < env.load.length → env.load[k + 2]? = some (Q (k + 1) / 1000))
    (ht : ∀ k, k + 2 < env.load.length → env.hour[k + 2]? = some (t (k + 1))) (r : ℝ × ℝ) (s' : State)
    (hsim : simulate env "hybrid" ((ops.foldl (perform env) s0).at h) = (.ok r, s')) :
    ∃ rad lt gs ans tb G, calcSts env.solve (radialTube env.ext s) none false env.fuel = .ok (rad, lt, gs) ∧
      GF.request env.spl env.db (env.bSpacing / h) "default" {} = (.ok ans, tb) ∧
      (∀ i ≤ env.load.length - 2, ∀ j < i, t j ≤ t i → OnPolyline
        ((lt.zip gs).filter (fun p => decide (p.1 ≤ a)) ++
          env.db.logTime.zip (ans.g.map fun v => v - log ((borehole x).rb / ans.rb)))
        (log (3600 * (t i - t j) / charTime s)) (G (t i - t j))) ∧
      s'.HPEFT = (List.range (env.load.length - 2)).map (fun k => if ∃ j < k + 1, t (k + 1) < t j then none else
        some (exitTemp ⟨env.db.locations.length, h, (soilOf x).k, (soilOf x).ugt, effectiveRb env.ext (setHeight h x),
          flowOf x, cpOf x⟩ G Q t (k + 1))) ∧
      s'.dTb = (List.range (env.load.length - 2)).map (fun k => if ∃ j < k + 1, t (k + 1) < t j then none else
        some (wallRise ⟨env.db.locations.length, h, (soilOf x).k, (soilOf x).ugt, effectiveRb env.ext (setHeight h x),
          flowOf x, cpOf x⟩ G Q t (k + 1))) := by
  obtain ⟨rad, lt, gs, ans, tb, G, h1, h2, h3, h4, h5⟩ := simulate_value hc ops hops h s hR a b hT "hybrid"
    ((env.load.drop 2).map (· * 1000)) (env.hour.drop 2) rfl r s' hsim
  have hl : ((env.load.drop 2).map (· * 1000)).length = env.load.length - 2 := by simp
  have eQ : ∀ i ≤ env.load.length - 2, at0 ((env.load.drop 2).map (· * 1000)) i = Q i := by
    intro i hi
    cases i with
    | zero => rw [hQ0]; rfl
    | succ i =>
      rw [at0_succ, List.getD_eq_getElem?_getD, List.getElem?_map, List.getElem?_drop, add_comm 2 i,
        hQ i (by omega)]
      simp
  have et : ∀ i ≤ env.load.length - 2, at0 (env.hour.drop 2) i = t i := by
    intro i hi
    cases i with
    | zero => rw [ht0]; rfl
    | succ i =>
      rw [at0_succ, List.getD_eq_getElem?_getD, List.getElem?_drop, add_comm 2 i, ht i (by omega)]
      rfl
  rw [hl] at h3 h4 h5
  refine ⟨rad, lt, gs, ans, tb, G, h1, h2, ?_, ?_, ?_⟩
  · intro i hi j hj
    rw [← et i hi, ← et j (by omega)]
    exact h3 i hi j hj
  all_goals
    have hlate : ∀ k < env.load.length - 2, Late (env.hour.drop 2) (k + 1) ↔ ∃ j < k + 1, t (k + 1) < t j := by
      intro k hk
      unfold Late
      refine exists_congr fun j => and_congr_right fun hj => ?_
      rw [et (k + 1) hk, et j (by omega)]
  · rw [h4]
    refine List.map_congr_left fun k hk => ?_
    have hk := List.mem_range.1 hk
    refine if_congr (hlate k hk) rfl (congrArg some ?_)
    unfold exitTemp wallRise siteOf
    rw [eQ _ hk, Finset.sum_congr rfl fun j hj => by
      rw [eQ (j + 1) (by have := Finset.mem_range.1 hj; omega), eQ j (by have := Finset.mem_range.1 hj; omega),
        et (k + 1) hk, et j (by have := Finset.mem_range.1 hj; omega)]]
  · rw [h5]
    refine List.map_congr_left fun k hk => ?_
    have hk := List.mem_range.1 hk
    refine if_congr (hlate k hk) rfl (congrArg some ?_)
    unfold wallRise siteOf
    rw [Finset.sum_congr rfl fun j hj => by
      rw [eQ (j + 1) (by have := Finset.mem_range.1 hj; omega), eQ j (by have := Finset.mem_range.1 hj; omega),
        et (k + 1) hk, et j (by have := Finset.mem_range.1 hj; omega)]]

theorem getElem?_flatten_replicate (l : List ℝ) (n k : ℕ) (hk : k < n * l.length) :
    (List.replicate n l).flatten[k]? = l[k % l.length]? := by
  induction n generalizing k with
  | zero => omega
  | succ n ih =>
    rw [List.replicate_succ, List.flatten_cons]
    by_cases h : k < l.length
    · rw [List.getElem?_append_left h, Nat.mod_eq_of_lt h]
    · rw [List.getElem?_append_right (by omega), ih (k - l.length) (by rw [Nat.succ_mul] at hk; omega),
        ← Nat.mod_eq_sub_mod (by omega)]

/-- C92: the same for `simulate('hourly')` over `n` years of 8760 hourly loads: the load of hour `k + 1` is minus the one of
hour `k + 1` of the year. -/
theorem C92_hourly (hc : Covered env lo hi x s0) (ops : List Op)
    (hops : ∀ y, Op.height y ∈ ops → Within env lo hi y) (h : ℝ) (s : UTube) (hR : Ready env lo hi x h s) (a b : ℝ)
    (hT : Times env s a b) (n : ℕ) (hmonths : env.endMonth - env.startMonth + 1 = 12 * n)
    (hlen : env.hourly.length = 8760) (Q : ℕ → ℝ) (hQ0 : Q 0 = 0)
    (hQ : ∀ k, env.hourly[k % 8760]? = some (-Q (k + 1))) (r : ℝ × ℝ) (s' : State)
    (hsim : simulate env "hourly" ((ops.foldl (perform env) s0).at h) = (.ok r, s')) :
    ∃ rad lt gs ans tb G, calcSts env.solve (radialTube env.ext s) none false env.fuel = .ok (rad, lt, gs) ∧
      GF.request env.spl env.db (env.bSpacing / h) "default" {} = (.ok ans, tb) ∧
      (∀ i : ℕ, 1 ≤ i → i ≤ 8760 * n → OnPolyline
        ((lt.zip gs).filter (fun p => decide (p.1 ≤ a)) ++
          env.db.logTime.zip (ans.g.map fun v => v - log ((borehole x).rb / ans.rb)))
        (log (3600 * i / charTime s)) (G i)) ∧
      s'.HPEFT = (List.range (8760 * n)).map (fun k => some (exitTemp ⟨env.db.locations.length, h, (soilOf x).k,
        (soilOf x).ugt, effectiveRb env.ext (setHeight h x), flowOf x, cpOf x⟩ G Q (fun i => i) (k + 1))) ∧
      s'.dTb = (List.range (8760 * n)).map (fun k => some (wallRise ⟨env.db.locations.length, h, (soilOf x).k,
        (soilOf x).ugt, effectiveRb env.ext (setHeight h x), flowOf x, cpOf x⟩ G Q (fun i => i) (k + 1))) := by
  have hin := hourly_input (gheEnv env fun _ => .error .valueError) (n := 12 * n) hmonths.symm
  have hy : ⌈(((12 * n : ℤ)) : ℝ) / 12⌉.toNat = n := by
    push_cast
    rw [mul_div_cancel_left₀ _ (by norm_num)]
    simp
  rw [hy] at hin
  obtain ⟨rad, lt, gs, ans, tb, G, h1, h2, h3, h4, h5⟩ := simulate_value hc ops hops h s hR a b hT "hourly"
    _ _ hin r s' hsim
  have hl : ((List.replicate n env.hourly).flatten.map (-1 * ·)).length = 8760 * n := by
    rw [List.length_map, length_flatten_replicate, hlen, mul_comm]
  have eQ : ∀ i ≤ 8760 * n, at0 ((List.replicate n env.hourly).flatten.map (-1 * ·)) i = Q i := by
    intro i hi
    cases i with
    | zero => rw [hQ0]; rfl
    | succ i =>
      rw [at0_succ, List.getD_eq_getElem?_getD, List.getElem?_map,
        getElem?_flatten_replicate _ _ _ (by rw [hlen]; omega), hlen, hQ i]
      simp
  have et : ∀ i ≤ 8760 * n, at0 ((pyRange 1 (730 * (12 * (n : ℤ)) + 1)).map fun i : ℤ => (i : ℝ)) i = (i : ℝ) :=
    fun i hi => at0_hours (by omega)
  change ∀ i ≤ ((List.replicate n env.hourly).flatten.map (-1 * ·)).length, _ at h3
  change _ = (List.range ((List.replicate n env.hourly).flatten.map (-1 * ·)).length).map _ at h4 h5
  rw [hl] at h3 h4 h5
  have hlate : ∀ k < 8760 * n,
      ¬ Late ((pyRange 1 (730 * (12 * (n : ℤ)) + 1)).map fun i : ℤ => (i : ℝ)) (k + 1) := by
    rintro k hk ⟨j, hj, hlt⟩
    rw [et (k + 1) hk, et j (by omega)] at hlt
    exact absurd (Nat.cast_lt.1 hlt) (by omega)
  refine ⟨rad, lt, gs, ans, tb, G, h1, h2, ?_, ?_, ?_⟩
  · intro i h1 hi
    have := h3 i hi 0 h1
    rw [et i hi, at0_zero, sub_zero] at this
    exact this (Nat.cast_nonneg i)
  · rw [h4]
    refine List.map_congr_left fun k hk => ?_
    have hk := List.mem_range.1 hk
    refine (if_neg (hlate k hk)).trans (congrArg some ?_)
    unfold exitTemp wallRise siteOf
    change _ + _ + at0 ((List.replicate n env.hourly).flatten.map (-1 * ·)) (k + 1) / _ * _ -
      at0 ((List.replicate n env.hourly).flatten.map (-1 * ·)) (k + 1) / _ / _ = _
    rw [eQ _ hk, Finset.sum_congr rfl fun j hj => by
      change (at0 ((List.replicate n env.hourly).flatten.map (-1 * ·)) (j + 1) -
        at0 ((List.replicate n env.hourly).flatten.map (-1 * ·)) j) / _ / _ * _ = _
      rw [eQ (j + 1) (by have := Finset.mem_range.1 hj; omega), eQ j (by have := Finset.mem_range.1 hj; omega),
        et (k + 1) hk, et j (by have := Finset.mem_range.1 hj; omega)]]
  · rw [h5]
    refine List.map_congr_left fun k hk => ?_
    have hk := List.mem_range.1 hk
    refine (if_neg (hlate k hk)).trans (congrArg some ?_)
    unfold wallRise siteOf
    rw [Finset.sum_congr rfl fun j hj => by
      change (at0 ((List.replicate n env.hourly).flatten.map (-1 * ·)) (j + 1) -
        at0 ((List.replicate n env.hourly).flatten.map (-1 * ·)) j) / _ / _ * _ = _
      rw [eQ (j + 1) (by have := Finset.mem_range.1 hj; omega), eQ j (by have := Finset.mem_range.1 hj; omega),
        et (k + 1) hk, et j (by have := Finset.mem_range.1 hj; omega)]]

/-- C92 applies: two months of load on three boreholes of 100 m, after sizing. -/
example : ∃ s0 r s', ∃ G : ℝ → ℝ, construct (exEnv 1416) (.multiple (exDouble 100)) = .ok s0 ∧
    simulate (exEnv 1416) "hybrid" ((perform (exEnv 1416) s0 (.size "hybrid")).at 100) = (.ok r, s') ∧
    s'.HPEFT = [some (18 + 12000 / (3 * 100) / (2 * π * 2) * G 744 + 12000 / (3 * 100) * (51 / 400) - 12000 / 3 / (2 * 2 * 4182)),
      some (18 + (12000 / (3 * 100) / (2 * π * 2) * G 1416 + (-7000 - 12000) / (3 * 100) / (2 * π * 2) * G (1416 - 744)) +
        -7000 / (3 * 100) * (51 / 400) - -7000 / 3 / (2 * 2 * 4182))] := by
  obtain ⟨s0, hc⟩ := exCovered 1416
  obtain ⟨s, hR, hct⟩ := exReady 1416 100 (by norm_num) (by norm_num)
  have hT := exTimes 1416 s 1000 8 (by rw [hct]; norm_num) (by norm_num) (by norm_num)
  obtain ⟨r, s', h1, h2⟩ := (C90_hybrid hc [Op.size "hybrid"] (by simp) 100 s hR _ _ hT rfl
      (by show 2 < 4; norm_num)).1
    (by
      show List.Pairwise _ [(0 : ℝ), 744, 1416]
      norm_num) (by
      rw [hct, exp_log (by norm_num)]
      show ∀ u ∈ [(744 : ℝ), 1416], _
      norm_num)
  obtain ⟨rad, lt, gs, ans, tb, G, -, -, -, e, -⟩ := C92_hybrid hc [Op.size "hybrid"] (by simp) 100 s hR _ _ hT
    (fun i => if i = 0 then 0 else if i = 1 then 12000 else -7000)
    (fun i => if i = 0 then 0 else if i = 1 then 744 else 1416) rfl rfl
    (by
      intro k hk
      have hk : k + 2 < 4 := hk
      obtain rfl | rfl : k = 0 ∨ k = 1 := by omega
      · show some (12 : ℝ) = some (12000 / 1000); norm_num
      · show some (-7 : ℝ) = some (-7000 / 1000); norm_num)
    (by
      intro k hk
      have hk : k + 2 < 4 := hk
      obtain rfl | rfl : k = 0 ∨ k = 1 := by omega
      · rfl
      · rfl) r s' h1
  refine ⟨s0, r, s', G, hc.made, h1, ?_⟩
  have hrb : effectiveRb (exEnv 1416).ext (setHeight 100 (.multiple (exDouble 100))) = 51 / 400 := by
    show (11 / 100 : ℝ) / (2 * ((2 : ℤ) : ℝ)) + 1 / (10 * 1) = 51 / 400
    norm_num
  rw [e, hrb]
  show List.map _ [0, 1] = _
  have n1 : ¬ ∃ j < 0 + 1, (if 0 + 1 = 0 then 0 else if 0 + 1 = 1 then (744 : ℝ) else 1416) <
      (if j = 0 then 0 else if j = 1 then 744 else 1416) := by
    rintro ⟨j, hj, h⟩
    obtain rfl : j = 0 := by omega
    norm_num at h
  have n2 : ¬ ∃ j < 1 + 1, (if 1 + 1 = 0 then 0 else if 1 + 1 = 1 then (744 : ℝ) else 1416) <
      (if j = 0 then 0 else if j = 1 then 744 else 1416) := by
    rintro ⟨j, hj, h⟩
    obtain rfl | rfl : j = 0 ∨ j = 1 := by omega
    all_goals norm_num at h
  rw [List.map_cons, List.map_cons, List.map_nil, if_neg n1, if_neg n2]
  simp only [List.map_cons, List.map_nil, exitTemp, wallRise, Finset.sum_range_succ, Finset.sum_range_zero]
  norm_num [exEnv, exDB, exDouble, soilOf, flowOf, cpOf, exWater]

/-- the site of the example at 75 m -/
example : IsSite (exEnv 1416).ext 3 75 (.multiple (exDouble 100))
    ⟨3, 75, 2, 18, effectiveRb (exEnv 1416).ext (setHeight 75 (.multiple (exDouble 100))), 2, 4182⟩ := by
  have h := C92_site (env := exEnv 1416) (x := .multiple (exDouble 100)) trivial 75
  norm_num [exEnv, exDB, exDouble, soilOf, flowOf, cpOf, exWater] at h ⊢
  exact h

end

end Ghedt.Whole
