import Verif.Lemmas.WholeGhe

/-!
# When the simulation of the whole object succeeds: lemmas
-/

set_option linter.unusedSectionVars false

namespace Ghedt

section interp
variable {K : Type} [Field K] [LinearOrder K] [IsStrictOrderedRing K]

theorem interpNodes_ok_iff (pts : List (K × K)) (hs : pts.Pairwise fun a b => a.1 ≤ b.1) (v : K) :
    (∃ d, interpNodes pts v = .ok d) ↔ (∃ p ∈ pts, p.1 ≤ v) ∧ ∃ p ∈ pts, v ≤ p.1 := by
  induction pts with
  | nil =>
    constructor
    · rintro ⟨d, h⟩; cases h
    · rintro ⟨⟨p, hp, -⟩, -⟩; cases hp
  | cons p pts ih =>
    rw [List.pairwise_cons] at hs
    cases pts with
    | nil =>
      unfold interpNodes
      constructor
      · rintro ⟨d, h⟩
        split at h
        · rename_i e
          exact ⟨⟨p, by simp, e.ge⟩, ⟨p, by simp, e.le⟩⟩
        · cases h
      · rintro ⟨⟨a, ha, h1⟩, ⟨b, hb, h2⟩⟩
        rw [List.mem_singleton] at ha hb
        subst ha; subst hb
        rw [if_pos (le_antisymm h2 h1)]
        exact ⟨_, rfl⟩
    | cons q rest =>
      unfold interpNodes
      have hpq := hs.1 q (by simp)
      by_cases h1 : v < p.1
      · rw [if_pos h1]
        constructor
        · rintro ⟨d, h⟩; cases h
        · rintro ⟨⟨a, ha, h2⟩, -⟩
          rcases List.mem_cons.1 ha with rfl | ha
          · exact absurd h1 (not_lt.2 h2)
          · exact absurd (h1.trans_le (hs.1 a ha)) (not_lt.2 h2)
      · rw [if_neg h1]
        by_cases h2 : v < q.1
        · rw [if_pos h2]
          exact ⟨fun _ => ⟨⟨p, by simp, not_lt.1 h1⟩, ⟨q, by simp, h2.le⟩⟩, fun _ => ⟨_, rfl⟩⟩
        · rw [if_neg h2, ih hs.2]
          constructor
          · rintro ⟨⟨a, ha, h3⟩, ⟨b, hb, h4⟩⟩
            exact ⟨⟨a, List.mem_cons_of_mem _ ha, h3⟩, ⟨b, List.mem_cons_of_mem _ hb, h4⟩⟩
          · rintro ⟨-, ⟨b, hb, h4⟩⟩
            refine ⟨⟨q, by simp, not_lt.1 h2⟩, ?_⟩
            rcases List.mem_cons.1 hb with rfl | hb
            · exact ⟨q, by simp, h4.trans hpq⟩
            · exact ⟨b, hb, h4⟩

/-- `interp1d` answers exactly between the smallest and the largest abscissa. -/
theorem interp1d_ok_iff (x y : List K) (h : x.length = y.length) (v : K) :
    (∃ d, interp1d x y v = .ok d) ↔ (∃ a ∈ x, a ≤ v) ∧ ∃ b ∈ x, v ≤ b := by
  have hz : (x.zip y).map Prod.fst = x := List.map_fst_zip h.le
  have hm : ∀ P : K → Prop, (∃ p ∈ (x.zip y).insertionSort (fun a b => a.1 ≤ b.1), P p.1) ↔ ∃ a ∈ x, P a := by
    intro P
    constructor
    · rintro ⟨p, hp, hP⟩
      rw [(List.perm_insertionSort _ _).mem_iff] at hp
      exact ⟨p.1, (List.of_mem_zip hp).1, hP⟩
    · rintro ⟨a, ha, hP⟩
      rw [← hz] at ha
      obtain ⟨p, hp, rfl⟩ := List.mem_map.1 ha
      exact ⟨p, (List.perm_insertionSort _ _).mem_iff.2 hp, hP⟩
  unfold interp1d
  rw [if_neg (by simpa using h), interpNodes_ok_iff _ ?_ v, hm (· ≤ v), hm (v ≤ ·)]
  haveI : Std.Total (fun a b : K × K => a.1 ≤ b.1) := ⟨fun a b => le_total a.1 b.1⟩
  haveI : IsTrans (K × K) (fun a b => a.1 ≤ b.1) := ⟨fun a b c h1 h2 => le_trans h1 h2⟩
  exact List.pairwise_insertionSort _ _

end interp

namespace GHE
variable {K : Type} [Field K] [LinearOrder K] [IsStrictOrderedRing K]

theorem mapM_error_of {α β : Type} {f : α → Py β} {e : PyErr} : ∀ (l : List α),
    (∀ a ∈ l, (∃ b, f a = .ok b) ∨ f a = .error e) → (∃ a ∈ l, f a = .error e) → l.mapM f = .error e := by
  intro l
  induction l with
  | nil => rintro - ⟨a, ha, -⟩; cases ha
  | cons a l ih =>
    intro h1 h2
    rw [List.mapM_cons]
    rcases h1 a (by simp) with ⟨b, hb⟩ | he
    · rw [hb, Except.ok_bind, ih (fun x hx => h1 x (List.mem_cons_of_mem _ hx)) ?_, Except.error_bind]
      obtain ⟨c, hc, hce⟩ := h2
      rcases List.mem_cons.1 hc with rfl | hc
      · rw [hb] at hce; cases hce
      · exact ⟨c, hc, hce⟩
    · rw [he, Except.error_bind]

theorem mapM_cases {α β : Type} {f : α → Py β} {e : PyErr} (l : List α)
    (h : ∀ a ∈ l, (∃ b, f a = .ok b) ∨ f a = .error e) : (∃ r, l.mapM f = .ok r) ∨ l.mapM f = .error e := by
  by_cases h2 : ∃ a ∈ l, f a = .error e
  · exact Or.inr (mapM_error_of l h h2)
  · left
    induction l with
    | nil => exact ⟨[], rfl⟩
    | cons a l ih =>
      obtain ⟨b, hb⟩ := (h a (by simp)).resolve_right fun he => h2 ⟨a, by simp, he⟩
      obtain ⟨r, hr⟩ := ih (fun x hx => h x (List.mem_cons_of_mem _ hx))
        fun ⟨c, hc, he⟩ => h2 ⟨c, List.mem_cons_of_mem _ hc, he⟩
      exact ⟨b :: r, by rw [List.mapM_cons, hb, Except.ok_bind, hr, Except.ok_bind]; rfl⟩

/-- If the response raises nothing but `ValueError`, so does the simulation. -/
theorem simulateDetailed_valueError {th : Thermal K} {Q t : List K} (h1 : Q.length ≤ t.length)
    (hg : ∀ τ, (∃ v, th.g τ = .ok v) ∨ th.g τ = .error .valueError) (hn : ¬ Responds th t Q.length) :
    simulateDetailed th Q t = .error .valueError := by
  have ha : ∀ τ, (∃ v, th.answer τ = .ok v) ∨ th.answer τ = .error .valueError := by
    intro τ
    unfold Thermal.answer
    by_cases hτ : τ < 0
    · rw [if_pos hτ]; exact .inl ⟨_, rfl⟩
    · rw [if_neg hτ]
      rcases hg τ with ⟨v, hv⟩ | he
      · rw [hv]; exact .inl ⟨_, rfl⟩
      · rw [he]; exact .inr rfl
  rcases hs : simulateDetailed th Q t with e | r
  · refine congrArg Except.error ?_
    have hcase : ∀ i ∈ pyRange 1 ((Q.length : ℤ) + 1), (∃ b, (do
        let ti ← pyGet (0 :: t) i
        let gv ← ((0 :: t).take i.toNat).mapM fun τ => th.answer (ti - τ)
        let w := ((List.zipWith (· - ·) (0 :: Q.map (· / th.nbh)).tail (0 :: Q.map (· / th.nbh))).take i.toNat).map
          fun q => q / th.H / th.twoPiK
        if w.length ≠ gv.length then throw .valueError
        let delta := Num.dot w gv
        let Tb := delta.map (th.Tg + ·)
        let q ← pyGet (0 :: Q.map (· / th.nbh)) i
        let Tbulk := Tb.map (· + q / th.H * th.Rb)
        return (Tbulk.map (· - q / (2 * th.mdot * th.cp)), delta) : Py (Num K × Num K)) = .ok b) ∨ (do
        let ti ← pyGet (0 :: t) i
        let gv ← ((0 :: t).take i.toNat).mapM fun τ => th.answer (ti - τ)
        let w := ((List.zipWith (· - ·) (0 :: Q.map (· / th.nbh)).tail (0 :: Q.map (· / th.nbh))).take i.toNat).map
          fun q => q / th.H / th.twoPiK
        if w.length ≠ gv.length then throw .valueError
        let delta := Num.dot w gv
        let Tb := delta.map (th.Tg + ·)
        let q ← pyGet (0 :: Q.map (· / th.nbh)) i
        let Tbulk := Tb.map (· + q / th.H * th.Rb)
        return (Tbulk.map (· - q / (2 * th.mdot * th.cp)), delta) : Py (Num K × Num K)) = .error .valueError := by
      intro i hi
      rw [mem_pyRange] at hi
      rw [pyGet_nonneg _ (by omega) (by simp; omega), Except.ok_bind]
      rcases mapM_cases (f := fun τ => th.answer ((0 :: t)[i.toNat]'(by simp; omega) - τ)) ((0 :: t).take i.toNat)
        (fun a _ => ha _) with ⟨gv, hgv⟩ | he
      · rw [hgv, Except.ok_bind]
        dsimp only
        split
        · exact Or.inr rfl
        · rw [pyGet_nonneg _ (by omega) (by simp; omega)]
          exact Or.inl ⟨_, rfl⟩
      · rw [he]
        exact Or.inr rfl
    unfold simulateDetailed at hs
    dsimp only at hs
    rcases mapM_cases _ hcase with ⟨r, hr⟩ | he
    · rw [hr] at hs; cases hs
    · rw [he] at hs; cases hs; rfl
  · exact absurd (simulateDetailed_inv hs).2 hn

end GHE

namespace Whole
open Real Ghedt.GHE Ghedt.Bhe Ghedt.Radial Ghedt.Spec

noncomputable section

variable {env : Env} {lo hi h : ℝ} {x : Exchanger}

/-- Characteristic time of the borehole, in seconds: `H² / (9 α)`. -/
def charTime (s : UTube) : ℝ := s.b.H ^ 2 / (9 * (s.circuit.ks / s.soil.rhoCp))

/-- The exchanger works at height `h`, where `s` is its equivalent tube. -/
structure Works (env : Env) (x : Exchanger) (h : ℝ) (s : UTube) : Prop where
  nonzero : h ≠ 0
  converts : computeEquivalent env.ext env.brent (setHeight h x) = .ok (s, setHeight h x)
  sound : (radialTube env.ext s).Sound
  solver : SizedSolver env.solve
  /-- enough iterations for the short-time simulation -/
  steps : max (charTime s * exp (-(86 / 10))) (49 * 3600) / 120 + 1 ≤ env.fuel

/-- … and the g-function database covers that height, with a non-zero borehole radius. -/
structure Ready (env : Env) (lo hi : ℝ) (x : Exchanger) (h : ℝ) (s : UTube) : Prop extends
    Works env x h s where
  within : Within env lo hi h
  radius : ∀ a tb, GF.request env.spl env.db (env.bSpacing / h) "default" {} = (.ok a, tb) → a.rb ≠ 0

/-- The times of the g-function database: increasing, from `ts·exp a` to `ts·exp b`; it starts after the first
and not at any of the times of the short-time simulation. -/
structure Times (env : Env) (s : UTube) (a b : ℝ) : Prop where
  increasing : env.db.logTime.Pairwise (· < ·)
  first : env.db.logTime.head? = some a
  last : env.db.logTime.getLast? = some b
  start : 1 / 10 ^ 12 < charTime s * exp a
  seam : ∀ k : ℕ, charTime s * exp a ≠ 1 / 10 ^ 12 + 120 * k

theorem charTime_pos {s : UTube} (hs : (radialTube env.ext s).Sound) : 0 < charTime s := ts_pos hs 20

/-- the short-time response is computed -/
theorem calcSts_ok {s : UTube} (hR : Works env x h s) :
    ∃ N r ys, 1470 ≤ N ∧ ys.length = N ∧ r.ts = charTime s ∧
      calcSts env.solve (radialTube env.ext s) none false env.fuel =
        .ok (r, (List.range N).map (fun j => log (sampleTime j / charTime s)), ys) := by
  obtain ⟨X, N, h0, h1, h2, hrun⟩ := Radial.run_sized hR.sound hR.solver none
  have hN : N ≤ env.fuel := by
    have hfuel := hR.steps
    rcases Nat.lt_or_ge N 2 with hl | hl
    · have : (0 : ℝ) ≤ max (charTime s * exp (-(86 / 10))) (49 * 3600) / 120 := by positivity
      have : (1 : ℝ) ≤ env.fuel := by linarith
      have : 1 ≤ env.fuel := by exact_mod_cast this
      omega
    · have := h2 (N - 1) (by omega) (by omega)
      unfold sampleTime at this
      rw [Nat.cast_sub h0, Nat.cast_one] at this
      change _ < max (charTime s * exp (-(86 / 10))) (49 * 3600) at this
      have hq : (N : ℝ) ≤ env.fuel := by
        have : (0 : ℝ) < 1 / 10 ^ 12 := by positivity
        linarith
      exact_mod_cast hq
  have h49 : 1470 ≤ N := by
    have : (49 * 3600 : ℝ) ≤ sampleTime N := le_trans (le_max_right _ _) h1
    unfold sampleTime at this
    have hq : (1469 : ℝ) < N := by
      have : (1 / 10 ^ 12 : ℝ) < 1 := by norm_num
      linarith
    exact_mod_cast hq
  exact ⟨N, _, _, h49, by rw [List.length_map, List.length_range], rfl, hrun env.fuel hN⟩

theorem thermalOf_ok {s : UTube} {a b : ℝ} (ans : GF.Answer ℝ) (hrb : ans.rb ≠ 0)
    (hansl : ans.g.length = env.db.logTime.length) (hR : Works env x h s) (hT : Times env s a b) :
    ∃ th, thermalOf env x h ans = .ok th ∧
      (∀ τ, (∃ v, th.g τ = .ok v) ↔ 1 / 10 ^ 12 ≤ 3600 * τ ∧ 3600 * τ ≤ charTime s * exp b) ∧
      ∀ τ, (∃ v, th.g τ = .ok v) ∨ th.g τ = .error .valueError := by
  have hts := charTime_pos hR.sound
  obtain ⟨N, rad, gs, h0, hgs, hrts, hsts⟩ := calcSts_ok hR
  obtain ⟨c, hc, hcl⟩ : ∃ c, GF.radiusCorrection log ans.g ans.rb (borehole (setHeight h x)).rb = .ok c ∧
      c.length = env.db.logTime.length := by
    refine ⟨ans.g.map fun v => v - log ((borehole (setHeight h x)).rb / ans.rb), ?_, ?_⟩
    · unfold GF.radiusCorrection
      refine mapM_ok fun v _ => ?_
      rw [pyDiv_ok hrb]
      rfl
    · rw [List.length_map, hansl]
  set sts := (List.range N).map (fun j => log (sampleTime j / charTime s)) with hstsd
  have hst_lt : sts.Pairwise (· < ·) := by
    rw [hstsd, List.pairwise_map]
    refine List.Pairwise.imp ?_ List.pairwise_lt_range
    intro i j hij
    have hij' : (i : ℝ) < j := by exact_mod_cast hij
    apply log_lt_log
    · exact div_pos (by unfold sampleTime; positivity) hts
    · apply div_lt_div_of_pos_right _ hts
      unfold sampleTime
      linarith
  have hlast : sts.getLast? = some (log (sampleTime (N - 1) / charTime s)) := by
    obtain ⟨M, rfl⟩ : ∃ M, N = M + 1 := ⟨N - 1, by omega⟩
    rw [hstsd, List.range_succ, List.map_append]
    simp
  have hseam : log (sampleTime (N - 1) / charTime s) ≠ a := by
    intro e
    have hpos : 0 < sampleTime (N - 1) / charTime s := div_pos (by unfold sampleTime; positivity) hts
    have := congrArg exp e
    rw [exp_log hpos, div_eq_iff hts.ne', mul_comm] at this
    exact hT.seam (N - 1) this.symm
  have hgl : gs.length = sts.length := by
    rw [hgs, hstsd, List.length_map, List.length_range]
  obtain ⟨xs, ys, hcomb, hx, -, hlen, -, -⟩ := (C46_combine env.db.logTime c sts _ hT.increasing hst_lt hcl hgl
    a _ hT.first hlast).2 hseam
  have ha_mem : a ∈ env.db.logTime := List.mem_of_mem_head? hT.first
  have hb_mem : b ∈ env.db.logTime := List.mem_of_getLast? hT.last
  have hmin : ∀ v ∈ env.db.logTime, a ≤ v := (pyMin_eq_ok (pyMin_sorted (hT.increasing.imp le_of_lt) hT.first)).2
  have hmax : ∀ v ∈ env.db.logTime, v ≤ b := (pyMax_eq_ok (pyMax_sorted (hT.increasing.imp le_of_lt) hT.last)).2
  have h00 : sampleTime 0 = 1 / 10 ^ 12 := by unfold sampleTime; simp
  have hx0 : log (1 / 10 ^ 12 / charTime s) < a := by
    rw [← log_exp a]
    apply log_lt_log (by positivity)
    rw [div_lt_iff₀ hts, mul_comm]
    exact hT.start
  have hmem0 : log (1 / 10 ^ 12 / charTime s) ∈ xs := by
    rw [hx]
    refine List.mem_append_left _ (List.mem_filter.2 ⟨?_, by simpa using hx0.le⟩)
    rw [hstsd]
    exact List.mem_map.2 ⟨0, List.mem_range.2 (by omega), by rw [h00]⟩
  have hlow : ∀ v ∈ xs, log (1 / 10 ^ 12 / charTime s) ≤ v := by
    intro v hv
    rw [hx] at hv
    rcases List.mem_append.1 hv with hv | hv
    · obtain ⟨j, -, rfl⟩ := List.mem_map.1 (List.mem_filter.1 hv).1
      apply log_le_log (by positivity)
      apply div_le_div_of_nonneg_right _ hts.le
      unfold sampleTime
      have : (0 : ℝ) ≤ j := by positivity
      linarith
    · exact hx0.le.trans (hmin v hv)
  have hup : ∀ v ∈ xs, v ≤ b := by
    intro v hv
    rw [hx] at hv
    rcases List.mem_append.1 hv with hv | hv
    · have := (List.mem_filter.1 hv).2
      exact (by simpa using this : v ≤ a).trans (hmax a ha_mem)
    · exact hmax v hv
  have hmemb : b ∈ xs := by rw [hx]; exact List.mem_append_right _ hb_mem
  unfold thermalOf
  rw [pyDiv_ok hR.nonzero, Except.ok_bind, hR.converts, Except.ok_bind]
  dsimp only
  rw [hsts, Except.ok_bind]
  dsimp only
  rw [hc, Except.ok_bind]
  change ∃ th, (combineStsLts env.db.logTime c sts _ >>= _) = _ ∧ _
  rw [hcomb, Except.ok_bind]
  refine ⟨_, rfl, ?_, ?_⟩
  · intro τ
    show (∃ v, response rad.ts xs ys τ = .ok v) ↔ _
    rw [hrts]
    unfold response
    by_cases hτ : τ ≤ 0
    · rw [if_pos hτ]
      constructor
      · rintro ⟨v, hv⟩; cases hv
      · rintro ⟨h1, -⟩
        have : (0 : ℝ) < 1 / 10 ^ 12 := by positivity
        linarith
    · rw [if_neg hτ, interp1d_ok_iff xs ys hlen]
      have hτ' : 0 < τ := not_le.1 hτ
      have hq : 0 < τ * 3600 / charTime s := by positivity
      constructor
      · rintro ⟨⟨u, hu, h1⟩, ⟨w, hw, h2⟩⟩
        have e1 := (hlow u hu).trans h1
        have e2 := h2.trans (hup w hw)
        rw [log_le_log_iff (by positivity) hq, div_le_div_iff_of_pos_right hts] at e1
        rw [← log_exp b, log_le_log_iff hq (exp_pos b), div_le_iff₀ hts] at e2
        constructor <;> linarith
      · rintro ⟨h1, h2⟩
        refine ⟨⟨_, hmem0, ?_⟩, ⟨b, hmemb, ?_⟩⟩
        · rw [log_le_log_iff (by positivity) hq, div_le_div_iff_of_pos_right hts]
          linarith
        · rw [← log_exp b, log_le_log_iff hq (exp_pos b), div_le_iff₀ hts]
          linarith
  · intro τ
    show (∃ v, response rad.ts xs ys τ = .ok v) ∨ response rad.ts xs ys τ = _
    unfold response
    split
    · exact Or.inr rfl
    · exact interp1d_cases _ _ _

/-- the first half of a simulation, when the exchanger works -/
theorem prepare_of {s : UTube} (hset : Settled env.ext x) (hk : Known x) (hR : Works env x h s) (st : State)
    (hs : st.bhe = setHeight h x) (r : Py (GF.Answer ℝ)) (tb : GF.Table ℝ)
    (hreq : GF.request env.spl env.db (env.bSpacing / h) "default" st.table = (r, tb)) :
    ∃ e q, prepare env st = (r >>= thermalOf env x h, ⟨setHeight h x, e, q, tb, st.HPEFT, st.dTb⟩) := by
  obtain ⟨bhe, e0, st0, tb0, hp0, d0⟩ := st
  dsimp only at hs hreq ⊢
  subst hs
  have hup : updateBhe env.ext (setHeight h x) = setHeight h x := hset.setHeight h
  obtain ⟨sts, hsts⟩ : ∃ sts, calcSts env.solve (radialTube env.ext s) none false env.fuel = .ok sts := by
    obtain ⟨N, rad, gs, h0, hgs, hrts, hsts⟩ := calcSts_ok hR
    exact ⟨_, hsts⟩
  unfold prepare thermalOf
  rw [St.get_bind, borehole_setHeight hk, pyDiv_ok hR.nonzero, St.lift_ok rfl, St.modify_bind, St.get_bind]
  dsimp only
  rw [hup, hR.converts, St.lift_ok rfl]
  dsimp only
  rw [St.modify_bind]
  dsimp only
  rw [hsts, St.lift_ok rfl, St.modify_bind]
  dsimp only
  unfold grabG
  have hrq : requestG env (env.bSpacing / h) ⟨setHeight h x, s, sts, tb0, hp0, d0⟩ =
      (r, ⟨setHeight h x, s, sts, tb, hp0, d0⟩) := by
    unfold requestG
    dsimp only
    rw [hreq]
  refine ⟨s, sts, ?_⟩
  cases r with
  | error e =>
    rw [St.bind_error (s' := ⟨setHeight h x, s, sts, tb, hp0, d0⟩) (e := e)]
    · rfl
    · rw [St.bind_error hrq]
  | ok a =>
    rw [Except.ok_bind, Except.ok_bind, Except.ok_bind]
    dsimp only
    rw [hsts, Except.ok_bind]
    cases hrc : GF.radiusCorrection log a.g a.rb (borehole (setHeight h x)).rb with
    | error e =>
      rw [St.bind_error (s' := ⟨setHeight h x, s, sts, tb, hp0, d0⟩) (e := e)]
      · rfl
      · rw [St.bind_ok hrq, St.get_bind, St.lift_error hrc]
    | ok c =>
      rw [Except.ok_bind]
      cases hcb : combineStsLts env.db.logTime c sts.2.1 sts.2.2 with
      | error e =>
        rw [St.bind_error (s' := ⟨setHeight h x, s, sts, tb, hp0, d0⟩) (e := e)]
        · rfl
        · rw [St.bind_ok hrq, St.get_bind, St.lift_ok hrc, hcb]; rfl
      | ok p =>
        rw [St.bind_ok (s' := ⟨setHeight h x, s, sts, tb, hp0, d0⟩) (a := p)]
        · rw [St.get_bind]
          dsimp only
          rw [borehole_setHeight hk]
          rfl
        · rw [St.bind_ok hrq, St.get_bind, St.lift_ok hrc, hcb]; rfl

end

end Whole

end Ghedt
