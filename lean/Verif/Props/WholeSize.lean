import Verif.Props.WholeMake

/-!
# Sizing what the search found (C97)

The rest of the work flow: `find_design`, then `compute_g_functions` and `size` on the exchanger it left.
-/

set_option linter.unusedSectionVars false

namespace Ghedt.WholeSearch
open Real Ghedt.GHE Ghedt.Bhe Ghedt.Radial Ghedt.Whole Ghedt.Search Ghedt.Utilities Ghedt.Spec

noncomputable section

variable {p : Problem} {f : Field} {H : ℝ} {bhe : Exchanger} {s : UTube}

theorem makeExchanger_height {ext : Ext} {m : ℝ} {media : Media} {b : Borehole} {x : Exchanger}
    (h : makeExchanger ext m media b = .ok x) (H : ℝ) :
    makeExchanger ext m media { b with H := H } = .ok (setHeight H x) := by
  obtain ⟨hw, fl, gr, so⟩ := media
  unfold makeExchanger at h ⊢
  cases hw with
  | single pipe =>
    dsimp only at h ⊢
    rw [bind_eq_ok] at h
    obtain ⟨t, h1, h2⟩ := h
    cases h2
    cases h1
    rfl
  | multiple pipe =>
    dsimp only at h ⊢
    rw [bind_eq_ok] at h
    obtain ⟨t, h1, h2⟩ := h
    cases h2
    unfold mkMultiple mkUTube at h1 ⊢
    rw [bind_eq_ok] at h1
    obtain ⟨mp, h0, h1⟩ := h1
    cases h1
    rw [h0]
    rfl
  | coaxial pipe => cases h; rfl
  | other => cases h; rfl

/-- What sizing needs in addition: the two heights differ, the g-functions for the three heights can be computed and
stored, the interpolation between heights passes through them, and the root finder stays in its bracket. -/
structure Sizable (p : Problem) (f : Field) (bhe : Exchanger) (s : UTube) : Prop where
  usable : Usable p f p.maxHeight bhe s
  low : 0 < p.minHeight
  apart : p.minHeight + 2 / 1000000 ≤ p.maxHeight
  finder : Inside p.minHeight p.maxHeight (p.brent p.minHeight p.maxHeight)
  spline : GF.Reproduces p.spl
  text : ∀ B, boreholeSpacing p.borehole.rb f = .ok B →
    ∀ x ∈ [B, p.minHeight, (p.minHeight + p.maxHeight) / 2, p.maxHeight, p.borehole.rb, p.borehole.D],
      p.toFloat (p.fmt x) = .ok x
  curves : ∀ H ∈ [p.minHeight, (p.minHeight + p.maxHeight) / 2, p.maxHeight],
    ∃ c, p.gf (massFlow p f) p.media f H p.borehole.rb p.borehole.D = .ok c ∧
      c.length = (eskilsonLogTimes : List ℝ).length

/-- C97: `compute_g_functions` on a newly made exchanger for the maximum height raises nothing.  It changes the
g-functions only: the loads stay those prepared for the maximum height.  Afterwards, at each of the minimum, average and
maximum height, the curve used is the one computed for that height, and any height between the bounds can be simulated
without extrapolation.  The radius stored is the one of the borehole. -/
theorem C97_cover (h : Sizable p f bhe s) :
    ∃ x y, fresh p f p.maxHeight = .ok x ∧ computeG p { held := some x } = (.ok (), { held := some y }) ∧
      y.env = { x.env with db := y.env.db } ∧ y.state = x.state ∧ y.env.db.locations = f ∧
      y.env.db.logTime = eskilsonLogTimes ∧
      Covered y.env p.minHeight p.maxHeight bhe y.state ∧
      (∀ H ∈ [p.minHeight, (p.minHeight + p.maxHeight) / 2, p.maxHeight], ∀ c,
        p.gf (massFlow p f) p.media f H p.borehole.rb p.borehole.D = .ok c →
        (GF.request p.spl y.env.db (y.env.bSpacing / H) "default" {}).1 =
          .ok ⟨c, p.borehole.rb, some p.borehole.D, H, false⟩) ∧
      ∀ r ∈ PyDict.values y.env.db.rb, r = p.borehole.rb := by
  obtain ⟨B, c, sts, cl, hl, hy, hBr, hc, hcl, h1, -, -, -, hB, hf⟩ := fresh_ok h.usable
  have hB0 : B ≠ 0 := (h.usable.radius.trans_le hBr).ne'
  have p0 : (0 : ℝ) < 2 / 1000000 := by norm_num
  have hlt : p.minHeight < p.maxHeight := by linarith [h.apart]
  have hlow := h.low
  have hap := h.apart
  obtain ⟨-, hfl, -⟩ := makeExchanger_data h.usable.exchanger h.usable.known
  have hmed : mediaOf bhe = p.media := (fresh_new hf).media
  have hbor := h.usable.borehole
  choose! gc hg1 hg2 using h.curves
  have hnd : [p.minHeight, (p.minHeight + p.maxHeight) / 2, p.maxHeight].Nodup := by
    simp only [List.nodup_cons, List.mem_cons, List.not_mem_nil, or_false, not_or,
      List.nodup_nil, and_true, not_false_eq_true]
    exact ⟨⟨by intro h; linarith, hlt.ne⟩, by intro h; linarith⟩
  obtain ⟨db, hok, hdB, hlt', hloc, hv, hkeys, hst⟩ := GF.C81_live p.fmt p.toFloat
    (p.gf (massFlow p f) p.media f) B [p.minHeight, (p.minHeight + p.maxHeight) / 2, p.maxHeight]
    [p.borehole.rb, p.borehole.rb, p.borehole.rb] [p.borehole.D, p.borehole.D, p.borehole.D] (by
      intro x hx
      apply h.text B hB
      simp only [List.cons_append, List.nil_append, List.mem_cons, List.not_mem_nil, or_false] at hx ⊢
      tauto)
    [gc p.minHeight, gc ((p.minHeight + p.maxHeight) / 2), gc p.maxHeight] eskilsonLogTimes f (by simp) rfl
    rfl rfl hnd (by
      intro i a r d c h1 h2 h3 h4
      match i with
      | 0 => simp at h1 h2 h3 h4; subst h1 h2 h3 h4; exact hg1 _ (by simp)
      | 1 => simp at h1 h2 h3 h4; subst h1 h2 h3 h4; exact hg1 _ (by simp)
      | 2 => simp at h1 h2 h3 h4; subst h1 h2 h3 h4; exact hg1 _ (by simp)
      | k + 3 => simp at h1) (by
      intro c hc
      simp only [List.mem_cons, List.not_mem_nil, or_false] at hc
      rcases hc with rfl | rfl | rfl <;> exact hg2 _ (by simp))
  have hmem : ∀ H ∈ [p.minHeight, (p.minHeight + p.maxHeight) / 2, p.maxHeight],
      (H, gc H) ∈ db.g ∧ (H, p.borehole.rb) ∈ db.rb ∧ (H, p.borehole.D) ∈ db.D := by
    intro H hH
    simp only [List.mem_cons, List.not_mem_nil, or_false] at hH
    rcases hH with rfl | rfl | rfl
    · exact hst 0 _ _ _ _ rfl rfl rfl rfl
    · exact hst 1 _ _ _ _ rfl rfl rfl rfl
    · exact hst 2 _ _ _ _ rfl rfl rfl rfl
  have hrng : GF.Range db p.minHeight p.maxHeight := by
    refine ⟨(hkeys _).2 (by simp), (hkeys _).2 (by simp), ?_⟩
    intro h hh
    have := (hkeys h).1 hh
    simp only [List.mem_cons, List.not_mem_nil, or_false] at this
    rcases this with rfl | rfl | rfl <;> constructor <;> linarith
  have hwithin : ∀ H, p.minHeight ≤ H → H ≤ p.maxHeight →
      Within { envOf p f p.maxHeight B c (cl, hl, hy) with db := db } p.minHeight p.maxHeight H := by
    intro H a1 a2
    have hH : H ≠ 0 := by linarith
    have e : db.B / (B / H) = H := by rw [hdB]; field_simp
    refine ⟨hH, hB0, ?_, ?_⟩
    · show p.minHeight - 1 / 1000000 < db.B / (B / H)
      rw [e]; linarith
    · show db.B / (B / H) < p.maxHeight + 1 / 1000000
      rw [e]; linarith
  refine ⟨_, ⟨{ envOf p f p.maxHeight B c (cl, hl, hy) with db := db }, ⟨bhe, s, sts, {}, [], []⟩⟩, hf, ?_, rfl, rfl, hloc, hlt',
    ?_, ?_, ?_⟩
  · unfold computeG
    dsimp only
    have : GF.computeGFunctions p.fmt p.toFloat (p.gf (flowOf bhe) (mediaOf bhe) (envOf p f p.maxHeight B c (cl, hl, hy)).db.locations)
        (envOf p f p.maxHeight B c (cl, hl, hy)).bSpacing (envOf p f p.maxHeight B c (cl, hl, hy)).minHeight
        (envOf p f p.maxHeight B c (cl, hl, hy)).maxHeight (Whole.borehole bhe).rb (Whole.borehole bhe).D
        (envOf p f p.maxHeight B c (cl, hl, hy)).db = .ok db := by
      rw [hfl, hmed, hbor]
      exact hok
    rw [this]
  · refine ⟨?_, makeExchanger_settled h.usable.exchanger, hv, hrng, ?_, hlt.le, hwithin, h.finder⟩
    · unfold construct
      show (computeEquivalent p.ext p.brent bhe >>= _) = _
      rw [h.usable.converts, Except.ok_bind]
      dsimp only
      show (calcSts p.solve (radialTube p.ext s) none false p.fuel >>= _) = _
      rw [h1]
      rfl
    · rw [hbor]
      exact hwithin _ hlt.le le_rfl
  · intro H hH c' hc'
    obtain ⟨m1, m2, m3⟩ := hmem H hH
    have hcc : c' = gc H := by
      rw [hg1 H hH] at hc'
      cases hc'
      rfl
    subst hcc
    have hpos : H ≠ 0 := by
      simp only [List.mem_cons, List.not_mem_nil, or_false] at hH
      rcases hH with rfl | rfl | rfl <;> linarith
    have := GF.C47_stored p.spl h.spline db hv (by rw [hdB]; exact hB0) [] (by simp) ?_ H _ _ _ m1 m2 m3 hpos
    · rw [hdB] at this
      exact this
    · intro a ha b hb hab
      have ha := (hkeys a).1 ha
      have hb := (hkeys b).1 hb
      simp only [List.mem_cons, List.not_mem_nil, or_false] at ha hb
      rw [le_abs]
      rcases ha with rfl | rfl | rfl <;> rcases hb with rfl | rfl | rfl
      · exact absurd rfl hab
      · right; linarith
      · right; linarith
      · left; linarith
      · exact absurd rfl hab
      · right; linarith
      · left; linarith
      · left; linarith
      · exact absurd rfl hab
  · intro r hr
    obtain ⟨⟨H, r'⟩, hm, rfl⟩ := List.mem_map.1 hr
    have hk : H ∈ PyDict.keys db.rb := List.mem_map.2 ⟨_, hm, rfl⟩
    rw [hv.rb] at hk
    have h2 := (hmem H ((hkeys H).1 hk)).2.1
    have hn : (PyDict.keys db.rb).Nodup := by rw [hv.rb]; exact hv.nodup
    exact congrArg Prod.snd (List.inj_on_of_nodup_map hn hm h2 rfl)

/-- what `simulate` returns and stores is determined by what `prepare` returns -/
theorem simulate_same {e1 e2 : Whole.Env} {s1 s2 : Whole.State} {method : String}
    (h : (prepare e1 s1).1 = (prepare e2 s2).1)
    (hin : simulationInput (gheEnv e1 fun _ => .error .valueError) method =
      simulationInput (gheEnv e2 fun _ => .error .valueError) method) :
    (Whole.simulate e1 method s1).1 = (Whole.simulate e2 method s2).1 ∧
    ∀ r, (Whole.simulate e1 method s1).1 = .ok r →
      (Whole.simulate e1 method s1).2.HPEFT = (Whole.simulate e2 method s2).2.HPEFT ∧
      (Whole.simulate e1 method s1).2.dTb = (Whole.simulate e2 method s2).2.dTb := by
  unfold Whole.simulate
  rcases h1 : prepare e1 s1 with ⟨r1, t1⟩
  rcases h2 : prepare e2 s2 with ⟨r2, t2⟩
  rw [h1, h2] at h
  dsimp only at h
  subst h
  cases r1 with
  | error e =>
    rw [St.bind_error h1, St.bind_error h2]
    exact ⟨rfl, fun r hr => by cases hr⟩
  | ok th =>
    rw [St.bind_ok h1, St.bind_ok h2, hin]
    cases hq : simulationInput (gheEnv e2 fun _ => .error .valueError) method with
    | error e =>
      rw [St.lift_error rfl, St.lift_error rfl]
      exact ⟨rfl, fun r hr => by cases hr⟩
    | ok q =>
      obtain ⟨Q, t⟩ := q
      rw [St.lift_ok rfl, St.lift_ok rfl]
      dsimp only
      cases hd : simulateDetailed th Q t with
      | error e =>
        rw [St.lift_error rfl, St.lift_error rfl]
        exact ⟨rfl, fun r hr => by cases hr⟩
      | ok d =>
        obtain ⟨T, d⟩ := d
        rw [St.lift_ok rfl, St.lift_ok rfl]
        dsimp only
        rw [St.modify_bind, St.modify_bind]
        cases hu : maxNumber T with
        | error e =>
          rw [St.lift_error rfl, St.lift_error rfl]
          exact ⟨rfl, fun r hr => by cases hr⟩
        | ok u =>
          rw [St.lift_ok rfl, St.lift_ok rfl]
          cases hw : minNumber T with
          | error e =>
            rw [St.lift_error rfl, St.lift_error rfl]
            exact ⟨rfl, fun r hr => by cases hr⟩
          | ok w => exact ⟨rfl, fun r hr => ⟨rfl, rfl⟩⟩

/-- C97: simulating it then at the minimum, average or maximum height, however it was used before, gives the result and
the temperatures of an exchanger newly made for that height, as the search saw them: at the maximum height for both
methods, at the others for the hourly one.  (The hybrid loads of an exchanger newly made for another height differ: they
depend on its short-time response.) -/
theorem C97_same (h : Sizable p f bhe s) (x y : Held) (hx : fresh p f p.maxHeight = .ok x)
    (hy : computeG p { held := some x } = (.ok (), { held := some y })) (ops : List Op)
    (hops : ∀ z, Op.height z ∈ ops → p.minHeight ≤ z ∧ z ≤ p.maxHeight)
    (hH : H ∈ [p.minHeight, (p.minHeight + p.maxHeight) / 2, p.maxHeight]) (bhe' : Exchanger) (s' : UTube)
    (hu : Usable p f H bhe' s') (method : String) (hm : method = "hourly" ∨ H = p.maxHeight) (x' : Held)
    (hx' : fresh p f H = .ok x') :
    (Whole.simulate y.env method ((ops.foldl (perform y.env) y.state).at H)).1 =
      (Whole.simulate x'.env method x'.state).1 ∧
    ∀ r, (Whole.simulate x'.env method x'.state).1 = .ok r →
      (Whole.simulate y.env method ((ops.foldl (perform y.env) y.state).at H)).2.HPEFT =
        (Whole.simulate x'.env method x'.state).2.HPEFT ∧
      (Whole.simulate y.env method ((ops.foldl (perform y.env) y.state).at H)).2.dTb =
        (Whole.simulate x'.env method x'.state).2.dTb := by
  obtain ⟨x1, y1, h1, h2, h3, h4, h5, h6, hcov, hcurve, -⟩ := C97_cover h
  rw [hx] at h1
  cases h1
  rw [hy] at h2
  cases h2
  have hlow := h.low
  have hap := h.apart
  have hH' : p.minHeight ≤ H ∧ H ≤ p.maxHeight := by
    simp only [List.mem_cons, List.not_mem_nil, or_false] at hH
    rcases hH with rfl | rfl | rfl <;> constructor <;> linarith
  -- what both are made of
  obtain ⟨B1, c1, sts1, cl1, hl1, hy1, -, -, -, -, g1, g2, g3, hB1, hf1⟩ := fresh_ok h.usable
  have hf1' := hf1
  rw [hx] at hf1
  cases hf1
  obtain ⟨B, c, sts, cl, hl, hy2, hBr, hc, hcl, j1, j2, j3, j4, hB, hf⟩ := fresh_ok hu
  have hf' := hf
  rw [hx'] at hf
  cases hf
  obtain rfl : B = B1 := by
    rw [hB] at hB1
    cases hB1
    rfl
  have hB0 : B ≠ 0 := (hu.radius.trans_le hBr).ne'
  have hbb : bhe' = setHeight H bhe := by
    have := makeExchanger_height h.usable.exchanger H
    have h2 := hu.exchanger
    rw [show ({ ({ p.borehole with H := p.maxHeight } : Borehole) with H := H } : Borehole) =
      { p.borehole with H := H } from rfl, h2] at this
    cases this
    rfl
  have hset := makeExchanger_settled h.usable.exchanger
  have hset' := makeExchanger_settled hu.exchanger
  dsimp only at h3
  -- after any use as when new
  have hin : ∀ z, p.minHeight ≤ z → z ≤ p.maxHeight → Within y.env p.minHeight p.maxHeight z := by
    intro z a1 a2
    have := hcov.bounds z
    rw [h3] at this
    have := this a1 a2
    rw [h3]
    exact this
  obtain ⟨q1, q2⟩ := C89_history hcov ops (fun z hz => hin z (hops z hz).1 (hops z hz).2) H (hin H hH'.1 hH'.2) method
  -- when new
  have hreq := hcurve H hH c hc
  rw [show y.env.bSpacing = B by rw [h3]; rfl] at hreq
  rcases hreq' : GF.request p.spl y.env.db (B / H) "default" {} with ⟨r, tb⟩
  rw [hreq'] at hreq
  change r = _ at hreq
  subst hreq
  have hW : Works y.env bhe H s' := by
    refine ⟨hu.height.ne', ?_, ?_, ?_, ?_⟩
    · rw [h3, ← hbb]
      exact hu.converts
    · rw [h3]
      exact hu.sound
    · rw [h3]
      exact hu.solver.sized
    · rw [h3]
      exact hu.steps
  obtain ⟨e, q, hp⟩ := prepare_of (env := y.env) (by rw [h3]; exact hset) h.usable.known hW (y.state.at H)
    (by rw [h4]; rfl) _ tb (by
      rw [h4]
      show GF.request y.env.spl y.env.db (y.env.bSpacing / H) "default" {} = _
      rw [show y.env.bSpacing = B by rw [h3]; rfl, show y.env.spl = p.spl by rw [h3]; rfl]
      exact hreq')
  have hreq2 := request_one (spl := p.spl) (f := f) (rb := p.borehole.rb) (D := p.borehole.D) (c := c) hB0
    hu.height.ne' {}
  obtain ⟨e', q', hp'⟩ := prepare_of (env := envOf p f H B c (cl, hl, hy2)) hset' hu.known (hu.works B c (cl, hl, hy2))
    ⟨bhe', s', sts, {}, [], []⟩ hu.at_height.symm _ _ hreq2
  have hth : ∀ a, thermalOf y.env bhe H a = thermalOf (envOf p f H B c (cl, hl, hy2)) bhe' H a := by
    intro a
    have : setHeight H bhe' = setHeight H bhe := by rw [hbb, setHeight_setHeight]
    unfold thermalOf
    rw [this, h5, h6, h3]
    rfl
  have hsame := simulate_same (e1 := y.env) (e2 := envOf p f H B c (cl, hl, hy2)) (s1 := y.state.at H)
    (s2 := ⟨bhe', s', sts, {}, [], []⟩) (method := method)
    (by rw [hp, hp', Except.ok_bind, Except.ok_bind, hth]) (by
      rcases hm with rfl | rfl
      · rw [h3]
        rfl
      · have : hy2.load = hy1.load ∧ hy2.hour = hy1.hour := by
          rw [hf'] at hf1'
          have := congrArg (fun z : Py Held => z.toOption.map fun w => (w.env.load, w.env.hour)) hf1'
          simp only [Except.toOption, Option.map_some, Option.some.injEq, Prod.mk.injEq] at this
          exact this
        rw [h3]
        unfold gheEnv envOf
        dsimp only
        rw [this.1, this.2])
  rw [← hsame.1]
  refine ⟨q1, fun r hr => ?_⟩
  rw [hsame.1.symm] at *
  obtain ⟨a1, a2⟩ := q2 r hr
  obtain ⟨b1, b2⟩ := hsame.2 r hr
  exact ⟨a1.trans b1, a2.trans b2⟩

/-- the objective of sizing, from the simulation of the new object -/
theorem excess_of {env : Whole.Env} {lo hi : ℝ} {x : Exchanger} {s0 : Whole.State} (hc : Covered env lo hi x s0)
    (method : String) (H : ℝ) (hH : Within env lo hi H) (u w : ℝ)
    (h : (Whole.simulate env method (s0.at H)).1 = .ok (u, w)) :
    Excess (gheEnv env fun y => (prepare env (s0.at y)).1) method H (max (u - env.maxEFT) (env.minEFT - w)) := by
  intro st
  obtain ⟨hk, hx, -⟩ := hc.facts
  have hr := (C89_refinement hc [.height H] (by
    intro z hz
    cases List.mem_singleton.1 hz
    exact hH) method _ rfl _ rfl).1
  change GHE.simulate _ method (view (s0.at H)) = ((Whole.simulate env method (s0.at H)).1, _) at hr
  have hv : view (s0.at H) = ⟨H, s0.HPEFT, s0.dTb⟩ := by
    unfold view
    show GheState.mk (Whole.borehole (setHeight H s0.bhe)).H _ _ = _
    rw [borehole_setHeight (by rw [hx]; exact hk)]
    rfl
  rw [hv, h] at hr
  set e := gheEnv env fun y => (prepare env (s0.at y)).1 with he
  obtain ⟨r1, -⟩ := simulate_results e method H s0.HPEFT s0.dTb st.HPEFT st.dTb
  rw [hr] at r1
  rcases hsim : GHE.simulate e method ⟨H, st.HPEFT, st.dTb⟩ with ⟨r, st'⟩
  rw [hsim] at r1
  change _ = r at r1
  subst r1
  refine ⟨st', ?_, ?_⟩
  · unfold GHE.localObjective
    rw [St.modify_bind, St.bind_ok hsim]
    rfl
  · exact (C43_extremes e method _ _ _ _ hsim).1

/-- C97: what sizing makes of it.  `a` and `b` are how far the temperatures are outside the limits when the exchanger
is simulated at the minimum and at the maximum height.  If one of them is 0, `ZeroDivisionError` is raised.  If both
have the same sign, the height is left at the maximum, with the warning "not deep enough", also if both are negative.
If they differ and the root finder returns, the height is the last one it asked for (the maximum if it asked for none),
between the bounds, and a warning is given exactly at a bound. -/
theorem C97_size (h : Sizable p f bhe s) (x y : Held) (hx : fresh p f p.maxHeight = .ok x)
    (hy : computeG p { held := some x } = (.ok (), { held := some y })) (ops : List Op)
    (hops : ∀ z, Op.height z ∈ ops → p.minHeight ≤ z ∧ z ≤ p.maxHeight) (method : String) (u0 w0 u1 w1 a b : ℝ)
    (h0 : (Whole.simulate y.env method (y.state.at p.minHeight)).1 = .ok (u0, w0))
    (h1 : (Whole.simulate y.env method (y.state.at p.maxHeight)).1 = .ok (u1, w1))
    (ha : a = excess p u0 w0) (hb : b = excess p u1 w1) (st : Whole.State) (hst : st = ops.foldl (perform y.env) y.state) :
    (a = 0 ∨ b = 0 → (Whole.size y.env method st).1 = .error .zeroDivisionError) ∧
    (0 < a * b → ∃ s', Whole.size y.env method st = (.ok [.notDeepEnough], s') ∧
      (Whole.borehole s'.bhe).H = p.maxHeight) ∧
    (∀ w s', Whole.size y.env method st = (.ok w, s') →
      p.minHeight ≤ (Whole.borehole s'.bhe).H ∧ (Whole.borehole s'.bhe).H ≤ p.maxHeight ∧
      (.notShallowEnough ∈ w ↔ (Whole.borehole s'.bhe).H = p.minHeight) ∧
      (.notDeepEnough ∈ w ↔ (Whole.borehole s'.bhe).H = p.maxHeight)) ∧
    (a * b < 0 → ∀ e : ℝ → ℝ, (∀ H, p.minHeight ≤ H → H ≤ p.maxHeight → ∃ u v,
        (Whole.simulate y.env method (y.state.at H)).1 = .ok (u, v) ∧ e H = excess p u v) →
      ∀ w s', Whole.size y.env method st = (.ok w, s') →
      (Whole.borehole s'.bhe).H = (asked e (p.brent p.minHeight p.maxHeight)).getLast?.getD p.maxHeight) := by
  obtain ⟨x1, y1, k1, k2, h3, h4, h5, h6, hcov, hcurve, -⟩ := C97_cover h
  rw [hx] at k1
  cases k1
  rw [hy] at k2
  cases k2
  obtain ⟨B1, c1, sts1, cl1, hl1, hy1, -, -, -, -, g1, g2, g3, hB1, hf1⟩ := fresh_ok h.usable
  rw [hx] at hf1
  cases hf1
  dsimp only at h3
  have hmin : y.env.minHeight = p.minHeight := by rw [h3]; rfl
  have hmax : y.env.maxHeight = p.maxHeight := by rw [h3]; rfl
  have hmx : y.env.maxEFT = p.maxEFT := by rw [h3]; rfl
  have hmn : y.env.minEFT = p.minEFT := by rw [h3]; rfl
  have hbr : y.env.brent = p.brent := by rw [h3]; rfl
  have hlt : p.minHeight < p.maxHeight := by linarith [h.apart]
  have hin : ∀ z, p.minHeight ≤ z → z ≤ p.maxHeight → Within y.env p.minHeight p.maxHeight z := by
    intro z a1 a2
    exact hcov.bounds z (by rw [hmin]; exact a1) (by rw [hmax]; exact a2)
  have hops' : ∀ z, Op.height z ∈ ops → Within y.env p.minHeight p.maxHeight z := fun z hz =>
    hin z (hops z hz).1 (hops z hz).2
  have href := (C89_refinement hcov ops hops' method st hst _ rfl).2
  have hex : ∀ {H u v}, p.minHeight ≤ H → H ≤ p.maxHeight →
      (Whole.simulate y.env method (y.state.at H)).1 = .ok (u, v) →
      Excess (gheEnv y.env fun z => (prepare y.env (y.state.at z)).1) method H (excess p u v) := by
    intro H u v a1 a2 a3
    have := excess_of hcov method H (hin H a1 a2) u v a3
    rw [hmx, hmn] at this
    exact this
  have e0 := hex le_rfl hlt.le h0
  have e1 := hex hlt.le le_rfl h1
  rw [← ha] at e0
  rw [← hb] at e1
  rw [hbr] at href
  set E := gheEnv y.env fun z => (prepare y.env (y.state.at z)).1 with hE
  have Emin : E.minHeight = p.minHeight := hmin
  have Emax : E.maxHeight = p.maxHeight := hmax
  refine ⟨?_, ?_, ?_, ?_⟩
  · intro hz
    have := C44_exact_bound p.brent E method a b (by rw [Emin]; exact e0) (by rw [Emax]; exact e1) hz (view st)
    rw [href] at this
    exact this
  · intro hz
    obtain ⟨s', q1, q2⟩ := C44_no_sign_change p.brent E method (by rw [Emin, Emax]; exact hlt) a b (by rw [Emin]; exact e0)
      (by rw [Emax]; exact e1) hz (view st)
    rw [href] at q1
    rcases hr : Whole.size y.env method st with ⟨r, t⟩
    rw [hr] at q1
    cases q1
    refine ⟨t, rfl, ?_⟩
    rw [← Emax, ← q2]
    rfl
  · intro w s' hs
    rw [← hmin, ← hmax]
    have := C89_size hcov ops hops' method w s' (by rw [← hst]; exact hs)
    exact this
  · intro hz e he w s' hs
    rw [hs] at href
    have hf : ∀ H, E.minHeight ≤ H → H ≤ E.maxHeight → Excess E method H (e H) := by
      intro H a1 a2
      rw [Emin] at a1
      rw [Emax] at a2
      obtain ⟨u, v, q1, q2⟩ := he H a1 a2
      rw [q2]
      exact hex a1 a2 q1
    have ea : e p.minHeight = a := by
      obtain ⟨u, v, q1, q2⟩ := he p.minHeight le_rfl hlt.le
      rw [h0] at q1
      cases q1
      rw [q2, ha]
    have eb : e p.maxHeight = b := by
      obtain ⟨u, v, q1, q2⟩ := he p.maxHeight hlt.le le_rfl
      rw [h1] at q1
      cases q1
      rw [q2, hb]
    have := C44_last_asked p.brent E method e (by rw [Emin, Emax]; exact hlt.le) hf
      (by rw [Emin, Emax]; exact h.finder) (by rw [Emin, Emax, ea, eb]; exact hz) _ _ _ href
    rw [Emin, Emax] at this
    exact this

theorem computeG_books {c : State} {x y : Held} (hc : c.held = some x)
    (h : computeG p { held := some x } = (.ok (), { held := some y })) :
    computeG p c = (.ok (), { c with held := some y }) := by
  unfold computeG at h ⊢
  rw [hc]
  dsimp only at h ⊢
  split at h
  · cases h
  · rename_i db hdb
    cases h
    rfl

theorem Extremes.made {hi lo : ℝ} {x : Held} (h : Extremes p f H hi lo) (hx : fresh p f H = .ok x) :
    (Whole.simulate x.env p.method x.state).1 = .ok (hi, lo) := by
  obtain ⟨x', hx', h⟩ := h
  rw [hx] at hx'
  cases hx'
  exact h

/-- C97: after `find_design` (near-square, rectangle or bi-rectangle) and `compute_g_functions`, the exchanger simulated
at the maximum height is within the limits, unless the search took the single-field shortcut; then, for the hourly
method, it is within them at the minimum height.  So sizing by the hourly method never finds it too small at both
heights. -/
theorem C97_design (routine : String) (hz : routine ≠ "bi-zoned") (c : Design.Candidates ℝ) (c' : State)
    (r : Option (ℤ × Field)) (h : findDesign p routine c {} = (.ok r, c'))
    (hs : ∀ k f, Candidate c k f → ∃ bhe s bhe' s', Sizable p f bhe s ∧ Usable p f p.minHeight bhe' s') :
    ∃ (k : ℕ) (f : Field) (x y : Held) (u w : ℝ), r = some ((k : ℤ), f) ∧ Candidate c k f ∧ c'.held = some x ∧
      computeG p c' = (.ok (), { c' with held := some y }) ∧
      (Whole.simulate y.env p.method (y.state.at p.maxHeight)).1 = .ok (u, w) ∧
      (WithinLimits p u w ∨ k = 0 ∧ (p.method = "hourly" → ∃ u0 w0,
        (Whole.simulate y.env "hourly" (y.state.at p.minHeight)).1 = .ok (u0, w0) ∧ WithinLimits p u0 w0)) := by
  obtain ⟨k, f, x, hi, lo, hr, hcand, hx, hheld, hsim, hlim⟩ := C93_returned routine hz c c' r h
  obtain ⟨bhe, s, bhe', s', q1, q2⟩ := hs k f hcand
  obtain ⟨x1, y, hx1, hy, -⟩ := C97_cover q1
  rw [hx] at hx1
  cases hx1
  refine ⟨k, f, x, y, hi, lo, hr, hcand, hheld, computeG_books hheld hy, ?_, ?_⟩
  · have := (C97_same q1 x y hx hy [] (by simp) (by simp) bhe s q1.usable p.method (.inr rfl) x hx).1
    rw [hsim] at this
    exact this
  · rcases hlim with hlim | ⟨hk, u0, w0, he, hw⟩
    · exact .inl hlim
    · refine .inr ⟨hk, fun hm => ⟨u0, w0, ?_, hw⟩⟩
      obtain ⟨x', hx', -⟩ := C95_made q2
      have := (C97_same q1 x y hx hy [] (by simp) (by simp) bhe' s' q2 "hourly" (.inl rfl) x' hx').1
      have h3 := he.made hx'
      rw [hm] at h3
      rw [h3] at this
      exact this

/-- C97, bi-zoned routine: the exchanger left has a height between the bounds.  If the search used the hybrid method,
then at the maximum height it is within the limits with the g-functions used for sizing, too; and if even at the minimum
height it was more than enough, the height found is the maximum one. -/
theorem C97_zoned (c : Design.Candidates ℝ) (c' : State) (r : Option (ℤ × Field))
    (h : findDesign p "bi-zoned" c {} = (.ok r, c'))
    (hs : ∀ k f, Candidate c k f → ∃ bhe s, Sizable p f bhe s) :
    ∃ (k : ℕ) (f : Field) (x y z : Held), r = some ((k : ℤ), f) ∧ Candidate c k f ∧ fresh p f p.maxHeight = .ok x ∧
      computeG p { held := some x } = (.ok (), { held := some y }) ∧
      (Whole.size y.env "hybrid" y.state).2 = z.state ∧ c'.held = some z ∧
      p.minHeight ≤ (Whole.borehole z.state.bhe).H ∧ (Whole.borehole z.state.bhe).H ≤ p.maxHeight ∧
      (p.method = "hybrid" → ∃ u w, (Whole.simulate y.env "hybrid" (y.state.at p.maxHeight)).1 = .ok (u, w) ∧
        WithinLimits p u w ∧ ∀ u0 w0, (Whole.simulate y.env "hybrid" (y.state.at p.minHeight)).1 = .ok (u0, w0) →
          excess p u w < 0 → excess p u0 w0 < 0 → (Whole.borehole z.state.bhe).H = p.maxHeight) := by
  obtain ⟨k, f, x, z, H, hi, lo, hr, hcand, hx, hsim, hlim, hsz, hheld, hH⟩ := C93_zoned c c' r h
  obtain ⟨bhe, s, q1⟩ := hs k f hcand
  obtain ⟨x1, y, hx1, hy, -⟩ := C97_cover q1
  rw [hx] at hx1
  cases hx1
  have hsize : ∃ w, Whole.size y.env "hybrid" y.state = (.ok w, z.state) := by
    unfold sizeHeld at hsz
    rw [St.bind_ok hy, St.bind_eq_ok] at hsz
    obtain ⟨w, t, e1, e2⟩ := hsz
    unfold onHeld at e1 e2
    dsimp only at e1
    rcases hq : Whole.size y.env "hybrid" y.state with ⟨r', st⟩
    rw [hq] at e1
    cases e1
    dsimp only at e2
    cases e2
    exact ⟨w, rfl⟩
  obtain ⟨w, hw⟩ := hsize
  have hmin : y.env.minHeight = p.minHeight ∧ y.env.maxHeight = p.maxHeight := by
    obtain ⟨x1, y1, k1, k2, h3, -⟩ := C97_cover q1
    rw [hx] at k1
    cases k1
    rw [hy] at k2
    cases k2
    obtain ⟨B1, c1, sts1, cl1, hl1, hy1, -, -, -, -, g1, g2, g3, hB1, hf1⟩ := fresh_ok q1.usable
    rw [hx] at hf1
    cases hf1
    dsimp only at h3
    rw [h3]
    exact ⟨rfl, rfl⟩
  have hcov : Covered y.env p.minHeight p.maxHeight bhe y.state := by
    obtain ⟨x1, y1, k1, k2, -, -, -, -, h3, -⟩ := C97_cover q1
    rw [hx] at k1
    cases k1
    rw [hy] at k2
    cases k2
    exact h3
  obtain ⟨b1, b2, -, -⟩ := C89_size hcov [] (by simp) "hybrid" w z.state hw
  rw [hmin.1] at b1
  rw [hmin.2] at b2
  refine ⟨k, f, x, y, z, hr, hcand, hx, hy, by rw [hw], hheld, b1, b2, ?_⟩
  intro hm
  have h1 := (C97_same q1 x y hx hy [] (by simp) (by simp) bhe s q1.usable "hybrid" (.inr rfl) x hx).1
  rw [hm] at hsim
  rw [hsim] at h1
  refine ⟨hi, lo, h1, hlim, ?_⟩
  intro u0 w0 h0 n1 n0
  obtain ⟨-, t2, -⟩ := C97_size q1 x y hx hy [] (by simp) "hybrid" u0 w0 hi lo _ _ h0 h1 rfl rfl y.state rfl
  obtain ⟨s', e1, e2⟩ := t2 (mul_pos_of_neg_of_neg n0 n1)
  rw [hw] at e1
  cases e1
  exact e2

/-! ## the concrete case again -/

theorem exSizable (n : ℕ) (hn : n ≠ 0) : ∃ s, Sizable exProblem (exRow n) (.multiple (exDouble 100)) s := by
  obtain ⟨s, hs, -⟩ := exUsable (exRow n) (exRow_ne hn) 100 (by tauto) (exRow_spacing n)
  refine ⟨s, hs, ?_, ?_, exBrent_inside _ _ ?_, GF.lagrangeSpl_reproduces, ?_, ?_⟩
  · show (0 : ℝ) < 50
    norm_num
  · show (50 : ℝ) + 2 / 1000000 ≤ 100
    norm_num
  · show (50 : ℝ) ≤ 100
    norm_num
  · intro B hB x hx
    apply exProblem_text
    have hb := exRow_spacing n B hB
    change x ∈ [B, (50 : ℝ), (50 + 100) / 2, 100, 3 / 40, 2] at hx
    unfold exNumbers
    rw [show ((50 : ℝ) + 100) / 2 = 75 by norm_num] at hx
    simp only [List.mem_cons, List.not_mem_nil, or_false] at hx ⊢
    rcases hb with rfl | rfl <;> tauto
  · intro H _
    exact ⟨_, rfl, by simp [eskilsonLogTimes]⟩

/-- designing and preparing the field for sizing succeeds -/
example : ∃ n c' y u w, findDesign exProblem "rectangle" (.flat [exRow 1, exRow n]) {} = (.ok (some (1, exRow n)), c') ∧
    computeG exProblem c' = (.ok (), { c' with held := some y }) ∧
    (Whole.simulate y.env "hourly" (y.state.at 100)).1 = .ok (u, w) ∧ u ≤ 35 ∧ 5 ≤ w := by
  obtain ⟨n, hn⟩ := exFind
  rcases hd : findDesign exProblem "rectangle" (.flat [exRow 1, exRow n]) {} with ⟨r, c'⟩
  rw [hd] at hn
  change r = _ at hn
  subst hn
  obtain ⟨m, hm0, hmr⟩ : ∃ m, m ≠ 0 ∧ exRow n = exRow m := by
    by_cases h0 : n = 0
    · exfalso
      subst h0
      obtain ⟨k, f, x, -, -, hr, -, hx, -⟩ := C93_returned "rectangle" (by decide) _ c' _ hd
      cases hr
      rw [show exRow 0 = [] from rfl, (C95_refused (p := exProblem) (f := [])).1 rfl] at hx
      cases hx
    · exact ⟨n, h0, rfl⟩
  obtain ⟨k, f, x, y, u, w, hr, -, -, hy, hsim, hlim⟩ := C97_design "rectangle" (by decide) _ c' _ hd (by
    intro k f hk
    have : ∃ m, m ≠ 0 ∧ f = exRow m := by
      match k with
      | 0 => cases hk; exact ⟨1, one_ne_zero, rfl⟩
      | 1 => cases hk; exact ⟨m, hm0, hmr⟩
      | k + 2 => cases hk
    obtain ⟨m, hm, rfl⟩ := this
    obtain ⟨s, hs⟩ := exSizable m hm
    obtain ⟨s', hs', -⟩ := exUsable (exRow m) (exRow_ne hm) 50 (by tauto) (exRow_spacing m)
    exact ⟨_, s, _, s', hs, hs'⟩)
  have hk : k = 1 := by
    have := congrArg (Option.map Prod.fst) hr
    simp only [Option.map_some, Option.some.injEq] at this
    omega
  rcases hlim with hlim | ⟨h0, -⟩
  · exact ⟨n, c', y, u, w, hd, hy, hsim, hlim.1, hlim.2⟩
  · omega

/-- one borehole alone is too small, whatever its depth: sizing leaves it at the maximum, with the warning -/
theorem exSized : ∃ x y s', fresh exProblem (exRow 1) 100 = .ok x ∧
    computeG exProblem { held := some x } = (.ok (), { held := some y }) ∧
    Whole.size y.env "hourly" y.state = (.ok [.notDeepEnough], s') ∧ (Whole.borehole s'.bhe).H = 100 := by
  obtain ⟨s, hs⟩ := exSizable 1 one_ne_zero
  obtain ⟨x, y, hx, hy, -⟩ := C97_cover hs
  have hpi := Real.pi_pos
  have hpi4 := Real.pi_lt_four
  have sim : ∀ H, (H = 50 ∨ H = 100) → ∃ u w,
      (Whole.simulate y.env "hourly" (y.state.at H)).1 = .ok (u, w) ∧ 0 < excess exProblem u w := by
    intro H hH
    obtain ⟨s', hu, -⟩ := exUsable (exRow 1) (exRow_ne one_ne_zero) H (by tauto) (exRow_spacing 1)
    obtain ⟨K, hK⟩ := exExtremes H hH
    obtain ⟨u, w, he, -, -, h2⟩ := hK (exRow 1) (exRow_ne one_ne_zero) (exRow_spacing 1)
    obtain ⟨x', hx', -⟩ := C95_made hu
    have hq := (C97_same hs x y hx hy [] (by simp) (H := H) (by
      show H ∈ [(50 : ℝ), (50 + 100) / 2, 100]
      rcases hH with rfl | rfl <;> simp) _ s' hu "hourly" (.inl rfl) x' hx').1
    have h3 := he.made hx'
    rw [show exProblem.method = "hourly" from rfl] at h3
    rw [h3] at hq
    refine ⟨u, w, hq, lt_max_of_lt_left (sub_pos.2 ?_)⟩
    show 35 < u
    rw [show (exRow 1).length = 1 by simp [exRow], Nat.cast_one, div_one] at h2
    have hlow : (100 : ℝ) / 16 ≤ 10000 / H / (4 * π) := by
      have h3 : (100 : ℝ) ≤ 10000 / H := by rcases hH with rfl | rfl <;> norm_num
      rw [div_le_div_iff₀ (by norm_num) (by positivity)]
      nlinarith
    have hr : 0 ≤ 10000 / H * (51 / 400 : ℝ) := by rcases hH with rfl | rfl <;> norm_num
    linarith
  obtain ⟨u0, w0, a1, a2⟩ := sim 50 (.inl rfl)
  obtain ⟨u1, w1, b1, b2⟩ := sim 100 (.inr rfl)
  obtain ⟨-, t, -⟩ := C97_size hs x y hx hy [] (by simp) "hourly" u0 w0 u1 w1 _ _ a1 b1 rfl rfl y.state rfl
  obtain ⟨s', h1, h2⟩ := t (mul_pos a2 b2)
  exact ⟨x, y, s', hx, hy, h1, h2⟩

end

end Ghedt.WholeSearch
