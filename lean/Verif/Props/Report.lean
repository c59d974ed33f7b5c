import Verif.Props.WholeSize
import Verif.Lemmas.ReportState
import Verif.Spec.Report

/-!
# What is exported and printed of an exchanger (C98–C100)
-/

set_option linter.unusedSectionVars false

namespace Ghedt.Report
open Real Ghedt.GHE Ghedt.Bhe Ghedt.Radial Ghedt.Whole Ghedt.Spec

noncomputable section

variable {env : Whole.Env} {lo hi : ℝ} {x : Exchanger} {s0 : Whole.State}

/-- Used from the state `s`, the object was left in this state by a simulation at a height in range that returned, or by
sizing that returned. -/
inductive Evaluated (env : Whole.Env) (lo hi : ℝ) (s : Whole.State) : Whole.State → Prop
  | simulated (y : ℝ) (hy : Within env lo hi y) (m : String) (r : ℝ × ℝ) (st : Whole.State)
      (h : Whole.simulate env m (s.at y) = (.ok r, st)) : Evaluated env lo hi s st
  | sized (m : String) (w : List Warning) (st : Whole.State) (h : Whole.size env m s = (.ok w, st)) :
      Evaluated env lo hi s st

theorem Evaluated.facts (hc : Covered env lo hi x s0) {ops : List Op}
    (hops : ∀ y, Op.height y ∈ ops → Within env lo hi y) {st : Whole.State}
    (h : Evaluated env lo hi (ops.foldl (perform env) s0) st) :
    Used env lo hi x st ∧ (∃ s, Coherent env s st) ∧ ∃ u w, maxNumber st.HPEFT = .ok u ∧ minNumber st.HPEFT = .ok w := by
  cases h with
  | simulated y hy m r _ h =>
    obtain ⟨h1, h2, h3⟩ := simulate_left h
    refine ⟨?_, h1, _, _, h2, h3⟩
    have := hc.used (ops ++ [.height y, .simulate m]) (by
      intro z hz
      simp only [List.mem_append, List.mem_cons, List.not_mem_nil, or_false, reduceCtorEq, Op.height.injEq] at hz
      rcases hz with hz | rfl
      · exact hops z hz
      · exact hy) s0 hc.start
    rw [List.foldl_append] at this
    change Used env lo hi x (Whole.simulate env m ((ops.foldl (perform env) s0).at y)).2 at this
    rw [h] at this
    exact this
  | sized m w _ h =>
    obtain ⟨st0, r, hs⟩ := size_left h
    obtain ⟨h1, h2, h3⟩ := simulate_left hs
    refine ⟨?_, h1, _, _, h2, h3⟩
    have := hc.used (ops ++ [.size m]) (by
      intro z hz
      simp only [List.mem_append, List.mem_cons, List.not_mem_nil, or_false, reduceCtorEq] at hz
      exact hops z hz) s0 hc.start
    rw [List.foldl_append] at this
    change Used env lo hi x (Whole.size env m (ops.foldl (perform env) s0)).2 at this
    rw [h] at this
    exact this

/-! ## C98 — the exported dictionary -/

/-- An exported record describes a U-tube: the radius of its borehole, the radii of its pipes and where they are, the
distance between them, the flow through its borehole, and the conductivities of grout, soil and pipe. -/
structure Describes (r : TubeRecord) (t : UTube) : Prop where
  rb : r.rb = t.b.rb
  rIn : r.rIn = t.circuit.rIn
  rOut : r.rOut = t.circuit.rOut
  distance : r.s = t.pipe.s
  pos : r.pos = t.circuit.pos
  flow : r.mFlow = t.mBorehole
  grout : r.kGrout = t.grout.k
  soil : r.kSoil = t.soil.k
  pipe : r.kPipe = t.pipe.k

theorem Describes.unique {r r' : TubeRecord} {t : UTube} (h : Describes r t) (h' : Describes r' t) : r = r' := by
  cases r; cases r'
  simp only [TubeRecord.mk.injEq]
  exact ⟨h.1.trans h'.1.symm, h.2.trans h'.2.symm, h.3.trans h'.3.symm, h.4.trans h'.4.symm, h.5.trans h'.5.symm,
    h.6.trans h'.6.symm, h.7.trans h'.7.symm, h.8.trans h'.8.symm, h.9.trans h'.9.symm⟩

theorem recordOf_describes (t : UTube) : Describes (recordOf t) t := ⟨rfl, rfl, rfl, rfl, rfl, rfl, rfl, rfl, rfl⟩

theorem export_core {h h' : ℝ} {s : UTube} {a b : ℝ} (hk : Known x) (hR : Works env x h s) (hT : Times env s a b)
    (h27 : env.db.logTime.length = 27) (st : Whole.State) (hb : st.bhe = setHeight h' x) (hh : h' ≠ 0)
    (hsts : calcSts env.solve (radialTube env.ext s) none false env.fuel = .ok st.sts) (ans : GF.Answer ℝ)
    (tb : GF.Table ℝ)
    (hreq : GF.request env.spl env.db (env.bSpacing / h') "default" st.table = (.ok ans, tb)) (hrb : ans.rb ≠ 0)
    (hansl : ans.g.length = env.db.logTime.length) (sel : List (ℝ × ℝ)) :
    (charTime s * exp a < 1 / 10 ^ 12 + 120 * 29 → (oakRidge sel env st).1 = .error .valueError) ∧
    (1 / 10 ^ 12 + 120 * 29 ≤ charTime s * exp a → ∃ d, (oakRidge sel env st).1 = .ok d ∧
      d.boreholeLength = h' ∧ d.numberOfBoreholes = sel.length ∧ d.tube = recordOf (tubeOf st) ∧
      d.pairs.Sublist (responsePoints env (borehole x).rb a st.sts.2.1 st.sts.2.2 ans) ∧
      (env.db.logTime.zip (ans.g.map fun v => v - log ((borehole x).rb / ans.rb))) <:+ d.pairs ∧
      (d.pairs.map Prod.fst).Pairwise (· < ·) ∧ 56 ≤ d.pairs.length ∧ d.pairs.length ≤ 85) := by
  obtain ⟨xs, ys, hg, hlen, hzip, hsort, hle, hcount⟩ := grab_points hk hR hT st hb hsts ans tb hreq hrb hansl
  rw [h27] at hle hcount
  have hc29 := hcount 29 (by norm_num)
  push_cast at hc29
  unfold oakRidge
  rw [St.get_bind, hb, borehole_setHeight hk, pyDiv_ok hh, St.lift_ok rfl, St.bind_ok hg]
  dsimp only
  constructor
  · intro hlt
    have := mt hc29.1 (not_le.2 hlt)
    rw [(Export.C78_export xs ys hlen).1 hle (by omega), St.lift_error rfl]
  · intro hge
    obtain ⟨pairs, idx, e1, e2, e3, e4, -, ⟨pre, e5⟩, e6, e7⟩ := (Export.C78_export xs ys hlen).2 (hc29.2 hge)
    rw [e1, St.lift_ok rfl]
    have hsub := pairs_sublist e2 e3 e4
    refine ⟨_, rfl, rfl, rfl, rfl, ?_, ?_, ?_, by simpa [e2] using e6, by simpa [e2] using e7⟩
    · rw [← hzip]
      exact hsub
    · exact pairs_suffix e2 e3 e5 hlen (by rw [List.length_zip, List.length_map, hansl, h27]; rfl) hzip
    · refine List.Pairwise.sublist (hsub.map Prod.fst) ?_
      rw [List.map_fst_zip hlen.le]
      exact hsort

/-- C98: in the state left by a simulation or by sizing, after any use within the range of the database: with fewer than
30 short-time values before the first long time `t_s·exp a`, that is if `t_s·exp a < 3480 s + 10⁻¹² s`, exporting raises
`ValueError`.  Otherwise it gives the height the exchanger has, the number of boreholes selected, the record of the
equivalent tube for that height, and 56 to 85 points, in order of time, of the response the simulation uses at that
height, among them all 27 long-time values. -/
theorem C98_export (hc : Covered env lo hi x s0) (ops : List Op)
    (hops : ∀ y, Op.height y ∈ ops → Within env lo hi y) (st : Whole.State)
    (hst : Evaluated env lo hi (ops.foldl (perform env) s0) st) (h : ℝ) (hh : (borehole st.bhe).H = h) (s : UTube)
    (hR : Ready env lo hi x h s) (a b : ℝ) (hT : Times env s a b) (h27 : env.db.logTime.length = 27)
    (sel : List (ℝ × ℝ)) :
    (charTime s * exp a < 1 / 10 ^ 12 + 120 * 29 → (oakRidge sel env st).1 = .error .valueError) ∧
    (1 / 10 ^ 12 + 120 * 29 ≤ charTime s * exp a → ∃ d rad lt gs ans tb, (oakRidge sel env st).1 = .ok d ∧
      calcSts env.solve (radialTube env.ext s) none false env.fuel = .ok (rad, lt, gs) ∧
      GF.request env.spl env.db (env.bSpacing / h) "default" {} = (.ok ans, tb) ∧
      d.boreholeLength = h ∧ d.numberOfBoreholes = sel.length ∧ Describes d.tube s ∧
      d.pairs.Sublist ((lt.zip gs).filter (fun p => decide (p.1 ≤ a)) ++
        env.db.logTime.zip (ans.g.map fun v => v - log ((borehole x).rb / ans.rb))) ∧
      (env.db.logTime.zip (ans.g.map fun v => v - log ((borehole x).rb / ans.rb))) <:+ d.pairs ∧
      (d.pairs.map Prod.fst).Pairwise (· < ·) ∧ 56 ≤ d.pairs.length ∧ d.pairs.length ≤ 85) := by
  obtain ⟨hk, -⟩ := hc.facts
  obtain ⟨⟨⟨z, hz, -⟩, htb⟩, ⟨s', hco⟩, -⟩ := hst.facts hc hops
  obtain rfl : z = h := by rw [← hh, hz, borehole_setHeight hk]
  obtain rfl : s' = s := by
    have h1 := hco.converts
    rw [hz, hR.converts] at h1
    cases h1
    rfl
  have hreq := request_within hc.db hc.range hR.within {} (Or.inl rfl)
  obtain ⟨c1, c2⟩ := export_core hk hR.toWorks hT h27 st hz hR.nonzero hco.response _ _
    (request_within hc.db hc.range hR.within st.table htb) (hR.radius _ _ hreq) (by simp [GF.answerAt]) sel
  refine ⟨c1, fun hge => ?_⟩
  obtain ⟨d, e1, e2, e3, e4, e5, e6⟩ := c2 hge
  exact ⟨d, st.sts.1, st.sts.2.1, st.sts.2.2, _, _, e1, hco.response, hreq, e2, e3, by rw [e4, hco.tube]; exact recordOf_describes _, e5, e6⟩

/-- C98: if the height is then set to another one, without simulating, the export mixes: the length and the long-time
values are those of the new height, the short-time values (and how many there are) and, unless the exchanger is a single
U-tube, the tube are still those of the old one. -/
theorem C98_stale (hc : Covered env lo hi x s0) (ops : List Op)
    (hops : ∀ y, Op.height y ∈ ops → Within env lo hi y) (st : Whole.State)
    (hst : Evaluated env lo hi (ops.foldl (perform env) s0) st) (h : ℝ) (hh : (borehole st.bhe).H = h) (s : UTube)
    (hR : Ready env lo hi x h s) (a b : ℝ) (hT : Times env s a b) (h27 : env.db.logTime.length = 27)
    (h' : ℝ) (s' : UTube) (hR' : Ready env lo hi x h' s') (sel : List (ℝ × ℝ)) :
    (charTime s * exp a < 1 / 10 ^ 12 + 120 * 29 → (oakRidge sel env (st.at h')).1 = .error .valueError) ∧
    (1 / 10 ^ 12 + 120 * 29 ≤ charTime s * exp a → ∃ d rad lt gs ans tb, (oakRidge sel env (st.at h')).1 = .ok d ∧
      calcSts env.solve (radialTube env.ext s) none false env.fuel = .ok (rad, lt, gs) ∧
      GF.request env.spl env.db (env.bSpacing / h') "default" {} = (.ok ans, tb) ∧
      d.boreholeLength = h' ∧ ((∀ t, x ≠ .single t) → Describes d.tube s) ∧
      d.pairs.Sublist ((lt.zip gs).filter (fun p => decide (p.1 ≤ a)) ++
        env.db.logTime.zip (ans.g.map fun v => v - log ((borehole x).rb / ans.rb)))) := by
  obtain ⟨hk, -⟩ := hc.facts
  obtain ⟨⟨⟨z, hz, -⟩, htb⟩, ⟨s1, hco⟩, -⟩ := hst.facts hc hops
  obtain rfl : z = h := by rw [← hh, hz, borehole_setHeight hk]
  obtain rfl : s1 = s := by
    have h1 := hco.converts
    rw [hz, hR.converts] at h1
    cases h1
    rfl
  have hz' : (st.at h').bhe = setHeight h' x := by
    show setHeight h' st.bhe = _
    rw [hz, setHeight_setHeight]
  have hreq := request_within hc.db hc.range hR'.within {} (Or.inl rfl)
  obtain ⟨c1, c2⟩ := export_core hk hR.toWorks hT h27 (st.at h') hz' hR'.nonzero hco.response _ _
    (request_within hc.db hc.range hR'.within st.table htb) (hR'.radius _ _ hreq) (by simp [GF.answerAt]) sel
  refine ⟨c1, fun hge => ?_⟩
  obtain ⟨d, e1, e2, e3, e4, e5, e6⟩ := c2 hge
  refine ⟨d, st.sts.1, st.sts.2.1, st.sts.2.2, _, _, e1, hco.response, hreq, e2, ?_, e5⟩
  intro hx
  suffices e : tubeOf (st.at h') = s1 by rw [e4, e]; exact recordOf_describes _
  unfold tubeOf
  rw [hz']
  cases x with
  | single t => exact absurd rfl (hx t)
  | _ => exact hco.held

/-- C98: the times of the long-time points below are Eskilson's. -/
theorem C98_times : (Utilities.eskilsonLogTimes : List ℝ) = eskilsonThousandths.map fun n : ℤ => (n : ℝ) / 1000 := by
  simp only [Utilities.eskilsonLogTimes, eskilsonThousandths, List.map_cons, List.map_nil]
  norm_num

/-- C98: on what `find_design` leaves (every routine but bi-zoned, which sizes: see above): the length is the maximum
height, for which the search decided, and the points are those of the response it simulated with. -/
theorem C98_design {p : WholeSearch.Problem} (routine : String) (hz : routine ≠ "bi-zoned")
    (c : Design.Candidates ℝ) (c' : WholeSearch.State) (k : ℤ) (f : List (ℝ × ℝ))
    (h : WholeSearch.findDesign p routine c {} = (.ok (some (k, f)), c')) (bhe : Exchanger) (s : UTube)
    (hu : WholeSearch.Usable p f p.maxHeight bhe s) (hs : WholeSearch.Seam s) :
    ∃ y, c'.held = some y ∧
    (charTime s * exp (-(85 / 10)) < 1 / 10 ^ 12 + 120 * 29 →
      (oakRidge f y.env y.state).1 = .error .valueError) ∧
    (1 / 10 ^ 12 + 120 * 29 ≤ charTime s * exp (-(85 / 10)) → ∃ d rad lt gs g,
      (oakRidge f y.env y.state).1 = .ok d ∧
      calcSts p.solve (radialTube p.ext s) none false p.fuel = .ok (rad, lt, gs) ∧
      p.gf (WholeSearch.massFlow p f) p.media f p.maxHeight p.borehole.rb p.borehole.D = .ok g ∧
      d.boreholeLength = p.maxHeight ∧ d.numberOfBoreholes = f.length ∧ Describes d.tube s ∧
      d.pairs.Sublist ((lt.zip gs).filter (fun q => decide (q.1 ≤ -(85 / 10))) ++ Utilities.eskilsonLogTimes.zip g) ∧
      (Utilities.eskilsonLogTimes.zip g) <:+ d.pairs ∧
      (d.pairs.map Prod.fst).Pairwise (· < ·) ∧ 56 ≤ d.pairs.length ∧ d.pairs.length ≤ 85) := by
  obtain ⟨k', f', y, -, -, hr, -, hy, hheld, -⟩ := WholeSearch.C93_returned routine hz c c' _ h
  obtain rfl : f' = f := by cases hr; rfl
  obtain ⟨B, g, sts, cl, hl, hyb, hBr, hg, hgl, h1, -, -, -, hB, hf⟩ := WholeSearch.fresh_ok hu
  rw [hy] at hf
  cases hf
  have hB0 : B ≠ 0 := (hu.radius.trans_le hBr).ne'
  have hreq := WholeSearch.request_one (H := p.maxHeight) (f := f') (spl := p.spl) (rb := p.borehole.rb) (D := p.borehole.D)
    (c := g) hB0 hu.height.ne' {}
  obtain ⟨c1, c2⟩ := export_core (env := WholeSearch.envOf p f' p.maxHeight B g (cl, hl, hyb)) hu.known (hu.works B g (cl, hl, hyb))
    (WholeSearch.times_one hs B g (cl, hl, hyb)) (by show (Utilities.eskilsonLogTimes : List ℝ).length = 27; simp [Utilities.eskilsonLogTimes])
    ⟨bhe, s, sts, {}, [], []⟩ hu.at_height.symm hu.height.ne' h1 _ _ hreq hu.radius.ne' hgl f'
  have hcorr : (g.map fun v => v - log ((borehole bhe).rb / p.borehole.rb)) = g := by
    rw [hu.borehole, div_self hu.radius.ne', log_one]
    simp
  refine ⟨_, hheld, c1, fun hge => ?_⟩
  obtain ⟨d, e1, e2, e3, e4, e5, e6, e7⟩ := c2 hge
  unfold responsePoints at e5
  rw [hcorr] at e5 e6
  refine ⟨d, sts.1, sts.2.1, sts.2.2, g, e1, h1, hg, e2, e3, ?_, e5, e6, e7⟩
  suffices e : tubeOf ⟨bhe, s, sts, {}, [], []⟩ = s by rw [e4, e]; exact recordOf_describes _
  have hco := hu.converts
  unfold tubeOf
  cases bhe with
  | single t => cases hco; rfl
  | _ => rfl

/-! ## C99 — after sizing, the temperatures held are those of the height left -/

/-- C99: when sizing returns, after any use within the range of the database, simulating at the height it left (again
after any use) returns, and the temperatures it stores are those sizing left. -/
theorem C99_sized (hc : Covered env lo hi x s0) (ops : List Op)
    (hops : ∀ y, Op.height y ∈ ops → Within env lo hi y) (m : String) (w : List Warning) (st : Whole.State)
    (hs : Whole.size env m (ops.foldl (perform env) s0) = (.ok w, st)) (ops' : List Op)
    (hops' : ∀ y, Op.height y ∈ ops' → Within env lo hi y) :
    ∃ r st', Whole.simulate env m ((ops'.foldl (perform env) s0).at (borehole st.bhe).H) = (.ok r, st') ∧
      st'.HPEFT = st.HPEFT ∧ st'.dTb = st.dTb ∧ (borehole st'.bhe).H = (borehole st.bhe).H ∧
      maxNumber st.HPEFT = .ok r.1 ∧ minNumber st.HPEFT = .ok r.2 := by
  obtain ⟨hk, -⟩ := hc.facts
  obtain ⟨⟨⟨z, hz, hw⟩, -⟩, -⟩ := (Evaluated.sized m w st hs).facts hc hops
  have hzH : (borehole st.bhe).H = z := by rw [hz, borehole_setHeight hk]
  rw [hzH]
  have habs := (C89_refinement hc ops hops m _ rfl _ rfl).2
  rw [hs] at habs
  obtain ⟨v0, ⟨u1, u2⟩, hsim⟩ := size_left_abs habs
  have hH := (C43_extremes _ _ _ _ _ _ hsim).1
  change (borehole st.bhe).H = v0.H at hH
  have hrefl := (C89_refinement hc (ops' ++ [.height z]) (by
    intro y hy
    simp only [List.mem_append, List.mem_cons, List.not_mem_nil, or_false, Op.height.injEq] at hy
    rcases hy with hy | rfl
    · exact hops' y hy
    · exact hw) m _ rfl _ rfl).1
  rw [List.foldl_append] at hrefl
  change GHE.simulate _ m (view ((ops'.foldl (perform env) s0).at z)) =
    ((Whole.simulate env m ((ops'.foldl (perform env) s0).at z)).1,
      view (Whole.simulate env m ((ops'.foldl (perform env) s0).at z)).2) at hrefl
  have hview : view ((ops'.foldl (perform env) s0).at z) =
      ⟨z, (ops'.foldl (perform env) s0).HPEFT, (ops'.foldl (perform env) s0).dTb⟩ := by
    obtain ⟨⟨y, hy, -⟩, -⟩ := hc.used ops' hops' s0 hc.start
    have : ((ops'.foldl (perform env) s0).at z).bhe = setHeight z x := by
      show setHeight z _ = _
      rw [hy, setHeight_setHeight]
    unfold view
    rw [this, borehole_setHeight hk]
    rfl
  obtain ⟨a0, b0, d0⟩ := v0
  rw [hzH] at hH
  change z = a0 at hH
  subst hH
  rw [hview] at hrefl
  obtain ⟨q1, q2⟩ := simulate_results (gheEnv env fun y => (prepare env (s0.at y)).1) m z b0 d0
    (ops'.foldl (perform env) s0).HPEFT (ops'.foldl (perform env) s0).dTb
  rw [hrefl, hsim] at q1 q2
  have q2 := q2 _ rfl
  dsimp only at q1 q2
  rcases hfin : Whole.simulate env m ((ops'.foldl (perform env) s0).at z) with ⟨r, st'⟩
  rw [hfin] at q1 q2
  dsimp only at q1 q2
  subst q1
  have e1 : st.HPEFT = st'.HPEFT := congrArg GheState.HPEFT q2
  obtain ⟨-, m1, m2⟩ := simulate_left hfin
  refine ⟨_, st', rfl, e1.symm, (congrArg GheState.dTb q2).symm, ?_, ?_, ?_⟩
  · have := congrArg GheState.H q2
    change (borehole st.bhe).H = (borehole st'.bhe).H at this
    rw [← this, hzH]
  · rw [e1]; exact m1
  · rw [e1]; exact m2

/-! ## C100 — the printed text -/

theorem lines_eq {α : Type} (f : α → String) (l : List α) : lines f l = String.join (l.map f) := by
  unfold lines String.join
  rw [List.foldl_map]

theorem join_append (a b : List String) : String.join (a ++ b) = String.join a ++ String.join b := by
  induction a with
  | nil => simp
  | cons x a ih => simp [ih, String.append_assoc]

theorem mapM_pyGet_self {α : Type} (l : List α) : (pyRange 0 l.length).mapM (fun i : ℤ => pyGet l i) = .ok l := by
  cases l with
  | nil => rfl
  | cons d l =>
    rw [mapM_ok (g := fun i : ℤ => (d :: l).getD i.toNat d)]
    · congr 1
      apply List.ext_getElem
      · simp
      · intro i h1 h2
        have e : (pyRange 0 ((d :: l).length : ℤ))[i]'(by simpa using h1) = (i : ℤ) := by
          have := getElem?_pyRange (a := 0) (b := ((d :: l).length : ℤ)) (k := i) (by omega)
          rw [List.getElem?_eq_getElem (by simpa using h1)] at this
          simpa using this
        rw [List.getElem_map, e, Int.toNat_natCast, List.getD_eq_getElem?_getD, List.getElem?_eq_getElem h2]
        rfl
    · intro i hi
      rw [mem_pyRange] at hi
      rw [pyGet_nonneg _ hi.1 (by omega), List.getD_eq_getElem?_getD, List.getElem?_eq_getElem (by omega)]
      rfl

/-- the lines on the temperatures -/
def tempText (tx : Text) : Option (ℝ × ℝ × ℝ) → String
  | none => ""
  | some (u, w, e) => justify "Max HP entering temp" (tx.num4 u ++ " (degrees Celsius)")
      ++ justify "Min HP entering temp" (tx.num4 w ++ " (degrees Celsius)")
      ++ justify "Excess fluid temperature" (tx.num4 e ++ " (degrees Celsius)")

set_option simprocs false in
theorem report_text (tx : Text) (env : Whole.Env) (s : Whole.State) (temps : Option (ℝ × ℝ × ℝ)) (coords pairs : List (ℝ × ℝ)) :
    baseReport tx env s ++ tempText tx temps
      ++ header "Peak Load Analysis" ++ tx.peaks ++ "\n"
      ++ header "GFunction Information" ++ "Coordinates\nx(m)\ty(m)\n"
      ++ lines (fun q : ℝ × ℝ => tx.num q.1 ++ "\t" ++ tx.num q.2 ++ "\n") coords
      ++ "G-Function\nln(t/ts)\tg\n"
      ++ lines (fun q : ℝ × ℝ => tx.num4 q.1 ++ "\t" ++ tx.num4 q.2 ++ "\n") pairs =
    Page.text ⟨tx.int env.db.locations.length, tx.num4 (borehole s.bhe).H, tx.num4 env.bSpacing, tx.bhe s.bhe,
      tx.tube (tubeOf s), tx.params, temps.map fun t => (tx.num4 t.1, tx.num4 t.2.1, tx.num4 t.2.2), tx.peaks,
      coords.map fun q => (tx.num q.1, tx.num q.2), pairs.map fun q => (tx.num4 q.1, tx.num4 q.2)⟩ := by
  have hr : rule = "--------------------------------------------------\n" := by decide +kernel
  have hb : ∀ {t u : String}, "|" ++ center t 48 ++ "|\n" = u → header t = rule ++ u ++ rule := by
    intro t u h
    unfold header
    rw [← h]
    simp only [String.append_assoc]
  unfold baseReport Page.text
  rw [lines_eq, lines_eq,
    hb (t := "GHEDT GHE Output - Version 0.1") (u := "|         GHEDT GHE Output - Version 0.1         |\n") (by decide +kernel),
    hb (t := "Borehole Heat Exchanger") (u := "|            Borehole Heat Exchanger             |\n") (by decide +kernel),
    hb (t := "Equivalent Borehole Heat Exchanger") (u := "|       Equivalent Borehole Heat Exchanger       |\n") (by decide +kernel),
    hb (t := "Simulation parameters") (u := "|             Simulation parameters              |\n") (by decide +kernel),
    hb (t := "Peak Load Analysis") (u := "|               Peak Load Analysis               |\n") (by decide +kernel),
    hb (t := "GFunction Information") (u := "|             GFunction Information              |\n") (by decide +kernel), hr]
  have hj : ∀ {c u : String} (v : String), ljust c 40 ++ "= " = u → justify c v = u ++ v ++ "\n" := by
    intro c u v h
    unfold justify
    rw [h]
  rw [hj (c := "Number of borheoles") (u := "Number of borheoles                     = ") _ (by decide +kernel),
    hj (c := "Depth of the borehole") (u := "Depth of the borehole                   = ") _ (by decide +kernel),
    hj (c := "Bore hole spacing") (u := "Bore hole spacing                       = ") _ (by decide +kernel)]
  have e1 : "Coordinates\nx(m)\ty(m)\n" = "Coordinates\n" ++ "x(m)\ty(m)\n" := by decide +kernel
  have e2 : "G-Function\nln(t/ts)\tg\n" = "G-Function\n" ++ "ln(t/ts)\tg\n" := by decide +kernel
  have e3 : " (m)\n" = " (m)" ++ "\n" := by decide +kernel
  have e4 : " (degrees Celsius)\n" = " (degrees Celsius)" ++ "\n" := by decide +kernel
  rw [e1, e2, e3, e4]
  simp only [join_append, List.map_map]
  cases temps with
  | none =>
    simp [tempText, String.append_assoc, row, Function.comp_def]
  | some t =>
    obtain ⟨u, w, e⟩ := t
    dsimp only [Option.map_some, tempText]
    rw [hj (c := "Max HP entering temp") (u := "Max HP entering temp                    = ") _ (by decide +kernel),
      hj (c := "Min HP entering temp") (u := "Min HP entering temp                    = ") _ (by decide +kernel),
      hj (c := "Excess fluid temperature") (u := "Excess fluid temperature                = ") _ (by decide +kernel)]
    simp [String.append_assoc, row, Function.comp_def]

theorem print_core {h h' : ℝ} {s : UTube} {a b : ℝ} (hk : Known x) (hR : Works env x h s) (hT : Times env s a b)
    (h27 : env.db.logTime.length = 27) (st : Whole.State) (hb : st.bhe = setHeight h' x) (hh : h' ≠ 0)
    (hsts : calcSts env.solve (radialTube env.ext s) none false env.fuel = .ok st.sts) (ans : GF.Answer ℝ)
    (tb : GF.Table ℝ)
    (hreq : GF.request env.spl env.db (env.bSpacing / h') "default" st.table = (.ok ans, tb)) (hrb : ans.rb ≠ 0)
    (hansl : ans.g.length = env.db.logTime.length) (temps : Option (ℝ × ℝ × ℝ))
    (ht : st.HPEFT = [] ∧ temps = none ∨ ∃ u w, maxNumber st.HPEFT = .ok u ∧ minNumber st.HPEFT = .ok w ∧
      temps = some (u, w, max (u - env.maxEFT) (env.minEFT - w))) (tx : Text) :
    (charTime s * exp a < 1 / 10 ^ 12 + 120 * 49 → (report tx env st).1 = .error .valueError) ∧
    (1 / 10 ^ 12 + 120 * 49 ≤ charTime s * exp a → ∃ pairs, (report tx env st).1 = .ok (Page.text
        { boreholes := tx.int env.db.locations.length, depth := tx.num4 h', spacing := tx.num4 env.bSpacing,
          exchanger := tx.bhe (setHeight h' x), tube := tx.tube (tubeOf st), parameters := tx.params,
          temperatures := temps.map fun t => (tx.num4 t.1, tx.num4 t.2.1, tx.num4 t.2.2), peaks := tx.peaks,
          places := env.db.locations.map fun q => (tx.num q.1, tx.num q.2),
          curve := pairs.map fun q => (tx.num4 q.1, tx.num4 q.2) }) ∧
      pairs.Sublist (responsePoints env (borehole x).rb a st.sts.2.1 st.sts.2.2 ans) ∧
      (env.db.logTime.zip (ans.g.map fun v => v - log ((borehole x).rb / ans.rb))) <:+ pairs ∧
      (pairs.map Prod.fst).Pairwise (· < ·) ∧ 77 ≤ pairs.length ∧ pairs.length ≤ 126) := by
  obtain ⟨xs, ys, hg, hlen, hzip, hsort, hle, hcount⟩ := grab_points hk hR hT st hb hsts ans tb hreq hrb hansl
  rw [h27] at hle hcount
  have hc49 := hcount 49 (by norm_num)
  push_cast at hc49
  have hres : results tx env st = .ok (tempText tx temps) := by
    unfold results
    rcases ht with ⟨h1, rfl⟩ | ⟨u, w, h1, h2, rfl⟩
    · rw [h1]; rfl
    · have hne : 0 < st.HPEFT.length := by
        cases hl : st.HPEFT with
        | nil => rw [hl] at h1; cases h1
        | cons => simp
      rw [if_pos hne, h1, Except.ok_bind, h2, Except.ok_bind]
      rfl
  have hplaces : (pyRange 0 env.db.locations.length).mapM (fun i : ℤ => pyGet env.db.locations i) =
      .ok env.db.locations := mapM_pyGet_self _
  have htext := report_text tx env st temps env.db.locations
  rw [hb, borehole_setHeight hk] at htext
  unfold report
  rw [St.get_bind, St.lift_ok hres, St.lift_ok hplaces, hb, borehole_setHeight hk, pyDiv_ok hh, St.lift_ok rfl,
    St.bind_ok hg]
  dsimp only
  constructor
  · intro hlt
    have := mt hc49.1 (not_le.2 hlt)
    rw [(Export.C78_repr xs ys hlen).1 hle (by omega), St.lift_error rfl]
  · intro hge
    obtain ⟨pairs, idx, e1, e2, e3, e4, -, ⟨pre, e5⟩, e6, e7⟩ := (Export.C78_repr xs ys hlen).2 (hc49.2 hge)
    rw [e1, St.lift_ok rfl]
    have hsub := pairs_sublist e2 e3 e4
    refine ⟨pairs, ?_, ?_, ?_, ?_, by omega, by omega⟩
    · rw [← htext pairs, St.pure_apply]
    · rw [← hzip]
      exact hsub
    · exact pairs_suffix e2 e3 e5 hlen (by rw [List.length_zip, List.length_map, hansl, h27]; rfl) hzip
    · refine List.Pairwise.sublist (hsub.map Prod.fst) ?_
      rw [List.map_fst_zip hlen.le]
      exact hsort

theorem print_evaluated (hc : Covered env lo hi x s0) (ops : List Op)
    (hops : ∀ y, Op.height y ∈ ops → Within env lo hi y) (st : Whole.State)
    (hst : Evaluated env lo hi (ops.foldl (perform env) s0) st) (h : ℝ) (hh : (borehole st.bhe).H = h) (s : UTube)
    (hR : Ready env lo hi x h s) (a b : ℝ) (hT : Times env s a b) (h27 : env.db.logTime.length = 27)
    (u w : ℝ) (hu : maxNumber st.HPEFT = .ok u) (hw : minNumber st.HPEFT = .ok w) (tx : Text) :
    (charTime s * exp a < 1 / 10 ^ 12 + 120 * 49 → (report tx env st).1 = .error .valueError) ∧
    (1 / 10 ^ 12 + 120 * 49 ≤ charTime s * exp a → ∃ pairs rad lt gs ans tb, (report tx env st).1 = .ok (Page.text
        { boreholes := tx.int env.db.locations.length, depth := tx.num4 h, spacing := tx.num4 env.bSpacing,
          exchanger := tx.bhe (setHeight h x), tube := tx.tube s, parameters := tx.params,
          temperatures := some (tx.num4 u, tx.num4 w, tx.num4 (max (u - env.maxEFT) (env.minEFT - w))),
          peaks := tx.peaks, places := env.db.locations.map fun q => (tx.num q.1, tx.num q.2),
          curve := pairs.map fun q => (tx.num4 q.1, tx.num4 q.2) }) ∧
      calcSts env.solve (radialTube env.ext s) none false env.fuel = .ok (rad, lt, gs) ∧
      GF.request env.spl env.db (env.bSpacing / h) "default" {} = (.ok ans, tb) ∧
      pairs.Sublist ((lt.zip gs).filter (fun p => decide (p.1 ≤ a)) ++
        env.db.logTime.zip (ans.g.map fun v => v - log ((borehole x).rb / ans.rb))) ∧
      (env.db.logTime.zip (ans.g.map fun v => v - log ((borehole x).rb / ans.rb))) <:+ pairs ∧
      (pairs.map Prod.fst).Pairwise (· < ·) ∧ 77 ≤ pairs.length ∧ pairs.length ≤ 126) := by
  obtain ⟨hk, -⟩ := hc.facts
  obtain ⟨⟨⟨z, hz, -⟩, htb⟩, ⟨s', hco⟩, -⟩ := hst.facts hc hops
  obtain rfl : z = h := by rw [← hh, hz, borehole_setHeight hk]
  obtain rfl : s' = s := by
    have h1 := hco.converts
    rw [hz, hR.converts] at h1
    cases h1
    rfl
  have hreq := request_within hc.db hc.range hR.within {} (Or.inl rfl)
  obtain ⟨c1, c2⟩ := print_core hk hR.toWorks hT h27 st hz hR.nonzero hco.response _ _
    (request_within hc.db hc.range hR.within st.table htb) (hR.radius _ _ hreq) (by simp [GF.answerAt])
    (some (u, w, max (u - env.maxEFT) (env.minEFT - w))) (.inr ⟨u, w, hu, hw, rfl⟩) tx
  refine ⟨c1, fun hge => ?_⟩
  obtain ⟨pairs, e1, e2⟩ := c2 hge
  rw [hco.tube] at e1
  exact ⟨pairs, st.sts.1, st.sts.2.1, st.sts.2.2, _, _, e1, hco.response, hreq, e2⟩

/-- C100: printing an exchanger after a simulation at height `h` that returned `(u, w)`, after any use: with fewer than
50 short-time values before the first long time, that is if `t_s·exp a < 5880 s + 10⁻¹² s`, it raises `ValueError`.
Otherwise the text (see `Spec.Page`) gives the number of boreholes, that height, the texts of the exchanger and the
equivalent tube for that height, `u`, `w` and the excess over the limits, the coordinates of all boreholes in order, and
77 to 126 points, in order of time, of the response the simulation used, among them all 27 long-time values. -/
theorem C100_simulated (hc : Covered env lo hi x s0) (ops : List Op)
    (hops : ∀ y, Op.height y ∈ ops → Within env lo hi y) (h : ℝ) (s : UTube) (hR : Ready env lo hi x h s)
    (m : String) (u w : ℝ) (st : Whole.State)
    (hsim : Whole.simulate env m ((ops.foldl (perform env) s0).at h) = (.ok (u, w), st)) (a b : ℝ)
    (hT : Times env s a b) (h27 : env.db.logTime.length = 27) (tx : Text) :
    (charTime s * exp a < 1 / 10 ^ 12 + 120 * 49 → (report tx env st).1 = .error .valueError) ∧
    (1 / 10 ^ 12 + 120 * 49 ≤ charTime s * exp a → ∃ pairs rad lt gs ans tb, (report tx env st).1 = .ok (Page.text
        { boreholes := tx.int env.db.locations.length, depth := tx.num4 h, spacing := tx.num4 env.bSpacing,
          exchanger := tx.bhe (setHeight h x), tube := tx.tube s, parameters := tx.params,
          temperatures := some (tx.num4 u, tx.num4 w, tx.num4 (max (u - env.maxEFT) (env.minEFT - w))),
          peaks := tx.peaks, places := env.db.locations.map fun q => (tx.num q.1, tx.num q.2),
          curve := pairs.map fun q => (tx.num4 q.1, tx.num4 q.2) }) ∧
      calcSts env.solve (radialTube env.ext s) none false env.fuel = .ok (rad, lt, gs) ∧
      GF.request env.spl env.db (env.bSpacing / h) "default" {} = (.ok ans, tb) ∧
      pairs.Sublist ((lt.zip gs).filter (fun p => decide (p.1 ≤ a)) ++
        env.db.logTime.zip (ans.g.map fun v => v - log ((borehole x).rb / ans.rb))) ∧
      (env.db.logTime.zip (ans.g.map fun v => v - log ((borehole x).rb / ans.rb))) <:+ pairs ∧
      (pairs.map Prod.fst).Pairwise (· < ·) ∧ 77 ≤ pairs.length ∧ pairs.length ≤ 126) := by
  obtain ⟨hk, -⟩ := hc.facts
  have hst := Evaluated.simulated h hR.within m _ st hsim
  obtain ⟨-, hu, hw⟩ := simulate_left hsim
  refine print_evaluated hc ops hops st hst h ?_ s hR a b hT h27 u w hu hw tx
  obtain ⟨⟨y, hy, -⟩, ht⟩ := hc.used ops hops s0 hc.start
  have hb : ((ops.foldl (perform env) s0).at h).bhe = setHeight h x := by
    show setHeight h _ = _
    rw [hy, setHeight_setHeight]
  have habs := (C89_refinement hc (ops ++ [.height h]) (by
    intro y hy
    simp only [List.mem_append, List.mem_cons, List.not_mem_nil, or_false, Op.height.injEq] at hy
    rcases hy with hy | rfl
    · exact hops y hy
    · exact hR.within) m _ rfl _ rfl).1
  rw [List.foldl_append] at habs
  change GHE.simulate _ m (view ((ops.foldl (perform env) s0).at h)) =
    ((Whole.simulate env m ((ops.foldl (perform env) s0).at h)).1,
      view (Whole.simulate env m ((ops.foldl (perform env) s0).at h)).2) at habs
  rw [hsim] at habs
  have := (C43_extremes _ _ _ _ _ _ habs).1
  change (borehole st.bhe).H = (borehole ((ops.foldl (perform env) s0).at h).bhe).H at this
  rw [this, hb, borehole_setHeight hk]

/-- C100: printing after sizing: the text gives the height sizing left, and the temperatures `u`, `w` printed are those a
simulation at that height returns. -/
theorem C100_sized (hc : Covered env lo hi x s0) (ops : List Op)
    (hops : ∀ y, Op.height y ∈ ops → Within env lo hi y) (m : String) (ws : List Warning) (st : Whole.State)
    (hsz : Whole.size env m (ops.foldl (perform env) s0) = (.ok ws, st)) (h : ℝ) (hh : (borehole st.bhe).H = h)
    (s : UTube) (hR : Ready env lo hi x h s) (a b : ℝ) (hT : Times env s a b) (h27 : env.db.logTime.length = 27)
    (tx : Text) : ∃ u w, (Whole.simulate env m (s0.at h)).1 = .ok (u, w) ∧
    (charTime s * exp a < 1 / 10 ^ 12 + 120 * 49 → (report tx env st).1 = .error .valueError) ∧
    (1 / 10 ^ 12 + 120 * 49 ≤ charTime s * exp a → ∃ pairs rad lt gs ans tb, (report tx env st).1 = .ok (Page.text
        { boreholes := tx.int env.db.locations.length, depth := tx.num4 h, spacing := tx.num4 env.bSpacing,
          exchanger := tx.bhe (setHeight h x), tube := tx.tube s, parameters := tx.params,
          temperatures := some (tx.num4 u, tx.num4 w, tx.num4 (max (u - env.maxEFT) (env.minEFT - w))),
          peaks := tx.peaks, places := env.db.locations.map fun q => (tx.num q.1, tx.num q.2),
          curve := pairs.map fun q => (tx.num4 q.1, tx.num4 q.2) }) ∧
      calcSts env.solve (radialTube env.ext s) none false env.fuel = .ok (rad, lt, gs) ∧
      GF.request env.spl env.db (env.bSpacing / h) "default" {} = (.ok ans, tb) ∧
      pairs.Sublist ((lt.zip gs).filter (fun p => decide (p.1 ≤ a)) ++
        env.db.logTime.zip (ans.g.map fun v => v - log ((borehole x).rb / ans.rb))) ∧
      (env.db.logTime.zip (ans.g.map fun v => v - log ((borehole x).rb / ans.rb))) <:+ pairs ∧
      (pairs.map Prod.fst).Pairwise (· < ·) ∧ 77 ≤ pairs.length ∧ pairs.length ≤ 126) := by
  obtain ⟨⟨u, w⟩, st', h1, -, -, -, hu, hw⟩ := C99_sized hc ops hops m ws st hsz [] (by simp)
  rw [hh] at h1
  exact ⟨u, w, congrArg Prod.fst h1,
    print_evaluated hc ops hops st (.sized m ws st hsz) h hh s hR a b hT h27 u w hu hw tx⟩

/-- C100: printing what `find_design` leaves (every routine but bi-zoned): no temperatures are given, since the exchanger
kept was made anew after the last simulation. -/
theorem C100_design {p : WholeSearch.Problem} (routine : String) (hz : routine ≠ "bi-zoned")
    (c : Design.Candidates ℝ) (c' : WholeSearch.State) (k : ℤ) (f : List (ℝ × ℝ))
    (h : WholeSearch.findDesign p routine c {} = (.ok (some (k, f)), c')) (bhe : Exchanger) (s : UTube)
    (hu : WholeSearch.Usable p f p.maxHeight bhe s) (hs : WholeSearch.Seam s) (tx : Text) :
    ∃ y, c'.held = some y ∧
    (charTime s * exp (-(85 / 10)) < 1 / 10 ^ 12 + 120 * 49 → (report tx y.env y.state).1 = .error .valueError) ∧
    (1 / 10 ^ 12 + 120 * 49 ≤ charTime s * exp (-(85 / 10)) → ∃ pairs rad lt gs g B,
      (report tx y.env y.state).1 = .ok (Page.text
        { boreholes := tx.int f.length, depth := tx.num4 p.maxHeight, spacing := tx.num4 B,
          exchanger := tx.bhe bhe, tube := tx.tube s, parameters := tx.params,
          temperatures := none, peaks := tx.peaks, places := f.map fun q => (tx.num q.1, tx.num q.2),
          curve := pairs.map fun q => (tx.num4 q.1, tx.num4 q.2) }) ∧
      calcSts p.solve (radialTube p.ext s) none false p.fuel = .ok (rad, lt, gs) ∧
      p.gf (WholeSearch.massFlow p f) p.media f p.maxHeight p.borehole.rb p.borehole.D = .ok g ∧
      Utilities.boreholeSpacing p.borehole.rb f = .ok B ∧
      pairs.Sublist ((lt.zip gs).filter (fun q => decide (q.1 ≤ -(85 / 10))) ++ Utilities.eskilsonLogTimes.zip g) ∧
      (Utilities.eskilsonLogTimes.zip g) <:+ pairs ∧
      (pairs.map Prod.fst).Pairwise (· < ·) ∧ 77 ≤ pairs.length ∧ pairs.length ≤ 126) := by
  obtain ⟨k', f', y, -, -, hr, -, hy, hheld, -⟩ := WholeSearch.C93_returned routine hz c c' _ h
  obtain rfl : f' = f := by cases hr; rfl
  obtain ⟨B, g, sts, cl, hl, hyb, hBr, hg, hgl, h1, -, -, -, hB, hf⟩ := WholeSearch.fresh_ok hu
  rw [hy] at hf
  cases hf
  have hB0 : B ≠ 0 := (hu.radius.trans_le hBr).ne'
  have hreq := WholeSearch.request_one (H := p.maxHeight) (f := f') (spl := p.spl) (rb := p.borehole.rb) (D := p.borehole.D)
    (c := g) hB0 hu.height.ne' {}
  obtain ⟨c1, c2⟩ := print_core (env := WholeSearch.envOf p f' p.maxHeight B g (cl, hl, hyb)) hu.known (hu.works B g (cl, hl, hyb))
    (WholeSearch.times_one hs B g (cl, hl, hyb))
    (by show (Utilities.eskilsonLogTimes : List ℝ).length = 27; simp [Utilities.eskilsonLogTimes])
    ⟨bhe, s, sts, {}, [], []⟩ hu.at_height.symm hu.height.ne' h1 _ _ hreq hu.radius.ne' hgl none (.inl ⟨rfl, rfl⟩) tx
  have hcorr : (g.map fun v => v - log ((borehole bhe).rb / p.borehole.rb)) = g := by
    rw [hu.borehole, div_self hu.radius.ne', log_one]
    simp
  have htube : tubeOf ⟨bhe, s, sts, {}, [], []⟩ = s := by
    have hco := hu.converts
    unfold tubeOf
    cases bhe with
    | single t => cases hco; rfl
    | _ => rfl
  refine ⟨_, hheld, c1, fun hge => ?_⟩
  obtain ⟨pairs, e1, e5, e6, e7⟩ := c2 hge
  unfold responsePoints at e5
  rw [hcorr] at e5 e6
  rw [htube, hu.at_height] at e1
  exact ⟨pairs, sts.1, sts.2.1, sts.2.2, g, B, e1, h1, hg, hB, e5, e6, e7⟩

/-! ### the theorems apply -/

/-- after `compute_g_functions` on a new exchanger, it works at the heights the g-functions were computed for -/
theorem ready_at {p : WholeSearch.Problem} {f : List (ℝ × ℝ)} {bhe bhe' : Exchanger} {s s' : UTube} {H : ℝ}
    (h : WholeSearch.Sizable p f bhe s) (x y : WholeSearch.Held) (hx : WholeSearch.fresh p f p.maxHeight = .ok x)
    (hy : WholeSearch.computeG p { held := some x } = (.ok (), { held := some y }))
    (hH : H ∈ [p.minHeight, (p.minHeight + p.maxHeight) / 2, p.maxHeight]) (hu : WholeSearch.Usable p f H bhe' s') :
    Covered y.env p.minHeight p.maxHeight bhe y.state ∧ Ready y.env p.minHeight p.maxHeight bhe H s' ∧
      (WholeSearch.Seam s' → Times y.env s' (-(85 / 10)) (3003 / 1000)) ∧ y.env.db.logTime.length = 27 := by
  obtain ⟨x1, y1, h1, h2, henv, -, -, hlt, hcov, hcurve, -⟩ := WholeSearch.C97_cover h
  rw [hx] at h1
  cases h1
  rw [hy] at h2
  cases h2
  have hlow := h.low
  have hap := h.apart
  have hH' : p.minHeight ≤ H ∧ H ≤ p.maxHeight := by
    simp only [List.mem_cons, List.not_mem_nil, or_false] at hH
    rcases hH with rfl | rfl | rfl <;> constructor <;> linarith
  obtain ⟨B1, g1, sts1, cl1, hl1, hyb1, -, -, -, -, -, -, -, -, hf1⟩ := WholeSearch.fresh_ok h.usable
  rw [hx] at hf1
  cases hf1
  obtain ⟨B, g, sts, cl, hl, hyb, -, hg, hgl, -, -, -, -, -, -⟩ := WholeSearch.fresh_ok hu
  have hbb : bhe' = setHeight H bhe := by
    have := WholeSearch.makeExchanger_height h.usable.exchanger H
    have h2 := hu.exchanger
    rw [show ({ ({ p.borehole with H := p.maxHeight } : Borehole) with H := H } : Borehole) =
      { p.borehole with H := H } from rfl, h2] at this
    cases this
    rfl
  have hw := hu.works B g (cl, hl, hyb)
  have hl27 : (Utilities.eskilsonLogTimes : List ℝ).length = 27 := by simp [Utilities.eskilsonLogTimes]
  have hspl : y.env.spl = p.spl := by rw [henv]; rfl
  have hmin : y.env.minHeight = p.minHeight := by rw [henv]; rfl
  have hmax : y.env.maxHeight = p.maxHeight := by rw [henv]; rfl
  refine ⟨hcov, ⟨?_, ?_, ?_⟩, ?_, by rw [hlt, hl27]⟩
  · refine ⟨hw.nonzero, ?_, ?_, ?_, ?_⟩
    · rw [henv, ← hbb]
      exact hu.converts
    · rw [henv]
      exact hu.sound
    · rw [henv]
      exact hu.solver.sized
    · rw [henv]
      exact hu.steps
  · exact hcov.bounds H (by rw [hmin]; exact hH'.1) (by rw [hmax]; exact hH'.2)
  · intro a tb ha
    have := hcurve H hH g hg
    rw [← hspl, ha] at this
    cases this
    exact h.usable.radius.ne'
  · intro hs
    have ht := WholeSearch.times_one (p := p) (f := f) (H := H) hs B g (cl, hl, hyb)
    exact ⟨by rw [hlt]; exact ht.increasing, by rw [hlt]; exact ht.first, by rw [hlt]; exact ht.last, ht.start, ht.seam⟩

/-- One borehole under ten kilowatts, sized (to 100 m): it can be exported and printed, with the temperatures of a
simulation at 100 m; set to 50 m, it is exported as 50 m long with the tube of 100 m. -/
example (tx : Text) : ∃ y s st d text u w d', Whole.size y "hourly" s = (.ok [.notDeepEnough], st) ∧
    (oakRidge [(0, 0)] y st).1 = .ok d ∧ d.boreholeLength = 100 ∧ d.numberOfBoreholes = 1 ∧
    (Whole.simulate y "hourly" (s.at 100)).1 = .ok (u, w) ∧ maxNumber st.HPEFT = .ok u ∧
    (report tx y st).1 = .ok (Page.text text) ∧
    text.temperatures = some (tx.num4 u, tx.num4 w, tx.num4 (max (u - y.maxEFT) (y.minEFT - w))) ∧
    (oakRidge [(0, 0)] y (st.at 50)).1 = .ok d' ∧ d'.boreholeLength = 50 ∧ d'.tube = d.tube := by
  obtain ⟨x, y, st, hx, hy, hsz, hH⟩ := WholeSearch.exSized
  obtain ⟨sa, hsa⟩ := WholeSearch.exSizable 1 one_ne_zero
  obtain ⟨s, hu, hct⟩ := WholeSearch.exUsable (WholeSearch.exRow 1) (WholeSearch.exRow_ne one_ne_zero) 100 (by tauto)
    (WholeSearch.exRow_spacing 1)
  obtain ⟨s', hu', -⟩ := WholeSearch.exUsable (WholeSearch.exRow 1) (WholeSearch.exRow_ne one_ne_zero) 50 (by tauto)
    (WholeSearch.exRow_spacing 1)
  have hseam := WholeSearch.exSeam s 100 (.inr rfl) hct
  obtain ⟨hcov, hR, hT, h27⟩ := ready_at hsa x y hx hy (by show (100 : ℝ) ∈ [(50 : ℝ), (50 + 100) / 2, 100]; simp) hu
  obtain ⟨-, hR', -, -⟩ := ready_at hsa x y hx hy (by show (50 : ℝ) ∈ [(50 : ℝ), (50 + 100) / 2, 100]; simp) hu'
  obtain ⟨e1, -⟩ := WholeSearch.exp_bounds
  have hlong : (6000 : ℝ) ≤ charTime s * exp (-(85 / 10)) := by
    rw [hct]
    generalize exp (-(85 / 10 : ℝ)) = z at *
    nlinarith
  have hev := Evaluated.sized (env := y.env) (lo := 50) (hi := 100) (s := y.state) "hourly" _ _ hsz
  obtain ⟨-, e⟩ := C98_export hcov [] (by simp) st hev 100 hH s hR _ _ (hT hseam) h27 [(0, 0)]
  obtain ⟨-, e'⟩ := C98_stale hcov [] (by simp) st hev 100 hH s hR _ _ (hT hseam) h27 50 s' hR' [(0, 0)]
  obtain ⟨u, w, hsim, -, r⟩ := C100_sized hcov [] (by simp) "hourly" _ st hsz 100 hH s hR _ _ (hT hseam) h27 tx
  obtain ⟨r', st', hsim', -, -, -, hmax, -⟩ := C99_sized hcov [] (by simp) "hourly" _ st hsz [] (by simp)
  rw [hH] at hsim'
  have hru : r' = (u, w) := by
    have : (Whole.simulate y.env "hourly" (y.state.at 100)).1 = .ok r' := by
      change Whole.simulate y.env "hourly" (y.state.at 100) = _ at hsim'
      rw [hsim']
    rw [hsim] at this
    exact (Except.ok.inj this).symm
  obtain ⟨d, -, -, -, -, -, d1, -, -, d2, d3, d4, -⟩ := e (by linarith)
  obtain ⟨d', -, -, -, -, -, d1', -, -, d2', d3', -⟩ := e' (by linarith)
  obtain ⟨pairs, -, -, -, -, -, p1, -⟩ := r (by linarith)
  refine ⟨y.env, y.state, st, d, _, u, w, d', hsz, d1, d2, d3, hsim, ?_, p1, rfl, d1', d2', ?_⟩
  · rw [hmax, hru]
  · exact (d3' (by intro t; simp)).unique d4

/-- the design of the search example can be exported and printed as found, without temperatures -/
example (tx : Text) : ∃ n c' y d text, WholeSearch.findDesign WholeSearch.exProblem "rectangle"
      (.flat [WholeSearch.exRow 1, WholeSearch.exRow n]) {} = (.ok (some (1, WholeSearch.exRow n)), c') ∧
    c'.held = some y ∧ (oakRidge (WholeSearch.exRow n) y.env y.state).1 = .ok d ∧ d.numberOfBoreholes = n ∧
    (report tx y.env y.state).1 = .ok (Page.text text) ∧ text.temperatures = none := by
  obtain ⟨n, hn⟩ := WholeSearch.exFind
  rcases hd : WholeSearch.findDesign WholeSearch.exProblem "rectangle"
    (.flat [WholeSearch.exRow 1, WholeSearch.exRow n]) {} with ⟨r, c'⟩
  rw [hd] at hn
  change r = _ at hn
  subst hn
  have h0 : n ≠ 0 := by
    rintro rfl
    obtain ⟨k, f, x, -, -, hr, -, hx, -⟩ := WholeSearch.C93_returned "rectangle" (by decide) _ c' _ hd
    cases hr
    rw [show WholeSearch.exRow 0 = [] from rfl,
      (WholeSearch.C95_refused (p := WholeSearch.exProblem) (f := [])).1 rfl] at hx
    cases hx
  obtain ⟨s, hu, hct⟩ := WholeSearch.exUsable (WholeSearch.exRow n) (WholeSearch.exRow_ne h0) 100 (by tauto)
    (WholeSearch.exRow_spacing n)
  have hseam := WholeSearch.exSeam s 100 (.inr rfl) hct
  obtain ⟨e1, -⟩ := WholeSearch.exp_bounds
  have hlong : (6000 : ℝ) ≤ charTime s * exp (-(85 / 10)) := by
    rw [hct]
    generalize exp (-(85 / 10 : ℝ)) = z at *
    nlinarith
  obtain ⟨y, hy, -, e⟩ := C98_design "rectangle" (by decide) _ c' 1 _ hd _ s hu hseam
  obtain ⟨y', hy', -, r⟩ := C100_design "rectangle" (by decide) _ c' 1 _ hd _ s hu hseam tx
  rw [hy] at hy'
  cases hy'
  obtain ⟨d, -, -, -, -, d1, -, -, -, d3, -⟩ := e (by linarith)
  obtain ⟨pairs, -, -, -, -, B, p1, -⟩ := r (by linarith)
  exact ⟨n, c', y, d, _, hd, hy, d1, by rw [d3]; simp [WholeSearch.exRow], p1, rfl⟩

/-- one borehole under ten kilowatts, simulated at 100 m: the report has the temperatures of that simulation -/
example (tx : Text) : ∃ (y : Whole.Env) (s st : Whole.State) (text : Page) (u w : ℝ), Whole.simulate y "hourly" (s.at 100) = (.ok (u, w), st) ∧
    (report tx y st).1 = .ok (Page.text text) ∧ text.depth = tx.num4 100 ∧
    text.temperatures = some (tx.num4 u, tx.num4 w, tx.num4 (max (u - y.maxEFT) (y.minEFT - w))) := by
  obtain ⟨x, y, st0, hx, hy, hsz, hH⟩ := WholeSearch.exSized
  obtain ⟨sa, hsa⟩ := WholeSearch.exSizable 1 one_ne_zero
  obtain ⟨s, hu, hct⟩ := WholeSearch.exUsable (WholeSearch.exRow 1) (WholeSearch.exRow_ne one_ne_zero) 100 (by tauto)
    (WholeSearch.exRow_spacing 1)
  have hseam := WholeSearch.exSeam s 100 (.inr rfl) hct
  obtain ⟨hcov, hR, hT, h27⟩ := ready_at hsa x y hx hy (by show (100 : ℝ) ∈ [(50 : ℝ), (50 + 100) / 2, 100]; simp) hu
  obtain ⟨e1, -⟩ := WholeSearch.exp_bounds
  have hlong : (6000 : ℝ) ≤ charTime s * exp (-(85 / 10)) := by
    rw [hct]
    generalize exp (-(85 / 10 : ℝ)) = z at *
    nlinarith
  obtain ⟨u, w, hsim, -⟩ := C100_sized hcov [] (by simp) "hourly" _ st0 hsz 100 hH s hR _ _ (hT hseam) h27 tx
  obtain ⟨-, r⟩ := C100_simulated hcov [] (by simp) 100 s hR "hourly" u w _ (Prod.ext hsim rfl) _ _ (hT hseam) h27 tx
  obtain ⟨pairs, -, -, -, -, -, p1, -⟩ := r (by linarith)
  exact ⟨y.env, y.state, _, _, u, w, Prod.ext hsim rfl, p1, rfl, rfl⟩

end

end Ghedt.Report
