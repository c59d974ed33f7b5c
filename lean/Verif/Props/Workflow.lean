import Verif.Props.ZonedDesign

/-!
# From sensible arguments to a height (C115)

C97 says what sizing makes of an exchanger if the simulations it needs succeed.  Here: for sensible arguments they do, so
designing, computing the g-functions and sizing has one of a few outcomes.
-/

set_option linter.unusedSectionVars false

namespace Ghedt.GHE

/-- a root finder on an objective that is known at the heights asked for -/
theorem run_on_asked {env : GheEnv ℝ} {method : String} {f : ℝ → ℝ} (q : Finder ℝ)
    (hf : ∀ H ∈ asked f q, Excess env method H (f H)) (s : GheState ℝ) :
    ∃ s', q.run (localObjective env method) s = (Bhe.outcome f q, s') ∧ s'.H = (asked f q).getLast?.getD s.H := by
  induction q generalizing s with
  | done x => exact ⟨s, rfl, rfl⟩
  | fail e => exact ⟨s, rfl, rfl⟩
  | ask x next ih =>
    obtain ⟨s1, h1, hH⟩ := hf x (by simp [asked]) s
    obtain ⟨s2, h2, h3⟩ := ih (f x) (fun H hH => hf H (by rw [asked]; exact List.mem_cons_of_mem _ hH)) s1
    refine ⟨s2, ?_, ?_⟩
    · unfold Finder.run
      rw [St.bind_ok h1, h2]
      rfl
    · rw [h3, asked, hH, List.getLast?_cons]
      rfl

/-- sizing with a sign change: the outcome is the root finder's -/
theorem size_sign_change (brent : ℝ → ℝ → Finder ℝ) (env : GheEnv ℝ) (method : String) (f : ℝ → ℝ)
    (h0 : Excess env method env.minHeight (f env.minHeight)) (h1 : Excess env method env.maxHeight (f env.maxHeight))
    (hf : ∀ H ∈ asked f (brent env.minHeight env.maxHeight), Excess env method H (f H))
    (hsign : f env.minHeight * f env.maxHeight < 0) (s : GheState ℝ) :
    (∀ x, Bhe.outcome f (brent env.minHeight env.maxHeight) = .ok x → ∃ w s', size brent env method s = (.ok w, s') ∧
      s'.H = (asked f (brent env.minHeight env.maxHeight)).getLast?.getD env.maxHeight) ∧
    (∀ e, Bhe.outcome f (brent env.minHeight env.maxHeight) = .error e → (size brent env method s).1 = .error e) := by
  unfold size
  rw [St.modify_bind, St.get_bind]
  set s0 : GheState ℝ := { s with H := (env.maxHeight + env.minHeight) / 2 } with hs0
  obtain ⟨s1, e1, -⟩ := h0 s0
  obtain ⟨s2, e2, hH⟩ := h1 s1
  obtain ⟨s3, e3, hH3⟩ := run_on_asked _ hf s2
  have hroot : solveRoot brent s0.H (localObjective env method) (some env.minHeight) (some env.maxHeight) s0 =
      (Bhe.outcome f (brent env.minHeight env.maxHeight), s3) := by
    unfold solveRoot
    simp only [Option.getD_some]
    rw [St.bind_ok e1, St.bind_ok e2, signDiv_eq, signDiv_eq]
    rcases mul_neg_iff.1 hsign with ⟨p, q⟩ | ⟨p, q⟩
    · rw [if_neg p.ne', if_neg q.ne, if_pos p, if_neg (not_lt.2 q.le)]
      exact e3
    · rw [if_neg p.ne, if_neg q.ne', if_neg (not_lt.2 p.le), if_pos q]
      exact e3
  constructor
  · intro x hx
    rw [hx] at hroot
    rw [St.bind_ok hroot, St.get_bind]
    exact ⟨_, s3, rfl, by rw [hH3, hH]⟩
  · intro e he
    rw [he] at hroot
    rw [St.bind_error hroot]

end Ghedt.GHE

namespace Ghedt.WholeSearch
open Real Ghedt.GHE Ghedt.Bhe Ghedt.Radial Ghedt.Whole Ghedt.Search Ghedt.Utilities Ghedt.Spec Ghedt.Network Ghedt.Design
  Ghedt.Domains

noncomputable section

variable {p : Problem} {f : Field} {H : ℝ}

/-- What sizing a field needs in addition to sensible arguments: bounds that differ by more than the tolerance of the
interpolation, both of them fine heights, numbers that are read back as written, an equivalent tube at every height needed,
an interpolation that passes through its points and keeps constants constant, and a root finder that asks for fine heights
only. -/
structure SizingFine (p : Problem) (f : Field) : Prop where
  apart : p.minHeight + 2 / 1000000 ≤ p.maxHeight
  heights : HeightFine p p.minHeight ∧ HeightFine p p.maxHeight
  converts : Converts p f p.minHeight ∧ Converts p f p.maxHeight
  text : ∀ H ∈ [p.minHeight, (p.minHeight + p.maxHeight) / 2, p.maxHeight], TextFine p f H
  spline : GF.Reproduces p.spl
  constants : ∀ kind x y c h, 2 ≤ x.length → x.length = y.length → x.Nodup → (∀ v ∈ y, v = c) → p.spl kind x y h = c
  asked : ∀ e : ℝ → ℝ, ∀ H ∈ asked e (p.brent p.minHeight p.maxHeight), HeightFine p H ∧ Converts p f H

/-- What sizing by `method` does to the exchanger `y`, after any use within the bounds: `a` and `b` are how far the
temperatures simulated at the minimum and the maximum height are outside the limits.  If one of them is 0,
`ZeroDivisionError` is raised.  If they have the same sign, the height left is the maximum, with the warning "not deep
enough".  Otherwise the root finder sees the temperatures simulated at every height it asks for; an exception of it is
passed on; and if it returns, the height left is the last one it asked for, between the bounds, with a warning exactly at a
bound. -/
def SizeOutcome (p : Problem) (method : String) (y : Held) : Prop :=
  ∃ (e : ℝ → ℝ) (a b : ℝ), a = e p.minHeight ∧ b = e p.maxHeight ∧
    (∀ H ∈ p.minHeight :: p.maxHeight :: asked e (p.brent p.minHeight p.maxHeight), ∃ u w,
      (Whole.simulate y.env method (y.state.at H)).1 = .ok (u, w) ∧ e H = excess p u w) ∧
    ∀ ops : List Op, (∀ z, Op.height z ∈ ops → p.minHeight ≤ z ∧ z ≤ p.maxHeight) →
      ∀ st, st = ops.foldl (perform y.env) y.state →
      (a = 0 ∨ b = 0 → (Whole.size y.env method st).1 = .error .zeroDivisionError) ∧
      (0 < a * b → ∃ s', Whole.size y.env method st = (.ok [.notDeepEnough], s') ∧
        (Whole.borehole s'.bhe).H = p.maxHeight) ∧
      (a * b < 0 → ∀ er, outcome e (p.brent p.minHeight p.maxHeight) = .error er →
        (Whole.size y.env method st).1 = .error er) ∧
      (a * b < 0 → ∀ x, outcome e (p.brent p.minHeight p.maxHeight) = .ok x →
        ∃ w s', Whole.size y.env method st = (.ok w, s') ∧
          (Whole.borehole s'.bhe).H = (asked e (p.brent p.minHeight p.maxHeight)).getLast?.getD p.maxHeight ∧
          p.minHeight ≤ (Whole.borehole s'.bhe).H ∧ (Whole.borehole s'.bhe).H ≤ p.maxHeight ∧
          (.notShallowEnough ∈ w ↔ (Whole.borehole s'.bhe).H = p.minHeight) ∧
          (.notDeepEnough ∈ w ↔ (Whole.borehole s'.bhe).H = p.maxHeight))

/-- sensible arguments can be sized in the sense of C97 -/
theorem sizable_of_sensible (h : Sensible p) (hf : f ≠ []) (hd : f.Nodup) (hz : SizingFine p f) :
    ∃ bhe s, Sizable p f bhe s ∧ Seam s ∧ charTime s = soilTime p p.maxHeight := by
  obtain ⟨bhe, s, hu, hs, hct, -⟩ := C105_usable h hf hd hz.heights.2 (hz.text _ (by simp)) hz.converts.2
  have hw : p.media.hardware ≠ .other := by
    intro e
    have := h.pipes
    rw [e] at this
    exact this
  have hlow := hz.heights.1.pos
  have hap := hz.apart
  obtain ⟨lib, r, hgf, hA, hr⟩ := h.curves
  refine ⟨bhe, s, ⟨hu, hlow, hap, inside_of_bracketed (h.brent _ _ (by linarith)), hz.spline, ?_, ?_⟩, hs, hct⟩
  · intro B hB x hx
    have t1 := hz.text p.minHeight (by simp) B hB
    have t2 := hz.text ((p.minHeight + p.maxHeight) / 2) (by simp) B hB
    have t3 := hz.text p.maxHeight (by simp) B hB
    simp only [List.mem_cons, List.not_mem_nil, or_false] at hx t1 t2 t3
    rcases hx with rfl | rfl | rfl | rfl | rfl | rfl
    · exact t1 _ (by tauto)
    · exact t1 _ (by tauto)
    · exact t2 _ (by tauto)
    · exact t3 _ (by tauto)
    · exact t1 _ (by tauto)
    · exact t1 _ (by tauto)
  · intro H hH
    have hpos : 0 < H := by
      simp only [List.mem_cons, List.not_mem_nil, or_false] at hH
      rcases hH with rfl | rfl | rfl <;> linarith
    rw [hgf]
    exact C102_answered hA r hr _ p.media f H _ _ hw h.soil.1 h.soil.2 hf hd hpos h.radius.1

theorem fresh_hours {bhe : Exchanger} {s : UTube} (h : Usable p f H bhe s) {x : Held} (hx : fresh p f H = .ok x) :
    x.env.load.length = x.env.hour.length ∧ 2 < x.env.hour.length ∧
      (x.env.hour.drop 2).getLast? = some (hoursOf p.endMonth.toNat : ℝ) := by
  obtain ⟨B, c, sts, cl, hl, hy, hB, hc, hcl, h1, h2, h3, h4, h5, hf⟩ := fresh_ok h
  rw [hx] at hf
  cases hf
  dsimp only at *
  obtain ⟨m1, m2⟩ := h.months
  obtain ⟨a, ha⟩ : ∃ a : ℕ, p.startMonth = a := ⟨p.startMonth.toNat, by omega⟩
  obtain ⟨b, hb⟩ : ∃ b : ℕ, p.endMonth = b := ⟨p.endMonth.toNat, by omega⟩
  obtain ⟨f1, f2, f3, hy', h4', h6⟩ := GL.C63_hybrid h2 h3 (start := a) (finish := b) (by omega) (by omega)
  rw [← ha, ← hb, h4] at h4'
  cases h4'
  obtain ⟨l1, -, l3, l4, l2⟩ := GL.C63_aligned f1 f2 f3 (by omega) (by omega) h6
  obtain ⟨-, -, e3⟩ := GL.C63_ends f1 f2 f3 (by omega) (by omega) h6
  have hlen3 : 2 < hy.hour.length := by
    rw [← e3]
    unfold monthEndPos
    rw [Finset.sum_Ico_succ_top (by omega)]
    omega
  refine ⟨l1, hlen3, ?_⟩
  show (hy.hour.drop 2).getLast? = _
  rw [List.getLast?_drop, if_neg (by omega), hb]
  exact l2

theorem hours_le {l : List ℝ} {b : ℝ} (hl : l.getLast? = some b) {d : ℝ} (hd : 0 ≤ d)
    (h : l.Pairwise fun u v => d ≤ 3600 * (v - u)) : ∀ u ∈ l, u ≤ b := by
  intro u hu
  obtain ⟨ys, rfl⟩ := List.getLast?_eq_some_iff.1 hl
  rcases List.mem_append.1 hu with hu | hu
  · have := (List.pairwise_append.1 h).2.2 u hu b (by simp)
    linarith
  · rw [List.mem_singleton.1 hu]

theorem soilTime_mono (h : Sensible p) {H H' : ℝ} (h0 : 0 ≤ H) (hH : H ≤ H') : soilTime p H ≤ soilTime p H' := by
  have h1 := h.soil.1
  have h2 := h.soil.2
  unfold soilTime
  gcongr

/-- for sensible arguments, the covered exchanger is ready at every fine height between the bounds -/
theorem ready_between (h : Sensible p) (hf : f ≠ []) (hd : f.Nodup) (hz : SizingFine p f) {x y : Held}
    (hx : fresh p f p.maxHeight = .ok x) (hy : computeG p { held := some x } = (.ok (), { held := some y }))
    (h1 : p.minHeight ≤ H) (h2 : H ≤ p.maxHeight) (hH : HeightFine p H) (hc : Converts p f H) :
    ∃ bhe s, Covered y.env p.minHeight p.maxHeight bhe y.state ∧ Ready y.env p.minHeight p.maxHeight bhe H s ∧
      Times y.env s (-(85 / 10)) (3003 / 1000) ∧ charTime s = soilTime p H ∧ y.env.db.logTime = eskilsonLogTimes ∧
      x.state.bhe = bhe ∧ (borehole bhe).rb = p.borehole.rb ∧ (y.env.ext = p.ext ∧ y.env.brent = p.brent ∧
        y.env.solve = p.solve ∧ y.env.fuel = p.fuel ∧ y.env.spl = p.spl ∧ y.env.bSpacing = x.env.bSpacing) ∧
      ∀ a tb, GF.request y.env.spl y.env.db (y.env.bSpacing / H) "default" {} = (.ok a, tb) → a.rb = p.borehole.rb := by
  obtain ⟨bhe, s, hs, hseam, hct⟩ := sizable_of_sensible h hf hd hz
  obtain ⟨x1, y1, k1, k2, henv, hst, -, hlt, hcov, -, hrad⟩ := C97_cover hs
  rw [hx] at k1
  cases k1
  rw [hy] at k2
  cases k2
  obtain ⟨bhe', s', e1, e2, e3, e4⟩ := sound_of_sensible h hf hH.pos hc
  have hbhe : bhe' = setHeight H bhe := by
    have := makeExchanger_height hs.usable.exchanger H
    rw [show ({ ({ p.borehole with H := p.maxHeight } : Borehole) with H := H } : Borehole) =
      { p.borehole with H := H } from rfl, e1] at this
    cases this
    rfl
  subst hbhe
  have hct' : charTime s' = soilTime p H := charTime_made e1 e2
  have hext : y.env.ext = p.ext ∧ y.env.brent = p.brent ∧ y.env.solve = p.solve ∧ y.env.fuel = p.fuel ∧
      y.env.spl = p.spl ∧ y.env.hourly = p.hourly ∧ y.env.startMonth = p.startMonth ∧ y.env.endMonth = p.endMonth ∧
      y.env.load = x.env.load ∧ y.env.hour = x.env.hour ∧ y.env.minHeight = p.minHeight ∧
      y.env.maxHeight = p.maxHeight ∧ x.state.bhe = bhe ∧ y.env.bSpacing = x.env.bSpacing := by
    obtain ⟨B, c, sts, cl, hl, hyb, -, -, -, -, -, -, -, -, hfr⟩ := fresh_ok hs.usable
    rw [hx] at hfr
    cases hfr
    rw [henv]
    exact ⟨rfl, rfl, rfl, rfl, rfl, rfl, rfl, rfl, rfl, rfl, rfl, rfl, rfl, rfl⟩
  obtain ⟨q1, q2, q3, q4, q5, q6, q7, q8, q9, q10, q11, q12, q13, q14⟩ := hext
  have hwithin : Within y.env p.minHeight p.maxHeight H :=
    hcov.bounds H (by rw [q11]; exact h1) (by rw [q12]; exact h2)
  have hrb : ∀ a tb, GF.request y.env.spl y.env.db (y.env.bSpacing / H) "default" {} = (.ok a, tb) →
      a.rb = p.borehole.rb := by
    intro a tb hreq
    rw [request_within hcov.db hcov.range hwithin {} (Or.inl rfl)] at hreq
    cases hreq
    show y.env.spl _ _ _ _ = _
    rw [q5, hz.constants _ _ _ p.borehole.rb _ ?_ ?_ hcov.db.nodup hrad]
    · rw [PyDict.keys, List.length_map]
      exact hcov.db.two
    · rw [PyDict.values, List.length_map, ← List.length_map (f := Prod.fst) (as := y.env.db.rb)]
      exact congrArg List.length hcov.db.rb.symm
  have hready : Ready y.env p.minHeight p.maxHeight bhe H s' := by
    refine ⟨⟨hH.pos.ne', ?_, ?_, ?_, ?_⟩, hwithin, ?_⟩
    · rw [q1, q2]; exact e2
    · rw [q1]; exact e3
    · rw [q3]; exact e4.sized
    · rw [q4, hct']; exact hH.steps
    · intro a tb hreq
      rw [hrb a tb hreq]
      exact h.radius.1.ne'
  have htimes : Times y.env s' (-(85 / 10)) (3003 / 1000) := by
    refine ⟨?_, ?_, ?_, ?_, ?_⟩
    · rw [hlt]; exact eskilson_pairwise
    · rw [hlt]; norm_num [eskilsonLogTimes]
    · rw [hlt]; norm_num [eskilsonLogTimes]
    · rw [hct']; exact hH.late
    · rw [hct']; exact hH.seam
  exact ⟨bhe, s', hcov, hready, htimes, hct', hlt, q13, by rw [hs.usable.borehole], ⟨q1, q2, q3, q4, q5, q14⟩, hrb⟩

/-- for sensible arguments, the covered exchanger can be simulated at every fine height between the bounds -/
theorem simulate_between (h : Sensible p) (hf : f ≠ []) (hd : f.Nodup) (hz : SizingFine p f) {method : String}
    (hp : PeriodFine { p with method := method } p.minHeight) {x y : Held} (hx : fresh p f p.maxHeight = .ok x)
    (hy : computeG p { held := some x } = (.ok (), { held := some y })) (h1 : p.minHeight ≤ H) (h2 : H ≤ p.maxHeight)
    (hH : HeightFine p H) (hc : Converts p f H) :
    ∃ u w, (Whole.simulate y.env method (y.state.at H)).1 = .ok (u, w) := by
  obtain ⟨bhe0, s'', hcov, hready, htimes, hct', -⟩ := ready_between h hf hd hz hx hy h1 h2 hH hc
  obtain ⟨bhe, s, hs, -⟩ := sizable_of_sensible h hf hd hz
  obtain ⟨x1, y1, k1, k2, henv, -⟩ := C97_cover hs
  rw [hx] at k1
  cases k1
  rw [hy] at k2
  cases k2
  obtain ⟨q6, q7, q8, q9, q10⟩ : y.env.hourly = p.hourly ∧ y.env.startMonth = p.startMonth ∧
      y.env.endMonth = p.endMonth ∧ y.env.load = x.env.load ∧ y.env.hour = x.env.hour := by
    obtain ⟨B, c, sts, cl, hl, hyb, -, -, -, -, -, -, -, -, hfr⟩ := fresh_ok hs.usable
    rw [hx] at hfr
    cases hfr
    rw [henv]
    exact ⟨rfl, rfl, rfl, rfl, rfl⟩
  have hmono := soilTime_mono h hz.heights.1.pos.le h1
  have hexp : (0 : ℝ) < exp (3003 / 1000) := exp_pos _
  rcases hp with ⟨hm, n, n1, n2, n3⟩ | ⟨hm, m1, m2⟩
  · dsimp only at hm
    subst hm
    obtain ⟨⟨u, w⟩, st', hsim, -⟩ := C90_hourly hcov [] (by simp) H s'' hready _ _ htimes n (by exact_mod_cast n1)
      (by rw [q7, q8]; exact n2) (by rw [q6]; exact h.year) (by
        rw [hct']
        have n3 : 3600 * (8760 * (n : ℝ)) ≤ soilTime p p.minHeight * exp (3003 / 1000) := n3
        push_cast
        nlinarith [mul_le_mul_of_nonneg_right hmono hexp.le])
    exact ⟨u, w, by rw [show (y.state.at H) = ((List.foldl (perform y.env) y.state []).at H) from rfl, hsim]⟩
  · dsimp only at hm
    subst hm
    obtain ⟨l1, l2, l3⟩ := fresh_hours hs.usable hx
    have hgap : (0 :: x.env.hour.drop 2).Pairwise (fun u v => 1 / 1000000 ≤ v - u) := by
      rcases m1 with m1 | m1
      · exact C104_input hs.usable m1 x hx
      · exact C104_ends hs.usable m1 x hx
    have hgap' : (0 :: x.env.hour.drop 2).Pairwise (fun u v => 1 / 10 ^ 12 ≤ 3600 * (v - u)) := by
      refine hgap.imp ?_
      intro u v huv
      have : (1 : ℝ) / 10 ^ 12 ≤ 3600 * (1 / 1000000) := by norm_num
      linarith
    have m2 : 3600 * (hoursOf p.endMonth.toNat : ℝ) ≤ soilTime p p.minHeight * exp (3003 / 1000) := m2
    obtain ⟨⟨u, w⟩, st', hsim, -⟩ := (C90_hybrid hcov [] (by simp) H s'' hready _ _ htimes (by rw [q9, q10]; exact l1)
      (by rw [q9, l1]; exact l2)).1 (by rw [q10]; exact hgap') (by
        rw [q10, hct']
        intro v hv
        have := hours_le l3 (by positivity) (List.pairwise_cons.1 hgap').2 v hv
        nlinarith [mul_le_mul_of_nonneg_right hmono hexp.le])
    exact ⟨u, w, by rw [show (y.state.at H) = ((List.foldl (perform y.env) y.state []).at H) from rfl, hsim]⟩

/-- C115: for sensible arguments, an exchanger newly made for the maximum height can be covered with g-functions and sized:
nothing is raised but `ZeroDivisionError` when a temperature is at its limit exactly, and what the root finder raises. -/
theorem C115_size (h : Sensible p) (hf : f ≠ []) (hd : f.Nodup) (hz : SizingFine p f) (method : String)
    (hp : PeriodFine { p with method := method } p.minHeight) :
    ∃ x y, fresh p f p.maxHeight = .ok x ∧ computeG p { held := some x } = (.ok (), { held := some y }) ∧
      SizeOutcome p method y := by
  classical
  obtain ⟨bhe, s, hs, -⟩ := sizable_of_sensible h hf hd hz
  obtain ⟨x, y, hx, hy, henv, -, -, -, hcov, -⟩ := C97_cover hs
  refine ⟨x, y, hx, hy, ?_⟩
  have hlt : p.minHeight < p.maxHeight := by linarith [hz.apart]
  -- the objective: how far the simulated temperatures are outside the limits, where they can be simulated
  let e : ℝ → ℝ := fun H => if hH : ∃ v : ℝ × ℝ, (Whole.simulate y.env method (y.state.at H)).1 = .ok v then
    excess p hH.choose.1 hH.choose.2 else 0
  have hin : Inside p.minHeight p.maxHeight (p.brent p.minHeight p.maxHeight) := hs.finder
  have hask : ∀ H ∈ asked e (p.brent p.minHeight p.maxHeight), p.minHeight ≤ H ∧ H ≤ p.maxHeight := by
    generalize p.brent p.minHeight p.maxHeight = q at hin
    induction hin with
    | done x => simp [asked]
    | fail er => simp [asked]
    | ask z next a1 a2 _ ih =>
      intro H hH
      rw [asked, List.mem_cons] at hH
      rcases hH with rfl | hH
      · exact ⟨a1, a2⟩
      · exact ih _ H hH
  have hsim : ∀ H ∈ p.minHeight :: p.maxHeight :: asked e (p.brent p.minHeight p.maxHeight), ∃ u w,
      (Whole.simulate y.env method (y.state.at H)).1 = .ok (u, w) ∧ e H = excess p u w := by
    intro H hH
    have : ∃ u w, (Whole.simulate y.env method (y.state.at H)).1 = .ok (u, w) := by
      rw [List.mem_cons, List.mem_cons] at hH
      rcases hH with rfl | rfl | hH
      · exact simulate_between h hf hd hz hp hx hy le_rfl hlt.le hz.heights.1 hz.converts.1
      · exact simulate_between h hf hd hz hp hx hy hlt.le le_rfl hz.heights.2 hz.converts.2
      · obtain ⟨b1, b2⟩ := hask H hH
        obtain ⟨c1, c2⟩ := hz.asked e H hH
        exact simulate_between h hf hd hz hp hx hy b1 b2 c1 c2
    obtain ⟨u, w, huw⟩ := this
    have hex : ∃ v : ℝ × ℝ, (Whole.simulate y.env method (y.state.at H)).1 = .ok v := ⟨_, huw⟩
    refine ⟨u, w, huw, ?_⟩
    show (if hH : _ then _ else _) = _
    rw [dif_pos hex]
    have h2 := Except.ok.inj (hex.choose_spec.symm.trans huw)
    rw [h2]
  obtain ⟨u0, w0, s0, e0⟩ := hsim p.minHeight (by simp)
  obtain ⟨u1, w1, s1, e1⟩ := hsim p.maxHeight (by simp)
  refine ⟨e, _, _, rfl, rfl, hsim, ?_⟩
  intro ops hops st hst
  obtain ⟨t1, t2, t3, -⟩ := C97_size hs x y hx hy ops hops method u0 w0 u1 w1 _ _ s0 s1 e0 e1 st hst
  have henv' : y.env.minHeight = p.minHeight ∧ y.env.maxHeight = p.maxHeight ∧ y.env.maxEFT = p.maxEFT ∧
      y.env.minEFT = p.minEFT ∧ y.env.brent = p.brent := by
    obtain ⟨B, c, sts, cl, hl, hyb, -, -, -, -, -, -, -, -, hfr⟩ := fresh_ok hs.usable
    rw [hx] at hfr
    cases hfr
    rw [henv]
    exact ⟨rfl, rfl, rfl, rfl, rfl⟩
  obtain ⟨hmin, hmax, hmx, hmn, hbr⟩ := henv'
  have hwi : ∀ z, p.minHeight ≤ z → z ≤ p.maxHeight → Within y.env p.minHeight p.maxHeight z := fun z a1 a2 =>
    hcov.bounds z (by rw [hmin]; exact a1) (by rw [hmax]; exact a2)
  have href := (C89_refinement hcov ops (fun z hz' => hwi z (hops z hz').1 (hops z hz').2) method st hst _ rfl).2
  rw [hbr] at href
  have hex : ∀ H ∈ p.minHeight :: p.maxHeight :: asked e (p.brent p.minHeight p.maxHeight),
      Excess (gheEnv y.env fun z => (prepare y.env (y.state.at z)).1) method H (e H) := by
    intro H hH
    obtain ⟨u, w, q1, q2⟩ := hsim H hH
    have hb : p.minHeight ≤ H ∧ H ≤ p.maxHeight := by
      rw [List.mem_cons, List.mem_cons] at hH
      rcases hH with rfl | rfl | hH
      · exact ⟨le_rfl, hlt.le⟩
      · exact ⟨hlt.le, le_rfl⟩
      · exact hask H hH
    have := excess_of hcov method H (hwi H hb.1 hb.2) u w q1
    rw [hmx, hmn] at this
    rw [q2]
    exact this
  have hsc : e p.minHeight * e p.maxHeight < 0 → _ := fun hsign => size_sign_change p.brent
    (gheEnv y.env fun z => (prepare y.env (y.state.at z)).1) method e
    (by show Excess _ method y.env.minHeight (e y.env.minHeight); rw [hmin]; exact hex _ (by simp))
    (by show Excess _ method y.env.maxHeight (e y.env.maxHeight); rw [hmax]; exact hex _ (by simp))
    (by
      show ∀ H ∈ asked e (p.brent y.env.minHeight y.env.maxHeight), _
      rw [hmin, hmax]
      exact fun H hH => hex H (by simp [hH]))
    (by show e y.env.minHeight * e y.env.maxHeight < 0; rw [hmin, hmax]; exact hsign) (view st)
  refine ⟨t1, t2, ?_, ?_⟩
  · intro hsign er her
    have := (hsc hsign).2 er (by
      show outcome e (p.brent y.env.minHeight y.env.maxHeight) = _
      rw [hmin, hmax]
      exact her)
    rw [href] at this
    exact this
  · intro hsign x0 hx0
    obtain ⟨w, s', g1, g2⟩ := (hsc hsign).1 x0 (by
      show outcome e (p.brent y.env.minHeight y.env.maxHeight) = _
      rw [hmin, hmax]
      exact hx0)
    rw [href] at g1
    rcases hr : Whole.size y.env method st with ⟨r, t⟩
    rw [hr] at g1
    cases g1
    refine ⟨w, t, rfl, ?_, t3 w t hr⟩
    have g2 : (Whole.borehole t.bhe).H = (asked e (p.brent y.env.minHeight y.env.maxHeight)).getLast?.getD y.env.maxHeight := g2
    rw [hmin, hmax] at g2
    exact g2

/-- whatever the temperatures, sizing raises only the two kinds of exceptions -/
theorem SizeOutcome.errors {method : String} {y : Held} (h : SizeOutcome p method y) {er : PyErr}
    (he : (Whole.size y.env method y.state).1 = .error er) :
    er = .zeroDivisionError ∧ (∃ H, (H = p.minHeight ∨ H = p.maxHeight) ∧ ∃ u w,
      (Whole.simulate y.env method (y.state.at H)).1 = .ok (u, w) ∧ excess p u w = 0) ∨
    ∃ e : ℝ → ℝ, outcome e (p.brent p.minHeight p.maxHeight) = .error er := by
  obtain ⟨e, a, b, rfl, rfl, hsim, h⟩ := h
  obtain ⟨t1, t2, t3, t4⟩ := h [] (by simp) y.state rfl
  rcases lt_trichotomy (e p.minHeight * e p.maxHeight) 0 with hs | hs | hs
  · right
    refine ⟨e, ?_⟩
    cases ho : outcome e (p.brent p.minHeight p.maxHeight) with
    | ok x =>
      obtain ⟨w, s', g1, -⟩ := t4 hs x ho
      rw [g1] at he
      cases he
    | error er' =>
      rw [t3 hs er' ho] at he
      cases he
      rfl
  · left
    have h0 := mul_eq_zero.1 hs
    rw [t1 h0] at he
    cases he
    refine ⟨rfl, ?_⟩
    rcases h0 with h0 | h0
    · obtain ⟨u, w, g1, g2⟩ := hsim p.minHeight (by simp)
      exact ⟨_, .inl rfl, u, w, g1, by rw [← g2, h0]⟩
    · obtain ⟨u, w, g1, g2⟩ := hsim p.maxHeight (by simp)
      exact ⟨_, .inr rfl, u, w, g1, by rw [← g2, h0]⟩
  · obtain ⟨s', g1, -⟩ := t2 hs
    rw [g1] at he
    cases he

/-- C115: a design returned by the near-square, rectangle or bi-rectangle routine, for sensible arguments: computing the
g-functions raises nothing, and sizing has the outcomes of `C115_size`.  If the method of sizing is the one of the search,
the temperatures simulated at the maximum height are within the limits, unless the search took the first field because it is
within them at the minimum height. -/
theorem C115_design (routine : String) (hr : routine ≠ "bi-zoned") (c : Candidates ℝ) (h : Sensible p) (method : String)
    (hp : PeriodFine { p with method := method } p.minHeight)
    (hc : ∀ k f, Candidate c k f → f ≠ [] ∧ f.Nodup ∧ SizingFine p f) (r : Option (ℤ × Field)) (c' : State)
    (hd : findDesign p routine c {} = (.ok r, c')) :
    ∃ (k : ℕ) (f : Field) (y : Held), r = some ((k : ℤ), f) ∧ Candidate c k f ∧
      computeG p c' = (.ok (), { c' with held := some y }) ∧ SizeOutcome p method y ∧
      (method = p.method → ∃ u w, (Whole.simulate y.env method (y.state.at p.maxHeight)).1 = .ok (u, w) ∧
        (WithinLimits p u w ∨ k = 0 ∧ ∃ u0 w0, Extremes p f p.minHeight u0 w0 ∧ WithinLimits p u0 w0)) := by
  obtain ⟨k, f, x, hi, lo, hr', hcand, hx, hheld, hsim, hlim⟩ := C93_returned routine hr c c' r hd
  obtain ⟨g1, g2, g3⟩ := hc k f hcand
  obtain ⟨x1, y, hx1, hy, ho⟩ := C115_size h g1 g2 g3 method hp
  rw [hx] at hx1
  cases hx1
  refine ⟨k, f, y, hr', hcand, computeG_books hheld hy, ho, ?_⟩
  rintro rfl
  obtain ⟨bhe, s, hs, -⟩ := sizable_of_sensible h g1 g2 g3
  have := (C97_same hs x y hx hy [] (by simp) (by simp) bhe s hs.usable p.method (.inr rfl) x hx).1
  rw [hsim] at this
  exact ⟨hi, lo, this, hlim⟩

/-- A temperature that sizing simulates for the field at a bound of the height is at its limit exactly. -/
def SizingAtLimit (p : Problem) (f : Field) : Prop :=
  ∃ (x y : Held) (H u w : ℝ), fresh p f p.maxHeight = .ok x ∧
    computeG p { held := some x } = (.ok (), { held := some y }) ∧ (H = p.minHeight ∨ H = p.maxHeight) ∧
    (Whole.simulate y.env "hybrid" (y.state.at H)).1 = .ok (u, w) ∧ excess p u w = 0

/-- A candidate within the limits at the maximum height is returned; or a candidate is at a limit exactly, in the search or
when it is sized, and `ZeroDivisionError` is raised; or what the root finder raises. -/
def ZonedSized (p : Problem) (n : List (List Field)) (r : Except PyErr (Option (ℤ × Field))) : Prop :=
  (∃ (d : List Field) (k : ℕ) (f : Field) (e : ℝ), d ∈ n ∧ d[k]? = some f ∧ Outside p f p.maxHeight e ∧ e ≤ 0 ∧
    r = .ok (some ((k : ℤ), f))) ∨
  (∃ d ∈ n, ∃ f ∈ d, Outside p f p.minHeight 0 ∨ Outside p f p.maxHeight 0 ∨ SizingAtLimit p f) ∧
    r = .error .zeroDivisionError ∨
  ∃ (g : ℝ → ℝ) (er : PyErr), outcome g (p.brent p.minHeight p.maxHeight) = .error er ∧ r = .error er

/-- C115: sizing inside the search for a zoned field raises nothing else either. -/
theorem C115_zoned (h : Sensible p) (hp : PeriodFine { p with method := "hybrid" } p.minHeight) (n : List (List Field))
    (hn : ∀ d ∈ n, ∀ f ∈ d, f ≠ [] ∧ f.Nodup ∧ SizingFine p f) (r : Except PyErr (Option (ℤ × Field)))
    (hr : ZonedEnds p n r) : ZonedSized p n r := by
  rcases hr with hr | ⟨⟨d, hd, f, hf, hz⟩, hr⟩ | ⟨d, hd, f, hf, x, er, hx, hs, hr⟩
  · exact .inl hr
  · exact .inr (.inl ⟨⟨d, hd, f, hf, hz.elim .inl (.inr ∘ .inl)⟩, hr⟩)
  · obtain ⟨g1, g2, g3⟩ := hn d hd f hf
    obtain ⟨x1, y, hx1, hy, ho⟩ := C115_size h g1 g2 g3 "hybrid" hp
    rw [hx] at hx1
    cases hx1
    have he : (Whole.size y.env "hybrid" y.state).1 = .error er := by
      unfold sizeHeld at hs
      rw [St.bind_ok hy] at hs
      rcases hq : Whole.size y.env "hybrid" y.state with ⟨r', st⟩
      cases r' with
      | error e' =>
        rw [St.bind_error (s' := { held := some ⟨y.env, st⟩ }) (e := e') (by
          unfold onHeld
          dsimp only
          rw [hq])] at hs
        cases hs
        rfl
      | ok w =>
        rw [St.bind_ok (s' := { held := some ⟨y.env, st⟩ }) (a := w) (by
          unfold onHeld
          dsimp only
          rw [hq])] at hs
        cases hs
    rcases ho.errors he with ⟨rfl, H, hH, u, w, h1, h2⟩ | ⟨g, hg⟩
    · exact .inr (.inl ⟨⟨d, hd, f, hf, .inr (.inr ⟨x, y, H, u, w, hx, hy, hH, h1, h2⟩)⟩, hr⟩)
    · exact .inr (.inr ⟨g, er, hg, hr⟩)

/-- C115: a whole bi-zoned design, sizing included, for sensible arguments: a candidate within the limits at the maximum
height is returned, or `ZeroDivisionError` (only if a temperature is at its limit exactly) or `ValueError` is raised, or what
the root finder raises; and no `ValueError` if
the first field of every list is too hot or too cold at both bounds and the last field of all is within the limits. -/
theorem C115_biZoned (fuel : ℕ) (gc : Constraints ℝ) {X Y Bmin BX BY : ℝ} (hX : 0 < X) (hY : 0 < Y)
    (hBmin : 0 < Bmin) (hBX : 0 < BX) (hBY : 0 < BY) (h1 : gc.length = some X) (h2 : gc.width = some Y)
    (h3 : gc.Bmin = some Bmin) (h4 : gc.BmaxX = some BX) (h5 : gc.BmaxY = some BY)
    (hfuel : ⌊X / Bmin + 1⌋ + ⌊Y / Bmin + 1⌋ ≤ fuel) (c1 : ⌈X / BX + 1⌉ ≤ ⌊X / Bmin + 1⌋)
    (c2 : ⌈Y / BY + 1⌉ ≤ ⌊Y / Bmin + 1⌋) (c3 : BX < X) (c4 : BY < Y) :
    ∃ n dl fl, designInit fuel gc "bi-zoned" = .ok (.nested n) ∧ n.getLast? = some dl ∧ dl.getLast? = some fl ∧
      (Designable p n.flatten → PeriodFine { p with method := "hybrid" } p.minHeight →
        (∀ f ∈ n.flatten, SizingFine p f) → ∃ c, Outside p fl p.maxHeight c ∧
        (ZonedSized p n (design p fuel gc "bi-zoned" {}).1 ∨ (design p fuel gc "bi-zoned" {}).1 = .error .valueError) ∧
        ((∀ d ∈ n, ∀ f, d.head? = some f → ∃ u v, Outside p f p.minHeight u ∧ Outside p f p.maxHeight v ∧ 0 < u ∧ 0 < v) →
          c < 0 → ZonedSized p n (design p fuel gc "bi-zoned" {}).1)) := by
  obtain ⟨n, dl, fl, g1, g2, g3, -, g4⟩ := (C107_biZoned (p := p) fuel gc hX hY hBmin hBX hBY h1 h2 h3 h4 h5 hfuel).1 c1 c2 c3 c4
  refine ⟨n, dl, fl, g1, g2, g3, fun hD hP hS => ?_⟩
  obtain ⟨d0, ds, e1, -, e3, -⟩ := C17_zonedNested_distinct hX hY hBmin hBX hBY c3 c4 c1 c2 hfuel
  have hi := (((C77_available fuel gc hX hY hX hBmin hBX hBY h1).2 h2 h3 h4).2 h5).2
  rw [e1, g1] at hi
  cases hi
  have key : ∀ r, ZonedEnds p (d0 :: ds) r → ZonedSized p (d0 :: ds) r := fun r hr =>
    C115_zoned hD.sensible hP _ (fun d hd f hf => ⟨((e3 d hd).2 f hf).1, ((e3 d hd).2 f hf).2,
      hS f (List.mem_flatten.2 ⟨d, hd, hf⟩)⟩) r hr
  obtain ⟨a, b, c, -, -, oc, -, -, -, q1, q2⟩ := g4 hD
  exact ⟨c, oc, q1.imp_left (key _), fun w1 w2 => key _ (q2 w1 w2)⟩

end

end Ghedt.WholeSearch
