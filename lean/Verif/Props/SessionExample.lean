import Verif.Props.Session

/-!
# A session with two designs on one borehole (C128)
-/

set_option linter.unusedSectionVars false

namespace Ghedt.Session
open Real Ghedt.GHE Ghedt.Bhe Ghedt.Radial Ghedt.Whole Ghedt.Search Ghedt.WholeSearch Ghedt.Utilities

noncomputable section

/-- the problem of the example with other bounds for the height -/
def exBounds (a b : ℝ) : Problem := { exProblem with minHeight := a, maxHeight := b }

theorem exBounds_extremes (a b : ℝ) (f : Field) (H hi lo : ℝ) :
    Extremes (exBounds a b) f H hi lo ↔ Extremes exProblem f H hi lo := by
  have hb : ∀ flows, buildGhe (exBounds a b) flows exProblem.media { exProblem.borehole with H := H } f =
      (buildGhe exProblem flows exProblem.media { exProblem.borehole with H := H } f).map
        fun x => ⟨{ x.env with minHeight := a, maxHeight := b }, x.state⟩ := by
    intro flows
    unfold buildGhe
    cases boreholeSpacing exProblem.borehole.rb f with
    | error e => rfl
    | ok B =>
      rw [Except.ok_bind, Except.ok_bind]
      show (GF.computeLive exProblem.fmt exProblem.toFloat (exProblem.gf flows.2 exProblem.media f) B [H]
          [exProblem.borehole.rb] [exProblem.borehole.D] eskilsonLogTimes f >>= _) =
        Except.map _ (GF.computeLive exProblem.fmt exProblem.toFloat (exProblem.gf flows.2 exProblem.media f) B [H]
          [exProblem.borehole.rb] [exProblem.borehole.D] eskilsonLogTimes f >>= _)
      cases GF.computeLive exProblem.fmt exProblem.toFloat (exProblem.gf flows.2 exProblem.media f) B [H]
          [exProblem.borehole.rb] [exProblem.borehole.D] eskilsonLogTimes f with
      | error e => rfl
      | ok db =>
        rw [Except.ok_bind, Except.ok_bind]
        unfold mkGhe
        show _ = Except.map _ (gheFlow flows.1 exProblem.media.fluid.rho db.locations.length >>= _)
        cases gheFlow flows.1 exProblem.media.fluid.rho db.locations.length with
        | error e => rfl
        | ok v =>
          rw [Except.ok_bind, Except.ok_bind]
          dsimp only
          show (makeExchanger exProblem.ext v.2 exProblem.media { exProblem.borehole with H := H } >>= _) =
            Except.map _ (makeExchanger exProblem.ext v.2 exProblem.media { exProblem.borehole with H := H } >>= _)
          cases makeExchanger exProblem.ext v.2 exProblem.media { exProblem.borehole with H := H } with
          | error e => rfl
          | ok x =>
            rw [Except.ok_bind, Except.ok_bind]
            show (computeEquivalent exProblem.ext exProblem.brent x >>= _) = Except.map _ _
            cases computeEquivalent exProblem.ext exProblem.brent x with
            | error e => rfl
            | ok q =>
              rw [Except.ok_bind, Except.ok_bind]
              show (calcSts exProblem.solve (radialTube exProblem.ext q.1) none false exProblem.fuel >>= _) = Except.map _ _
              cases calcSts exProblem.solve (radialTube exProblem.ext q.1) none false exProblem.fuel with
              | error e => rfl
              | ok sts =>
                rw [Except.ok_bind, Except.ok_bind]
                show (GL.splitHeatAndCool exProblem.hourly "W" >>= _) = Except.map _ _
                cases GL.splitHeatAndCool exProblem.hourly "W" with
                | error e => rfl
                | ok l =>
                  rw [Except.ok_bind, Except.ok_bind]
                  show (GL.mkHybrid (respOf (radialTube exProblem.ext q.1) sts.1 sts.2.1 sts.2.2) l.1 l.2
                    exProblem.startMonth exProblem.endMonth 2019 >>= _) = Except.map _ _
                  cases GL.mkHybrid (respOf (radialTube exProblem.ext q.1) sts.1 sts.2.1 sts.2.2) l.1 l.2
                    exProblem.startMonth exProblem.endMonth 2019 with
                  | error e => rfl
                  | ok y => rfl
  have hf : fresh (exBounds a b) f H =
      (fresh exProblem f H).map fun x => ⟨{ x.env with minHeight := a, maxHeight := b }, x.state⟩ := by
    unfold fresh
    show (retrieveFlow exProblem.flow exProblem.V exProblem.media.fluid.rho f.length >>= _) = _
    cases retrieveFlow exProblem.flow exProblem.V exProblem.media.fluid.rho f.length with
    | error e => rfl
    | ok flows =>
      rw [Except.ok_bind, Except.ok_bind]
      exact hb flows
  unfold Extremes
  rw [hf]
  constructor
  · rintro ⟨x, hx, hs⟩
    cases hg : fresh exProblem f H with
    | error e => rw [hg] at hx; cases hx
    | ok y =>
      rw [hg] at hx
      cases hx
      exact ⟨y, rfl, hs⟩
  · rintro ⟨x, hx, hs⟩
    rw [hx]
    exact ⟨_, rfl, hs⟩

/-- With boreholes of 50 m, too, a row that is long enough is found. -/
theorem exShallow : ∃ n, ∃ r, (findDesign (exBounds 50 50) "rectangle" (.flat [exRow 1, exRow n]) {}).1 = .ok (some r) := by
  obtain ⟨K, hK⟩ := exExtremes 50 (.inl rfl)
  obtain ⟨n, hn⟩ := exists_nat_gt (max (K / 12) 1)
  have hn1 : (1 : ℝ) < n := (le_max_right _ _).trans_lt hn
  have hn0 : n ≠ 0 := by rintro rfl; norm_num at hn1
  have hl : ∀ m : ℕ, (exRow m).length = m := by intro m; simp [exRow]
  have husable : ∀ m H, m ≠ 0 → (H = 50 ∨ H = 75 ∨ H = 100) →
      ∃ s, Usable (exBounds 50 50) (exRow m) H (.multiple (exDouble H)) s ∧ charTime s = 100000 * H ^ 2 := by
    intro m H hm hH
    obtain ⟨s, hs, hct⟩ := exUsable (exRow m) (exRow_ne hm) H hH (exRow_spacing m)
    exact ⟨s, ⟨hs.flow, hs.field, hs.height, hs.radius, hs.exchanger, hs.converts, hs.sound, hs.solver, hs.steps, hs.text,
      hs.curve, hs.year, hs.heating, hs.cooling, hs.months⟩, hct⟩
  refine ⟨n, ?_⟩
  obtain ⟨hi0, lo0, hi1, lo1, hi2, lo2, a, b, c, e0, rfl, e1, rfl, e2, rfl, -, -, -, -, hfin⟩ :=
    C96_search (p := exBounds 50 50) "rectangle" (.inr rfl) [exRow 1, exRow n] (exRow 1) (exRow n) rfl rfl (by
      obtain ⟨s, hs, -⟩ := husable 1 100 one_ne_zero (by tauto)
      exact ⟨_, s, hs⟩) (by
      intro f hf H hH
      have hH' : H = 50 := by rcases hH with h | h <;> exact h
      have : ∃ m, m ≠ 0 ∧ f = exRow m := by
        rcases List.mem_pair.1 hf with rfl | rfl
        · exact ⟨1, one_ne_zero, rfl⟩
        · exact ⟨n, hn0, rfl⟩
      obtain ⟨m, hm, rfl⟩ := this
      obtain ⟨s, hs, hct⟩ := husable m H hm (by tauto)
      exact ⟨_, s, hs, exSeam s H (.inl hH') hct, .inl ⟨rfl, 1, le_rfl, rfl, exFits s H (.inl hH') hct⟩⟩)
  have hpi := Real.pi_pos
  have hpi4 := Real.pi_lt_four
  have hot : ∀ {hi lo}, Extremes (exBounds 50 50) (exRow 1) 50 hi lo → 35 < hi := by
    intro hi lo he
    obtain ⟨x, y, h1, -, -, h2⟩ := hK _ (exRow_ne one_ne_zero) (exRow_spacing 1)
    obtain ⟨rfl, rfl⟩ := ((exBounds_extremes _ _ _ _ _ _).1 he).unique h1
    rw [hl, Nat.cast_one, div_one] at h2
    have hlow : (200 : ℝ) / 16 ≤ 10000 / 50 / (4 * π) := by
      rw [div_le_div_iff₀ (by norm_num) (by positivity)]
      nlinarith
    linarith
  have hb0 : 0 < excess (exBounds 50 50) hi0 lo0 := lt_max_of_lt_left (sub_pos.2 (hot e0))
  have hb1 : 0 < excess (exBounds 50 50) hi1 lo1 := lt_max_of_lt_left (sub_pos.2 (hot e1))
  have hb2 : excess (exBounds 50 50) hi2 lo2 < 0 := by
    obtain ⟨x, y, h1, h2, h3, -⟩ := hK _ (exRow_ne hn0) (exRow_spacing n)
    obtain ⟨rfl, rfl⟩ := ((exBounds_extremes _ _ _ _ _ _).1 e2).unique h1
    have hk : K / n < 12 := by
      rw [div_lt_iff₀ (by linarith)]
      have := (le_max_left (K / 12) 1).trans_lt hn
      linarith
    rw [hl] at h2 h3
    exact max_lt (by show hi2 - 35 < 0; linarith) (by show 5 - lo2 < 0; linarith)
  rcases hfin (mul_pos hb0 hb1) (mul_neg_of_pos_of_neg hb1 hb2) with ⟨k, f, hi, lo, hk, he, hw, hfind⟩ | ⟨k, f, hi, lo, hk1, hk2, -⟩
  · exact ⟨_, hfind⟩
  · simp only [List.length_cons, List.length_nil] at hk2
    omega

/-- A single borehole of 50 m does not do: the search raises. -/
theorem exTooSmall : (findDesign (exBounds 50 50) "rectangle" (.flat [exRow 1]) {}).1 = .error .valueError ∧
    (∃ y, fresh (exBounds 50 50) (exRow 1) 100 = .ok y) ∧ ∃ hi lo, Extremes (exBounds 50 50) (exRow 1) 50 hi lo := by
  obtain ⟨K, hK⟩ := exExtremes 50 (.inl rfl)
  have hl : ∀ m : ℕ, (exRow m).length = m := by intro m; simp [exRow]
  have husable : ∀ m H, m ≠ 0 → (H = 50 ∨ H = 75 ∨ H = 100) →
      ∃ s, Usable (exBounds 50 50) (exRow m) H (.multiple (exDouble H)) s ∧ charTime s = 100000 * H ^ 2 := by
    intro m H hm hH
    obtain ⟨s, hs, hct⟩ := exUsable (exRow m) (exRow_ne hm) H hH (exRow_spacing m)
    exact ⟨s, ⟨hs.flow, hs.field, hs.height, hs.radius, hs.exchanger, hs.converts, hs.sound, hs.solver, hs.steps, hs.text,
      hs.curve, hs.year, hs.heating, hs.cooling, hs.months⟩, hct⟩
  obtain ⟨hi0, lo0, hi1, lo1, hi2, lo2, a, b, c, e0, rfl, e1, rfl, e2, rfl, -, -, -, herr, -⟩ :=
    C96_search (p := exBounds 50 50) "rectangle" (.inr rfl) [exRow 1] (exRow 1) (exRow 1) rfl rfl (by
      obtain ⟨s, hs, -⟩ := husable 1 100 one_ne_zero (by tauto)
      exact ⟨_, s, hs⟩) (by
      intro f hf H hH
      have hH' : H = 50 := by rcases hH with h | h <;> exact h
      rw [List.mem_singleton] at hf
      subst hf
      obtain ⟨s, hs, hct⟩ := husable 1 H one_ne_zero (by tauto)
      exact ⟨_, s, hs, exSeam s H (.inl hH') hct, .inl ⟨rfl, 1, le_rfl, rfl, exFits s H (.inl hH') hct⟩⟩)
  have hpi := Real.pi_pos
  have hpi4 := Real.pi_lt_four
  have hot : ∀ {hi lo}, Extremes (exBounds 50 50) (exRow 1) 50 hi lo → 35 < hi := by
    intro hi lo he
    obtain ⟨x, y, h1, -, -, h2⟩ := hK _ (exRow_ne one_ne_zero) (exRow_spacing 1)
    obtain ⟨rfl, rfl⟩ := ((exBounds_extremes _ _ _ _ _ _).1 he).unique h1
    rw [hl, Nat.cast_one, div_one] at h2
    have hlow : (200 : ℝ) / 16 ≤ 10000 / 50 / (4 * π) := by
      rw [div_le_div_iff₀ (by norm_num) (by positivity)]
      nlinarith
    linarith
  have hb0 : 0 < excess (exBounds 50 50) hi0 lo0 := lt_max_of_lt_left (sub_pos.2 (hot e0))
  have hb1 : 0 < excess (exBounds 50 50) hi1 lo1 := lt_max_of_lt_left (sub_pos.2 (hot e1))
  have hb2 : 0 < excess (exBounds 50 50) hi2 lo2 := lt_max_of_lt_left (sub_pos.2 (hot e2))
  refine ⟨herr (mul_pos hb0 hb1) (mul_pos hb1 hb2), ?_, _, _, e0⟩
  obtain ⟨s, hs, -⟩ := husable 1 100 one_ne_zero (by tauto)
  obtain ⟨B, c, sts, cl, hl, hy, -, -, -, -, -, -, -, -, h⟩ := fresh_ok hs
  exact ⟨_, h⟩

/-- the boreholes of the example: all with 100 m, and no designs yet -/
def exWorld : World := ⟨fun _ => exProblem.borehole, fun _ => none⟩

def exFirst (n : ℕ) : Act := .design "first" 0 exProblem "rectangle" (.flat [exRow 1, exRow n])
def exSecond (n : ℕ) : Act := .design "second" 0 (exBounds 50 50) "rectangle" (.flat [exRow 1, exRow n])

theorem exBracketed {a b : ℝ} (h : a ≤ b) : Bracketed (exBounds a b) := ⟨h, exBrent_inside a b h⟩

theorem exProblem_bracketed : Bracketed exProblem :=
  ⟨by show (50 : ℝ) ≤ 100; norm_num, exBrent_inside _ _ (by show (50 : ℝ) ≤ 100; norm_num)⟩

/-- the outcome of a design statement is that of `find_design` -/
theorem step_says (w : World) (n : String) (a : ℕ) (p : Problem) (ro : String) (c : Design.Candidates ℝ) :
    (step w (.design n a p ro c)).1 = .found (findDesign { p with borehole := w.boreholes a } ro c {}).1 := by
  unfold step
  dsimp only
  cases (findDesign { p with borehole := w.boreholes a } ro c {}).2.held with
  | none => rfl
  | some x =>
    dsimp only
    cases (findDesign { p with borehole := w.boreholes a } ro c {}).1 <;> rfl

/-- The hypotheses of `C128_changed` hold: the exchanger of the first design has boreholes of 100 m; when the second
design, with boreholes of 50 m, has returned, the exchanger of the first has boreholes of 50 m. -/
theorem exChanged : ∃ n m x y, (run exWorld [exFirst n]).2.look "first" = some x ∧ (borehole x.state.bhe).H = 100 ∧
    (run exWorld [exFirst n, exSecond m]).2.look "first" = some y ∧ (borehole y.state.bhe).H = 50 ∧
    y.env = x.env ∧ y.state.HPEFT = x.state.HPEFT := by
  obtain ⟨n, hn⟩ := exFind
  obtain ⟨m, r, hm⟩ := exShallow
  have h1 : (step exWorld (exFirst n)).1 = .found (.ok (some (1, exRow n))) := by
    rw [exFirst, step_says]
    exact congrArg _ hn
  obtain ⟨x, hx, e1⟩ := step_found (by decide) h1
  change (step exWorld (exFirst n)).2 = _ at e1
  set w1 := (step exWorld (exFirst n)).2 with hw1
  have hb1 : w1.boreholes 0 = exProblem.borehole := by rw [e1]; rfl
  have hr1 : w1.results "first" = some ⟨0, exProblem, x⟩ := by rw [e1]; rfl
  have h2 : (step w1 (exSecond m)).1 = .found (.ok (some r)) := by
    rw [exSecond, step_says, hb1]
    exact congrArg _ hm
  obtain ⟨h3, h4, h5, -⟩ := C128_changed 0 "first" "second" (by decide) _ hr1 rfl _ (look_eq hr1) (exBounds 50 50)
    "rectangle" (by decide) _ (some r) _ (Prod.ext h2 rfl)
  have ht : Tracked (fun _ => exProblem.borehole) [exFirst n] w1 :=
    tracked_step (w := exWorld) (by simp) (by
      intro k a p ro c h
      cases h
      exact exProblem_bracketed) (by
      intro k a p ro c h
      cases List.mem_singleton.1 h
      exact exProblem_bracketed) ⟨fun a => ⟨rfl, .inl rfl⟩, by intro n r h; cases h⟩
  have hk := (ht.2 _ _ hr1).1
  refine ⟨n, m, _, _, look_eq hr1, ?_, h3, h5 (known_at hk _), rfl, h4⟩
  rw [see_height hk]
  show (w1.boreholes 0).H = 100
  rw [hb1]
  rfl

/-- The hypotheses of `C128_raised` hold for a design that raises: it leaves the exchanger of the first design with
boreholes of 50 m. -/
example : ∃ n x y, (run exWorld [exFirst n]).2.look "first" = some x ∧ (borehole x.state.bhe).H = 100 ∧
    (step (run exWorld [exFirst n]).2 (.design "second" 0 (exBounds 50 50) "rectangle" (.flat [exRow 1]))).1 =
      .found (.error .valueError) ∧
    (run exWorld [exFirst n, .design "second" 0 (exBounds 50 50) "rectangle" (.flat [exRow 1])]).2.look "first" = some y ∧
    (borehole y.state.bhe).H = 50 := by
  obtain ⟨n, hn⟩ := exFind
  obtain ⟨hm, hmade, hsim⟩ := exTooSmall
  have h1 : (step exWorld (exFirst n)).1 = .found (.ok (some (1, exRow n))) := by
    rw [exFirst, step_says]
    exact congrArg _ hn
  obtain ⟨x, hx, e1⟩ := step_found (by decide) h1
  change (step exWorld (exFirst n)).2 = _ at e1
  set w1 := (step exWorld (exFirst n)).2 with hw1
  have hb1 : w1.boreholes 0 = exProblem.borehole := by rw [e1]; rfl
  have hr1 : w1.results "first" = some ⟨0, exProblem, x⟩ := by rw [e1]; rfl
  have h2 : (step w1 (.design "second" 0 (exBounds 50 50) "rectangle" (.flat [exRow 1]))).1 =
      .found (.error .valueError) := by
    rw [step_says, hb1]
    exact congrArg _ hm
  have hpe : exBounds 50 50 = { exBounds 50 50 with borehole := w1.boreholes 0 } := by rw [hb1]; rfl
  obtain ⟨-, h3⟩ := C128_raised 0 "second" (exBounds 50 50) "rectangle" (.inr rfl) [exRow 1] (exRow 1) rfl (exBounds 50 50)
    hpe hmade hsim _ rfl
  have ht : Tracked (fun _ => exProblem.borehole) [exFirst n] w1 :=
    tracked_step (w := exWorld) (by simp) (by
      intro k a p ro c h
      cases h
      exact exProblem_bracketed) (by
      intro k a p ro c h
      cases List.mem_singleton.1 h
      exact exProblem_bracketed) ⟨fun a => ⟨rfl, .inl rfl⟩, by intro n r h; cases h⟩
  have hk := (ht.2 _ _ hr1).1
  refine ⟨n, _, _, look_eq hr1, ?_, h2, h3 "first" _ _ (by decide) hr1 rfl (look_eq hr1), borehole_setHeight (known_at hk _) _⟩
  rw [see_height hk]
  show (w1.boreholes 0).H = 100
  rw [hb1]
  rfl

/-- The hypotheses of `C128_kept` hold for a design, a simulation and a design with the same maximum height. -/
example : ∃ n x, (run exWorld [exFirst n]).2.look "first" = some x ∧
    (run exWorld [exFirst n, .simulate "second" "hybrid", .height 1 60,
      .design "second" 0 exProblem "rectangle" (.flat [exRow 1, exRow n])]).2.look "first" = some x := by
  obtain ⟨n, hn⟩ := exFind
  have h1 : (step exWorld (exFirst n)).1 = .found (.ok (some (1, exRow n))) := by
    rw [exFirst, step_says]
    exact congrArg _ hn
  obtain ⟨x, hx, e1⟩ := step_found (by decide) h1
  change (step exWorld (exFirst n)).2 = _ at e1
  set w1 := (step exWorld (exFirst n)).2 with hw1
  have hb1 : w1.boreholes 0 = exProblem.borehole := by rw [e1]; rfl
  have hr1 : w1.results "first" = some ⟨0, exProblem, x⟩ := by rw [e1]; rfl
  have hr2 : w1.results "second" = none := by rw [e1]; rfl
  have key := C128_kept (fun _ => exProblem.borehole) [exFirst n] [.simulate "second" "hybrid", .height 1 60,
      .design "second" 0 exProblem "rectangle" (.flat [exRow 1, exRow n])] (by
        intro k a p ro c h
        have : p = exProblem := by
          simp only [exFirst, List.cons_append, List.nil_append, List.mem_cons, List.not_mem_nil, or_false, reduceCtorEq,
            false_or] at h
          rcases h with h | h <;> cases h <;> rfl
        rw [this]
        exact exProblem_bracketed) w1 rfl "first" _ hr1 (by
        intro a ha
        simp only [List.mem_cons, List.not_mem_nil, or_false] at ha
        rcases ha with rfl | rfl | rfl
        · exact ⟨by decide, .inr (.inr (.inr ⟨_, _, rfl⟩))⟩
        · exact ⟨by decide, .inl ⟨_, _, rfl, one_ne_zero⟩⟩
        · exact ⟨by simp [Act.name], .inr (.inl ⟨_, _, _, _, _, rfl, by decide, fun _ => by rw [hb1]; rfl⟩)⟩) (by
        have hs : step w1 (.simulate "second" "hybrid") = (.nameError, w1) := by
          simp only [step, World.method, hr2]
        intro e he
        rw [run_cons, hs, run_cons, run_cons] at he
        have h3 : (step (step w1 (.height 1 60)).2 (.design "second" 0 exProblem "rectangle" (.flat [exRow 1, exRow n]))).1 =
            .found (.ok (some (1, exRow n))) := by
          rw [step_says]
          have : (step w1 (.height 1 60)).2.boreholes 0 = exProblem.borehole := hb1
          rw [this]
          exact congrArg _ hn
        rw [h3] at he
        simp [step, run] at he)
  exact ⟨n, _, look_eq hr1, key.trans (look_eq hr1)⟩

/-- The hypotheses of `C128_heights` hold: whatever becomes of the two designs, the borehole has between 50 m and 100 m. -/
example (n m : ℕ) : ∃ h, (run exWorld [exFirst n, .simulate "first" "hybrid", exSecond m, .size "first" "hybrid"]).2.boreholes 0 =
    ⟨h, 2, 3 / 40⟩ ∧ 50 ≤ h ∧ h ≤ 100 := by
  have hall : ∀ k a p ro c, Act.design k a p ro c ∈
      [exFirst n, .simulate "first" "hybrid", exSecond m, .size "first" "hybrid"] → p = exProblem ∨ p = exBounds 50 50 := by
    intro k a p ro c h
    simp only [exFirst, exSecond, List.mem_cons, List.not_mem_nil, or_false, reduceCtorEq, false_or] at h
    rcases h with h | h <;> cases h <;> tauto
  obtain ⟨h, e, hh⟩ := C128_heights (fun _ => exProblem.borehole)
    [exFirst n, .simulate "first" "hybrid", exSecond m, .size "first" "hybrid"] (by
      intro k a p ro c h
      rcases hall _ _ _ _ _ h with rfl | rfl
      · exact exProblem_bracketed
      · exact exBracketed le_rfl) 0
  refine ⟨h, e, ?_⟩
  rcases hh with hh | hh | ⟨k, p, ro, c, h1, h2, h3⟩
  · have : h = 100 := hh
    rw [this]; norm_num
  · simp [exFirst, exSecond] at hh
  · rcases hall _ _ _ _ _ h1 with rfl | rfl
    · exact ⟨h2, h3⟩
    · have : h ≤ 50 := h3
      exact ⟨h2, this.trans (by norm_num)⟩

/-- The hypotheses of `C128_apart` hold: with a borehole of its own the exchanger of the first design keeps its height. -/
example (n m : ℕ) : (run exWorld [exFirst n, .design "second" 1 (exBounds 50 50) "rectangle" (.flat [exRow 1, exRow m]),
      .size "second" "hybrid"]).2.look "first" = (run exWorld [exFirst n]).2.look "first" :=
  (C128_apart (fun k => if k = "first" then 0 else 1) (fun _ => exProblem.borehole)
    [exFirst n, .design "second" 1 (exBounds 50 50) "rectangle" (.flat [exRow 1, exRow m]), .size "second" "hybrid"] (by
      intro k a p ro c h
      simp only [exFirst, List.mem_cons, List.not_mem_nil, or_false, reduceCtorEq] at h
      rcases h with h | h <;> cases h <;> rfl) 0 [exFirst n] (by simp [exFirst, Act.place])).2.2 "first" rfl

/-- `C128_size` with a history that does change the height. -/
example (n m : ℕ) : (run (run (run exWorld [exFirst n]).2 [exSecond m]).2 [.size "first" "hybrid"]).1 =
    (run (run exWorld [exFirst n]).2 [.size "first" "hybrid"]).1 :=
  (C128_size _ [exSecond m] "first" "hybrid" (by simp [exSecond, Act.name])).1

end

end Ghedt.Session
