import Verif.Props.Stability
import Verif.Props.MoreLoadExample

/-!
# Concrete cases for C140
-/

set_option linter.unusedSectionVars false

namespace Ghedt.WholeSearch
open Real Ghedt.GHE Ghedt.Bhe Ghedt.Radial Ghedt.Whole Ghedt.Search Ghedt.Utilities Ghedt.Spec Ghedt.Network Ghedt.Design

noncomputable section

/-- nothing before the first hour, then `q` -/
def steadyLoad (q : ℝ) (i : ℕ) : ℝ := if i = 0 then 0 else q

/-- the changes of a constant load: one, at the beginning -/
theorem const_changes {q : ℝ} (hq : 0 ≤ q) (n : ℕ) :
    ∑ j ∈ Finset.range (n + 1), |steadyLoad q (j + 1) - steadyLoad q j| = q := by
  rw [Finset.sum_eq_single 0]
  · simp [steadyLoad, abs_of_nonneg hq]
  · intro j _ hj
    simp [steadyLoad, hj]
  · intro h
    simp at h

theorem exLoaded_load {g q : ℝ} {m : ℕ} (k : ℕ) :
    (exLoaded g q m).hourly[k % 8760]? = some (-steadyLoad q (k + 1)) := by
  show (List.replicate 8760 (-q : ℝ))[k % 8760]? = _
  rw [List.getElem?_replicate, if_pos (Nat.mod_lt _ (by norm_num))]
  rfl

/-- C140_hours applies: three boreholes, 12 kW, and a g-function that is off by a hundredth -/
example (g : ℝ) : ∃ T hi lo T' hi' lo', HourlyRun (exLoaded g 12000 2) (exRow 3) 100 2 T hi lo ∧
    HourlyRun (exLoaded (g + 1 / 100) 12000 2) (exRow 3) 100 2 T' hi' lo' ∧ |hi - hi'| ≤ 1 / (10 * π) ∧ |lo - lo'| ≤ 1 / (10 * π) := by
  obtain ⟨s, hu, hct⟩ := exUsable (exRow 3) (exRow_ne (by norm_num)) 100 (by tauto) (exRow_spacing 3)
  have h1 := exLoaded_usable (g := g) (q := 12000) (m := 2) (by norm_num) hu
  have h2 := exLoaded_usable (g := g + 1 / 100) (q := 12000) (m := 2) (by norm_num) hu
  obtain ⟨T, hi, lo, T', hi', lo', r, r', -, k1, k2⟩ := C140_hours h1 (exLoaded g 12000 2).solve (exLoaded (g + 1 / 100) 12000 2).gf h2
    (exSeam s 100 (.inr rfl) hct) 2 (by norm_num) exLoaded_months (exLoaded_fits (m := 2) (by norm_num) (.inr rfl) hct) (1 / 100)
    (by
      intro rad lt gs rad' lt' gs' e1 e2 k a b ha hb
      rw [e1] at e2
      cases e2
      rw [ha] at hb
      cases hb
      norm_num) (by
      intro c c' e1 e2 k a b ha hb
      cases e1
      cases e2
      rw [List.eq_of_mem_replicate (List.mem_of_getElem? ha), List.eq_of_mem_replicate (List.mem_of_getElem? hb), abs_le]
      constructor <;> linarith) (steadyLoad 12000) rfl exLoaded_load
  rw [show 8760 * 2 = 17519 + 1 from rfl, const_changes (by norm_num), exRow_length] at k1 k2
  have e : (12000 : ℝ) / (((3 : ℕ) : ℝ) * 100) / (2 * π * (exLoaded g 12000 2).media.soil.k) * (1 / 100) = 1 / (10 * π) := by
    show (12000 : ℝ) / (((3 : ℕ) : ℝ) * 100) / (2 * π * 2) * (1 / 100) = 1 / (10 * π)
    have := pi_ne_zero
    field_simp
    norm_num
  rw [e] at k1 k2
  exact ⟨T, hi, lo, T', hi', lo', r, r', k1, k2⟩

theorem _root_.Ghedt.Spec.NearSolver.mono {ε ε' : ℝ} {solve : Solver} (h : NearSolver ε solve) (hle : ε ≤ ε') : NearSolver ε' solve := by
  intro dl d du b h1 h2 h3 h4
  obtain ⟨a, k⟩ := h dl d du b h1 h2 h3 h4
  refine ⟨a, fun i hi => ⟨(k i hi).1.trans (mul_le_mul_of_nonneg_right hle ?_), (k i hi).2⟩⟩
  split_ifs <;> positivity

/-- for every tube and every tolerance there is a relative error that is small enough -/
theorem small_error {u : Tube} (hu : u.Sound) {c : ℝ} (hc : 0 < c) : ∃ ε₀ > 0, ∀ ε, 0 ≤ ε → ε ≤ ε₀ →
    AccurateFor (roughSolver ε) u ∧ ε * (coreResistance u * gridTerms u) ≤ 1 / 2 ∧ tempError ε u ≤ c := by
  obtain ⟨ε₁, h1, h2⟩ := C131_enough hu
  have hR := coreResistance_nonneg hu
  have hS := gridTerms_pos hu
  have hP0 : 0 ≤ coreResistance u * gridTerms u := mul_nonneg hR (by linarith)
  refine ⟨min ε₁ (min (1 / (2 * (coreResistance u * gridTerms u + 1)))
    (c / (2 * (20 + coreResistance u) * (coreResistance u * gridTerms u) + 1))), ?_, fun ε h0 hε => ⟨?_, ?_, ?_⟩⟩
  · refine lt_min h1 (lt_min (div_pos one_pos (by linarith)) (div_pos hc ?_))
    have : 0 ≤ 2 * (20 + coreResistance u) * (coreResistance u * gridTerms u) := mul_nonneg (by linarith) hP0
    linarith
  · exact h2 _ ((roughSolver_near h0).mono (hε.trans (min_le_left _ _)))
  · have : ε ≤ 1 / (2 * (coreResistance u * gridTerms u + 1)) := hε.trans ((min_le_right _ _).trans (min_le_left _ _))
    rw [le_div_iff₀ (by linarith)] at this
    linarith
  · have hq : 0 ≤ 2 * (20 + coreResistance u) * (coreResistance u * gridTerms u) := mul_nonneg (by linarith) hP0
    have : ε ≤ c / (2 * (20 + coreResistance u) * (coreResistance u * gridTerms u) + 1) :=
      hε.trans ((min_le_right _ _).trans (min_le_right _ _))
    rw [le_div_iff₀ (by linarith)] at this
    unfold tempError
    linarith

/-- the two U-tubes with a solver that makes errors -/
def exRough (ε g q : ℝ) (m : ℕ) : Problem := { exLoaded g q m with solve := roughSolver ε }

variable {ε g q : ℝ} {m : ℕ} {f : Field} {H : ℝ} {s : UTube}

theorem exRough_usable (hm : 1 ≤ m) (h : Usable exProblem f H (.multiple (exDouble H)) s)
    (ha : AccurateFor (roughSolver ε) (radialTube Whole.exExt s)) : Usable (exRough ε g q m) f H (.multiple (exDouble H)) s :=
  have h := exLoaded_usable (g := g) (q := q) hm h
  ⟨h.flow, h.field, h.height, h.radius, h.exchanger, h.converts, h.sound, ha, h.steps, h.text, h.curve,
    h.year, h.heating, h.cooling, h.months⟩

/-- C140_solver, C140_exact and C140_design apply: one borehole and a row that is long enough, 10 kW, and a solver that makes small errors: the
temperatures are within a quarter of a degree of those of an exact solver, and the design is the same -/
example : ∃ ε > 0, ∃ g, ∃ n k f T hi lo T' hi' lo', HourlyRun (exRough ε g 10000 1) (exRow 1) 100 1 T hi lo ∧
    HourlyRun (exLoaded g 10000 1) (exRow 1) 100 1 T' hi' lo' ∧ |hi - hi'| ≤ 1 / 4 ∧ |lo - lo'| ≤ 1 / 4 ∧
    (findDesign (exRough ε g 10000 1) "rectangle" (.flat [exRow 1, exRow n]) {}).1 = .ok (some (k, f)) ∧
    (findDesign (exLoaded g 10000 1) "rectangle" (.flat [exRow 1, exRow n]) {}).1 = .ok (some (k, f)) := by
  obtain ⟨K, hK⟩ := exShort
  have hg : (20 : ℝ) ≤ max K 20 := le_max_right _ _
  generalize max K 20 = g at hg
  have hpi := Real.pi_pos
  obtain ⟨n, hn⟩ := exists_nat_gt (max ((10000 / 100 / (4 * π) * max K |g| + 10000 / 100 * (51 / 400) + 10000 / 16728) / 12) 1)
  have hn1 : (1 : ℝ) < n := (le_max_right _ _).trans_lt hn
  have hn0 : n ≠ 0 := by rintro rfl; norm_num at hn1
  have rows : ∀ f ∈ [exRow 1, exRow n], ∃ j, 1 ≤ j ∧ f = exRow j := by
    intro f hf
    rcases List.mem_pair.1 hf with rfl | rfl
    · exact ⟨1, le_rfl, rfl⟩
    · exact ⟨n, by omega, rfl⟩
  -- an error that is small enough for both tubes
  have tube : ∀ H, (H = 50 ∨ H = 100) → ∃ ε₀ > 0, ∀ ε, 0 ≤ ε → ε ≤ ε₀ → ∀ s x,
      computeEquivalent Whole.exExt Bhe.exBrent (.multiple (exDouble H)) = .ok (s, x) →
      AccurateFor (roughSolver ε) (radialTube Whole.exExt s) ∧
      ε * (coreResistance (radialTube Whole.exExt s) * gridTerms (radialTube Whole.exExt s)) ≤ 1 / 2 ∧
      tempError ε (radialTube Whole.exExt s) ≤ 1 / 1000 := by
    intro H hH
    obtain ⟨s, hu, -⟩ := exUsable (exRow 1) (exRow_ne one_ne_zero) H (by tauto) (exRow_spacing 1)
    obtain ⟨ε₀, h0, h1⟩ := small_error hu.sound (c := 1 / 1000) (by norm_num)
    refine ⟨ε₀, h0, fun ε a b s' x hs => ?_⟩
    have := hu.converts.symm.trans hs
    cases this
    exact h1 ε a b
  obtain ⟨ε1, p1, t1⟩ := tube 50 (.inl rfl)
  obtain ⟨ε2, p2, t2⟩ := tube 100 (.inr rfl)
  obtain ⟨ε, hε, hε1, hε2⟩ : ∃ ε, 0 < ε ∧ ε ≤ ε1 ∧ ε ≤ ε2 := ⟨min ε1 ε2, lt_min p1 p2, min_le_left _ _, min_le_right _ _⟩
  have each : ∀ j, 1 ≤ j → ∀ H, H = 50 ∨ H = 100 → ∃ s, Usable (exRough ε g 10000 1) (exRow j) H (.multiple (exDouble H)) s ∧
      charTime s = 100000 * H ^ 2 ∧
      ε * (coreResistance (radialTube Whole.exExt s) * gridTerms (radialTube Whole.exExt s)) ≤ 1 / 2 ∧
      10000 / ((exRow j).length * H) * tempError ε (radialTube Whole.exExt s) ≤ 1 / 4 := by
    intro j hj H hH
    obtain ⟨s, hu, hct⟩ := exUsable (exRow j) (exRow_ne (by omega)) H (by tauto) (exRow_spacing j)
    have hj' : (1 : ℝ) ≤ j := by exact_mod_cast hj
    have key : AccurateFor (roughSolver ε) (radialTube Whole.exExt s) ∧
      ε * (coreResistance (radialTube Whole.exExt s) * gridTerms (radialTube Whole.exExt s)) ≤ 1 / 2 ∧
      tempError ε (radialTube Whole.exExt s) ≤ 1 / 1000 := by
      rcases hH with rfl | rfl
      · exact t1 ε hε.le hε1 s _ hu.converts
      · exact t2 ε hε.le hε2 s _ hu.converts
    refine ⟨s, exRough_usable le_rfl hu key.1, hct, key.2.1, ?_⟩
    rw [exRow_length]
    have h50 : (50 : ℝ) ≤ H := by rcases hH with rfl | rfl <;> norm_num
    have hd : 10000 / ((j : ℝ) * H) ≤ 200 := by
      rw [div_le_iff₀ (by positivity)]
      nlinarith
    have := tempError_nonneg hu.sound hε.le
    calc 10000 / ((j : ℝ) * H) * tempError ε (radialTube Whole.exExt s) ≤ 200 * (1 / 1000) :=
          mul_le_mul hd key.2.2 this (by norm_num)
      _ ≤ 1 / 4 := by norm_num
  have both : ∀ j, 1 ≤ j → ∀ H, H = 50 ∨ H = 100 → ∃ T hi lo T' hi' lo', HourlyRun (exRough ε g 10000 1) (exRow j) H 1 T hi lo ∧
      HourlyRun (exLoaded g 10000 1) (exRow j) H 1 T' hi' lo' ∧ |hi - hi'| ≤ 1 / 4 ∧ |lo - lo'| ≤ 1 / 4 := by
    intro j hj H hH
    obtain ⟨s, h1, hct, h2, h3⟩ := each j hj H hH
    obtain ⟨T, hi, lo, T', hi', lo', r, r', -, k1, k2⟩ := C140_solver h1 exSolver exSolver_exact (exSeam s H hH hct) 1 le_rfl
      (exLoaded_months (g := g) (q := 10000) (m := 1)) (exLoaded_fits (m := 1) (by norm_num) hH hct) ε hε.le (roughSolver_near hε.le) h2 (steadyLoad 10000) rfl
      (exLoaded_load (g := g) (q := 10000) (m := 1))
    rw [show 8760 * 1 = 8759 + 1 from rfl, const_changes (by norm_num)] at k1 k2
    exact ⟨T, hi, lo, T', hi', lo', r, r', k1.trans h3, k2.trans h3⟩
  have hot : ∀ {H hi lo}, (H = 50 ∨ H = 100) → Extremes (exRough ε g 10000 1) (exRow 1) H hi lo → 99 < hi := by
    intro H hi lo hH he
    obtain ⟨T, u, v, T', u', v', r, r', k1, -⟩ := both 1 le_rfl H hH
    obtain ⟨rfl, rfl⟩ := he.unique (r.toExtremes rfl)
    have := exLoaded_hot hK hg le_rfl le_rfl (by norm_num) hH (r'.toExtremes rfl)
    rw [abs_le] at k1
    linarith
  have cool : ∀ {hi lo}, Extremes (exRough ε g 10000 1) (exRow n) 100 hi lo → hi < 31 ∧ 23 / 4 < lo := by
    intro hi lo he
    obtain ⟨T, u, v, T', u', v', r, r', k1, k2⟩ := both n (by omega) 100 (.inr rfl)
    obtain ⟨rfl, rfl⟩ := he.unique (r.toExtremes rfl)
    obtain ⟨x, y, h1, h2, h3, -⟩ := exLoaded_extremes (g := g) (q := 10000) (m := 1) hK (by norm_num) le_rfl (by norm_num) (.inr rfl)
      (exRow_ne hn0) (exRow_spacing n)
    obtain ⟨rfl, rfl⟩ := (r'.toExtremes rfl).unique h1
    rw [exRow_length] at h2 h3
    have hk : (10000 / 100 / (4 * π) * max K |g| + 10000 / 100 * (51 / 400) + 10000 / 16728) / n < 12 := by
      rw [div_lt_iff₀ (by linarith)]
      have := (le_max_left _ 1).trans_lt hn
      linarith
    rw [abs_le] at k1 k2
    constructor <;> linarith
  have pos : ∀ {hi lo}, 99 < hi → 60 < excess (exRough ε g 10000 1) hi lo := fun {hi lo} h =>
    lt_max_of_lt_left (by show 60 < hi - 35; linarith)
  have neg : ∀ {hi lo}, hi < 31 ∧ 23 / 4 < lo → excess (exRough ε g 10000 1) hi lo < -(1 / 2) := fun {hi lo} h =>
    max_lt (by show hi - 35 < _; linarith [h.1]) (by show 5 - lo < _; linarith [h.2])
  have hgr : GradedBy (1 / 4) (exRough ε g 10000 1) [exRow 1, exRow n] := by
    refine ⟨?_, ?_, ?_, ?_, ?_, ?_, ?_⟩
    · intro f hf H hH
      obtain ⟨j, hj, rfl⟩ := rows f hf
      obtain ⟨T, u, v, -, -, -, r, -⟩ := both j hj H hH
      exact ⟨u, v, r.toExtremes rfl⟩
    · rw [List.pairwise_pair]
      intro hi lo hi' lo' h1 h2
      have a1 := pos (lo := lo) (hot (.inr rfl) h1)
      have a2 := neg (cool h2)
      linarith
    · intro f hf hi lo h
      rcases List.mem_pair.1 hf with rfl | rfl
      · have := pos (lo := lo) (hot (.inr rfl) h)
        rw [abs_of_pos (by linarith)]
        linarith
      · have := neg (cool h)
        rw [abs_of_neg (by linarith)]
        linarith
    · intro f hf hi lo h
      cases hf
      have := pos (lo := lo) (hot (.inl rfl) h)
      rw [abs_of_pos (by linarith)]
      linarith
    · intro f hf
      cases hf
      refine ⟨_, .inr rfl, fun hi lo h hw => ?_⟩
      have := hot (.inr rfl) h
      have := hw.1
      change hi ≤ 35 at this
      linarith
    · intro f hf hi lo h
      cases hf
      exact ⟨by show hi ≤ 35; linarith [(cool h).1], by show 5 ≤ lo; linarith [(cool h).2]⟩
    · show 2 ≤ 2 ^ (15 : ℤ).toNat + 1
      rw [show (15 : ℤ).toNat = 15 from rfl]
      norm_num
  obtain ⟨k, f, e1, e2⟩ := C140_exact (p := exRough ε g 10000 1) "rectangle" (.inr rfl) exSolver exSolver_exact ε hε.le
    (roughSolver_near hε.le) rfl 1 le_rfl (exLoaded_months (g := g) (q := 10000) (m := 1)) (steadyLoad 10000) rfl (exLoaded_load (g := g) (q := 10000) (m := 1)) (1 / 4)
    [exRow 1, exRow n] (by simp) hgr (by
      intro f hf
      cases hf
      obtain ⟨s, h, -⟩ := each 1 le_rfl 100 (.inr rfl)
      exact ⟨_, s, h⟩) (by
      intro f hf H hH
      obtain ⟨j, hj, rfl⟩ := rows f hf
      obtain ⟨s, h1, hct, h2, h3⟩ := each j hj H hH
      refine ⟨_, s, h1, exSeam s H hH hct, exLoaded_fits (m := 1) (by norm_num) hH hct, h2, ?_⟩
      rw [show 8760 * 1 = 8759 + 1 from rfl, const_changes (by norm_num)]
      exact h3)
  obtain ⟨T, hi, lo, T', hi', lo', r, r', k1, k2⟩ := both 1 le_rfl 100 (.inr rfl)
  exact ⟨ε, hε, g, n, k, f, T, hi, lo, T', hi', lo', r, r', k1, k2, e1, e2⟩

end

end Ghedt.WholeSearch

namespace Ghedt.Whole
open Real Ghedt.GHE Ghedt.Bhe Ghedt.Radial Ghedt.Spec

noncomputable section

/-- C140_size applies: the heights for 4000 W and for 3999 W differ by at most 20 cm and twice the tolerance -/
example : ∃ s0 r s r' s', size (exLevel 4000) "hourly" s0 = (.ok r, s) ∧ size (exLevel 3999) "hourly" s0 = (.ok r', s') ∧
    |(borehole s.bhe).H - (borehole s'.bhe).H| ≤ 1 / 5 + 2 * (90 / 2 ^ 20) := by
  obtain ⟨s0, hc⟩ := exLevel_covered
  obtain ⟨out, r, s, hs⟩ := exLevel_sized hc 4000 (by norm_num) le_rfl
  obtain ⟨out', r', s', hs'⟩ := exLevel_sized hc 3999 (by norm_num) (by norm_num)
  have hpi := Real.pi_pos
  have c1 : (158 / 100 : ℝ) < 5 / π := by
    rw [lt_div_iff₀ hpi]
    linarith [Real.pi_lt_d2]
  have c2 : 5 / π < 167 / 100 := by
    rw [div_lt_iff₀ hpi]
    linarith [Real.pi_gt_three]
  have uniq : ∀ {H a b}, 60 ≤ H → H ≤ 150 → Gives (exLevel 4000) "hourly" s0 H a b → a = exTemp 4000 H ∧ b = exTemp 4000 H := by
    intro H a b h1 h2 h
    have := h.symm.trans (exLevel_gives (hc _) H h1 h2)
    cases this
    exact ⟨rfl, rfl⟩
  refine ⟨s0, r, s, r', s', hs, hs', C140_size "hourly" (hc 4000) (hc 3999) (by show (60 : ℝ) < 150; norm_num) rfl rfl rfl rfl
    (exLevel_improves (by norm_num) (hc _)) (exLevel_improves (by norm_num) (hc _)) (η := 11 / 1000) ?_ (by norm_num) ?_
    (by positivity) exLevel_narrows exLevel_narrows out out' [] [] (by simp) (by simp) r r' s s' hs hs'⟩
  · intro H h1 h2
    have h1' : (60 : ℝ) ≤ H := h1
    refine ⟨_, _, _, _, exLevel_gives (hc _) H h1 h2, exLevel_gives (hc _) H h1 h2, ?_⟩
    have e : exTemp 4000 H - exTemp 3999 H = (1 / H) * ((5 / π + 31 / 200) / 3) - 1 / 50184 := by
      unfold exTemp
      ring
    have : |exTemp 4000 H - exTemp 3999 H| ≤ 11 / 1000 := by
      have a1 : 1 / H ≤ 1 / 60 := one_div_le_one_div_of_le (by norm_num) h1'
      have a2 : 0 < 1 / H := by positivity
      rw [e, abs_le]
      constructor <;> nlinarith
    exact ⟨this, this⟩
  · intro H h1 h2 u v u' v' k1 k2
    have h1' : (60 : ℝ) ≤ H := h1
    have h2' : H + 1 / 5 ≤ 150 := h2
    obtain ⟨rfl, rfl⟩ := uniq h1' (by linarith) k1
    obtain ⟨rfl, rfl⟩ := uniq (by linarith) h2' k2
    have e : exTemp 4000 H - exTemp 4000 (H + 1 / 5) = (1 / H - 1 / (H + 1 / 5)) * (4000 / 3 * (5 / π + 31 / 200)) := by
      unfold exTemp
      ring
    have a1 : 1 / 112500 ≤ 1 / H - 1 / (H + 1 / 5) := by
      rw [div_sub_div _ _ (by positivity) (by positivity), div_le_div_iff₀ (by norm_num) (by positivity)]
      nlinarith
    have a2 : 11 / 1000 ≤ exTemp 4000 H - exTemp 4000 (H + 1 / 5) := by
      rw [e]
      nlinarith
    have a3 : 30 ≤ exTemp 4000 (H + 1 / 5) := by
      have : 1 / 150 ≤ 1 / (H + 1 / 5) := one_div_le_one_div_of_le (by positivity) h2'
      have e : exTemp 4000 (H + 1 / 5) = 18 + (1 / (H + 1 / 5)) * (4000 / 3 * (5 / π + 31 / 200)) - 4000 / 50184 := by
        unfold exTemp
        ring
      rw [e]
      nlinarith
    show max (_ - 35) (5 - _) + 11 / 1000 ≤ max (_ - 35) (5 - _)
    refine le_max_of_le_left ?_
    rw [max_eq_left (by linarith)]
    linarith

end

end Ghedt.Whole
