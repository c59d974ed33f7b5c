import Verif.Props.MoreLoad

/-!
# Concrete cases for C134 and C135

The two U-tubes of `exProblem` with any constant load and a g-function above the short-time response.
-/

set_option linter.unusedSectionVars false

namespace Ghedt.WholeSearch
open Real Ghedt.GHE Ghedt.Bhe Ghedt.Radial Ghedt.Whole Ghedt.Search Ghedt.Utilities Ghedt.Spec Ghedt.Network Ghedt.Design

noncomputable section

/-- the equivalent tube of the two U-tubes has less resistance than they: its grout conductivity is the middle of the range
searched -/
theorem exDouble_resistance (h : ℝ) (s : UTube) (x : Exchanger)
    (hs : computeEquivalent Whole.exExt Bhe.exBrent (.multiple (exDouble h)) = .ok (s, x)) :
    effectiveRb Whole.exExt (.single s) ≤ 1 / 20 := by
  obtain ⟨-, t0, k, kg, ht0, hq, -, rfl⟩ := multiple_form _ _ _ _ _ hs
  have hm := C87_multiple _ _ _ _ _ hs
  have hpi := Real.pi_pos
  obtain ⟨v1, v2⟩ := exDouble_volumes h
  obtain ⟨p1, p2⟩ := uTubeVolumes_pos (exDouble h) (exDouble_sound h)
  obtain ⟨t', ht', e1, e2, -, -, -, -, -, -, -, -, -, -, -, -, -, -, -, -, a, -⟩ := initialTube_eq Whole.exExt
    ⟨(exDouble h).b, (exDouble h).pipe.eps, (exDouble h).pipe.rhoCp, (exDouble h).mBorehole, (exDouble h).fluid,
      (exDouble h).grout, (exDouble h).soil⟩ (uTubeVolumes (exDouble h))
  rw [ht0] at ht'; cases ht'
  have hin : 0 < t0.pipe.rIn := by rw [e1]; positivity
  have hc : convRes Whole.exExt t0 = 1 / 100 := exConv _ hin
  have hne : (t0.circuit.nPipes : ℝ) = 1 := by rw [a]; norm_num
  have hrb : ∀ k y, rbOf Whole.exExt (withKg Whole.exExt (withK Whole.exExt t0 k) y) =
      (1 / 100 + rConduction t0.pipe.rIn t0.pipe.rOut k) / 2 + 1 / (10 * y) := by
    intro k y
    show (convRes Whole.exExt t0 + rConduction t0.pipe.rIn t0.pipe.rOut k) / (2 * (t0.circuit.nPipes : ℝ)) + _ = _
    rw [hc, hne, mul_one]
    rfl
  have hkk : rConduction t0.pipe.rIn t0.pipe.rOut k = 10 / 1001 := by
    obtain ⟨k₀, hk₀, hR₀, -, -, h1, -⟩ := C86_conductivity _ _ _ _ p1 p2 (by rw [v1]; norm_num) _ hq
    have hRf : (withK Whole.exExt t0 k).Rf = 1 / 100 := hc
    obtain ⟨-, h2⟩ := h1 (by rw [hRf, v1, v2]; norm_num) (by rw [hRf, v1, v2]; norm_num)
    have h3 : k = (k₀ / 100 + k₀ * 10) / 2 := h2
    have h4 : rConduction t0.pipe.rIn t0.pipe.rOut k₀ = 2 * (uTubeVolumes (exDouble h)).Rpipe := hR₀
    rw [h3, show (k₀ / 100 + k₀ * 10) / 2 = k₀ * (1001 / 200) by ring, rConduction_scale, h4, v1]
    norm_num
  have hfin : Whole.exExt.rbStar (exDouble h).circuit (exDouble h).b (exDouble h).mBorehole (exDouble h).fluid.cp = 51 / 400 := by
    show (11 / 100 : ℝ) / (2 * ((2 : ℤ) : ℝ)) + 1 / (10 * 1) = 51 / 400
    norm_num
  rw [hfin] at hm
  have hre : ∀ y, rbOf Whole.exExt (regrout (withKg Whole.exExt (withK Whole.exExt t0 k) kg) y) =
      (1 / 100 + 10 / 1001) / 2 + 1 / (10 * y) := by
    intro y
    rw [← hkk, ← hrb]
    rfl
  have hb := hm.between (by rw [hre, hre]; norm_num)
  have hkg : kg = (1 / 100 + 7) / 2 := by
    have : (Except.ok ((1 / 100 + 7) / 2) : Py ℝ) = .ok kg := hb
    cases this
    rfl
  show rbOf Whole.exExt (withKg Whole.exExt (withK Whole.exExt t0 k) kg) ≤ _
  rw [hrb, hkk, hkg]
  norm_num

/-- the two U-tubes with `q` watts rejected all the time over `m` years, and a constant g-function `g` -/
def exLoaded (g q : ℝ) (m : ℕ) : Problem := { exProblem with
  gf := fun _ _ _ _ _ _ => .ok (List.replicate 27 g)
  hourly := List.replicate 8760 (-q)
  endMonth := 12 * m }

variable {g q : ℝ} {m : ℕ} {f : Field} {H : ℝ} {s : UTube}

theorem exLoaded_usable (hm : 1 ≤ m) (h : Usable exProblem f H (.multiple (exDouble H)) s) :
    Usable (exLoaded g q m) f H (.multiple (exDouble H)) s where
  flow := h.flow
  field := h.field
  height := h.height
  radius := h.radius
  exchanger := h.exchanger
  converts := h.converts
  sound := h.sound
  solver := h.solver
  steps := h.steps
  text := h.text
  curve := ⟨_, rfl, by simp [eskilsonLogTimes]⟩
  year := by
    show (List.replicate 8760 (-q)).length = 8760
    rw [List.length_replicate]
  cooling := by
    show Separated ((List.replicate 8760 (-q)).map _)
    rw [List.map_replicate]
    exact const_separated _
  heating := by
    show Separated ((List.replicate 8760 (-q)).map _)
    rw [List.map_replicate]
    exact const_separated _
  months := ⟨by show (1 : ℤ) ≤ 1; norm_num, by show (1 : ℤ) ≤ 12 * m; omega⟩

theorem exLoaded_fits (hm : m ≤ 7) (hH : H = 50 ∨ H = 100) (hct : charTime s = 100000 * H ^ 2) :
    3600 * (8760 * (m : ℝ)) ≤ charTime s * exp (3003 / 1000) := by
  have : 1 ≤ exp (3003 / 1000 : ℝ) := one_le_exp (by norm_num)
  have hm' : (m : ℝ) ≤ 7 := by exact_mod_cast hm
  rw [hct]
  rcases hH with rfl | rfl <;> nlinarith

theorem exLoaded_months : (exLoaded g q m).endMonth - (exLoaded g q m).startMonth + 1 = 12 * m := by
  show (12 * m : ℤ) - 1 + 1 = 12 * m
  omega

/-- a number that bounds the short-time response of both heights -/
theorem exShort : ∃ K, ∀ H, (H = 50 ∨ H = 100) → ∀ s x, computeEquivalent Whole.exExt Bhe.exBrent (.multiple (exDouble H)) = .ok (s, x) →
    ∀ rad lt gs, calcSts exSolver (radialTube Whole.exExt s) none false (10 ^ 9) = .ok (rad, lt, gs) → ∀ q ∈ lt.zip gs, |q.2| ≤ K := by
  have one : ∀ H, ∃ K, ∀ s x, computeEquivalent Whole.exExt Bhe.exBrent (.multiple (exDouble H)) = .ok (s, x) →
      ∀ rad lt gs, calcSts exSolver (radialTube Whole.exExt s) none false (10 ^ 9) = .ok (rad, lt, gs) → ∀ q ∈ lt.zip gs, |q.2| ≤ K := by
    intro H
    cases hs : computeEquivalent Whole.exExt Bhe.exBrent (.multiple (exDouble H)) with
    | error e => exact ⟨0, fun _ _ h => by cases h⟩
    | ok v =>
      cases hc : calcSts exSolver (radialTube Whole.exExt v.1) none false (10 ^ 9) with
      | error e =>
        refine ⟨0, fun s x h => ?_⟩
        cases h
        intro _ _ _ h
        rw [hc] at h
        cases h
      | ok w =>
        refine ⟨((w.2.1.zip w.2.2).map fun q => |q.2|).sum, fun s x h => ?_⟩
        cases h
        intro _ _ _ h q hq
        rw [hc] at h
        cases h
        exact List.single_le_sum (by
          intro x hx
          obtain ⟨q, -, rfl⟩ := List.mem_map.1 hx
          exact abs_nonneg _) _ (List.mem_map_of_mem hq)
  obtain ⟨K, hK⟩ := one 50
  obtain ⟨K', hK'⟩ := one 100
  refine ⟨max K K', fun H hH s x hs rad lt gs hc q hq => ?_⟩
  rcases hH with rfl | rfl
  · exact (hK s x hs rad lt gs hc q hq).trans (le_max_left _ _)
  · exact (hK' s x hs rad lt gs hc q hq).trans (le_max_right _ _)

theorem exLoaded_rb : effectiveRb (exLoaded g q m).ext (.multiple (exDouble H)) = 51 / 400 := by
  show (11 / 100 : ℝ) / (2 * ((2 : ℤ) : ℝ)) + 1 / (10 * 1) = 51 / 400
  norm_num

theorem exLoaded_flow : massFlow (exLoaded g q m) f = 2 := exProblem_flow f

/-- with a g-function above it, the response rises -/
theorem exLoaded_rising {K : ℝ} (hK : ∀ H, (H = 50 ∨ H = 100) → ∀ s x,
      computeEquivalent Whole.exExt Bhe.exBrent (.multiple (exDouble H)) = .ok (s, x) →
    ∀ rad lt gs, calcSts exSolver (radialTube Whole.exExt s) none false (10 ^ 9) = .ok (rad, lt, gs) → ∀ q ∈ lt.zip gs, |q.2| ≤ K)
    (hg : K ≤ g) (hH : H = 50 ∨ H = 100) (hm : 1 ≤ m) (h : Usable exProblem f H (.multiple (exDouble H)) s)
    (hct : charTime s = 100000 * H ^ 2) :
    Rising (exLoaded g q m) f H (.multiple (exDouble H)) s := by
  refine C134_rising (exLoaded_usable hm h) (exSeam s H hH hct) exSolver_exact ?_ ?_ ?_
  · intro c hc
    cases hc
    exact List.pairwise_replicate.2 (.inr le_rfl)
  · intro rad lt gs c hsts hc q hq _ y hy
    cases hc
    rw [List.eq_of_mem_replicate hy]
    exact (le_abs_self _).trans ((hK H hH s _ h.converts rad lt gs hsts q hq).trans hg)
  · rw [exLoaded_rb]
    exact (exDouble_resistance H s _ h.converts).trans (by norm_num)

theorem exLoaded_responsive {K : ℝ} (hK : ∀ H, (H = 50 ∨ H = 100) → ∀ s x,
      computeEquivalent Whole.exExt Bhe.exBrent (.multiple (exDouble H)) = .ok (s, x) →
    ∀ rad lt gs, calcSts exSolver (radialTube Whole.exExt s) none false (10 ^ 9) = .ok (rad, lt, gs) → ∀ q ∈ lt.zip gs, |q.2| ≤ K)
    (hg : K ≤ g) (hH : H = 50 ∨ H = 100) (hm : 1 ≤ m) (h : Usable exProblem f H (.multiple (exDouble H)) s)
    (hct : charTime s = 100000 * H ^ 2) :
    Responsive (exLoaded g q m) f H (.multiple (exDouble H)) s := by
  intro rad lt gs c hsts hc y hy
  have h1 := (points_ge (c := c) (exLoaded_usable (g := g) (q := q) hm h) (exSeam s H hH hct) exSolver_exact hsts (by
    intro q hq _ y hy
    cases hc
    rw [List.eq_of_mem_replicate hy]
    exact (le_abs_self _).trans ((hK H hH s _ h.converts rad lt gs hsts q hq).trans hg))).2.2
  have hpi := pi_pos
  have hk : (0 : ℝ) < 2 * π * (exLoaded g q m).media.soil.k := by
    show (0 : ℝ) < 2 * π * 2
    positivity
  have h2 : -effectiveRb (exLoaded g q m).ext (.single s) * (2 * π * (exLoaded g q m).media.soil.k) ≤ y :=
    polyline_ge (fun q hq => (le_div_iff₀ hk).1 (h1 q hq)) hy
  rw [← le_div_iff₀ hk] at h2
  have h3 := exDouble_resistance H s _ h.converts
  change effectiveRb (exLoaded g q m).ext (.single s) ≤ 1 / 20 at h3
  rw [exLoaded_flow, exLoaded_rb]
  show 1 / (2 * 2 * 4182) ≤ _
  rcases hH with rfl | rfl
  · rw [le_div_iff₀ (by norm_num)]
    linarith
  · rw [le_div_iff₀ (by norm_num)]
    linarith

/-- the extreme temperatures of any field, as `exExtremes` -/
theorem exLoaded_extremes {K : ℝ} (hK : ∀ H, (H = 50 ∨ H = 100) → ∀ s x,
      computeEquivalent Whole.exExt Bhe.exBrent (.multiple (exDouble H)) = .ok (s, x) →
    ∀ rad lt gs, calcSts exSolver (radialTube Whole.exExt s) none false (10 ^ 9) = .ok (rad, lt, gs) → ∀ q ∈ lt.zip gs, |q.2| ≤ K)
    (hq : 0 < q) (hm1 : 1 ≤ m) (hm7 : m ≤ 7) (hH : H = 50 ∨ H = 100) (hf : f ≠ [])
    (hB : ∀ B, boreholeSpacing (3 / 40) f = .ok B → B = 3 / 40 ∨ B = 5) :
    ∃ hi lo, Extremes (exLoaded g q m) f H hi lo ∧
      hi ≤ 18 + (q / H / (4 * π) * max K |g| + q / H * (51 / 400) + q / 16728) / f.length ∧
      18 - (q / H / (4 * π) * max K |g| + q / H * (51 / 400) + q / 16728) / f.length ≤ lo ∧
      18 + (q / H / (4 * π) * g + q / H * (51 / 400) - q / 16728) / f.length ≤ hi := by
  have h0 : 0 < H := by rcases hH with rfl | rfl <;> norm_num
  obtain ⟨s, hu, hct⟩ := exUsable f hf H (by tauto) hB
  obtain ⟨x, hi, lo, s1, rad, lt, gs, c, G, hx, hsim, hsts, hc, hG, hT, ⟨hi1, hi2⟩, ⟨lo1, lo2⟩⟩ :=
    C96_hourly (exLoaded_usable (g := g) (q := q) (m := m) hm1 hu) (exSeam _ H hH hct) m hm1 exLoaded_months (exLoaded_fits hm7 hH hct) (fun i => if i = 0 then 0 else q) rfl (by
      intro k
      show (List.replicate 8760 (-q : ℝ))[k % 8760]? = _
      rw [List.getElem?_replicate, if_pos (Nat.mod_lt _ (by norm_num))]
      simp)
  have hc' : c = List.replicate 27 g := by cases hc; rfl
  have hn : (0 : ℝ) < f.length := by exact_mod_cast List.length_pos_iff.2 hf
  have hrb : effectiveRb (exLoaded g q m).ext (.multiple (exDouble H)) = 51 / 400 := by
    show (11 / 100 : ℝ) / (2 * ((2 : ℤ) : ℝ)) + 1 / (10 * 1) = 51 / 400
    norm_num
  have hval : ∀ k : ℕ, exitTemp ⟨f.length, H, (exLoaded g q m).media.soil.k, (exLoaded g q m).media.soil.ugt,
      effectiveRb (exLoaded g q m).ext (.multiple (exDouble H)), massFlow (exLoaded g q m) f, (exLoaded g q m).media.fluid.cp⟩ G
      (fun i => if i = 0 then 0 else q) (fun i => i) (k + 1) =
      18 + (q / H / (4 * π) * G ((k + 1 : ℕ) : ℝ) + q / H * (51 / 400) - q / 16728) / f.length := by
    intro k
    rw [hrb, exLoaded_flow]
    unfold exitTemp wallRise
    rw [Finset.sum_eq_single 0]
    · show 18 + _ / _ / (2 * π * 2) * _ + _ - _ / _ / (2 * 2 * 4182) = _
      simp only [Nat.cast_zero, sub_zero, if_true, if_neg (Nat.succ_ne_zero _)]
      have := Real.pi_ne_zero
      field_simp
      ring
    · intro j _ hj
      simp [hj]
    · intro h
      simp at h
  have hbound : ∀ i : ℕ, 1 ≤ i → i ≤ 8760 * m → |G i| ≤ max K |g| := by
    intro i h1 h2
    refine polyline_bound ?_ (hG i h1 h2)
    intro q hq
    rcases List.mem_append.1 hq with hq | hq
    · exact (hK H hH s _ hu.converts _ _ _ hsts q (List.mem_of_mem_filter hq)).trans (le_max_left _ _)
    · have := (List.of_mem_zip (a := q.1) (b := q.2) hq).2
      rw [hc'] at this
      rw [List.eq_of_mem_replicate this]
      exact le_max_right _ _
  have hpi := Real.pi_pos
  have hA : 0 < q / H / (4 * π) := by positivity
  have hR : 0 < q / H * (51 / 400) := by positivity
  have hmem : ∀ T, some T ∈ s1.HPEFT → ∃ k : ℕ, k + 1 ≤ 8760 * m ∧
      T = 18 + (q / H / (4 * π) * G ((k + 1 : ℕ) : ℝ) + q / H * (51 / 400) - q / 16728) / f.length := by
    intro T hTm
    rw [hT] at hTm
    obtain ⟨k, hk, hkT⟩ := List.mem_map.1 hTm
    obtain rfl := Option.some.inj hkT
    refine ⟨k, ?_, hval k⟩
    have := List.mem_range.1 hk
    omega
  refine ⟨hi, lo, ⟨x, hx, by rw [show (exLoaded g q m).method = "hourly" from rfl, hsim]⟩, ?_, ?_, ?_⟩
  · obtain ⟨k, hk, rfl⟩ := hmem hi hi1
    have hg := abs_le.1 (hbound (k + 1) (by omega) (by omega))
    gcongr
    · have := mul_le_mul_of_nonneg_left hg.2 hA.le
      linarith
  · obtain ⟨k, hk, rfl⟩ := hmem lo lo1
    have hg := abs_le.1 (hbound (k + 1) (by omega) (by omega))
    have := mul_le_mul_of_nonneg_left hg.1 hA.le
    rw [sub_eq_add_neg, ← neg_div]
    gcongr
    linarith
  · refine le_of_eq_of_le ?_ (hi2 _ (by rw [hT]; exact List.mem_map_of_mem (f := fun k => some _) (List.mem_range.2 (show 8759 < 8760 * m by omega))))
    rw [hval 8759]
    have hg : G ((8759 + 1 : ℕ) : ℝ) = g := by
      refine polyline_const (c := c) ?_ ?_ (hG 8760 (by norm_num) (by omega))
      · intro z hz
        rw [hc'] at hz
        exact List.eq_of_mem_replicate hz
      · rw [hct, Real.lt_log_iff_exp_lt (by positivity)]
        have := exp_bounds.2
        refine this.trans ?_
        rcases hH with rfl | rfl <;> norm_num
    rw [hg]

theorem exRow_length (n : ℕ) : (exRow n).length = n := by simp [exRow]

/-- one borehole gets much too hot -/
theorem exLoaded_hot {K : ℝ} (hK : ∀ H, (H = 50 ∨ H = 100) → ∀ s x,
      computeEquivalent Whole.exExt Bhe.exBrent (.multiple (exDouble H)) = .ok (s, x) →
    ∀ rad lt gs, calcSts exSolver (radialTube Whole.exExt s) none false (10 ^ 9) = .ok (rad, lt, gs) → ∀ q ∈ lt.zip gs, |q.2| ≤ K)
    (hg : 20 ≤ g) (hq : 10000 ≤ q) (hm1 : 1 ≤ m) (hm7 : m ≤ 7) {H hi lo : ℝ} (hH : H = 50 ∨ H = 100)
    (he : Extremes (exLoaded g q m) (exRow 1) H hi lo) : 100 < hi := by
  have hq0 : 0 < q := by linarith
  have hpi := Real.pi_pos
  have hpi4 := Real.pi_lt_four
  have h0 : 0 < H := by rcases hH with rfl | rfl <;> norm_num
  obtain ⟨x, y, h1, -, -, h2⟩ := exLoaded_extremes (g := g) hK hq0 hm1 hm7 hH (exRow_ne one_ne_zero) (exRow_spacing 1)
  obtain ⟨rfl, rfl⟩ := he.unique h1
  rw [exRow_length, Nat.cast_one, div_one] at h2
  have h3 : q / 100 ≤ q / H := by rcases hH with rfl | rfl <;> [skip; exact le_rfl]; linarith
  have h4 : q / 100 / 16 ≤ q / H / (4 * π) := by
    rw [div_le_div_iff₀ (by norm_num) (by positivity)]
    nlinarith
  have h5 : q / 100 / 16 * 20 ≤ q / H / (4 * π) * g := mul_le_mul h4 hg (by norm_num) (by positivity)
  have h6 : 0 < q / H := by positivity
  linarith

/-- one borehole and a row that is long enough are graded -/
theorem exLoaded_graded {K : ℝ} (hK : ∀ H, (H = 50 ∨ H = 100) → ∀ s x,
      computeEquivalent Whole.exExt Bhe.exBrent (.multiple (exDouble H)) = .ok (s, x) →
    ∀ rad lt gs, calcSts exSolver (radialTube Whole.exExt s) none false (10 ^ 9) = .ok (rad, lt, gs) → ∀ q ∈ lt.zip gs, |q.2| ≤ K)
    (hg : 20 ≤ g) (hq : 10000 ≤ q) (hm1 : 1 ≤ m) (hm7 : m ≤ 7) :
    ∃ N : ℕ, ∀ n ≥ N, n ≠ 0 ∧ Graded (exLoaded g q m) [exRow 1, exRow n] := by
  have hq0 : 0 < q := by linarith
  obtain ⟨N, hN⟩ := exists_nat_gt (max ((q / 100 / (4 * π) * max K |g| + q / 100 * (51 / 400) + q / 16728) / 12) 1)
  refine ⟨N, fun n hn => ?_⟩
  have hn : max ((q / 100 / (4 * π) * max K |g| + q / 100 * (51 / 400) + q / 16728) / 12) 1 < (n : ℝ) :=
    hN.trans_le (by exact_mod_cast hn)
  have hn1 : (1 : ℝ) < n := (le_max_right _ _).trans_lt hn
  have hn0 : n ≠ 0 := by rintro rfl; norm_num at hn1
  have hpi := Real.pi_pos
  have hpi4 := Real.pi_lt_four
  have hot : ∀ {H hi lo}, (H = 50 ∨ H = 100) → Extremes (exLoaded g q m) (exRow 1) H hi lo → 35 < hi :=
    fun hH he => by linarith [exLoaded_hot hK hg hq hm1 hm7 hH he]
  have cool : ∀ {hi lo}, Extremes (exLoaded g q m) (exRow n) 100 hi lo → hi < 35 ∧ 5 < lo := by
    intro hi lo he
    obtain ⟨x, y, h1, h2, h3, -⟩ := exLoaded_extremes (g := g) hK hq0 hm1 hm7 (.inr rfl) (exRow_ne hn0) (exRow_spacing n)
    obtain ⟨rfl, rfl⟩ := he.unique h1
    rw [exRow_length] at h2 h3
    have hk : (q / 100 / (4 * π) * max K |g| + q / 100 * (51 / 400) + q / 16728) / n < 12 := by
      rw [div_lt_iff₀ (by linarith)]
      have := (le_max_left _ 1).trans_lt hn
      linarith
    constructor <;> linarith
  have pos : ∀ {hi lo}, 35 < hi → 0 < excess (exLoaded g q m) hi lo := fun h => lt_max_of_lt_left (sub_pos.2 h)
  have neg : ∀ {hi lo}, hi < 35 ∧ 5 < lo → excess (exLoaded g q m) hi lo < 0 := fun h =>
    max_lt (sub_neg.2 h.1) (sub_neg.2 h.2)
  refine ⟨hn0, ?_, ?_, ?_, ?_, ?_, ?_, ?_⟩
  · intro f hf H hH
    have : ∃ j, j ≠ 0 ∧ f = exRow j := by
      rcases List.mem_pair.1 hf with rfl | rfl
      · exact ⟨1, one_ne_zero, rfl⟩
      · exact ⟨n, hn0, rfl⟩
    obtain ⟨j, hj, rfl⟩ := this
    obtain ⟨x, y, h1, -⟩ := exLoaded_extremes (g := g) hK hq0 hm1 hm7 hH (exRow_ne hj) (exRow_spacing j)
    exact ⟨x, y, h1⟩
  · rw [List.pairwise_pair]
    intro hi lo hi' lo' h1 h2
    exact (neg (cool h2)).trans (pos (hot (.inr rfl) h1))
  · intro f hf hi lo h
    rcases List.mem_pair.1 hf with rfl | rfl
    · exact (pos (hot (.inr rfl) h)).ne'
    · exact (neg (cool h)).ne
  · intro f hf hi lo h
    cases hf
    exact (pos (hot (.inl rfl) h)).ne'
  · intro f hf
    cases hf
    refine ⟨_, .inr rfl, fun hi lo h hw => ?_⟩
    have := hot (.inr rfl) h
    have := hw.1
    change hi ≤ 35 at this
    linarith
  · intro f hf hi lo h
    cases hf
    exact ⟨(cool h).1.le, (cool h).2.le⟩
  · show 2 ≤ 2 ^ (15 : ℤ).toNat + 1
    rw [show (15 : ℤ).toNat = 15 from rfl]
    norm_num

/-- three boreholes, 10 and 20 kW, two years: C134 applies -/
example : ∃ g T hi lo T' hi' lo', HourlyRun (exLoaded g 10000 2) (exRow 3) 100 2 T hi lo ∧
    HourlyRun (exLoaded g 20000 2) (exRow 3) 100 2 T' hi' lo' ∧ (∀ k < 8760 * 2, T k ≤ T' k) ∧ hi ≤ hi' ∧ 18 ≤ lo ∧
    ∃ k < 8760, T k = lo := by
  obtain ⟨K, hK⟩ := exShort
  obtain ⟨s, hu, hct⟩ := exUsable (exRow 3) (exRow_ne (by norm_num)) 100 (by tauto) (exRow_spacing 3)
  have hr := exLoaded_rising (q := 10000) (m := 2) hK le_rfl (.inr rfl) (by norm_num) hu hct
  have hres := exLoaded_responsive (q := 10000) (m := 2) hK le_rfl (.inr rfl) (by norm_num) hu hct
  have h1 := exLoaded_usable (g := K) (q := 10000) (m := 2) (by norm_num) hu
  have h2 := exLoaded_usable (g := K) (q := 20000) (m := 2) (by norm_num) hu
  have hs := exSeam s 100 (.inr rfl) hct
  have hf := exLoaded_fits (m := 2) (by norm_num) (.inr rfl) hct
  obtain ⟨T, hi, lo, T', hi', lo', r1, r2, -, c⟩ := C134_hours h1 (List.replicate 8760 (-20000)) h2 hs 2 (by norm_num)
    exLoaded_months hf hr (by
      intro k a b ha hb
      have h3 : a = -10000 := List.eq_of_mem_replicate (List.mem_of_getElem? ha)
      have h4 : b = -20000 := List.eq_of_mem_replicate (List.mem_of_getElem? hb)
      rw [h3, h4]
      norm_num)
  obtain ⟨c1, c2, c3⟩ := c hres
  have hneg : ∀ a ∈ (exLoaded K 10000 2).hourly, a ≤ 0 := by
    intro a ha
    have : a = -10000 := List.eq_of_mem_replicate ha
    rw [this]
    norm_num
  obtain ⟨T1, hi1, lo1, r3, g1, -⟩ := C134_ground h1 hs 2 (by norm_num) exLoaded_months hf hr
  obtain ⟨T2, hi2, lo2, r4, -, -, k, k1, k2⟩ := C134_years h1 hs 2 (by norm_num) exLoaded_months hf hr hneg
  obtain ⟨-, rfl, -⟩ := r3.unique r1
  obtain ⟨-, rfl, e⟩ := r4.unique r1
  exact ⟨K, T, hi, lo2, T', hi', lo', r1, r2, c1, c2, (g1 hneg).2 hres, k, k1, by rw [← e k (by omega), k2]⟩

/-- the design for 10 kW is no larger than that for 20 kW (C134_design), and that for one year no larger than that for three
(C135_design): all of them exist -/
example : ∃ g n k f k' f' k'' f'',
    (findDesign (exLoaded g 10000 1) "rectangle" (.flat [exRow 1, exRow n]) {}).1 = .ok (some (k, f)) ∧
    (findDesign (exLoaded g 20000 1) "rectangle" (.flat [exRow 1, exRow n]) {}).1 = .ok (some (k', f')) ∧
    (findDesign (exLoaded g 10000 3) "rectangle" (.flat [exRow 1, exRow n]) {}).1 = .ok (some (k'', f'')) ∧ k ≤ k' ∧ k ≤ k'' := by
  obtain ⟨K, hK⟩ := exShort
  have hg : (20 : ℝ) ≤ max K 20 := le_max_right _ _
  have hg' : K ≤ max K 20 := le_max_left _ _
  generalize max K 20 = g at hg hg'
  obtain ⟨N1, hN1⟩ := exLoaded_graded (g := g) (q := 10000) (m := 1) hK hg le_rfl le_rfl (by norm_num)
  obtain ⟨N2, hN2⟩ := exLoaded_graded (g := g) (q := 20000) (m := 1) hK hg (by norm_num) le_rfl (by norm_num)
  obtain ⟨N3, hN3⟩ := exLoaded_graded (g := g) (q := 10000) (m := 3) hK hg le_rfl (by norm_num) (by norm_num)
  obtain ⟨n, hn⟩ : ∃ n, n = N1 + N2 + N3 := ⟨_, rfl⟩
  obtain ⟨hn0, G1⟩ := hN1 n (by omega)
  obtain ⟨-, G2⟩ := hN2 n (by omega)
  obtain ⟨-, G3⟩ := hN3 n (by omega)
  have init : ∀ q m, 1 ≤ m → ∃ x, fresh (exLoaded g q m) (exRow 1) 100 = .ok x := by
    intro q m hm
    obtain ⟨s, hu, -⟩ := exUsable (exRow 1) (exRow_ne one_ne_zero) 100 (by tauto) (exRow_spacing 1)
    obtain ⟨x, hx, -⟩ := C95_made (exLoaded_usable (g := g) (q := q) hm hu)
    exact ⟨x, hx⟩
  have rows : ∀ f ∈ [exRow 1, exRow n], ∃ j, j ≠ 0 ∧ f = exRow j := by
    intro f hf
    rcases List.mem_pair.1 hf with rfl | rfl
    · exact ⟨1, one_ne_zero, rfl⟩
    · exact ⟨n, hn0, rfl⟩
  obtain ⟨k', f', e2, -⟩ := flat_smallest "rectangle" (.inr rfl) _ G2 (by simp) (by
    intro f hf; cases hf; exact init 20000 1 le_rfl)
  obtain ⟨k'', f'', e3, -⟩ := flat_smallest "rectangle" (.inr rfl) _ G3 (by simp) (by
    intro f hf; cases hf; exact init 10000 3 (by norm_num))
  obtain ⟨k, f, e1, i1⟩ := C134_design (p := exLoaded g 10000 1) "rectangle" (.inr rfl) (List.replicate 8760 (-20000)) rfl 1 le_rfl
    exLoaded_months (.inl ⟨by
      intro k a b ha hb
      have h3 : a = -10000 := List.eq_of_mem_replicate (List.mem_of_getElem? ha)
      have h4 : b = -20000 := List.eq_of_mem_replicate (List.mem_of_getElem? hb)
      rw [h3, h4]
      norm_num, by show (5 : ℝ) ≤ 18; norm_num⟩) _ G1 (by
      intro f hf
      cases hf
      obtain ⟨s, hu, -⟩ := exUsable (exRow 1) (exRow_ne one_ne_zero) 100 (by tauto) (exRow_spacing 1)
      exact ⟨_, s, exLoaded_usable le_rfl hu, exLoaded_usable (q := 20000) le_rfl hu⟩) (by
      intro f hf H hH
      obtain ⟨j, hj, rfl⟩ := rows f hf
      have hH' : H = 50 ∨ H = 100 := hH
      obtain ⟨s, hu, hct⟩ := exUsable (exRow j) (exRow_ne hj) H (by tauto) (exRow_spacing j)
      exact ⟨_, s, exLoaded_usable le_rfl hu, exLoaded_usable (q := 20000) le_rfl hu, exSeam s H hH hct,
        exLoaded_fits (by norm_num) hH hct, exLoaded_rising hK hg' hH le_rfl hu hct, exLoaded_responsive hK hg' hH le_rfl hu hct⟩)
    k' f' e2
  obtain ⟨k1, f1, e4, i2⟩ := C135_design (p := exLoaded g 10000 1) "rectangle" (.inr rfl) (12 * (3 : ℕ)) rfl 1 3 le_rfl (by norm_num)
    exLoaded_months (exLoaded_months (g := g) (q := 10000)) _ G1 (by
      intro f hf
      cases hf
      obtain ⟨s, hu, -⟩ := exUsable (exRow 1) (exRow_ne one_ne_zero) 100 (by tauto) (exRow_spacing 1)
      exact ⟨_, s, exLoaded_usable le_rfl hu, exLoaded_usable (m := 3) (by norm_num) hu⟩) (by
      intro f hf H hH
      obtain ⟨j, hj, rfl⟩ := rows f hf
      have hH' : H = 50 ∨ H = 100 := hH
      obtain ⟨s, hu, hct⟩ := exUsable (exRow j) (exRow_ne hj) H (by tauto) (exRow_spacing j)
      exact ⟨_, s, exLoaded_usable le_rfl hu, exLoaded_usable (m := 3) (by norm_num) hu, exSeam s H hH hct,
        exLoaded_fits (by norm_num) hH hct⟩)
    k'' f'' e3
  rw [e1] at e4
  cases e4
  exact ⟨g, n, k, f, k', f', k'', f'', e1, e2, e3, i1, i2⟩

/-- three boreholes over one and over three years: C135 applies -/
example (g : ℝ) : ∃ T hi lo T' hi' lo', HourlyRun (exLoaded g 10000 1) (exRow 3) 100 1 T hi lo ∧
    HourlyRun (exLoaded g 10000 3) (exRow 3) 100 3 T' hi' lo' ∧ (∀ k < 8760 * 1, T' k = T k) ∧ hi ≤ hi' ∧ lo' ≤ lo := by
  obtain ⟨s, hu, hct⟩ := exUsable (exRow 3) (exRow_ne (by norm_num)) 100 (by tauto) (exRow_spacing 3)
  exact C135_hours (p := exLoaded g 10000 1) (exLoaded_usable le_rfl hu) (12 * (3 : ℕ)) (exLoaded_usable (m := 3) (by norm_num) hu)
    (exSeam s 100 (.inr rfl) hct) 1 3 le_rfl (by norm_num) exLoaded_months (exLoaded_months (g := g) (q := 10000))
    (exLoaded_fits (by norm_num) (.inr rfl) hct)

end

end Ghedt.WholeSearch
