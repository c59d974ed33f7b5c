import Verif.Props.Slowing

/-!
# C131: the short-time response when the equations are solved with rounding errors
-/

set_option linter.unusedSectionVars false

namespace Ghedt.Radial
open Real Ghedt.Spec Ghedt.GL

noncomputable section
variable {u : Tube}

/-- Thermal resistance between the core and the far field of the grid made for a tube, in K per W/m. -/
def coreResistance (u : Tube) : ℝ := ∑ i ∈ Finset.range 534, 1 / conductances (gridOf u) i

/-- Sum of the magnitudes of the terms of the equations of the grid made for a tube. -/
def gridTerms (u : Tube) : ℝ :=
  1 + ∑ i ∈ Finset.range 534, (4 * conductances (gridOf u) i + 2 * capacities 120 (gridOf u) i)

/-- Bound on the error of the temperatures (in K, from 20 °C, at 1 W/m) if the equations are solved with relative error
`ε`. -/
def tempError (ε : ℝ) (u : Tube) : ℝ := 2 * ε * (20 + coreResistance u) * (coreResistance u * gridTerms u)

theorem coreResistance_nonneg (hu : u.Sound) : 0 ≤ coreResistance u := by
  have hp := gridOf_pos hu
  rw [condOf_eq] at hp
  exact Finset.sum_nonneg fun i hi => (one_div_pos.2 (hp.1 i (by rw [Finset.mem_range] at hi; omega))).le

theorem gridTerms_pos (hu : u.Sound) : 1 ≤ gridTerms u := by
  have hp := gridOf_pos hu
  rw [condOf_eq, capOf_eq] at hp
  have : 0 ≤ ∑ i ∈ Finset.range 534, (4 * conductances (gridOf u) i + 2 * capacities 120 (gridOf u) i) := by
    refine Finset.sum_nonneg fun i hi => ?_
    have h1 := hp.1 i (by rw [Finset.mem_range] at hi; omega)
    have h2 := hp.2 i (by rw [Finset.mem_range] at hi; omega)
    linarith
  unfold gridTerms
  linarith

theorem tempError_nonneg (hu : u.Sound) {ε : ℝ} (hε : 0 ≤ ε) : 0 ≤ tempError ε u := by
  have h1 := coreResistance_nonneg hu
  have h2 := gridTerms_pos hu
  unfold tempError
  exact mul_nonneg (mul_nonneg (by linarith) (by linarith)) (mul_nonneg h1 (by linarith))

/-- the temperatures computed are close to the exact ones -/
theorem computed_close {solve : Solver} (hu : u.Sound) {ε : ℝ} (hε : 0 ≤ ε) (hsol : NearSolver ε solve)
    (hs : ε * (coreResistance u * gridTerms u) ≤ 1 / 2) {H : ℕ → ℕ → ℝ}
    (hH : HeatHistory 535 (condOf (gridOf u)) (capOf 120 (gridOf u)) 1 20 H) (k i : ℕ) (hi : i < 535) :
    |computed solve (gridOf u) 20 k i - H k i| ≤ tempError ε u := by
  have hp := gridOf_pos hu
  have hF := computed_follows hsol.sized (gridOf_grid hu) 20
  have hR0 := coreResistance_nonneg hu
  have hA : ∀ k, ∀ i < 535, |H k i| ≤ 20 + coreResistance u := by
    intro k i hi
    have anti : ∀ a, a < 535 → H k a ≤ H k 0 := by
      intro a
      induction a with
      | zero => intro _; exact le_rfl
      | succ a ih =>
        intro ha
        have := nonneg_of_mul_nonneg_right (hH.flux hp zero_le_one k a ha).1 (hp.1 a ha)
        linarith [ih (by omega)]
    have low : ∀ a, a ≤ 534 → H k 534 ≤ H k (534 - a) := by
      intro a
      induction a with
      | zero => intro _; exact le_rfl
      | succ a ih =>
        intro ha
        have := nonneg_of_mul_nonneg_right (hH.flux hp zero_le_one k (534 - (a + 1)) (by omega)).1 (hp.1 _ (by omega))
        rw [show 534 - (a + 1) + 1 = 534 - a by omega] at this
        linarith [ih (by omega)]
    have h1 := anti i hi
    have h2 := low (534 - i) (by omega)
    rw [show 534 - (534 - i) = i by omega, hH.far (by norm_num) k] at h2
    have h3 := hH.bound hp (by norm_num) zero_le_one k
    rw [one_mul, condOf_eq] at h3
    change _ ≤ coreResistance u at h3
    rw [abs_of_nonneg (by linarith)]
    linarith
  have hB : ∀ i < 535, steady 535 (condOf (gridOf u)) (load (condOf (gridOf u)) (capOf 120 (gridOf u))) i ≤
      coreResistance u * gridTerms u := by
    intro i _
    refine (steady_le hp (load_nonneg hp)).trans ?_
    have := load_sum hp
    rw [condOf_eq, capOf_eq] at this ⊢
    exact mul_le_mul_of_nonneg_left this hR0
  have hl := gridOf_length u
  have := near_history hp (by norm_num) hH (X := computed solve (gridOf u) 20) (fun _ _ => rfl) (by
      intro k
      have := follows_near hε hsol (gridOf_grid hu) hF k
      rwa [hl] at this) hε hA (by rw [abs_one]; linarith) hB hs k i hi
  refine this.trans ?_
  unfold tempError
  exact mul_le_mul_of_nonneg_left (hB i hi) (mul_nonneg (by linarith) (by linarith))

/-- C131: whatever numbers the solver returns, as long as there are as many as equations, the simulation terminates and
the times of the samples are those of an exact solver (C73); with a relative error `ε` that is small for the tube, the
response is close to the exact one: no sample differs by more than `2 π k` times `tempError ε u`, however many steps
there are. -/
theorem C131_close {solve exact : Solver} (hu : u.Sound) (hex : ExactSolver exact) {ε : ℝ} (hε : 0 ≤ ε)
    (hsol : NearSolver ε solve) (hs : ε * (coreResistance u * gridTerms u) ≤ 1 / 2) (final : Option ℝ) :
    ∃ N r lntts g g', (∀ fuel, N ≤ fuel → calcSts solve u final false fuel = .ok (r, lntts, g)) ∧
      (∀ fuel, N ≤ fuel → calcSts exact u final false fuel = .ok (r, lntts, g')) ∧
      g.length = N ∧ g'.length = N ∧
      ∀ (k : ℕ) a b, g[k]? = some a → g'[k]? = some b → |a - b| ≤ 2 * π * u.kSoil * tempError ε u := by
  have hp := gridOf_pos hu
  have hH := heat_history hp (by norm_num) 1 20
  obtain ⟨N, h0, h1, h2⟩ := steps_exist (horizon u final)
  have hk : 0 < 2 * π * u.kSoil := by have := hu.kSoil; positivity
  refine ⟨N, _, _, _, _, fun fuel hf => calcSts_eq hu final (computed_follows hsol.sized (gridOf_grid hu) 20)
      (fun _ _ => rfl) h0 h1 h2 hf,
    fun fuel hf => calcSts_eq hu final (follows_exact hex (gridOf_grid hu) (by rw [gridOf_length]; exact hH)) hH.1 h0 h1 h2 hf,
    by rw [List.length_map, List.length_range], by rw [List.length_map, List.length_range], ?_⟩
  intro k a b ha hb
  have hkN : k < N := by
    by_contra hcon
    rw [List.getElem?_eq_none (by rw [List.length_map, List.length_range]; omega)] at ha
    cases ha
  rw [List.getElem?_map, List.getElem?_range hkN] at ha hb
  cases ha; cases hb
  have := computed_close hu hε hsol hs hH (k + 1) 0 (by norm_num)
  have := mul_le_mul_of_nonneg_left this hk.le
  rw [← abs_of_pos hk, ← abs_mul, abs_of_pos hk] at this
  refine le_trans (le_of_eq ?_) this
  congr 1
  ring

/-- The solver is accurate enough for a tube: for the relative error `ε` of its solutions, the bound on the error of the
temperatures is less than a sixtieth of the exact rise of the core temperature between 47 h 2 min and 48 h (and
`ε` is small). -/
def AccurateFor (solve : Solver) (u : Tube) : Prop :=
  ∃ ε, 0 ≤ ε ∧ NearSolver ε solve ∧ ε * (coreResistance u * gridTerms u) ≤ 1 / 2 ∧
    ∀ H, HeatHistory 535 (conductances (gridOf u)) (capacities 120 (gridOf u)) 1 20 H →
      60 * tempError ε u ≤ H 1440 0 - H 1411 0

theorem AccurateFor.sized {solve : Solver} (h : AccurateFor solve u) : SizedSolver solve := h.choose_spec.2.1.sized

/-- an exact solver is accurate enough for every tube -/
theorem _root_.Ghedt.Spec.ExactSolver.accurate {solve : Solver} (h : ExactSolver solve) (hu : u.Sound) :
    AccurateFor solve u := by
  refine ⟨0, le_rfl, h.near le_rfl, by simp, fun H hH => ?_⟩
  have hp := gridOf_pos hu
  rw [← condOf_eq, ← capOf_eq] at hH
  have hm : Monotone fun k => H k 0 := monotone_nat_of_le_succ fun k => hH.mono hp zero_le_one k 0 (by norm_num)
  have := hm (show 1411 ≤ 1440 by norm_num)
  simp only at this
  unfold tempError
  linarith

/-- gains over equally many steps become smaller -/
theorem gains {R : ℕ → ℝ} (h : ∀ k, R (k + 2) - R (k + 1) ≤ R (k + 1) - R k) (m : ℕ) {i j : ℕ} (hij : i ≤ j) :
    R (j + m) - R j ≤ R (i + m) - R i := by
  have anti : ∀ i j, i ≤ j → R (j + 1) - R j ≤ R (i + 1) - R i := by
    intro i j hij
    induction j, hij using Nat.le_induction with
    | base => exact le_rfl
    | succ j _ ih => exact (h j).trans ih
  induction m with
  | zero => simp
  | succ m ih =>
    have := anti (i + m) (j + m) (by omega)
    rw [← add_assoc, ← add_assoc]
    linarith

/-- C131: if the solver is accurate enough for the tube, the response at the hours 1 to 48 exists and has what the
durations of peaks need (C58, C104): it does not fall, the temperature rise of the fluid per unit of load is positive, and it
grows at most in proportion to time (but for nine tenths of an hour). -/
theorem C131_hours {solve : Solver} (hu : u.Sound) (hsol : AccurateFor solve u) :
    ∃ N r lntts g, (∀ fuel, N ≤ fuel → calcSts solve u none false fuel = .ok (r, lntts, g)) ∧
      ∃ G : ℕ → ℝ, (∀ t : ℕ, 1 ≤ t → t ≤ 48 → (respOf u r lntts g).g (t : ℤ) = .ok (G t)) ∧
        (∀ t, 1 ≤ t → t < 48 → G t ≤ G (t + 1)) ∧
        (∀ t, 1 ≤ t → t ≤ 48 → 0 < G t / (2 * π * u.kSoil) + u.Rb) ∧
        ∀ s t : ℕ, 1 ≤ s → s ≤ t → t ≤ 48 →
          (s : ℝ) * (G t / (2 * π * u.kSoil) + u.Rb) ≤ ((t : ℝ) + 9 / 10) * (G s / (2 * π * u.kSoil) + u.Rb) := by
  obtain ⟨ε, hε, hnear, hs, hlast⟩ := hsol
  have hp := gridOf_pos hu
  have hH := heat_history hp (by norm_num) 1 20
  set A := heat 535 (condOf (gridOf u)) (capOf 120 (gridOf u)) 1 20 hp (by norm_num) with hAd
  have hk : 0 < 2 * π * u.kSoil := by have := hu.kSoil; positivity
  have hδ0 := tempError_nonneg hu hε
  have hlast := hlast A (by rw [← condOf_eq, ← capOf_eq]; exact hH)
  set δ := tempError ε u with hδ
  have hgain := fun k => hH.gain_core hp (by norm_num) zero_le_one k
  have hts := ts_pos hu 20
  -- the exact response
  obtain ⟨N', r', lntts', g', h', B, b1, b2, b3, b4, b5⟩ := slow_located hu exSolver_exact none (M := 48) (by
    unfold horizon
    rw [Option.getD_none]
    have := le_max_right (u.H ^ 2 / (9 * (u.ks / u.rhoCpSoil)) * exp (-(86 / 10))) (49 * 3600)
    push_cast
    linarith)
  have b5 := b5 A hH
  obtain ⟨N, h0, h1, h2⟩ := steps_exist (horizon u none)
  have hexact := calcSts_eq hu none (follows_exact exSolver_exact (gridOf_grid hu) (by rw [gridOf_length]; exact hH)) hH.1
    h0 h1 h2 (le_max_left N N')
  rw [h' _ (le_max_right N N')] at hexact
  cases hexact
  -- the computed one is close
  have hx : ∀ k, log (sampleTime k / (radialOf u 20).ts) ≤ log (sampleTime (k + 1) / (radialOf u 20).ts) := by
    intro k
    apply log_le_log
    · exact div_pos (by unfold sampleTime; positivity) hts
    · apply div_le_div_of_nonneg_right _ hts.le
      unfold sampleTime
      push_cast; linarith
  have hclose : ∀ t : ℕ, 1 ≤ t → t ≤ 48 → ∃ d, (respOf u (radialOf u 20)
      ((List.range N).map fun j => log (sampleTime j / (radialOf u 20).ts))
      ((List.range N).map fun j => 2 * π * u.kSoil * ((computed solve (gridOf u) 20 (j + 1) 0 - 20) - u.Rb))).g (t : ℤ) = .ok d ∧
      |B t - d| ≤ 2 * π * u.kSoil * δ := by
    intro t t1 t2
    refine interp1d_close (fun k _ => hx k) (fun k _ => ?_) (b1 t t1 t2)
    have := computed_close hu hε hnear hs hH (k + 1) 0 (by norm_num)
    rw [abs_sub_comm] at this
    have := mul_le_mul_of_nonneg_left this hk.le
    rw [← abs_of_pos hk, ← abs_mul, abs_of_pos hk] at this
    convert this using 2
    ring
  choose! G hG hGB using hclose
  -- in terms of the rise of the temperature
  have hrise : ∀ t : ℕ, 1 ≤ t → t ≤ 48 → (A (30 * t) 0 - 20) - δ ≤ G t / (2 * π * u.kSoil) + u.Rb ∧
      G t / (2 * π * u.kSoil) + u.Rb ≤ (A (30 * t + 1) 0 - 20) + δ ∧
      |B t / (2 * π * u.kSoil) - G t / (2 * π * u.kSoil)| ≤ δ := by
    intro t t1 t2
    have e : |B t / (2 * π * u.kSoil) - G t / (2 * π * u.kSoil)| ≤ δ := by
      rw [← sub_div, abs_div, abs_of_pos hk, div_le_iff₀ hk]
      linarith [hGB t t1 t2]
    have l := b5 t t1 t2
    have := abs_le.1 e
    exact ⟨by linarith [l.1], by linarith [l.2], e⟩
  have hblock : ∀ s : ℕ, s ≤ 48 → 60 * δ * s ≤ A (30 * s) 0 - 20 := by
    intro s
    induction s with
    | zero => intro _; rw [hH.1 0 (by norm_num)]; simp
    | succ s ih =>
      intro hs
      have i1 := ih (by omega)
      have i2 := gains (R := fun k => A k 0) hgain 29 (i := 30 * s) (j := 1411) (by omega)
      have i3 := hH.mono hp zero_le_one (30 * s + 29) 0 (by norm_num)
      rw [show 30 * (s + 1) = 30 * s + 29 + 1 by ring]
      push_cast
      norm_num at i2
      linarith
  refine ⟨N, _, _, _, fun fuel hf => calcSts_eq hu none (computed_follows hnear.sized (gridOf_grid hu) 20)
      (fun _ _ => rfl) h0 h1 h2 hf, G, hG, ?_, ?_, ?_⟩
  · intro t t1 t2
    have i1 := (hrise t t1 (by omega)).2.1
    have i2 := (hrise (t + 1) (by omega) (by omega)).1
    have i3 := gains (R := fun k => A k 0) hgain 29 (i := 30 * t + 1) (j := 1411) (by omega)
    norm_num at i3
    rw [show 30 * t + 1 + 29 = 30 * (t + 1) by ring] at i3
    have : G t / (2 * π * u.kSoil) ≤ G (t + 1) / (2 * π * u.kSoil) := by linarith
    rwa [div_le_div_iff_of_pos_right hk] at this
  · intro t t1 t2
    have i1 := (hrise t t1 t2).1
    have c1 : (1 : ℝ) ≤ t := by exact_mod_cast t1
    rcases hδ0.lt_or_eq with hd | hd
    · have := hblock t t2
      have := mul_le_mul_of_nonneg_left c1 hδ0
      linarith
    · have := hH.core_strict hp (by norm_num) one_pos
      have hm : StrictMono fun k => A k 0 := strictMono_nat_of_lt_succ this
      have := hm (show 0 < 30 * t by omega)
      simp only at this
      rw [hH.1 0 (by norm_num)] at this
      linarith
  · intro s t s1 hst t2
    have c1 : (1 : ℝ) ≤ s := by exact_mod_cast s1
    have c2 : (s : ℝ) ≤ t := by exact_mod_cast hst
    have c3 : (t : ℝ) ≤ 48 := by exact_mod_cast t2
    have e := b4 s t s1 hst t2
    have q1 := (abs_le.1 (hrise t (by omega) t2).2.2).1
    have q2 := (abs_le.1 (hrise s s1 (by omega)).2.2).2
    have q3 := (hrise s s1 (by omega)).1
    have q4 := hblock s (by omega)
    set rs := G s / (2 * π * u.kSoil) + u.Rb
    set rt := G t / (2 * π * u.kSoil) + u.Rb
    set xs := B s / (2 * π * u.kSoil) + u.Rb
    set xt := B t / (2 * π * u.kSoil) + u.Rb
    have p1 : (s : ℝ) * rt ≤ s * (xt + δ) := mul_le_mul_of_nonneg_left (by linarith) (by linarith)
    have p2 : ((t : ℝ) + 1 / 30) * xs ≤ (t + 1 / 30) * (rs + δ) := mul_le_mul_of_nonneg_left (by linarith) (by linarith)
    -- `59 s δ ≤ rs`
    have p3 : 59 * δ * s ≤ rs := by
      have := mul_le_mul_of_nonneg_left c1 hδ0
      linarith
    have p4 : (s + t + 1 / 30) * δ ≤ 13 / 15 * rs := by
      have : ((t : ℝ) + 1 / 30) * δ ≤ (48 + 1 / 30) * s * δ := by
        apply mul_le_mul_of_nonneg_right _ hδ0
        linarith
      have := mul_nonneg hδ0 (show (0 : ℝ) ≤ s by linarith)
      linarith
    linarith

/-- C131: if the equations are solved accurately enough, a small error remains a small error; and for every tube there is a
relative error that is small enough. -/
theorem C131_enough (hu : u.Sound) : ∃ ε, 0 < ε ∧ ∀ solve : Solver, NearSolver ε solve → AccurateFor solve u := by
  have hp := gridOf_pos hu
  have hH := heat_history hp (by norm_num) 1 20
  set A := heat 535 (condOf (gridOf u)) (capOf 120 (gridOf u)) 1 20 hp (by norm_num) with hAd
  have hm : StrictMono fun k => A k 0 := strictMono_nat_of_lt_succ fun k => hH.core_strict hp (by norm_num) one_pos k
  have hgap : 0 < A 1440 0 - A 1411 0 := sub_pos.2 (hm (show 1411 < 1440 by norm_num))
  have hR := coreResistance_nonneg hu
  have hS := gridTerms_pos hu
  set P := coreResistance u * gridTerms u with hP
  have hP0 : 0 ≤ P := mul_nonneg hR (by linarith)
  have hQ : 0 ≤ 120 * (20 + coreResistance u) * P := mul_nonneg (by linarith) hP0
  refine ⟨min (1 / (2 * (P + 1))) ((A 1440 0 - A 1411 0) / (120 * (20 + coreResistance u) * P + 1)), ?_, ?_⟩
  · refine lt_min (div_pos one_pos (by linarith)) (div_pos hgap (by linarith))
  · intro solve hsol
    set ε := min (1 / (2 * (P + 1))) ((A 1440 0 - A 1411 0) / (120 * (20 + coreResistance u) * P + 1)) with hεd
    have hε : 0 < ε := lt_min (div_pos one_pos (by linarith)) (div_pos hgap (by linarith))
    refine ⟨ε, hε.le, hsol, ?_, fun H hH' => ?_⟩
    · have : ε ≤ 1 / (2 * (P + 1)) := min_le_left _ _
      rw [le_div_iff₀ (by linarith)] at this
      linarith
    · rw [← condOf_eq, ← capOf_eq] at hH'
      rw [hH'.unique hp (by norm_num) hH _ _ (by norm_num), hH'.unique hp (by norm_num) hH _ _ (by norm_num)]
      have : ε ≤ _ := min_le_right _ _
      rw [le_div_iff₀ (by linarith)] at this
      unfold tempError
      rw [← hP]
      nlinarith

/-- C58 for the response the program computes: no hypothesis on the g-function is left.  For a physical
single U-tube, a solver accurate enough for it, hourly loads of a whole year that are nonnegative and, in the two days looked at for a
month's peak, never exceed it by less than 0.1, the twelve peak durations are found and lie in (0, 48]. -/
theorem C58_computed {solve : Solver} (hu : u.Sound) (hsol : AccurateFor solve u)
    {hourly : List ℝ} {year : ℤ} (hlen : hourly.length = if LeapYear year then 8784 else 8760)
    (hpos : ∀ x ∈ hourly, 0 ≤ x)
    (hgap : ClearPeaks (1 / 10) (decide (LeapYear year)) hourly) :
    ∃ N r lntts g L, (∀ fuel, N ≤ fuel → calcSts solve u none false fuel = .ok (r, lntts, g)) ∧
      mkLoads (respOf u r lntts g) hourly year = .ok L ∧ L.duration.length = 13 ∧
      ∀ m : ℕ, 1 ≤ m → m ≤ 12 → ∃ d, L.duration[m]? = some d ∧ 0 < d ∧ d ≤ 48 := by
  obtain ⟨N, r, lntts, g, h, G, h1, h2, h3, -⟩ := C131_hours hu hsol
  have hk : 0 < 2 * π * u.kSoil := by have := hu.kSoil; positivity
  obtain ⟨L, e1, e2, e3⟩ := C58_year (r := respOf u r lntts g) h1 hk h2 (h3 1 le_rfl (by norm_num)).le hlen hpos hgap
  exact ⟨N, r, lntts, g, L, h, e1, e2, e3⟩

/-! ### the hypotheses are met -/

/-- a solver that makes errors: the first of the exact values is off by the factor `1 + η` (unless an equation names
it) -/
def roughSolver (η : ℝ) : Solver := fun dl d du b =>
  if du.getD 0 0 = 0 then exSolver dl d du b
  else (exSolver dl d du b).set 0 ((1 + η) * (exSolver dl d du b).getD 0 0)

theorem roughSolver_near {η : ℝ} (hη : 0 ≤ η) : NearSolver η (roughSolver η) := by
  intro dl d du b h1 h2 h3 h4
  unfold roughSolver
  split_ifs with h
  · exact (exSolver_exact.near hη) dl d du b h1 h2 h3 h4
  obtain ⟨e1, e2⟩ := exSolver_exact dl d du b h1 h2 h3 h4
  generalize exSolver dl d du b = x at e1 e2
  have hb : 0 < b.length := by omega
  have h1b : 1 < b.length := by
    by_contra hcon
    have : du.length = 0 := by omega
    rw [List.length_eq_zero_iff.1 this] at h
    simp at h
  have g0 : (x.set 0 ((1 + η) * x.getD 0 0)).getD 0 0 = (1 + η) * x.getD 0 0 := by
    rw [List.getD_eq_getElem?_getD, List.getElem?_set_self (by omega)]; rfl
  have gs : ∀ i, 0 < i → (x.set 0 ((1 + η) * x.getD 0 0)).getD i 0 = x.getD i 0 := by
    intro i hi
    rw [List.getD_eq_getElem?_getD, List.getElem?_set_ne (by omega), ← List.getD_eq_getElem?_getD]
  refine ⟨by rw [List.length_set, e1], fun i hi => ?_⟩
  have e := e2 i hi
  rcases Nat.lt_trichotomy i 1 with hi0 | rfl | hi2
  · obtain rfl : i = 0 := by omega
    refine ⟨?_, fun _ _ f3 => absurd (f3 (by omega)) h⟩
    rw [if_neg (by omega), if_pos (by omega)] at e
    rw [if_neg (by omega), if_pos (by omega), if_neg (by omega), if_pos (by omega), g0, gs _ (by omega), ← e]
    have : 0 + d.getD 0 0 * ((1 + η) * x.getD 0 0) + du.getD 0 0 * x.getD (0 + 1) 0 -
        (0 + d.getD 0 0 * x.getD 0 0 + du.getD 0 0 * x.getD (0 + 1) 0) = η * (d.getD 0 0 * x.getD 0 0) := by ring
    rw [this, abs_mul, abs_of_nonneg hη]
    refine mul_le_mul_of_nonneg_left ?_ hη
    have h5 : |d.getD 0 0 * ((1 + η) * x.getD 0 0)| = (1 + η) * |d.getD 0 0 * x.getD 0 0| := by
      rw [mul_left_comm, abs_mul, abs_of_nonneg (show 0 ≤ 1 + η by linarith)]
    rw [h5]
    have a1 := abs_nonneg (d.getD 0 0 * x.getD 0 0)
    have a2 := abs_nonneg (du.getD 0 0 * x.getD (0 + 1) 0)
    have a3 := abs_nonneg (0 + d.getD 0 0 * x.getD 0 0 + du.getD 0 0 * x.getD (0 + 1) 0)
    have := mul_nonneg hη a1
    linarith
  · simp only [Nat.sub_self, zero_lt_one, if_true, g0, gs 1 one_pos, gs (1 + 1) (by norm_num)] at e ⊢
    constructor
    · rw [← e]
      generalize (if 1 + 1 < b.length then du.getD 1 0 * x.getD (1 + 1) 0 else 0) = c
      generalize hc' : (if 1 + 1 < b.length then |du.getD 1 0 * x.getD (1 + 1) 0| else 0) = c'
      have hc0 : 0 ≤ c' := by rw [← hc']; split_ifs <;> positivity
      have : dl.getD 0 0 * ((1 + η) * x.getD 0 0) + d.getD 1 0 * x.getD 1 0 + c -
          (dl.getD 0 0 * x.getD 0 0 + d.getD 1 0 * x.getD 1 0 + c) = η * (dl.getD 0 0 * x.getD 0 0) := by ring
      rw [this, abs_mul, abs_of_nonneg hη]
      refine mul_le_mul_of_nonneg_left ?_ hη
      have h5 : |dl.getD 0 0 * ((1 + η) * x.getD 0 0)| = (1 + η) * |dl.getD 0 0 * x.getD 0 0| := by
        rw [mul_left_comm, abs_mul, abs_of_nonneg (show 0 ≤ 1 + η by linarith)]
      rw [h5]
      have a1 := abs_nonneg (dl.getD 0 0 * x.getD 0 0)
      have a2 := abs_nonneg (d.getD 1 0 * x.getD 1 0)
      have a3 := abs_nonneg (dl.getD 0 0 * x.getD 0 0 + d.getD 1 0 * x.getD 1 0 + c)
      have := mul_nonneg hη a1
      linarith
    · intro f1 f2 f3
      rw [← e, f1 trivial, f2]
      split_ifs with g
      · rw [f3 g]; ring
      · ring
  · rw [gs i (by omega), gs (i - 1) (by omega), gs (i + 1) (by omega)]
    refine ⟨?_, fun f1 f2 f3 => ?_⟩
    · rw [e, sub_self, abs_zero]
      refine mul_nonneg hη ?_
      split_ifs <;> positivity
    · rw [← e, f2, if_pos (by omega), f1 (by omega)]
      split_ifs with g
      · rw [f3 g]; ring
      · ring

/-- it is not exact -/
theorem roughSolver_not_exact {η : ℝ} (hη : 0 < η) : ¬ ExactSolver (roughSolver η) := by
  intro h
  have huniq : ∃! x, TriSolves [0] [2, 1] [1] [3, 1] x := by
    refine ⟨[1, 1], ⟨rfl, ?_⟩, ?_⟩
    · intro i hi
      simp only [List.length_cons, List.length_nil] at hi
      rcases (by omega : i = 0 ∨ i = 1) with rfl | rfl <;> norm_num
    · rintro x ⟨hl, hx⟩
      match x, hl with
      | [a, b], _ =>
        have h0 := hx 0 (by norm_num)
        have h1 := hx 1 (by norm_num)
        norm_num at h0 h1
        rw [h1] at h0 ⊢
        congr 1
        linarith
  have hex := exSolver_exact [0] [2, 1] [1] [3, 1] rfl rfl rfl huniq
  have hr := h [0] [2, 1] [1] [3, 1] rfl rfl rfl huniq
  have heq := huniq.unique hr hex
  have hone : exSolver [0] [2, 1] [1] [3, 1] = [1, 1] := huniq.unique hex (by
    refine ⟨rfl, ?_⟩
    intro i hi
    simp only [List.length_cons, List.length_nil] at hi
    rcases (by omega : i = 0 ∨ i = 1) with rfl | rfl <;> norm_num)
  unfold roughSolver at heq
  rw [if_neg (by norm_num), hone] at heq
  norm_num at heq
  linarith

/-- C131 applies to solvers that are not exact: some such solver is accurate enough for a usual borehole. -/
theorem rough_accurate : ∃ η, 0 < η ∧ ¬ ExactSolver (roughSolver η) ∧ AccurateFor (roughSolver η) exTube := by
  obtain ⟨ε, hε, h⟩ := C131_enough exTube_sound
  exact ⟨ε, hε, roughSolver_not_exact hε, h _ (roughSolver_near hε.le)⟩

/-- The hypotheses of C131 are met, other than by an exact solver. -/
example : ∃ ε, 0 < ε ∧ ∃ N r lntts g g',
    (∀ fuel, N ≤ fuel → calcSts (roughSolver ε) exTube none false fuel = .ok (r, lntts, g)) ∧
      (∀ fuel, N ≤ fuel → calcSts exSolver exTube none false fuel = .ok (r, lntts, g')) ∧
      g.length = N ∧ g'.length = N ∧
      ∀ (k : ℕ) a b, g[k]? = some a → g'[k]? = some b → |a - b| ≤ 2 * π * exTube.kSoil * tempError ε exTube := by
  have hP : 0 ≤ coreResistance exTube * gridTerms exTube :=
    mul_nonneg (coreResistance_nonneg exTube_sound) (by linarith [gridTerms_pos exTube_sound])
  set P := coreResistance exTube * gridTerms exTube with hPd
  have hε : 0 < 1 / (2 * (P + 1)) := div_pos one_pos (by linarith)
  refine ⟨_, hε, C131_close exTube_sound exSolver_exact hε.le (roughSolver_near hε.le) ?_ none⟩
  rw [← hPd, div_mul_eq_mul_div, div_le_iff₀ (by linarith)]
  linarith

example : ∃ η, ¬ ExactSolver (roughSolver η) ∧ ∃ N r lntts g,
    (∀ fuel, N ≤ fuel → calcSts (roughSolver η) exTube none false fuel = .ok (r, lntts, g)) ∧
    ∃ G : ℕ → ℝ, (∀ t : ℕ, 1 ≤ t → t ≤ 48 → (respOf exTube r lntts g).g (t : ℤ) = .ok (G t)) ∧
      ∀ t, 1 ≤ t → t < 48 → G t ≤ G (t + 1) := by
  obtain ⟨η, -, h1, h2⟩ := rough_accurate
  obtain ⟨N, r, l, g, h, G, g1, g2, -⟩ := C131_hours exTube_sound h2
  exact ⟨η, h1, N, r, l, g, h, G, g1, g2⟩

/-- The hypotheses of C58 for the computed response are met, here by a load of 1 kW throughout the year. -/
example : ∃ N r lntts g L,
    (∀ fuel, N ≤ fuel → calcSts exSolver exTube none false fuel = .ok (r, lntts, g)) ∧
      mkLoads (respOf exTube r lntts g) (List.replicate 8760 1) 2019 = .ok L ∧ L.duration.length = 13 ∧
      ∀ m : ℕ, 1 ≤ m → m ≤ 12 → ∃ d, L.duration[m]? = some d ∧ 0 < d ∧ d ≤ 48 := by
  refine C58_computed exTube_sound (exSolver_exact.accurate exTube_sound) ?_ ?_ ?_
  · rw [List.length_replicate, if_neg (by decide)]
  · intro x hx
    rw [List.eq_of_mem_replicate hx]; norm_num
  · refine ClearPeaks.of_all ?_
    intro m _ _ peak hp _ x hx
    have : peak ∈ List.replicate 8760 (1 : ℝ) := by
      unfold monthLoads at hp
      exact List.mem_of_mem_drop (List.mem_of_mem_take hp)
    rw [List.eq_of_mem_replicate hx, List.eq_of_mem_replicate this]
    exact Or.inl le_rfl

end

end Ghedt.Radial
