import Verif.Props.Rounded

/-!
# C118 — when the rounded candidates are the exact ones

The counts of boreholes come from rounding a quotient up or down to a whole number.  Unless a quotient is a whole number,
or nearly one, rounding errors do not matter, and the candidates are those of exact arithmetic up to one part in `10^15`.
-/

set_option linter.unusedSectionVars false

namespace Ghedt.Rounded
open Coordinates Domains Spec

variable {K : Type} [Field K] [LinearOrder K] [IsStrictOrderedRing K] [FloorRing K]
  (R : Rounding K)

theorem rMin_eq {L B : K} (hL : 0 < L) (hB : 0 < B) (hhi : B ≤ 10 ^ 15 * L) (hc : ⌈L / B⌉ + 1 ≤ 2 ^ 53)
    (h : Sharp (L / B)) : rMin R L B = ⌈L / B⌉ + 1 := by
  have u0 := ur_pos (K := K)
  have u9 := tiny_ge (K := K)
  apply le_antisymm
  · apply rMin_le_ceil R hL hB hc
    push_cast
    have := Int.le_ceil (L / B)
    linarith
  · by_contra hcon
    have h2 := two_le_rMin R hB hhi
    set m := ⌈L / B⌉ with hm
    have hle : rMin R L B ≤ m := by omega
    have hm2 : 2 ≤ m := h2.trans hle
    have a := count_enough R (div_pos hL hB).le (two_cast (K := K) hm2)
      ((Int.le_ceil _).trans (by exact_mod_cast hle))
    have b : ((m - 1 : ℤ) : K) < L / B := by
      rw [← Int.lt_ceil]; omega
    have c := h (m - 1) (by omega) b.ne'
    rw [abs_of_pos (by linarith)] at c
    have hm0 : (0 : K) < ((m - 1 : ℤ) : K) := cast_pred_pos hm2
    push_cast at a b c hm0
    nlinarith

theorem rMax_eq {L B : K} (hL : 0 < L) (hB : 0 < B) (hc : ⌊L / B⌋ + 1 ≤ 2 ^ 53) (h : Sharp (L / B)) :
    rMax R L B = ⌊L / B⌋ + 1 := by
  have u0 := ur_pos (K := K)
  have u9 := tiny_ge (K := K)
  have hq := div_pos hL hB
  have h0 : 0 ≤ ⌊L / B⌋ := Int.floor_nonneg.mpr hq.le
  apply le_antisymm
  · by_contra hcon
    set m := ⌊L / B⌋ with hm
    have hle : m + 2 ≤ rMax R L B := by omega
    have a := count_fits R hq.le (n := ((m + 2 : ℤ) : K)) (two_cast (by omega))
      (le_trans (by exact_mod_cast hle) (Int.floor_le _))
    have b : L / B < ((m + 1 : ℤ) : K) := by push_cast; exact Int.lt_floor_add_one _
    have c := h (m + 1) (by omega) b.ne
    rw [abs_of_neg (by linarith)] at c
    push_cast at a b c
    nlinarith
  · apply floor_le_rMax R (by omega) hc
    push_cast
    have := Int.floor_le (L / B)
    linarith

theorem rRows_eq {L1 L2 : K} (h1 : 0 < L1) (h2 : 0 < L2) {N : ℤ} (hN : 2 ≤ N)
    (hc : ⌊L2 * ((N - 1 : ℤ) : K) / L1⌋ + 1 ≤ 2 ^ 53) (h : Clear (L2 * ((N - 1 : ℤ) : K) / L1)) :
    rRows R L1 L2 N = ⌊L2 / (L1 / ((N : K) - 1))⌋ + 1 := by
  have u0 := ur_pos (K := K)
  have u1 := ur_le (K := K)
  have u9 := tiny_ge (K := K)
  have hp := cast_pred_pos (K := K) hN
  have hB := rB_pos R h1 hN
  have e : L2 / (L1 / ((N : K) - 1)) = L2 * ((N - 1 : ℤ) : K) / L1 := by
    push_cast; rw [div_div_eq_mul_div]
  rw [e]
  set q := L2 * ((N - 1 : ℤ) : K) / L1 with hq
  have hqp : 0 < q := div_pos (mul_pos h2 hp) h1
  -- the computed quotient
  set q' := L2 / rB R L1 N with hq'
  have hqp' : 0 < q' := div_pos h2 hB
  have ex : 0 < L1 / ((N - 1 : ℤ) : K) := div_pos h1 hp
  have b1 : rB R L1 N ≤ (1 + ur) * (L1 / ((N - 1 : ℤ) : K)) := fl_le R ex.le
  have b2 : (1 - ur) * (L1 / ((N - 1 : ℤ) : K)) ≤ rB R L1 N := le_fl R ex.le
  have eq : q * (L1 / ((N - 1 : ℤ) : K)) = L2 := by rw [hq]; field_simp
  have eq' : q' * rB R L1 N = L2 := by rw [hq']; field_simp
  have c1 : q ≤ (1 + ur) * q' := by
    have : q * (L1 / ((N - 1 : ℤ) : K)) ≤ (1 + ur) * q' * (L1 / ((N - 1 : ℤ) : K)) := by
      rw [eq, ← eq']
      nlinarith
    exact le_of_mul_le_mul_right this ex
  have c2 : (1 - ur) * q' ≤ q := by
    have : (1 - ur) * q' * (L1 / ((N - 1 : ℤ) : K)) ≤ q * (L1 / ((N - 1 : ℤ) : K)) := by
      rw [eq, ← eq']
      nlinarith
    exact le_of_mul_le_mul_right this ex
  have h0 : 0 ≤ ⌊q⌋ := Int.floor_nonneg.mpr hqp.le
  apply le_antisymm
  · by_contra hcon
    set m := ⌊q⌋ with hm
    have hle : m + 2 ≤ rRows R L1 L2 N := by omega
    have a := count_fits R hqp'.le (n := ((m + 2 : ℤ) : K)) (two_cast (by omega))
      (le_trans (by exact_mod_cast hle) (Int.floor_le _))
    have b : q < ((m + 1 : ℤ) : K) := by push_cast; exact Int.lt_floor_add_one _
    have c := h (m + 1) (by omega)
    rw [abs_of_neg (by linarith)] at c
    push_cast at a b c
    have d : (1 + 4 * ur) * q' ≤ (1 + 6 * ur) * q := by
      have : (1 + 4 * ur) * q' ≤ (1 + 6 * ur) * ((1 - ur) * q') := by
        have : (1 + 4 * ur : K) ≤ (1 + 6 * ur) * (1 - ur) := by nlinarith
        nlinarith
      nlinarith
    nlinarith
  · unfold rRows
    rw [Int.le_floor]
    by_cases hz : ⌊q⌋ = 0
    · rw [hz]
      simpa using one_le_countOf R hqp'.le
    · apply int_le_countOf R (by omega) hc
      have b := Int.floor_le q
      have n1 : (1 : K) ≤ (⌊q⌋ : K) := by exact_mod_cast (by omega : 1 ≤ ⌊q⌋)
      have c := h ⌊q⌋ (by omega)
      rw [abs_of_nonneg (by linarith)] at c
      push_cast
      have : ((1 + ur) * (⌊q⌋ : K)) ≤ (1 + ur) * q' := by nlinarith
      have := le_of_mul_le_mul_left this (by linarith)
      linarith

theorem rectShapes_congr (B : ℤ → K) {rows rows' : ℤ → ℤ} {N0 N1 : ℤ} (hle : N0 ≤ N1)
    (h : ∀ N, N0 ≤ N → N ≤ N1 → rows N = rows' N) : rectShapes B rows N0 N1 = rectShapes B rows' N0 N1 := by
  unfold rectShapes
  rw [h N0 le_rfl hle]
  congr 1
  have hf : (fromTo N0 N1).filter (fun N => decide (rows N ≠ if N = N0 then 1 else rows (N - 1))) =
      (fromTo N0 N1).filter (fun N => decide (rows' N ≠ if N = N0 then 1 else rows' (N - 1))) := by
    apply List.filter_congr
    intro N hN
    rw [fromTo_eq, mem_pyRange] at hN
    rw [h N hN.1 (by omega)]
    by_cases hc : N = N0
    · simp only [if_pos hc]
    · simp only [if_neg hc]
      rw [h (N - 1) (by omega) (by omega)]
  rw [hf]
  apply List.map_congr_left
  intro N hN
  rw [List.mem_filter, fromTo_eq, mem_pyRange] at hN
  rw [h N hN.1.1 (by omega)]

/-- a computed grid with a computed spacing is near the exact grid with the exact spacing -/
theorem near_rlattice_fl (Nx Ny : ℤ) {Bx By : K} (hBx : 0 ≤ Bx) (hBy : 0 ≤ By) :
    Near (rlattice R Nx Ny (R.fl Bx) (R.fl By)) (lattice Nx Ny Bx By (0, 0)) := by
  have key : ∀ {B : K} (_ : 0 ≤ B) {i : ℤ}, 0 ≤ i → |R.fl ((i : K) * R.fl B) - (i : K) * B| ≤ tiny * |(i : K) * B| := by
    intro B hB i hi
    have u0 := ur_pos (K := K)
    have u1 := ur_le (K := K)
    have u9 := tiny_ge (K := K)
    have hi' : (0 : K) ≤ i := by exact_mod_cast hi
    have a1 := fl_le R hB
    have a2 := le_fl R hB
    have hp : 0 ≤ (i : K) * B := mul_nonneg hi' hB
    have hp' : 0 ≤ (i : K) * R.fl B := mul_nonneg hi' (fl_nonneg R hB)
    have b1 := fl_le R hp'
    have b2 := le_fl R hp'
    have c1 : (i : K) * R.fl B ≤ (1 + ur) * ((i : K) * B) := by nlinarith
    have c2 : (1 - ur) * ((i : K) * B) ≤ (i : K) * R.fl B := by nlinarith
    rw [abs_of_nonneg hp, abs_le]
    have d1 : (1 + ur) * ((1 + ur) * ((i : K) * B)) ≤ (1 + tiny) * ((i : K) * B) := by
      rw [← mul_assoc]; exact mul_le_mul_of_nonneg_right (by nlinarith) hp
    have d2 : (1 - tiny) * ((i : K) * B) ≤ (1 - ur) * ((1 - ur) * ((i : K) * B)) := by
      have := mul_le_mul_of_nonneg_right (show (1 - tiny : K) ≤ (1 - ur) * (1 - ur) by nlinarith) hp
      rwa [mul_assoc (1 - ur : K) (1 - ur)] at this
    have e1 : (1 + ur) * ((i : K) * R.fl B) ≤ (1 + ur) * ((1 + ur) * ((i : K) * B)) :=
      mul_le_mul_of_nonneg_left c1 (by linarith)
    have e2 : (1 - ur) * ((1 - ur) * ((i : K) * B)) ≤ (1 - ur) * ((i : K) * R.fl B) :=
      mul_le_mul_of_nonneg_left c2 (by linarith)
    constructor <;> linarith
  unfold Near rlattice lattice
  apply forall₂_flatMap
  intro i hi
  rw [List.forall₂_map_left_iff, List.forall₂_map_right_iff, List.forall₂_same]
  intro j hj
  rw [mem_pyRange] at hi hj
  simp only [zero_add]
  exact ⟨key hBx hi.1, key hBy hj.1⟩

theorem rlattice_exact (Nx Ny : ℤ) (Bx By : K) :
    rlattice (Rounding.exact (K := K)) Nx Ny Bx By = lattice Nx Ny Bx By (0, 0) := by
  unfold rlattice lattice
  simp [Rounding.exact]

/-- C118, `rectangular`: if the quotients of the longer side by the spacing bounds are whole numbers or clear of them, and
if for every number of boreholes along the longer side the quotient that gives the number of rows is clear of whole numbers,
then the rounded candidates are those of exact arithmetic, field by field and borehole by borehole, up to one part in
`10^15`. -/
theorem C118_rectangular {X Y Bmin Bmax : K} (hX : 0 < X) (hY : 0 < Y) (hBmin : 0 < Bmin) (hBmax : 0 < Bmax)
    (hlo : max X Y ≤ 10 ^ 15 * Bmin) (hlo' : max X Y ≤ 10 ^ 15 * Bmax) (hhi : Bmax ≤ 10 ^ 15 * max X Y)
    (hmin : Sharp (max X Y / Bmin)) (hmax : Sharp (max X Y / Bmax))
    (hrows : ∀ n : ℤ, 1 ≤ n → max X Y / Bmax ≤ n → n ≤ max X Y / Bmin → Clear (min X Y * n / max X Y)) :
    ∃ d d', rectangular R X Y Bmin Bmax = .ok d ∧ Domains.rectangular X Y Bmin Bmax = .ok d' ∧ NearDomain d d' := by
  set L1 := max X Y with hL1
  set L2 := min X Y with hL2
  have h1 : 0 < L1 := lt_of_lt_of_le hX (le_max_left _ _)
  have h2 : 0 < L2 := lt_min hX hY
  have h21 : L2 ≤ L1 := min_le_max
  have big : ∀ {q : K}, q ≤ 10 ^ 15 → ⌊q⌋ + 1 ≤ 2 ^ 53 ∧ ⌈q⌉ + 1 ≤ 2 ^ 53 := by
    intro q hq
    have a : ⌊q⌋ ≤ 10 ^ 15 := by
      have : (⌊q⌋ : K) ≤ ((10 ^ 15 : ℤ) : K) := (Int.floor_le q).trans (by push_cast; norm_num at hq ⊢; exact hq)
      exact_mod_cast this
    have b : ⌈q⌉ ≤ 10 ^ 15 := by
      rw [Int.ceil_le]; push_cast; norm_num at hq ⊢; exact hq
    constructor <;> omega
  have hq1 : L1 / Bmin ≤ 10 ^ 15 := by rwa [div_le_iff₀ hBmin]
  have hq2 : L1 / Bmax ≤ 10 ^ 15 := by rwa [div_le_iff₀ hBmax]
  have e0 : ∀ R : Rounding K, rMin R L1 Bmax = ⌈L1 / Bmax⌉ + 1 := fun R =>
    rMin_eq R h1 hBmax hhi (big hq2).2 hmax
  have e1 : ∀ R : Rounding K, rMax R L1 Bmin = ⌊L1 / Bmin⌋ + 1 := fun R => rMax_eq R h1 hBmin (big hq1).1 hmin
  have hN0 : ∀ R : Rounding K, 2 ≤ rMin R L1 Bmax := fun R => two_le_rMin R hBmax hhi
  have er : ∀ (R : Rounding K) (N : ℤ), ⌈L1 / Bmax⌉ + 1 ≤ N → N ≤ ⌊L1 / Bmin⌋ + 1 →
      rRows R L1 L2 N = ⌊L2 / (L1 / ((N : K) - 1))⌋ + 1 := by
    intro R N hN hN'
    have hN2 : 2 ≤ N := by have := hN0 R; rw [e0] at this; omega
    have hp := cast_pred_pos (K := K) hN2
    have a1 : L1 / Bmax ≤ ((N - 1 : ℤ) : K) := (Int.le_ceil _).trans (by exact_mod_cast (by omega : ⌈L1 / Bmax⌉ ≤ N - 1))
    have a2 : ((N - 1 : ℤ) : K) ≤ L1 / Bmin := le_trans (by exact_mod_cast (by omega : N - 1 ≤ ⌊L1 / Bmin⌋)) (Int.floor_le _)
    refine rRows_eq R h1 h2 hN2 (big ?_).1 (hrows (N - 1) (by omega) a1 a2)
    rw [div_le_iff₀ h1]
    nlinarith
  have main : ∀ R : Rounding K, rectangular R X Y Bmin Bmax =
      .ok ((if ⌈L1 / Bmax⌉ ≤ ⌊L1 / Bmin⌋ then rectShapes (rB R L1) (fun N => ⌊L2 / (L1 / ((N : K) - 1))⌋ + 1)
        (⌈L1 / Bmax⌉ + 1) (⌊L1 / Bmin⌋ + 1) else []).map (rField R (decide (X < Y)))) := by
    intro R
    have := rectangular_shapes R hX hY hBmin hBmax (hN0 R)
    rw [← hL1, ← hL2] at this
    rw [this]
    unfold rCandidates
    rw [e0, e1]
    congr 2
    by_cases hle : ⌈L1 / Bmax⌉ ≤ ⌊L1 / Bmin⌋
    · rw [if_pos (by omega), if_pos hle]
      exact rectShapes_congr _ (by omega) (er R)
    · rw [if_neg (by omega), if_neg hle]
  have hexact := main Rounding.exact
  rw [C117_exact.1] at hexact
  refine ⟨_, _, main R, hexact, ?_⟩
  have h0 : 2 ≤ ⌈L1 / Bmax⌉ + 1 := by have := hN0 R; rwa [e0] at this
  unfold NearDomain
  by_cases hle : ⌈L1 / Bmax⌉ ≤ ⌊L1 / Bmin⌋
  · rw [if_pos hle, if_pos hle]
    have near : ∀ (N i j : ℤ), 2 ≤ N → Near (rField R (decide (X < Y)) (i, j, rB R L1 N, rB R L1 N))
        (rField Rounding.exact (decide (X < Y)) (i, j, rB Rounding.exact L1 N, rB Rounding.exact L1 N)) := by
      intro N i j hN
      unfold rField
      apply near_maybeTranspose
      rw [rlattice_exact]
      have hp := (div_pos h1 (cast_pred_pos (K := K) hN)).le
      exact near_rlattice_fl R i j hp hp
    unfold rectShapes
    simp only [List.map_append, List.map_map]
    refine List.rel_append (List.rel_append ?_ ?_) ?_
    · rw [List.forall₂_map_left_iff, List.forall₂_map_right_iff, List.forall₂_same]
      intro i _
      exact near _ _ _ h0
    · rw [List.forall₂_map_left_iff, List.forall₂_map_right_iff, List.forall₂_same]
      intro i _
      exact near _ _ _ h0
    · rw [List.forall₂_map_left_iff, List.forall₂_map_right_iff, List.forall₂_same]
      intro N hN
      rw [List.mem_filter, fromTo_eq, mem_pyRange] at hN
      exact near _ _ _ (by omega)
  · rw [if_neg hle, if_neg hle]
    exact List.Forall₂.nil

/-! a land of 100 m × 73 m with spacings from 8 m to 10 m -/

theorem clear_of_between {q : K} (m : ℤ) (h0 : 0 ≤ m) (hm : m ≤ 10 ^ 6) (h1 : (m : K) + 1 / 100 ≤ q)
    (h2 : q ≤ m + 1 - 1 / 100) : Clear q := by
  intro n hn
  rw [tiny_eq]
  have m0 : (0 : K) ≤ m := by exact_mod_cast h0
  have m6 : (m : K) ≤ 10 ^ 6 := by exact_mod_cast hm
  norm_num at m6
  rcases le_or_gt n m with h | h
  · have : (n : K) ≤ m := by exact_mod_cast h
    rw [abs_of_pos (by linarith)]
    linarith
  · have : (m : K) + 1 ≤ n := by exact_mod_cast h
    rw [abs_of_neg (by linarith)]
    linarith

theorem sharp_of_clear {q : K} (h : Clear q) : Sharp q := fun n hn _ => h n hn

example (R : Rounding ℚ) : ∃ d d', rectangular R 100 73 8 10 = .ok d ∧ Domains.rectangular 100 73 8 10 = .ok d' ∧
    NearDomain d d' := by
  refine C118_rectangular R (by norm_num) (by norm_num) (by norm_num) (by norm_num) (by norm_num) (by norm_num)
    (by norm_num) ?_ ?_ ?_
  · exact sharp_of_clear (clear_of_between 12 (by norm_num) (by norm_num) (by norm_num) (by norm_num))
  · intro n hn hne
    rw [tiny_eq]
    norm_num at hne ⊢
    have : (n : ℚ) ≠ 10 := fun h => hne h.symm
    have h10 : n ≠ 10 := by exact_mod_cast this
    rcases lt_or_gt_of_ne h10 with h | h
    · have : (n : ℚ) ≤ 9 := by exact_mod_cast (by omega : n ≤ 9)
      rw [abs_of_pos (by linarith)]
      linarith
    · have : (11 : ℚ) ≤ n := by exact_mod_cast (by omega : 11 ≤ n)
      rw [abs_of_neg (by linarith)]
      linarith
  · intro n hn h1 h2
    norm_num at h1 h2
    have a : 10 ≤ n := by exact_mod_cast h1
    have b : n ≤ 12 := by
      have : (n : ℚ) < 13 := by linarith
      have : n < 13 := by exact_mod_cast this
      omega
    have : n = 10 ∨ n = 11 ∨ n = 12 := by omega
    rcases this with rfl | rfl | rfl
    · exact clear_of_between 7 (by norm_num) (by norm_num) (by norm_num) (by norm_num)
    · exact clear_of_between 8 (by norm_num) (by norm_num) (by norm_num) (by norm_num)
    · exact clear_of_between 8 (by norm_num) (by norm_num) (by norm_num) (by norm_num)

end Ghedt.Rounded
