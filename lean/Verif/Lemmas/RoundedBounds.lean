import Verif.Lemmas.RoundedRectangular

/-! Bounds on computed spacings and extents. -/

set_option linter.unusedSectionVars false

namespace Ghedt.Rounded
open Coordinates Domains Spec

variable {K : Type} [Field K] [LinearOrder K] [IsStrictOrderedRing K] [FloorRing K]
  (R : Rounding K)

theorem tiny_ge : 9 * (ur : K) ≤ tiny := by
  have := ur_le (K := K)
  rw [tiny_eq]
  linarith

theorem two_cast {N : ℤ} (h : 2 ≤ N) : (2 : K) ≤ N := by exact_mod_cast h

/-- computed spacings are at most the maximum, up to rounding -/
theorem rB_le {L B : K} (hL : 0 < L) (hB : 0 < B) {N : ℤ} (h2 : 2 ≤ N) (h : rMin R L B ≤ N) :
    rB R L N ≤ (1 + 6 * ur) * B := by
  have u0 := ur_pos (K := K)
  have u1 := ur_le (K := K)
  have hN := two_cast (K := K) h2
  have hc : countOf R (L / B) ≤ (N : K) := (Int.le_ceil _).trans (by exact_mod_cast h)
  have a := count_enough R (div_pos hL hB).le hN hc
  rw [div_le_iff₀ hB] at a
  have hp := cast_pred_pos (K := K) h2
  have hq : L / ((N - 1 : ℤ) : K) ≤ (1 + 4 * ur) * B := by
    rw [div_le_iff₀ hp]
    push_cast
    linarith
  have b := fl_le R (div_pos hL hp).le
  unfold rB
  refine b.trans ?_
  have c : (1 + ur) * (L / ((N - 1 : ℤ) : K)) ≤ (1 + ur) * ((1 + 4 * ur) * B) :=
    mul_le_mul_of_nonneg_left hq (by linarith)
  refine c.trans ?_
  rw [← mul_assoc]
  apply mul_le_mul_of_nonneg_right _ hB.le
  nlinarith

/-- computed spacings are at least the minimum, up to rounding -/
theorem le_rB {L B : K} (hL : 0 < L) (hB : 0 < B) {N : ℤ} (h2 : 2 ≤ N) (h : N ≤ rMax R L B) :
    (1 - 6 * ur) * B ≤ rB R L N := by
  have u0 := ur_pos (K := K)
  have u1 := ur_le (K := K)
  have hN := two_cast (K := K) h2
  have hc : (N : K) ≤ countOf R (L / B) := le_trans (by exact_mod_cast h) (Int.floor_le _)
  have a := count_fits R (div_pos hL hB).le hN hc
  have hp := cast_pred_pos (K := K) h2
  have hq : B ≤ (1 + 4 * ur) * (L / ((N - 1 : ℤ) : K)) := by
    have e : (1 + 4 * ur) * (L / B) = (1 + 4 * ur) * L / B := by ring
    have e' : (1 + 4 * ur) * (L / ((N - 1 : ℤ) : K)) = (1 + 4 * ur) * L / ((N - 1 : ℤ) : K) := by ring
    rw [e, le_div_iff₀ hB] at a
    rw [e', le_div_iff₀ hp]
    push_cast
    linarith
  have b := le_fl R (div_pos hL hp).le
  unfold rB
  refine le_trans ?_ b
  have hpos := div_pos hL hp
  have c : (1 - 6 * ur) * B ≤ (1 - 6 * ur) * ((1 + 4 * ur) * (L / ((N - 1 : ℤ) : K))) :=
    mul_le_mul_of_nonneg_left hq (by linarith)
  refine c.trans ?_
  rw [← mul_assoc]
  apply mul_le_mul_of_nonneg_right _ hpos.le
  nlinarith

/-- a line of boreholes at the computed spacing fits, up to rounding -/
theorem rB_fits {L : K} (hL : 0 < L) {N i : ℤ} (h2 : 2 ≤ N) (hi : i ≤ N) :
    ((i : K) - 1) * rB R L N ≤ (1 + 5 * ur) * L := by
  have u0 := ur_pos (K := K)
  have hp := cast_pred_pos (K := K) h2
  have b : rB R L N ≤ _ := fl_le R (div_pos hL hp).le
  have hi' : (i : K) - 1 ≤ ((N - 1 : ℤ) : K) := by push_cast; have : (i : K) ≤ N := by exact_mod_cast hi
                                                   linarith
  have c : ((i : K) - 1) * rB R L N ≤ ((N - 1 : ℤ) : K) * rB R L N :=
    mul_le_mul_of_nonneg_right hi' (rB_pos R hL h2).le
  refine c.trans ((mul_le_mul_of_nonneg_left b hp.le).trans ?_)
  have e : ((N - 1 : ℤ) : K) * ((1 + ur) * (L / ((N - 1 : ℤ) : K))) = (1 + ur) * L := by
    field_simp
  rw [e]
  nlinarith

/-- so do rows -/
theorem rRows_fits {L B : K} (hL : 0 < L) (hB : 0 < B) {j : ℤ} (hj : j ≤ ⌊countOf R (L / B)⌋) :
    ((j : K) - 1) * B ≤ (1 + 5 * ur) * L := by
  have u0 := ur_pos (K := K)
  by_cases h2 : 2 ≤ j
  · have hc : (j : K) ≤ countOf R (L / B) := le_trans (by exact_mod_cast hj) (Int.floor_le _)
    have a := count_fits R (div_pos hL hB).le (two_cast h2) hc
    have e : (1 + 4 * ur) * (L / B) = (1 + 4 * ur) * L / B := by ring
    rw [e, le_div_iff₀ hB] at a
    nlinarith
  · have : (j : K) ≤ 1 := by exact_mod_cast (by omega : j ≤ 1)
    nlinarith

/-- counts are far from the limits of whole numbers -/
theorem rMax_le {L B : K} (hL : 0 < L) (hB : 0 < B) {c : K} (hc0 : 0 ≤ c) (hc : c ≤ 2 * 10 ^ 15) (h : L ≤ c * B) :
    ((rMax R L B : ℤ) : K) ≤ 2 + c ∧ rMax R L B ≤ 2 ^ 51 := by
  have u0 := ur_pos (K := K)
  have u1 := ur_le (K := K)
  have key : ((rMax R L B : ℤ) : K) ≤ 2 + c := by
    by_cases h2 : 2 ≤ rMax R L B
    · have a := count_fits R (div_pos hL hB).le (two_cast (K := K) h2) (Int.floor_le _)
      have b : L / B ≤ c := by rwa [div_le_iff₀ hB]
      have d : ur * c ≤ 2 / 9 := by
        have : ur * c ≤ 1 / 9000000000000000 * (2 * 10 ^ 15) := mul_le_mul u1 hc hc0 (by norm_num)
        refine this.trans ?_
        norm_num
      have : (1 + 4 * ur) * (L / B) ≤ (1 + 4 * ur) * c := mul_le_mul_of_nonneg_left b (by linarith)
      linarith
    · have : ((rMax R L B : ℤ) : K) ≤ 1 := by exact_mod_cast (by omega : rMax R L B ≤ 1)
      linarith
  refine ⟨key, ?_⟩
  have : ((rMax R L B : ℤ) : K) ≤ ((2 ^ 51 : ℤ) : K) := by
    refine key.trans ?_
    push_cast
    have : (2 : K) + 2 * 10 ^ 15 ≤ 2 ^ 51 := by norm_num
    linarith
  exact_mod_cast this

end Ghedt.Rounded
