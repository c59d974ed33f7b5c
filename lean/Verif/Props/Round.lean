import Verif.Lemmas.Rounding

/-!
# `round` and double precision

What rounding to whole numbers (C67) and to 53 bits (C117) does, ties included.
-/

namespace Ghedt
variable {K : Type} [Field K] [LinearOrder K] [IsStrictOrderedRing K] [FloorRing K]

/-- C67: `round(x)` is a nearest whole number, the even one if `x` lies in the middle between two. -/
theorem C67_round (x : K) : |x - (pyRound x : K)| ≤ 1 / 2 ∧ (|x - (pyRound x : K)| = 1 / 2 → Even (pyRound x)) := by
  have h0 := Int.floor_le x
  have h1 := Int.lt_floor_add_one x
  unfold pyRound
  dsimp only
  split_ifs with a b c
  · rw [abs_of_nonneg (by linarith)]
    exact ⟨by linarith, fun h => by linarith⟩
  · push_cast
    rw [abs_of_nonpos (by linarith)]
    exact ⟨by linarith, fun h => by linarith⟩
  · rw [abs_of_nonneg (by linarith)]
    exact ⟨by linarith, fun _ => Int.even_iff.2 c⟩
  · push_cast
    rw [abs_of_nonpos (by linarith)]
    refine ⟨by linarith, fun _ => ?_⟩
    rw [Int.even_iff]
    omega

/-- C117: `double x` is the number with a significand of 53 bits nearest to `x`, the one with the even significand if `x`
lies in the middle between two: with `e` such that `2^52 ≤ |x| / 2^e < 2^53`, it is a whole multiple of `2^e`, nearest to
`x` among these. -/
theorem C117_double (x : K) : (x = 0 → double x = 0) ∧ (x ≠ 0 → ∃ n e : ℤ, double x = n * 2 ^ e ∧
    (2 : K) ^ (e + 52) ≤ |x| ∧ |x| < (2 : K) ^ (e + 53) ∧ |n| ≤ 2 ^ 53 ∧
    |x - double x| ≤ (2 : K) ^ e / 2 ∧ (|x - double x| = (2 : K) ^ e / 2 → Even n)) := by
  refine ⟨fun h => by rw [h, double_zero], fun hx => ?_⟩
  have hx' : 0 < |x| := abs_pos.2 hx
  set e := Int.log 2 |x| - 52 with he
  have hd : double x = (pyRound (x / 2 ^ e) : K) * 2 ^ e := by
    unfold double
    rw [if_neg hx]
  have hlo : (2 : K) ^ (e + 52) ≤ |x| := by
    have := Int.zpow_log_le_self (b := 2) (by norm_num) hx'
    rw [he, sub_add_cancel]
    exact_mod_cast this
  have hhi : |x| < (2 : K) ^ (e + 53) := by
    have := Int.lt_zpow_succ_log_self (b := 2) (by norm_num) |x|
    rw [show e + 53 = Int.log 2 |x| + 1 by omega]
    exact_mod_cast this
  have h2 : (0 : K) < 2 ^ e := zpow_pos (by norm_num) e
  have hr := C67_round (x / 2 ^ e)
  have hs : |x - double x| = |x / 2 ^ e - (pyRound (x / 2 ^ e) : K)| * 2 ^ e := by
    rw [hd, ← abs_of_pos h2, ← abs_mul, abs_of_pos h2]
    congr 1
    field_simp
  refine ⟨_, e, hd, hlo, hhi, ?_, ?_, ?_⟩
  · have hq : |x / 2 ^ e| < 2 ^ 53 := by
      rw [abs_div, abs_of_pos h2, div_lt_iff₀ h2, ← zpow_natCast, ← zpow_add₀ (by norm_num)]
      rw [add_comm]
      exact hhi
    have h3 := abs_sub_abs_le_abs_sub (pyRound (x / 2 ^ e) : K) (x / 2 ^ e)
    rw [abs_sub_comm] at h3
    have h4 : |(pyRound (x / 2 ^ e) : K)| < 2 ^ 53 + 1 := by linarith [hr.1]
    have h5 : ((|pyRound (x / 2 ^ e)| : ℤ) : K) < ((2 ^ 53 + 1 : ℤ) : K) := by push_cast; norm_num at h4 ⊢; exact h4
    have := Int.cast_lt.1 h5
    omega
  · rw [hs]
    calc _ ≤ 1 / 2 * (2 : K) ^ e := mul_le_mul_of_nonneg_right hr.1 h2.le
      _ = _ := by ring
  · intro h
    apply hr.2
    rw [hs] at h
    have := mul_right_cancel₀ h2.ne' (h.trans (by ring : (2 : K) ^ e / 2 = 1 / 2 * 2 ^ e))
    exact this

/-- a tie: `2^53 + 1` and `2^53 + 3` -/
example : double (2 ^ 53 + 1 : ℚ) = 2 ^ 53 ∧ double (2 ^ 53 + 3 : ℚ) = 2 ^ 53 + 4 ∧ pyRound (5 / 2 : ℚ) = 2 ∧
    pyRound (7 / 2 : ℚ) = 4 := by decide +kernel

end Ghedt
