import Verif.Lemmas.RoundTrip

/-! A number of months, divided by 12 and multiplied by 8760 in double precision, is exactly 730 times that number. -/

namespace Ghedt

variable {K : Type} [Field K] [LinearOrder K] [IsStrictOrderedRing K] [FloorRing K]

/-- a number that is an integer multiple of `2^k` stays one when rounded, if it is large enough -/
theorem double_multiple {x : K} (hx : 0 < x) {k : ℤ} (h : (2 : K) ^ (k + 52) ≤ x) :
    ∃ j : ℤ, double x = (j : K) * 2 ^ k := by
  have hl : k + 52 ≤ Int.log 2 x := by
    have := (Int.zpow_le_iff_le_log (R := K) (b := 2) (by norm_num) (x := k + 52) hx).1 (by push_cast; exact h)
    exact this
  obtain ⟨n, hn⟩ := Int.eq_ofNat_of_zero_le (by omega : 0 ≤ Int.log 2 x - 52 - k)
  refine ⟨pyRound (x / 2 ^ (Int.log 2 x - 52)) * 2 ^ n, ?_⟩
  rw [double_pos_eq hx]
  push_cast
  rw [mul_assoc]
  congr 1
  rw [← zpow_natCast, ← zpow_add₀ (by norm_num)]
  congr 1
  omega

theorem double_months {m : ℤ} (h1 : 1 ≤ m) (hm : m ≤ 10 ^ 12) :
    double (double ((m : K) / 12) * 8760) = ((730 * m : ℤ) : K) := by
  have pm : (0 : K) < (m : K) := by exact_mod_cast (by omega : 0 < m)
  have hx : (0 : K) < (m : K) / 12 := by positivity
  set x : K := (m : K) / 12 with hxd
  set e := Int.log 2 x with he
  have a1 : ((2 : ℕ) : K) ^ e ≤ x := Int.zpow_log_le_self (by norm_num) hx
  have a2 : x < ((2 : ℕ) : K) ^ (e + 1) := Int.lt_zpow_succ_log_self (by norm_num) x
  rw [Nat.cast_ofNat] at a1 a2
  have he39 : e ≤ 37 := by
    have : (2 : K) ^ e < 2 ^ (38 : ℤ) := by
      refine lt_of_le_of_lt a1 ?_
      have hmK : (m : K) ≤ 10 ^ 12 := by exact_mod_cast hm
      have e38 : (2 : K) ^ (38 : ℤ) = 274877906944 := by norm_num
      rw [e38, hxd]
      linarith
    have := (zpow_lt_zpow_iff_right₀ (by norm_num : (1 : K) < 2)).1 this
    omega
  -- the error of the quotient is at most a third of the spacing
  have hs := two_zpow_pos (K := K) (e - 52)
  have ht : |double x - x| ≤ 2 ^ (e - 52) / 3 := by
    rw [double_pos_eq hx, ← he]
    obtain ⟨n, hn⟩ := Int.eq_ofNat_of_zero_le (by omega : 0 ≤ 50 - e)
    have e4 : (2 : K) ^ (e - 52) * 2 ^ n = 1 / 4 := by
      rw [← zpow_natCast, ← zpow_add₀ (by norm_num), ← hn, show e - 52 + (50 - e) = -2 by ring]
      norm_num
    have hM : 3 * (x / 2 ^ (e - 52)) = ((m * 2 ^ n : ℤ) : K) := by
      push_cast
      rw [hxd, div_div, mul_div_assoc', div_eq_iff (by positivity)]
      have : (m : K) * 2 ^ n * (12 * 2 ^ (e - 52)) = 12 * (m : K) * (2 ^ (e - 52) * 2 ^ n) := by ring
      rw [this, e4]; ring
    have hnr := pyRound_near (x / 2 ^ (e - 52))
    have hint : |3 * pyRound (x / 2 ^ (e - 52)) - m * 2 ^ n| ≤ 1 := by
      have : |((3 * pyRound (x / 2 ^ (e - 52)) - m * 2 ^ n : ℤ) : K)| < 2 := by
        have c : ((3 * pyRound (x / 2 ^ (e - 52)) - m * 2 ^ n : ℤ) : K) =
            3 * ((pyRound (x / 2 ^ (e - 52)) : K) - x / 2 ^ (e - 52)) := by
          push_cast at hM ⊢
          linarith
        rw [c, abs_mul, abs_of_pos (by norm_num : (0 : K) < 3)]
        linarith
      have : |3 * pyRound (x / 2 ^ (e - 52)) - m * 2 ^ n| < 2 := by exact_mod_cast this
      omega
    have hint' : |((3 * pyRound (x / 2 ^ (e - 52)) - m * 2 ^ n : ℤ) : K)| ≤ 1 := by exact_mod_cast hint
    have c : (pyRound (x / 2 ^ (e - 52)) : K) * 2 ^ (e - 52) - x =
        ((3 * pyRound (x / 2 ^ (e - 52)) - m * 2 ^ n : ℤ) : K) * (2 ^ (e - 52) / 3) := by
      have hc : ((3 * pyRound (x / 2 ^ (e - 52)) - m * 2 ^ n : ℤ) : K) =
          3 * (pyRound (x / 2 ^ (e - 52)) : K) - 3 * (x / 2 ^ (e - 52)) := by
        rw [hM]; push_cast; ring
      rw [hc]
      field_simp
    rw [c, abs_mul, abs_of_pos (by positivity : (0 : K) < 2 ^ (e - 52) / 3)]
    calc _ ≤ 1 * ((2 : K) ^ (e - 52) / 3) := mul_le_mul_of_nonneg_right hint' (by positivity)
      _ = _ := one_mul _
  have hP : double x * 8760 - ((730 * m : ℤ) : K) = 8760 * (double x - x) := by
    rw [hxd]; push_cast; ring
  have hPabs : |double x * 8760 - ((730 * m : ℤ) : K)| ≤ 2920 * 2 ^ (e - 52) := by
    rw [hP, abs_mul, abs_of_pos (by norm_num : (0 : K) < 8760)]
    linarith
  have hd := double_pos hx
  have hPpos : (0 : K) < double x * 8760 := by positivity
  have he52 : (2 : K) ^ e = 2 ^ 52 * 2 ^ (e - 52) := by
    rw [zpow_lo]; norm_num
  -- the product is large enough for the spacing around it to be `2^13` times as large
  have hbig : (2 : K) ^ (e - 39 + 52) ≤ double x * 8760 := by
    have : (2 : K) ^ (e - 39 + 52) = 8192 * 2 ^ e := by
      rw [show e - 39 + 52 = 13 + e by ring, zpow_add₀ (by norm_num)]
      norm_num
    rw [this]
    have hlow := (abs_le.1 ht).1
    rw [he52] at a1 ⊢
    nlinarith
  obtain ⟨j, hj⟩ := double_multiple hPpos hbig
  obtain ⟨n, hn⟩ := Int.eq_ofNat_of_zero_le (by omega : 0 ≤ 39 - e)
  have hu : (2 : K) ^ (e - 39) = 8192 * 2 ^ (e - 52) := by
    rw [show e - 39 = 13 + (e - 52) by ring, zpow_add₀ (by norm_num)]
    norm_num
  have hone : (2 : K) ^ (e - 39) * 2 ^ n = 1 := by
    rw [← zpow_natCast, ← zpow_add₀ (by norm_num), ← hn, show e - 39 + (39 - e) = 0 by ring, zpow_zero]
  have hZ : ((730 * m : ℤ) : K) = ((730 * m * 2 ^ n : ℤ) : K) * 2 ^ (e - 39) := by
    push_cast
    rw [mul_assoc, mul_comm ((2 : K) ^ n), hone, mul_one]
  have hrepr : double ((730 * m : ℤ) : K) = ((730 * m : ℤ) : K) := by
    have := double_repr (K := K) (730 * m) 0 (by rw [abs_of_nonneg (by omega)]; omega)
    simpa using this
  have hnear := double_nearest hPpos (z := ((730 * m : ℤ) : K)) (by exact_mod_cast (by omega : 0 < 730 * m)) hrepr
  have hdist : |double (double x * 8760) - ((730 * m : ℤ) : K)| ≤ 5840 * 2 ^ (e - 52) := by
    rw [abs_sub_comm (((730 * m : ℤ) : K))] at hnear
    have := abs_sub_le (double (double x * 8760)) (double x * 8760) ((730 * m : ℤ) : K)
    linarith
  rw [hj, hZ] at hdist ⊢
  have hdiff : (j : K) * 2 ^ (e - 39) - ((730 * m * 2 ^ n : ℤ) : K) * 2 ^ (e - 39) =
      ((j - 730 * m * 2 ^ n : ℤ) : K) * 2 ^ (e - 39) := by push_cast; ring
  rw [hdiff, abs_mul, abs_of_pos (two_zpow_pos (K := K) (e - 39)), hu] at hdist
  have : |((j - 730 * m * 2 ^ n : ℤ) : K)| < 1 := by
    by_contra hc
    have := mul_le_mul_of_nonneg_right (not_lt.1 hc) (by positivity : (0 : K) ≤ 8192 * 2 ^ (e - 52))
    linarith
  have : |j - 730 * m * 2 ^ n| < 1 := by exact_mod_cast this
  have : j = 730 * m * 2 ^ n := by
    have := Int.abs_lt_one_iff.1 this
    omega
  rw [this]

end Ghedt
