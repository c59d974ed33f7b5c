import Verif.Lemmas.Rounding

/-!
Dividing a double-precision number by a whole number, multiplying the rounded quotient by it and dividing again
gives the same rounded quotient.
-/

namespace Ghedt

variable {K : Type} [Field K] [LinearOrder K] [IsStrictOrderedRing K] [FloorRing K]

theorem pyRound_nearest (x : K) (k : ℤ) : |(pyRound x : K) - x| ≤ |(k : K) - x| := by
  have h1 := Int.floor_le x
  have h2 := Int.lt_floor_add_one x
  have hk : (k : K) ≤ ⌊x⌋ ∨ (⌊x⌋ : K) + 1 ≤ k := by
    rcases le_or_gt k ⌊x⌋ with h | h
    · left; exact_mod_cast h
    · right; exact_mod_cast h
  unfold pyRound
  dsimp only
  rcases hk with hk | hk
  · rw [abs_of_nonpos (by linarith : (k : K) - x ≤ 0), abs_le]
    split_ifs <;> push_cast <;> constructor <;> linarith
  · rw [abs_of_nonneg (by linarith : 0 ≤ (k : K) - x), abs_le]
    split_ifs <;> push_cast <;> constructor <;> linarith

theorem pyRound_reflect (x : K) (k : ℤ) : pyRound (2 * (k : K) - x) = 2 * k - pyRound x := by
  have key : ∀ (y : K) (k : ℤ), pyRound (2 * (k : K) + y) = 2 * k + pyRound y := by
    intro y k
    have e : ⌊2 * (k : K) + y⌋ = 2 * k + ⌊y⌋ := by
      rw [show 2 * (k : K) + y = ((2 * k : ℤ) : K) + y by push_cast; ring, Int.floor_intCast_add]
    unfold pyRound
    dsimp only
    rw [e]
    push_cast
    have e2 : 2 * (k : K) + y - (2 * (k : K) + (⌊y⌋ : K)) = y - ⌊y⌋ := by ring
    rw [e2]
    split_ifs <;> first | omega | ring
  rw [sub_eq_add_neg, key, pyRound_neg]
  ring

theorem log_eq_of {x : K} {e : ℤ} (h1 : (2 : K) ^ e ≤ x) (h2 : x < 2 ^ (e + 1)) : Int.log 2 x = e := by
  have hx : 0 < x := (two_zpow_pos e).trans_le h1
  have a : e ≤ Int.log 2 x := by
    have := (Int.zpow_le_iff_le_log (R := K) (b := 2) (by norm_num) (x := e) hx).1 (by push_cast; exact h1)
    exact this
  have b : Int.log 2 x < e + 1 := by
    have := (Int.lt_zpow_iff_log_lt (R := K) (b := 2) (by norm_num) (x := e + 1) hx).1 (by push_cast; exact h2)
    exact this
  omega

theorem zpow_lo (e : ℤ) : (2 : K) ^ e = ((2 ^ 52 : ℤ) : K) * 2 ^ (e - 52) := by
  rw [Int.cast_pow, Int.cast_ofNat, ← zpow_natCast, ← zpow_add₀ (by norm_num)]
  congr 1
  push_cast; ring

theorem zpow_hi (e : ℤ) : (2 : K) ^ (e + 1) = ((2 ^ 53 : ℤ) : K) * 2 ^ (e - 52) := by
  rw [Int.cast_pow, Int.cast_ofNat, ← zpow_natCast, ← zpow_add₀ (by norm_num)]
  congr 1
  push_cast; ring

/-- no representable number is nearer than the rounded one -/
theorem double_nearest {x z : K} (hx : 0 < x) (hz : 0 < z) (hr : double z = z) :
    |double x - x| ≤ |z - x| := by
  have h0 := two_zpow_pos (K := K) (Int.log 2 x - 52)
  have a1 : ((2 : ℕ) : K) ^ Int.log 2 x ≤ x := Int.zpow_log_le_self (by norm_num) hx
  have a2 : x < ((2 : ℕ) : K) ^ (Int.log 2 x + 1) := Int.lt_zpow_succ_log_self (by norm_num) x
  rw [Nat.cast_ofNat] at a1 a2
  have key : ∀ k : ℤ, |double x - x| ≤ |(k : K) * 2 ^ (Int.log 2 x - 52) - x| := by
    intro k
    have hn := pyRound_nearest (x / 2 ^ (Int.log 2 x - 52)) k
    rw [double_pos_eq hx]
    generalize (pyRound (x / 2 ^ (Int.log 2 x - 52)) : K) = r at hn
    generalize (2 : K) ^ (Int.log 2 x - 52) = t at *
    have e : r * t - x = (r - x / t) * t := by field_simp
    have e' : (k : K) * t - x = ((k : K) - x / t) * t := by field_simp
    rw [e, e', abs_mul, abs_mul, abs_of_pos h0]
    exact mul_le_mul_of_nonneg_right hn h0.le
  have elo : (2 : K) ^ Int.log 2 x = ((2 ^ 52 : ℤ) : K) * 2 ^ (Int.log 2 x - 52) := zpow_lo _
  have ehi : (2 : K) ^ (Int.log 2 x + 1) = ((2 ^ 53 : ℤ) : K) * 2 ^ (Int.log 2 x - 52) := zpow_hi _
  rcases lt_or_ge z (2 ^ Int.log 2 x) with hlo | hlo
  · refine (key (2 ^ 52)).trans ?_
    rw [← elo, abs_of_nonpos (by linarith), abs_of_nonpos (by linarith)]
    linarith
  · rcases lt_or_ge z (2 ^ (Int.log 2 x + 1)) with hhi | hhi
    · have hl := log_eq_of hlo hhi
      have := double_pos_eq hz
      rw [hl, hr] at this
      have hk := key (pyRound (z / 2 ^ (Int.log 2 x - 52)))
      rw [← this] at hk
      exact hk
    · refine (key (2 ^ 53)).trans ?_
      rw [← ehi, abs_of_nonneg (by linarith), abs_of_nonneg (by linarith)]
      linarith

theorem double_mul_zpow_int {m : ℤ} (h0 : 0 ≤ m) (hm : m ≤ 2 ^ 53) (e : ℤ) :
    double ((m : K) * 2 ^ e) = (m : K) * 2 ^ e :=
  double_repr m e (by rw [abs_of_nonneg h0]; exact hm)

/-- dividing a representable number by a whole number, multiplying back and dividing again is stable -/
theorem double_round_trip {L : K} (hL : 0 < L) (hr : double L = L) {m : ℤ} (h1 : 1 ≤ m) (hm : m ≤ 2 ^ 53) :
    double (double ((m : K) * double (L / (m : K))) / (m : K)) = double (L / (m : K)) := by
  have pm : (0 : K) < (m : K) := by exact_mod_cast (by omega : 0 < m)
  have hq : 0 < L / (m : K) := div_pos hL pm
  obtain ⟨s1, s2⟩ := significand_bounds hq
  have ht := two_zpow_pos (K := K) (Int.log 2 (L / (m : K)) - 52)
  have hb := double_pos hq
  have hbe := double_pos_eq hq
  have hd := double_pos_bounds hq
  have hidem : double (double (L / (m : K))) = double (L / (m : K)) := by
    rw [hbe]
    apply double_repr
    have l1 : (2 : ℤ) ^ 52 ≤ pyRound (L / (m : K) / 2 ^ (Int.log 2 (L / (m : K)) - 52)) := by
      rw [← pyRound_int (K := K) (2 ^ 52)]
      apply pyRound_mono
      push_cast
      norm_num at s1 ⊢
      exact s1
    have l2 : pyRound (L / (m : K) / 2 ^ (Int.log 2 (L / (m : K)) - 52)) ≤ (2 : ℤ) ^ 53 := by
      rw [← pyRound_int (K := K) (2 ^ 53)]
      apply pyRound_mono
      push_cast
      have := s2.le
      norm_num at this ⊢
      exact this
    rw [abs_le]; omega
  -- a power of two is multiplied without rounding
  have hpow : ∀ j : ℤ, double (L / (m : K)) = 2 ^ j →
      double (double ((m : K) * double (L / (m : K))) / (m : K)) = double (L / (m : K)) := by
    intro j hj
    have : double ((m : K) * double (L / (m : K))) = (m : K) * double (L / (m : K)) := by
      rw [hj]; exact double_mul_zpow_int (by omega) hm j
    rw [this, mul_div_cancel_left₀ _ pm.ne', hidem]
  rcases hd.1.eq_or_lt with he | hgt
  · exact hpow _ he.symm
  rcases hd.2.eq_or_lt with he | hlt
  · exact hpow _ he
  -- the mirror image of the quotient rounds to the same number
  have hmir : double (2 * double (L / (m : K)) - L / (m : K)) = double (L / (m : K)) := by
    generalize hqq : L / (m : K) = q at *
    set e := Int.log 2 q with he
    set t : K := 2 ^ (e - 52) with htt
    obtain ⟨hn1, hn2⟩ := abs_le.mp (pyRound_near (q / t))
    have elo : (2 : K) ^ e = ((2 ^ 52 : ℤ) : K) * t := zpow_lo _
    have ehi : (2 : K) ^ (e + 1) = ((2 ^ 53 : ℤ) : K) * t := zpow_hi _
    set k := pyRound (q / t) with hk
    have hqt : q = q / t * t := by field_simp
    rw [hbe, elo] at hgt
    rw [hbe, ehi] at hlt
    have k1 : (2 : ℤ) ^ 52 < k := by
      have := lt_of_mul_lt_mul_right hgt ht.le
      exact_mod_cast this
    have k2 : k < (2 : ℤ) ^ 53 := by
      have := lt_of_mul_lt_mul_right hlt ht.le
      exact_mod_cast this
    have c1 : ((2 ^ 52 : ℤ) : K) + 1 ≤ (k : K) := by exact_mod_cast k1
    have c2 : (k : K) + 1 ≤ ((2 ^ 53 : ℤ) : K) := by exact_mod_cast k2
    have em : 2 * double q - q = (2 * (k : K) - q / t) * t := by rw [hbe]; rw [hqt]; field_simp
    have aux1 : ∀ c k y : K, c + 1 ≤ k → -(1 / 2) ≤ k - y → c ≤ 2 * k - y := fun c k y h h' => by linarith
    have aux2 : ∀ c k y : K, k + 1 ≤ c → k - y ≤ 1 / 2 → 2 * k - y < c := fun c k y h h' => by linarith
    have hy0 : ((2 ^ 52 : ℤ) : K) ≤ 2 * (k : K) - q / t := aux1 _ _ _ c1 hn1
    have hy1 : 2 * (k : K) - q / t < ((2 ^ 53 : ℤ) : K) := aux2 _ _ _ c2 hn2
    have hl : Int.log 2 (2 * double q - q) = e := by
      apply log_eq_of
      · rw [em, elo]; exact mul_le_mul_of_nonneg_right hy0 ht.le
      · rw [em, ehi]; exact mul_lt_mul_of_pos_right hy1 ht
    have hmp : 0 < 2 * double q - q := by
      rw [em]
      refine mul_pos (lt_of_lt_of_le ?_ hy0) ht
      norm_num
    rw [double_pos_eq hmp, hl, ← htt, em, mul_div_cancel_right₀ _ ht.ne', pyRound_reflect, ← hk, hbe]
    congr 1
    push_cast; ring
  -- the multiplied number is no further away than the one we started from
  have hp : 0 < (m : K) * double (L / (m : K)) := mul_pos pm hb
  have hnear := double_nearest hp hL hr
  set p := (m : K) * double (L / (m : K)) with hpdef
  have hLm : L = (m : K) * (L / (m : K)) := by field_simp
  have habs : |double p / (m : K) - double (L / (m : K))| ≤ |L / (m : K) - double (L / (m : K))| := by
    have e1 : double p / (m : K) - double (L / (m : K)) = (double p - p) / (m : K) := by
      rw [hpdef]; field_simp
    have e2 : L / (m : K) - double (L / (m : K)) = (L - p) / (m : K) := by
      rw [hpdef]; field_simp
    rw [e1, e2, abs_div, abs_div]
    exact div_le_div_of_nonneg_right hnear (abs_nonneg _)
  generalize hqq : L / (m : K) = q at *
  rcases le_total q (double q) with hle | hle
  · rw [abs_of_nonpos (by linarith : q - double q ≤ 0), abs_le] at habs
    apply le_antisymm
    · refine (double_monotone (by linarith : double p / (m : K) ≤ 2 * double q - q)).trans hmir.le
    · refine le_of_eq_of_le rfl (double_monotone (by linarith : q ≤ double p / (m : K)))
  · rw [abs_of_nonneg (by linarith : 0 ≤ q - double q), abs_le] at habs
    apply le_antisymm
    · exact double_monotone (by linarith : double p / (m : K) ≤ q)
    · refine hmir.ge.trans (double_monotone (by linarith : 2 * double q - q ≤ double p / (m : K)))

end Ghedt
