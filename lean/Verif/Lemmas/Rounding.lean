import Verif.Model.Rounding
import Mathlib.Tactic.Linarith
import Mathlib.Tactic.Positivity
import Mathlib.Tactic.FieldSimp
import Mathlib.Tactic.Ring
import Mathlib.Tactic.NormNum

/-! Double precision is a rounding. -/

namespace Ghedt

variable {K : Type} [Field K] [LinearOrder K] [IsStrictOrderedRing K] [FloorRing K]

theorem pyRound_int (n : ℤ) : pyRound (n : K) = n := by
  unfold pyRound
  simp

theorem pyRound_near (x : K) : |(pyRound x : K) - x| ≤ 1 / 2 := by
  have h1 := Int.floor_le x
  have h2 := Int.lt_floor_add_one x
  unfold pyRound
  dsimp only
  rw [abs_le]
  split_ifs <;> push_cast <;> constructor <;> linarith

theorem pyRound_mono {x y : K} (h : x ≤ y) : pyRound x ≤ pyRound y := by
  have hf : ⌊x⌋ ≤ ⌊y⌋ := Int.floor_mono h
  rcases hf.lt_or_eq with hlt | heq
  · have h1 : pyRound x ≤ ⌊x⌋ + 1 := by unfold pyRound; dsimp only; split_ifs <;> omega
    have h2 : ⌊y⌋ ≤ pyRound y := by unfold pyRound; dsimp only; split_ifs <;> omega
    omega
  · unfold pyRound
    rw [heq]
    dsimp only
    split_ifs <;> first | omega | (exfalso; linarith)

theorem pyRound_neg (x : K) : pyRound (-x) = -pyRound x := by
  have h1 := Int.floor_le x
  have h2 := Int.lt_floor_add_one x
  by_cases hi : x = (⌊x⌋ : K)
  · rw [hi, ← Int.cast_neg, pyRound_int, pyRound_int]
  · have hlt : (⌊x⌋ : K) < x := lt_of_le_of_ne h1 (Ne.symm hi)
    have hn : ⌊-x⌋ = -⌊x⌋ - 1 := by
      rw [Int.floor_eq_iff]
      push_cast
      constructor <;> linarith
    unfold pyRound
    rw [hn]
    dsimp only
    push_cast
    split_ifs <;> first | omega | (exfalso; linarith)

theorem double_zero : double (0 : K) = 0 := by simp [double]

theorem double_neg (x : K) : double (-x) = -double x := by
  unfold double
  by_cases h : x = 0
  · simp [h]
  · rw [if_neg h, if_neg (by simpa using h)]
    dsimp only
    rw [abs_neg, neg_div, pyRound_neg]
    push_cast
    ring

theorem two_zpow_pos (e : ℤ) : (0 : K) < 2 ^ e := zpow_pos (by norm_num) e

/-- size of the significand -/
theorem significand_bounds {x : K} (hx : 0 < x) :
    (2 : K) ^ 52 ≤ x / 2 ^ (Int.log 2 x - 52) ∧ x / 2 ^ (Int.log 2 x - 52) < 2 ^ 53 := by
  have h1 : ((2 : ℕ) : K) ^ Int.log 2 x ≤ x := Int.zpow_log_le_self (by norm_num) hx
  have h2 : x < ((2 : ℕ) : K) ^ (Int.log 2 x + 1) := Int.lt_zpow_succ_log_self (by norm_num) x
  rw [Nat.cast_ofNat] at h1 h2
  have h0 := two_zpow_pos (K := K) (Int.log 2 x - 52)
  rw [le_div_iff₀ h0, div_lt_iff₀ h0]
  constructor
  · refine le_of_eq_of_le ?_ h1
    rw [← zpow_natCast, ← zpow_add₀ (by norm_num)]
    congr 1
    push_cast
    ring
  · refine lt_of_lt_of_eq h2 ?_
    rw [← zpow_natCast, ← zpow_add₀ (by norm_num)]
    congr 1
    push_cast
    ring

theorem double_pos_eq {x : K} (hx : 0 < x) :
    double x = (pyRound (x / 2 ^ (Int.log 2 x - 52)) : K) * 2 ^ (Int.log 2 x - 52) := by
  unfold double
  rw [if_neg hx.ne', abs_of_pos hx]

theorem double_pos_bounds {x : K} (hx : 0 < x) :
    (2 : K) ^ Int.log 2 x ≤ double x ∧ double x ≤ 2 ^ (Int.log 2 x + 1) := by
  obtain ⟨h1, h2⟩ := significand_bounds hx
  have h0 := two_zpow_pos (K := K) (Int.log 2 x - 52)
  have l1 : (2 : ℤ) ^ 52 ≤ pyRound (x / 2 ^ (Int.log 2 x - 52)) := by
    rw [← pyRound_int (K := K) (2 ^ 52)]
    apply pyRound_mono
    push_cast
    norm_num at h1 ⊢
    exact h1
  have l2 : pyRound (x / 2 ^ (Int.log 2 x - 52)) ≤ (2 : ℤ) ^ 53 := by
    rw [← pyRound_int (K := K) (2 ^ 53)]
    apply pyRound_mono
    push_cast
    have := h2.le
    norm_num at this ⊢
    exact this
  have c1 : (2 : K) ^ 52 ≤ (pyRound (x / 2 ^ (Int.log 2 x - 52)) : K) := by exact_mod_cast l1
  have c2 : (pyRound (x / 2 ^ (Int.log 2 x - 52)) : K) ≤ (2 : K) ^ 53 := by exact_mod_cast l2
  rw [double_pos_eq hx]
  constructor
  · refine le_of_eq_of_le ?_ (mul_le_mul_of_nonneg_right c1 h0.le)
    rw [← zpow_natCast, ← zpow_add₀ (by norm_num)]
    congr 1
    push_cast
    ring
  · refine (mul_le_mul_of_nonneg_right c2 h0.le).trans_eq ?_
    rw [← zpow_natCast, ← zpow_add₀ (by norm_num)]
    congr 1
    push_cast
    ring

theorem double_pos {x : K} (hx : 0 < x) : 0 < double x :=
  (two_zpow_pos _).trans_le (double_pos_bounds hx).1

theorem double_mono_pos {x y : K} (hx : 0 < x) (h : x ≤ y) : double x ≤ double y := by
  have hy := hx.trans_le h
  have hl : Int.log 2 x ≤ Int.log 2 y := Int.log_mono_right hx h
  rcases hl.lt_or_eq with hlt | heq
  · refine (double_pos_bounds hx).2.trans (le_trans ?_ (double_pos_bounds hy).1)
    exact zpow_le_zpow_right₀ (by norm_num) (by omega)
  · rw [double_pos_eq hx, double_pos_eq hy, heq]
    have h0 := two_zpow_pos (K := K) (Int.log 2 y - 52)
    apply mul_le_mul_of_nonneg_right _ h0.le
    exact_mod_cast pyRound_mono (div_le_div_of_nonneg_right h h0.le)

theorem double_monotone : Monotone (double : K → K) := by
  intro x y h
  rcases lt_trichotomy x 0 with hx | hx | hx
  · rcases lt_trichotomy y 0 with hy | hy | hy
    · have := double_mono_pos (x := -y) (y := -x) (by linarith) (by linarith)
      rw [double_neg, double_neg] at this
      linarith
    · have := double_pos (x := -x) (by linarith)
      rw [double_neg] at this
      rw [hy, double_zero]; linarith
    · have := double_pos (x := -x) (by linarith)
      rw [double_neg] at this
      have := double_pos hy
      linarith
  · subst hx
    rw [double_zero]
    rcases h.lt_or_eq with hy | hy
    · exact (double_pos hy).le
    · rw [← hy, double_zero]
  · exact double_mono_pos hx h

theorem double_err (x : K) : |double x - x| ≤ 1 / 2 ^ 53 * |x| := by
  have pos : ∀ x : K, 0 < x → |double x - x| ≤ 1 / 2 ^ 53 * |x| := by
    intro x hx
    have h0 := two_zpow_pos (K := K) (Int.log 2 x - 52)
    rw [double_pos_eq hx, abs_of_pos hx]
    have hn := pyRound_near (x / 2 ^ (Int.log 2 x - 52))
    have hb := (significand_bounds hx).1
    rw [le_div_iff₀ h0] at hb
    generalize (pyRound (x / 2 ^ (Int.log 2 x - 52)) : K) = r at hn
    generalize (2 : K) ^ (Int.log 2 x - 52) = t at *
    have e : r * t - x = (r - x / t) * t := by field_simp
    rw [e, abs_mul, abs_of_pos h0]
    have : |r - x / t| * t ≤ 1 / 2 * t := mul_le_mul_of_nonneg_right hn h0.le
    have h2 : t ≤ x / 2 ^ 52 := by rw [le_div_iff₀ (by positivity)]; linarith
    calc _ ≤ 1 / 2 * t := this
      _ ≤ 1 / 2 * (x / 2 ^ 52) := by linarith
      _ = 1 / 2 ^ 53 * x := by ring
  rcases lt_trichotomy x 0 with hx | hx | hx
  · have := pos (-x) (by linarith)
    rw [double_neg, abs_neg, ← abs_neg] at this
    convert this using 2
    ring
  · subst hx; simp [double_zero]
  · exact pos x hx

/-- numbers with a significand of at most 53 bits are representable -/
theorem double_repr (m e : ℤ) (hm : |m| ≤ 2 ^ 53) : double ((m : K) * 2 ^ e) = (m : K) * 2 ^ e := by
  have pos : ∀ m : ℤ, 0 < m → m ≤ 2 ^ 53 → double ((m : K) * 2 ^ e) = (m : K) * 2 ^ e := by
    intro m h0 hm
    have hmK : (0 : K) < (m : K) := by exact_mod_cast h0
    have hx : (0 : K) < (m : K) * 2 ^ e := mul_pos hmK (two_zpow_pos e)
    have h2 : ((2 : ℕ) : K) ^ Int.log 2 ((m : K) * 2 ^ e) ≤ (m : K) * 2 ^ e :=
      Int.zpow_log_le_self (by norm_num) hx
    rw [Nat.cast_ofNat] at h2
    set L := Int.log 2 ((m : K) * 2 ^ e) with hL
    rw [double_pos_eq hx, ← hL]
    -- the scaled number is whole
    have hint : ∃ k : ℤ, (m : K) * 2 ^ e / 2 ^ (L - 52) = (k : K) := by
      by_cases hc : L ≤ e + 52
      · obtain ⟨d, hd⟩ := Int.eq_ofNat_of_zero_le (by omega : 0 ≤ e - (L - 52))
        refine ⟨m * 2 ^ d, ?_⟩
        rw [mul_div_assoc, ← zpow_sub₀ (by norm_num), hd]
        push_cast
        rw [zpow_natCast]
      · have hm53 : m = 2 ^ 53 := by
          refine le_antisymm hm ?_
          have a : (2 : K) ^ (e + 53) ≤ (m : K) * 2 ^ e :=
            (zpow_le_zpow_right₀ (by norm_num) (by omega)).trans h2
          rw [zpow_add₀ (by norm_num), mul_comm] at a
          have a' := le_of_mul_le_mul_right a (two_zpow_pos e)
          have : ((2 ^ 53 : ℤ) : K) ≤ (m : K) := by
            push_cast
            norm_num at a' ⊢
            exact a'
          exact_mod_cast this
        have hLe : L = e + 53 := by
          have a : (m : K) * 2 ^ e = ((2 : ℕ) : K) ^ (e + 53) := by
            rw [hm53, zpow_add₀ (by norm_num), mul_comm]
            push_cast
            congr 1
            norm_num
          rw [hL, a, Int.log_zpow (by norm_num)]
        refine ⟨2 ^ 52, ?_⟩
        rw [hm53, hLe, mul_div_assoc, ← zpow_sub₀ (by norm_num)]
        rw [show e - (e + 53 - 52) = -1 by ring]
        push_cast
        norm_num
    obtain ⟨k, hk⟩ := hint
    rw [hk, pyRound_int, ← hk, div_mul_cancel₀ _ (two_zpow_pos _).ne']
  rcases lt_trichotomy m 0 with h | h | h
  · have := pos (-m) (by omega) (by rw [abs_of_neg h] at hm; exact hm)
    push_cast at this
    rw [neg_mul, double_neg] at this
    linarith
  · subst h; simp [double_zero]
  · exact pos m h (by rwa [abs_of_pos h] at hm)

/-- every result of rounding has a significand of at most 53 bits -/
theorem double_eq_repr (x : K) : ∃ m e : ℤ, |m| ≤ 2 ^ 53 ∧ double x = (m : K) * 2 ^ e := by
  have pos : ∀ x : K, 0 < x → ∃ m e : ℤ, |m| ≤ 2 ^ 53 ∧ double x = (m : K) * 2 ^ e := by
    intro x hx
    refine ⟨_, _, ?_, double_pos_eq hx⟩
    obtain ⟨h1, h2⟩ := significand_bounds hx
    rw [abs_le]
    constructor
    · have : pyRound ((-2 ^ 53 : ℤ) : K) ≤ pyRound (x / 2 ^ (Int.log 2 x - 52)) := by
        apply pyRound_mono
        push_cast
        refine le_trans ?_ h1
        norm_num
      rwa [pyRound_int] at this
    · have : pyRound (x / 2 ^ (Int.log 2 x - 52)) ≤ pyRound ((2 ^ 53 : ℤ) : K) := by
        apply pyRound_mono
        push_cast
        have := h2.le
        norm_num at this ⊢
        exact this
      rwa [pyRound_int] at this
  rcases lt_trichotomy x 0 with h | h | h
  · obtain ⟨m, e, hm, he⟩ := pos (-x) (by linarith)
    rw [double_neg] at he
    exact ⟨-m, e, by rwa [abs_neg], by push_cast; linarith⟩
  · exact ⟨0, 0, by norm_num, by rw [h, double_zero]; simp⟩
  · exact pos x h

/-- Double precision as a rounding. -/
def Rounding.double : Rounding K where
  fl := Ghedt.double
  mono := double_monotone
  idem x := by
    obtain ⟨m, e, hm, he⟩ := double_eq_repr x
    rw [he, double_repr m e hm]
  int n hn := by
    have := double_repr (K := K) n 0 hn
    simpa using this
  err := double_err

end Ghedt
