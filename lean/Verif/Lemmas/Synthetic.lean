import Verif.Lemmas.HybridTotal
import Verif.Spec.Synthetic

set_option linter.unusedSectionVars false

namespace Ghedt.GL
open Ghedt.Spec
variable {K : Type} [Field K] [LinearOrder K] [IsStrictOrderedRing K]

/-! ### slice assignment -/

theorem pyClamp_nat (n a : ℕ) : pyClamp n (a : ℤ) = min a n := by
  unfold pyClamp
  rw [if_neg (by omega)]
  simp

theorem sliceAssign_length {α : Type} (l : List α) (a d : ℕ) (x : α) :
    (pySliceAssign l (a : ℤ) ((a : ℤ) + d) (List.replicate d x)).length =
      if a + d ≤ l.length then l.length else min a l.length + d := by
  unfold pySliceAssign
  have e : ((a : ℤ) + d) = ((a + d : ℕ) : ℤ) := by push_cast; ring
  rw [e]
  simp only [pyClamp_nat, List.length_append, List.length_take, List.length_drop, List.length_replicate]
  split_ifs <;> omega

/-- a negative start: the block is inserted -/
theorem sliceAssign_insert {α : Type} (l : List α) (a d : ℕ) (x : α) (ha : 0 < a) (had : a ≤ d)
    (hl : d ≤ l.length) :
    (pySliceAssign l (-(a : ℤ)) (-(a : ℤ) + d) (List.replicate d x)).length = l.length + d := by
  unfold pySliceAssign
  have e : (-(a : ℤ) + d) = ((d - a : ℕ) : ℤ) := by omega
  rw [e]
  have e2 : pyClamp l.length (-(a : ℤ)) = l.length - a := by
    unfold pyClamp
    simp only [show -(a : ℤ) < 0 by omega, if_true]
    omega
  simp only [pyClamp_nat, e2, List.length_append, List.length_take, List.length_drop,
    List.length_replicate]
  omega

theorem sliceAssign_get {α : Type} (l : List α) (a d : ℕ) (x : α) (h : a + d ≤ l.length) (j : ℕ) :
    (pySliceAssign l (a : ℤ) ((a : ℤ) + d) (List.replicate d x))[j]? =
      if a ≤ j ∧ j < a + d then some x else l[j]? := by
  unfold pySliceAssign
  have e : ((a : ℤ) + d) = ((a + d : ℕ) : ℤ) := by push_cast; ring
  rw [e]
  simp only [pyClamp_nat]
  rw [List.append_assoc, List.getElem?_append, List.getElem?_append, List.length_take,
    List.length_replicate]
  split_ifs with h1 h2 h3 h4 h5
  · omega
  · rw [List.getElem?_take, if_pos (by omega)]
  · rw [List.getElem?_replicate, if_pos (by omega)]
  · omega
  · omega
  · rw [List.getElem?_drop]
    congr 1; omega

theorem sliceAssign_before {α : Type} (l : List α) (a d : ℕ) (x : α) (j : ℕ) (hj : j < a)
    (hl : j < l.length) :
    (pySliceAssign l (a : ℤ) ((a : ℤ) + d) (List.replicate d x))[j]? = l[j]? := by
  unfold pySliceAssign
  have e : ((a : ℤ) + d) = ((a + d : ℕ) : ℤ) := by push_cast; ring
  rw [e]
  simp only [pyClamp_nat]
  rw [List.append_assoc, List.getElem?_append, List.length_take, if_pos (by omega),
    List.getElem?_take, if_pos (by omega)]

/-- a block that starts inside: every entry up to its end -/
theorem sliceAssign_get' {α : Type} (l : List α) (a d : ℕ) (x : α) (j : ℕ) (hl : j < l.length) :
    (pySliceAssign l (a : ℤ) ((a : ℤ) + d) (List.replicate d x))[j]? =
      if a ≤ j ∧ j < a + d then some x else l[j]? := by
  unfold pySliceAssign
  have e : ((a : ℤ) + d) = ((a + d : ℕ) : ℤ) := by push_cast; ring
  rw [e]
  simp only [pyClamp_nat]
  rw [List.append_assoc, List.getElem?_append, List.getElem?_append, List.length_take,
    List.length_replicate]
  split_ifs with h1 h2 h3 h4 h5
  · omega
  · rw [List.getElem?_take, if_pos (by omega)]
  · rw [List.getElem?_replicate, if_pos (by omega)]
  · omega
  · omega
  · rw [List.getElem?_drop]
    congr 1; omega

/-! ### one month -/

theorem start_eq (n d : ℕ) : ⌊((n : ℤ) : ℚ) - ((d : ℤ) : ℚ) / 2⌋ = (n : ℤ) - ((d + 1) / 2 : ℕ) := by
  rw [Int.floor_eq_iff]
  have h := Nat.div_add_mod (d + 1) 2
  have h2 := Nat.mod_lt (d + 1) (show 0 < 2 by norm_num)
  have h3 : (2 * (((d + 1) / 2 : ℕ) : ℚ)) + (((d + 1) % 2 : ℕ) : ℚ) = (d : ℚ) + 1 := by exact_mod_cast h
  have h4 : ((((d + 1) % 2 : ℕ)) : ℚ) ≤ 1 := by exact_mod_cast (by omega : (d + 1) % 2 ≤ 1)
  have h5 : (0 : ℚ) ≤ ((((d + 1) % 2 : ℕ)) : ℚ) := by positivity
  generalize (d + 1) / 2 = q at *
  push_cast at h3 h4 h5 ⊢
  constructor <;> linarith

/-- the list after the month block -/
def monthFlat (l : List K) (avg : K) (prev hours : ℕ) : List K :=
  pySliceAssign l (prev : ℤ) ((prev : ℤ) + hours) (List.replicate hours avg)

theorem syntheticLoad_eq (l : List K) (avg peak : K) (d day prev hours : ℕ) :
    syntheticLoad l avg peak d day prev hours =
      pySliceAssign (monthFlat l avg prev hours)
        (((day * 24 + prev + 12 : ℕ) : ℤ) - ((d + 1) / 2 : ℕ))
        (((day * 24 + prev + 12 : ℕ) : ℤ) - ((d + 1) / 2 : ℕ) + d) (List.replicate d peak) := by
  unfold syntheticLoad monthFlat
  dsimp only
  have := start_eq (day * 24 + prev + 12) d
  push_cast at this ⊢
  rw [this]
  simp

theorem syntheticLoad_length_pos (l : List K) (avg peak : K) (d day prev hours : ℕ)
    (h : prev + hours ≤ l.length) (hd : (d + 1) / 2 ≤ day * 24 + prev + 12) :
    (syntheticLoad l avg peak d day prev hours).length =
      if day * 24 + prev + 12 + d / 2 ≤ l.length then l.length
      else min (day * 24 + prev + 12 - (d + 1) / 2) l.length + d := by
  rw [syntheticLoad_eq]
  have e : (((day * 24 + prev + 12 : ℕ) : ℤ) - ((d + 1) / 2 : ℕ)) =
      ((day * 24 + prev + 12 - (d + 1) / 2 : ℕ) : ℤ) := by omega
  rw [e, sliceAssign_length]
  have e2 : (monthFlat l avg prev hours).length = l.length := by
    unfold monthFlat; rw [sliceAssign_length, if_pos h]
  rw [e2]
  have e3 : day * 24 + prev + 12 - (d + 1) / 2 + d = day * 24 + prev + 12 + d / 2 := by omega
  rw [e3]

theorem syntheticLoad_length_neg (l : List K) (avg peak : K) (d day prev hours : ℕ)
    (h : prev + hours ≤ l.length) (hd : day * 24 + prev + 12 < (d + 1) / 2) (hl : d ≤ l.length) :
    (syntheticLoad l avg peak d day prev hours).length = l.length + d := by
  rw [syntheticLoad_eq]
  have e : (((day * 24 + prev + 12 : ℕ) : ℤ) - ((d + 1) / 2 : ℕ)) =
      -(((d + 1) / 2 - (day * 24 + prev + 12) : ℕ) : ℤ) := by omega
  have e2 : (monthFlat l avg prev hours).length = l.length := by
    unfold monthFlat; rw [sliceAssign_length, if_pos h]
  rw [e, sliceAssign_insert _ _ _ _ (by omega) (by omega) (by omega), e2]

theorem syntheticLoad_get (l : List K) (avg peak : K) (d day prev hours : ℕ)
    (h : prev + hours ≤ l.length) (hd : (d + 1) / 2 ≤ day * 24 + prev + 12) (j : ℕ) (hj : j < l.length) :
    (syntheticLoad l avg peak d day prev hours)[j]? =
      if day * 24 + prev + 12 ≤ j + (d + 1) / 2 ∧ j + (d + 1) / 2 < day * 24 + prev + 12 + d then some peak
      else if prev ≤ j ∧ j < prev + hours then some avg else l[j]? := by
  rw [syntheticLoad_eq]
  have e : (((day * 24 + prev + 12 : ℕ) : ℤ) - ((d + 1) / 2 : ℕ)) =
      ((day * 24 + prev + 12 - (d + 1) / 2 : ℕ) : ℤ) := by omega
  have e2 : (monthFlat l avg prev hours).length = l.length := by
    unfold monthFlat; rw [sliceAssign_length, if_pos h]
  rw [e, sliceAssign_get' _ _ _ _ _ (by rw [e2]; exact hj)]
  unfold monthFlat
  rw [sliceAssign_get' _ _ _ _ _ hj]
  congr 1
  rw [eq_iff_iff]; constructor <;> rintro ⟨h1, h2⟩ <;> constructor <;> omega

/-! ### the year -/

/-- One list written month after month. -/
def writeYear (leap : Bool) (avg peak : ℕ → K) (d day : ℕ → ℕ) : ℕ → List K
  | 0 => List.replicate (yearHours leap) 0
  | k + 1 => syntheticLoad (writeYear leap avg peak d day k) (avg (k + 1)) (peak (k + 1)) (d (k + 1))
      (day (k + 1)) (monthStart leap (k + 1)) ((24 * monthLength leap (k + 1) : ℕ))

variable {leap : Bool} {avg peak : ℕ → K} {d day : ℕ → ℕ}

theorem start_late (leap : Bool) {k : ℕ} (h1 : 2 ≤ k) (h2 : k ≤ 12) : 744 ≤ monthStart leap k := by
  cases leap <;> interval_cases k <;> decide

theorem end_early (leap : Bool) {k : ℕ} (h1 : 1 ≤ k) (h2 : k ≤ 11) :
    monthStart leap k + 24 * monthLength leap k + 720 ≤ yearHours leap := by
  cases leap <;> interval_cases k <;> decide

theorem month_in (leap : Bool) {k : ℕ} (h1 : k < 12) :
    monthStart leap (k + 1) + 24 * monthLength leap (k + 1) ≤ yearHours leap := by
  rw [← monthStart_succ]; exact monthStart_le leap (by omega)

/-- Length through the year. -/
theorem writeYear_length (hd : ∀ m, 1 ≤ m → m ≤ 12 → d m ≤ 48)
    (hday : ∀ m, 1 ≤ m → m ≤ 12 → day m ≤ monthLength leap m) (k : ℕ) (hk1 : 1 ≤ k) (hk : k ≤ 11) :
    (writeYear leap avg peak d day k).length =
      if day 1 = 0 ∧ 24 < d 1 then yearHours leap + d 1 else yearHours leap := by
  induction k with
  | zero => omega
  | succ k ih =>
    have hy : 8760 ≤ yearHours leap := by cases leap <;> decide
    have a1 := hd (k + 1) (by omega) (by omega)
    have a2 := hday (k + 1) (by omega) (by omega)
    have a3 := end_early leap hk1 hk
    have a4 := monthStart_succ leap (k + 1)
    rw [writeYear]
    rcases Nat.eq_zero_or_pos k with rfl | hk0
    · have z : (writeYear leap avg peak d day 0).length = yearHours leap := by
        rw [writeYear, List.length_replicate]
      have s1 : monthStart leap (0 + 1) = 0 := monthStart_one leap
      rw [s1] at a3 ⊢
      by_cases hneg : (day 1 = 0 ∧ 24 < d 1)
      · have b : day (0 + 1) = 0 := hneg.1
        have b' : 24 < d (0 + 1) := hneg.2
        rw [if_pos hneg, syntheticLoad_length_neg _ _ _ _ _ _ _ (by omega) (by omega) (by omega), z]
      · have b : ¬ (day (0 + 1) = 0 ∧ 24 < d (0 + 1)) := hneg
        rw [if_neg hneg, syntheticLoad_length_pos _ _ _ _ _ _ _ (by omega) (by omega), z,
          if_pos (by omega)]
    · have a5 := start_late leap (show 2 ≤ k + 1 by omega) (by omega)
      have ih' := ih (by omega) (by omega)
      have hge : yearHours leap ≤ (writeYear leap avg peak d day k).length := by
        rw [ih']; split_ifs <;> omega
      rw [syntheticLoad_length_pos _ _ _ _ _ _ _ (by omega) (by omega), if_pos (by omega)]
      exact ih'

theorem december (leap : Bool) : monthStart leap 12 + 744 = yearHours leap := by
  cases leap <;> decide

theorem writeYear_length_all (hd : ∀ m, 1 ≤ m → m ≤ 12 → d m ≤ 48)
    (hday : ∀ m, 1 ≤ m → m ≤ 12 → day m ≤ monthLength leap m) :
    (writeYear leap avg peak d day 12).length = yearHours leap ↔
      ¬ (day 1 = 0 ∧ 24 < d 1) ∧ (d 12 = 0 ∨ 24 * day 12 + 12 + d 12 / 2 ≤ 744) := by
  have h11 := writeYear_length (avg := avg) (peak := peak) hd hday 11 (by omega) (by omega)
  have hdec := december leap
  have hy : 8760 ≤ yearHours leap := by cases leap <;> decide
  have a1 := hd 12 (by omega) (by omega)
  have hl : monthLength leap 12 = 31 := by cases leap <;> rfl
  rw [writeYear]
  have hge : yearHours leap ≤ (writeYear leap avg peak d day 11).length := by
    rw [h11]; split_ifs <;> omega
  simp only [Nat.reduceAdd, hl]
  rw [syntheticLoad_length_pos _ _ _ _ _ _ _ (by omega) (by omega), h11]
  split_ifs <;> constructor <;> intro h <;> omega

/-- The exact length when the block of December sticks out. -/
theorem writeYear_length_dec (hd : ∀ m, 1 ≤ m → m ≤ 12 → d m ≤ 48)
    (hday : ∀ m, 1 ≤ m → m ≤ 12 → day m ≤ monthLength leap m) (h1 : ¬ (day 1 = 0 ∧ 24 < d 1))
    (h12 : day 12 = 31) :
    (writeYear leap avg peak d day 12).length = yearHours leap +
      if d 12 ≤ 24 then d 12 else 12 + d 12 / 2 := by
  have h11 := writeYear_length (avg := avg) (peak := peak) hd hday 11 (by omega) (by omega)
  have hdec := december leap
  have a1 := hd 12 (by omega) (by omega)
  have hl : monthLength leap 12 = 31 := by cases leap <;> rfl
  rw [if_neg h1] at h11
  rw [writeYear]
  simp only [Nat.reduceAdd, hl]
  rw [syntheticLoad_length_pos _ _ _ _ _ _ _ (by omega) (by omega), h11]
  split_ifs <;> omega

/-- Content of the year. -/
theorem writeYear_get (hd : ∀ m, 1 ≤ m → m ≤ 12 → d m ≤ 24)
    (hday : ∀ m, 1 ≤ m → m ≤ 12 → day m ≤ monthLength leap m) (k : ℕ) (hk : k ≤ 12) :
    ∀ m j : ℕ, 1 ≤ m → m ≤ k → j < 24 * monthLength leap m →
      (writeYear leap avg peak d day k)[monthStart leap m + j]? =
        some (monthShape (avg m) (peak m) (d m) (day m) j) := by
  induction k with
  | zero => intros; omega
  | succ k ih =>
    intro m j hm hmk hj
    have hlen : (writeYear leap avg peak d day k).length = yearHours leap := by
      rcases Nat.eq_zero_or_pos k with rfl | hk0
      · rw [writeYear, List.length_replicate]
      · rw [writeYear_length (fun m a b => (hd m a b).trans (by norm_num)) hday k hk0 (by omega), if_neg]
        have := hd 1 (by omega) (by omega); omega
    have a1 := hd (k + 1) (by omega) (by omega)
    have a3 := month_in leap (show k < 12 by omega)
    have b3 := month_in leap (show m - 1 < 12 by omega)
    rw [Nat.sub_add_cancel hm] at b3
    rw [writeYear, syntheticLoad_get _ _ _ _ _ _ _ (by omega) (by omega) _ (by omega)]
    rcases Nat.lt_or_ge m (k + 1) with hlt | hge
    · have hmono : monthStart leap m + 24 * monthLength leap m ≤ monthStart leap (k + 1) := by
        rw [← monthStart_succ]
        unfold monthStart
        apply Nat.mul_le_mul_left
        apply Finset.sum_le_sum_of_subset
        intro x hx
        simp only [Finset.mem_range] at hx ⊢
        omega
      rw [if_neg (by omega), if_neg (by omega)]
      exact ih (by omega) m j hm (by omega) hj
    · obtain rfl : m = k + 1 := by omega
      unfold monthShape
      split_ifs <;> first | rfl | omega

end Ghedt.GL
