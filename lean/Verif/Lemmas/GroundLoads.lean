import Verif.Model.GroundLoads
import Verif.Spec.Year
import Verif.Lemmas.SearchRoutines
import Verif.Lemmas.PyList
import Mathlib.Tactic.IntervalCases

set_option linter.unusedSectionVars false

namespace Ghedt

theorem foldlM_range_inv {σ τ : Type} {f : σ → τ → Py σ} {e : ℕ → τ} (P : ℕ → σ → Prop) (n : ℕ)
    (step : ∀ k < n, ∀ s, P k s → ∃ s', f s (e k) = .ok s' ∧ P (k + 1) s') {s : σ} (h0 : P 0 s) :
    ∃ s', ((List.range n).map e).foldlM f s = .ok s' ∧ P n s' := by
  induction n with
  | zero => exact ⟨s, rfl, h0⟩
  | succ n ih =>
    obtain ⟨s1, h1, h2⟩ := ih fun k hk => step k (by omega)
    obtain ⟨s2, h3, h4⟩ := step n (by omega) s1 h2
    refine ⟨s2, ?_, h4⟩
    rw [List.range_succ, List.map_append, List.foldlM_append, h1]
    simp [h3]

theorem pySet_ok {α : Type} {l : List α} {i : ℕ} (h : i < l.length) (v : α) :
    pySet l (i : ℤ) v = .ok (l.set i v) := by
  have h1 : ¬ (i : ℤ) < 0 := by omega
  simp [pySet, h, h1]

end Ghedt

namespace Ghedt.GL
open Spec

theorem monthdays_eq {m : ℤ} (h : 0 ≤ m) :
    monthdays m = .ok (monthLength false ((m - 1) % 12 + 1).toNat : ℤ) := by
  unfold monthdays
  have key : ∀ k : ℤ, 0 ≤ k → k ≤ 12 →
      pyGet [31, 31, 28, 31, 30, 31, 30, 31, 31, 30, 31, 30, 31] k =
        .ok (monthLength false ((k - 1) % 12 + 1).toNat : ℤ) := by
    intro k h0 h1
    interval_cases k <;> rfl
  dsimp only
  by_cases h12 : m > 12
  · rw [if_pos h12, key _ (by omega) (by omega)]
    congr 4
    omega
  · rw [if_neg h12, key _ h (by omega)]

theorem monthdays_nat (k : ℕ) :
    monthdays ((k : ℤ) + 1) = .ok (monthLength false (k % 12 + 1) : ℤ) := by
  rw [monthdays_eq (by omega)]
  congr 3
  omega

theorem lastmonthhour_eq (n : ℕ) : lastmonthhour (n : ℤ) = .ok (hoursOf n : ℤ) := by
  unfold lastmonthhour
  have key : ∀ n : ℕ, (pyRange 1 ((n : ℤ) + 1)).foldlM (fun (lmh : ℤ) (i : ℤ) => do
      let d ← monthdays i
      return lmh + d * 24) 0 = .ok (hoursOf n : ℤ) := by
    intro n
    induction n with
    | zero => rfl
    | succ n ih =>
      rw [pyRange_succ (by omega), List.foldlM_append, show ((n + 1 : ℕ) : ℤ) = (n : ℤ) + 1 by simp,
        ih]
      simp only [Except.ok_bind, List.foldlM_cons, List.foldlM_nil, monthdays_nat, Except.pure_eq]
      congr 1
      unfold hoursOf
      rw [Finset.sum_range_succ]
      push_cast; ring
  rw [key]
  simp only [Except.ok_bind, Except.pure_eq]
  by_cases h : (n : ℤ) = 1
  · have : n = 1 := by omega
    subst this
    simp [hoursOf, monthLength]
  · rw [if_neg h]

theorem lastmonthhour_int {m : ℤ} (h : 0 ≤ m) : lastmonthhour m = .ok (hoursOf m.toNat : ℤ) := by
  rw [← lastmonthhour_eq, Int.toNat_of_nonneg h]

theorem firstmonthhour_eq (n : ℕ) : firstmonthhour ((n : ℤ) + 1) = .ok (1 + hoursOf n : ℤ) := by
  unfold firstmonthhour
  by_cases h : (n : ℤ) + 1 > 1
  · rw [if_pos h]
    have key : ∀ n : ℕ, (pyRange 1 ((n : ℤ) + 1)).foldlM (fun (fmh : ℤ) (i : ℤ) => do
        let mi := i % 12
        let d ← monthdays mi
        return fmh + 24 * d) 1 = .ok (1 + hoursOf n : ℤ) := by
      intro n
      induction n with
      | zero => rfl
      | succ n ih =>
        rw [pyRange_succ (by omega), List.foldlM_append,
          show ((n + 1 : ℕ) : ℤ) = (n : ℤ) + 1 by simp, ih]
        simp only [Except.ok_bind, List.foldlM_cons, List.foldlM_nil, Except.pure_eq]
        rw [monthdays_eq (by omega)]
        simp only [Except.ok_bind]
        congr 1
        unfold hoursOf
        rw [Finset.sum_range_succ]
        have : ((((n : ℤ) + 1) % 12 - 1) % 12 + 1).toNat = n % 12 + 1 := by omega
        rw [this]
        push_cast; ring
    exact key n
  · rw [if_neg h]
    have : n = 0 := by omega
    subst this
    rfl

theorem firstmonthhour_int {m : ℤ} (h : 1 ≤ m) :
    firstmonthhour m = .ok (1 + hoursOf (m - 1).toNat : ℤ) := by
  rw [← firstmonthhour_eq]
  congr 1; omega

theorem firstmonthhour_nonpos {m : ℤ} (h : m ≤ 1) : firstmonthhour m = .ok 1 := by
  unfold firstmonthhour
  rw [if_neg (by omega)]

theorem hoursOf_succ (n : ℕ) :
    hoursOf (n + 1) = hoursOf n + 24 * monthLength false (n % 12 + 1) := by
  unfold hoursOf
  rw [Finset.sum_range_succ]; ring

theorem monthLength_bounds (b : Bool) {m : ℕ} (h1 : 1 ≤ m) (h2 : m ≤ 12) :
    28 ≤ monthLength b m ∧ monthLength b m ≤ 31 := by
  cases b <;> interval_cases m <;> decide

theorem hoursOf_year (y : ℕ) : hoursOf (12 * y) = 8760 * y := by
  induction y with
  | zero => rfl
  | succ y ih =>
    have e : 12 * (y + 1) = 12 * y + 1 + 1 + 1 + 1 + 1 + 1 + 1 + 1 + 1 + 1 + 1 + 1 := by ring
    rw [e]
    simp only [hoursOf_succ, ih]
    have : ∀ k, k < 12 → (12 * y + k) % 12 = k := by intro k hk; omega
    simp only [show (12 * y) % 12 = 0 by omega, this, Nat.add_assoc, Nat.reduceAdd, Nat.reduceLT]
    simp [monthLength]
    ring

theorem isLeap_eq (year : ℤ) : isLeap year = decide (LeapYear year) := by
  unfold isLeap
  rw [decide_eq_decide]
  unfold LeapYear
  constructor
  · rintro ⟨h1, h2⟩; exact ⟨by omega, by omega⟩
  · rintro ⟨h1, h2⟩; exact ⟨by omega, by omega⟩

/-- the days list of a year -/
def daysList (leap : Bool) : List ℤ :=
  0 :: (List.range 12).map fun k => (monthLength leap (k + 1) : ℤ)

theorem daysInMonth_eq (year : ℤ) :
    daysInMonth year = .ok (daysList (decide (LeapYear year))) := by
  rw [← isLeap_eq]
  unfold daysInMonth monthrange
  generalize isLeap year = b
  cases b <;> decide

theorem daysList_length (leap : Bool) : (daysList leap).length = 13 := rfl

theorem daysList_sum (leap : Bool) : (daysList leap).sum * 24 = (yearHours leap : ℤ) := by
  cases leap <;> decide

theorem monthStart_end (leap : Bool) : monthStart leap 13 = yearHours leap := by
  cases leap <;> decide

theorem monthStart_succ (leap : Bool) (m : ℕ) :
    monthStart leap (m + 1) = monthStart leap m + 24 * monthLength leap m := by
  unfold monthStart; rw [Finset.sum_range_succ]; ring

theorem monthStart_one (leap : Bool) : monthStart leap 1 = 0 := by cases leap <;> decide

theorem monthStart_le (leap : Bool) {m : ℕ} (h : m ≤ 13) : monthStart leap m ≤ yearHours leap := by
  rw [← monthStart_end]
  unfold monthStart
  apply Nat.mul_le_mul_left
  apply Finset.sum_le_sum_of_subset
  intro x hx
  simp only [Finset.mem_range] at hx ⊢
  omega

theorem daysList_enum (leap : Bool) :
    ((daysList leap).drop 1).zipIdx 1 =
      (List.range 12).map fun k : ℕ => ((monthLength leap (k + 1) : ℤ), k + 1) := by
  cases leap <;> decide

end Ghedt.GL
