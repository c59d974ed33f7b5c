import Verif.Py
import Mathlib.Algebra.BigOperators.Group.Finset.Basic
import Mathlib.Algebra.BigOperators.Intervals

/-!
# Specification vocabulary for the calendar and for hourly load lists

Nothing here refers to the model.
-/

namespace Ghedt.Spec

/-- Gregorian leap years. -/
def LeapYear (year : ℤ) : Prop := 4 ∣ year ∧ (¬ 100 ∣ year ∨ 400 ∣ year)

instance (year : ℤ) : Decidable (LeapYear year) := by unfold LeapYear; infer_instance

/-- Days of month `m` (1 = January … 12 = December; anything else has none). -/
def monthLength (leap : Bool) : ℕ → ℕ
  | 1 => 31 | 2 => if leap then 29 else 28 | 3 => 31 | 4 => 30 | 5 => 31 | 6 => 30
  | 7 => 31 | 8 => 31 | 9 => 30 | 10 => 31 | 11 => 30 | 12 => 31
  | _ => 0

/-- Number of hours of the year before month `m` (the index of its first hour). -/
def monthStart (leap : Bool) (m : ℕ) : ℕ := 24 * ∑ k ∈ Finset.range m, monthLength leap k

/-- Number of hours of the year. -/
def yearHours (leap : Bool) : ℕ := if leap then 8784 else 8760

/-- The hourly loads of month `m`. -/
def monthLoads {K : Type} (leap : Bool) (hourly : List K) (m : ℕ) : List K :=
  (hourly.drop (monthStart leap m)).take (24 * monthLength leap m)

/-- The number of hours of the first `n` months of a sequence of 365-day years. -/
def hoursOf (n : ℕ) : ℕ := 24 * ∑ k ∈ Finset.range n, monthLength false (k % 12 + 1)

end Ghedt.Spec
