import Verif.Spec.Year
import Mathlib.Algebra.Order.Field.Basic

/-!
# Specification vocabulary for the hybrid load sequence

Nothing here refers to the model.
-/

namespace Ghedt.Spec
variable {K : Type} [Field K] [LinearOrder K]

/-- What is recorded for one side (rejection or extraction) of one calendar month: energy total, peak
load, duration of the peak in hours, day of the peak. -/
structure Side (K : Type) where
  total : K
  peak : K
  duration : K
  day : ℤ

/-- The calendar month (1 to 12) of simulation month `i = 1, 2, …`. -/
def calMonth (i : ℕ) : ℕ := (i - 1) % 12 + 1

/-- Month `i` is among the first twelve or the last twelve of the months `start..finish`. -/
def Retained (start finish i : ℕ) : Prop := i < start + 12 ∨ finish < i + 12

instance (start finish i : ℕ) : Decidable (Retained start finish i) := by
  unfold Retained; infer_instance

/-- Number of peaks that appear in a month. -/
def peaksShown (retained : Prop) [Decidable retained] (c h : Side K) : ℕ :=
  if retained ∧ c.day ≠ h.day then (if 0 < c.peak then 1 else 0) + (if 0 < h.peak then 1 else 0)
  else 0

/-- Position, in a list that starts with two entries, of the last entry of month `i`, when every
month from `start` on contributes one entry and two more for every peak shown (`c`, `h` give
the data of the calendar months). -/
def monthEndPos (start finish : ℕ) (c h : ℕ → Side K) (i : ℕ) : ℕ :=
  1 + ∑ k ∈ Finset.Ico start (i + 1),
    (1 + 2 * peaksShown (Retained start finish k) (c (calMonth k)) (h (calMonth k)))

/-- Integral of the step function that has the value `load[j+1]` from `hour[j]` to `hour[j+1]`, between
positions `a` and `b`. -/
def stepIntegral (load hour : List K) (a b : ℕ) : K :=
  ∑ j ∈ Finset.Ico a b, load.getD (j + 1) 0 * (hour.getD (j + 1) 0 - hour.getD j 0)

/-- The start of a peak shown in month `i`: half its duration before the middle of its day, counted from
hour `1` of the month; `1e-6` instead of a negative hour. -/
def peakStart (i : ℕ) (s : Side K) : K :=
  if ((hoursOf (i - 1) : K) + 1) + ((s.day : K) - 1) * 24 + 12 - s.duration / 2 < 0 then 1 / 1000000
  else ((hoursOf (i - 1) : K) + 1) + ((s.day : K) - 1) * 24 + 12 - s.duration / 2

end Ghedt.Spec
