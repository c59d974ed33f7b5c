import Verif.Spec.Peaks
import Mathlib.Algebra.BigOperators.Group.Finset.Basic

/-!
# Specification vocabulary: peaks that last, but not too long

Nothing here refers to the model.
-/

namespace Ghedt.Spec
variable {K : Type} [Field K] [LinearOrder K]

/-- The load in hour `k` of the two days looked at when the peak of month `m` is reached at its index `i`. -/
def lookedAt (hourly : List K) (m i k : ℕ) : K :=
  hourly.getD ((monthStart false m + 24 * dayOf i + hourly.length - 24 + k) % hourly.length) 0

/-- The peak of month `m`, if there is one, is not in the very first hour of the month, and is not exceeded in the two days looked
at.  In the hours of its day before it the loads fall short of the average by little (each weighted with the load itself).  And it
is neither attributed to the first day of the month nor to the last, or the loads of the two days exceed the average
(weighted likewise) by no more than the peak itself would in a third of 20 hours. -/
def Lasting (hourly : List K) (m : ℕ) : Prop := ∀ i P, PeaksAt (monthLoads false hourly m) i P → 0 < P →
  1 ≤ dayOf i ∧ averageOf (monthLoads false hourly m) < P ∧ (∀ k < 48, lookedAt hourly m i k ≤ P) ∧
  4 * ∑ k ∈ Finset.range (i - 24 * (dayOf i - 1)),
      max (averageOf (monthLoads false hourly m) - lookedAt hourly m i k) 0 * lookedAt hourly m i k ≤
    P * (P - averageOf (monthLoads false hourly m)) ∧
  (2 ≤ dayOf i ∧ dayOf i + 1 ≤ monthLength false m ∨
    3 * ∑ k ∈ Finset.range 48, max (lookedAt hourly m i k - averageOf (monthLoads false hourly m)) 0 * lookedAt hourly m i k ≤
      20 * (P * (P - averageOf (monthLoads false hourly m))))

end Ghedt.Spec
