import Verif.Spec.Year
import Mathlib.Algebra.Order.Field.Basic

/-!
# Specification vocabulary: where the peaks of a month lie

Nothing here refers to the model.
-/

namespace Ghedt.Spec
variable {K : Type} [Field K] [LinearOrder K]

/-- The loads of a month are highest, for the first time, at index `i`, with value `P`. -/
def PeaksAt (month : List K) (i : ℕ) (P : K) : Prop :=
  month[i]? = some P ∧ (∀ j < i, month[j]? ≠ some P) ∧ ∀ x ∈ month, x ≤ P

/-- The day to which the hour with index `i` is attributed: `⌈i / 24⌉`. -/
def dayOf (i : ℕ) : ℕ := (i + 23) / 24

/-- The loads of the two days looked at when the peak of month `m` is reached at its index `i`: the day to which the peak
is attributed and the next one, the year going on from its end with its beginning. -/
def twoDays (leap : Bool) (hourly : List K) (m i : ℕ) : List K :=
  (List.range 48).filterMap fun j => hourly[(monthStart leap m + 24 * dayOf i + hourly.length - 24 + j) % hourly.length]?

/-- In the two days looked at for the peak of a month no load exceeds that peak by less than `δ`. -/
def ClearPeaks (δ : K) (leap : Bool) (hourly : List K) : Prop := ∀ m : ℕ, 1 ≤ m → m ≤ 12 → ∀ i P,
  PeaksAt (monthLoads leap hourly m) i P → ∀ x ∈ twoDays leap hourly m i, x ≤ P ∨ P + δ ≤ x

/-- The average load. -/
def averageOf (month : List K) : K := month.sum / month.length

/-- The peak of a month, if there is one, is neither attributed to its first day nor to its last; and it stands out:
either its square exceeds what the average could take away from it in the hours before, or none of the loads of that
day before the peak is both positive and below average. -/
def Placed (month : List K) : Prop := ∀ i P, PeaksAt month i P → 0 < P →
  2 ≤ dayOf i ∧ 24 * (dayOf i + 1) ≤ month.length ∧
  (averageOf month ^ 2 * (((i - 24 * (dayOf i - 1) : ℕ) : K) + 1) ≤ 4 * P * (P - averageOf month) ∨
    ∀ k, 24 * (dayOf i - 1) ≤ k → k < i → ∀ x, month[k]? = some x → x = 0 ∨ averageOf month ≤ x)

/-- The two peaks of a month, if both exist, are attributed to the same day or to days at least three apart. -/
def Apart (month month' : List K) : Prop := ∀ i P j Q, PeaksAt month i P → PeaksAt month' j Q → 0 < P → 0 < Q →
  dayOf i = dayOf j ∨ dayOf i + 3 ≤ dayOf j ∨ dayOf j + 3 ≤ dayOf i

end Ghedt.Spec
