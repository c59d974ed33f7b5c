import Verif.Spec.Year
import Mathlib.Algebra.Order.Field.Basic

/-!
# Specification vocabulary for synthetic years

Nothing here refers to the model.
-/

namespace Ghedt.Spec

/-- The value at hour `j` (from 0) of a month at constant load `avg` with one block of `d` hours at
load `peak`, centred on the noon of day `day` (days counted from 0; an odd block is shifted by
half an hour to the left). -/
def monthShape {K : Type} (avg peak : K) (d day : ℕ) (j : ℕ) : K :=
  if 24 * day + 12 ≤ j + (d + 1) / 2 ∧ j + (d + 1) / 2 < 24 * day + 12 + d then peak else avg

/-- The list `year` has, in calendar month `m`, at hour `j` of that month, the value `f m j`. -/
def HasMonths {K : Type} (leap : Bool) (year : List K) (f : ℕ → ℕ → K) : Prop :=
  ∀ m j : ℕ, 1 ≤ m → m ≤ 12 → j < 24 * monthLength leap m → year[monthStart leap m + j]? = some (f m j)

end Ghedt.Spec
