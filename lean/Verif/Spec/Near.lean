import Verif.Spec.Field

/-!
# Specification vocabulary for fields computed with rounding errors

Nothing here refers to the model.
-/

namespace Ghedt.Spec

variable {K : Type} [Field K] [LinearOrder K]

/-- One part in `10^15`. -/
def tiny : K := 1 / 10 ^ 15

/-- Each coordinate of `p` is that of `q` up to one part in `10^15`. -/
def NearPoint (p q : K × K) : Prop :=
  |p.1 - q.1| ≤ tiny * |q.1| ∧ |p.2 - q.2| ≤ tiny * |q.2|

/-- The same boreholes in the same order, each up to one part in `10^15`. -/
def Near (f g : List (K × K)) : Prop := List.Forall₂ NearPoint f g

/-- No positive whole number is within one part in `10^15` of `q`. -/
def Clear (q : K) : Prop := ∀ n : ℤ, 1 ≤ n → tiny * (n : K) < |q - n|

/-- `q` is a whole number, or no positive whole number is within one part in `10^15` of it. -/
def Sharp (q : K) : Prop := ∀ n : ℤ, 1 ≤ n → q ≠ n → tiny * (n : K) < |q - n|

/-- A step of the interior of a zoned field that decides as `InteriorStep` does, except that it may decide either way
when the two ratios it compares are equal and both counts can still grow. -/
def RoundedStep (n1 n2 : ℤ) (p q : ℤ × ℤ) : Prop :=
  InteriorStep n1 n2 p q ∨
    (((n1 - 1 : ℤ) : ℚ) / ((p.1 + 1 : ℤ) : ℚ) = ((n2 - 1 : ℤ) : ℚ) / ((p.2 + 2 : ℤ) : ℚ) ∧
      p.1 < n1 - 2 ∧ p.2 < n2 - 2 ∧ UnitStep p q)

/-- The same fields in the same order, each up to one part in `10^15`. -/
def NearDomain (d d' : List (List (K × K))) : Prop := List.Forall₂ Near d d'

end Ghedt.Spec
