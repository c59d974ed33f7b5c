import Verif.Model.Interp
import Mathlib.Data.Int.Log

/-!
# Floating-point arithmetic

The other models compute with exact numbers.  Here is what the rounded versions of the candidate generators
(`Model/RoundedDomains`) assume of floating-point numbers: every operation gives the exact result, rounded.
Overflow, underflow, infinities and NaN are left out.
-/

namespace Ghedt

/-- A rounding: a monotone function onto the representable numbers, exact on whole numbers up to `2^53`, with
relative error at most `2^-53`.  Round to nearest of IEEE 754 double precision is one (`double`), exact
arithmetic another (`Rounding.exact`). -/
structure Rounding (K : Type) [Field K] [LinearOrder K] where
  fl : K → K
  mono : Monotone fl
  idem : ∀ x, fl (fl x) = fl x
  int : ∀ n : ℤ, |n| ≤ 2 ^ 53 → fl (n : K) = n
  err : ∀ x, |fl x - x| ≤ 1 / 2 ^ 53 * |x|

/-- No rounding. -/
def Rounding.exact {K : Type} [Field K] [LinearOrder K] [IsStrictOrderedRing K] : Rounding K where
  fl x := x
  mono _ _ h := h
  idem _ := rfl
  int _ _ := rfl
  err x := by rw [sub_self, abs_zero]; positivity

/-- Round to nearest, ties to even, with a significand of 53 bits (IEEE 754 binary64, exponents unbounded). -/
def double {K : Type} [Field K] [LinearOrder K] [FloorRing K] [IsStrictOrderedRing K] (x : K) : K :=
  if x = 0 then 0
  else
    let e := Int.log 2 |x| - 52
    (pyRound (x / 2 ^ e) : K) * 2 ^ e

end Ghedt
