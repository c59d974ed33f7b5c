import Verif.Py

/-!
# Numbers that may be `nan`

`numpy`'s logarithm of a negative number is `nan`, with a warning but no exception, and so is everything computed from
it.  Every comparison with `nan` is false, so Python's `max` and `min` go over it unless it comes first.
-/

namespace Ghedt

/-- A float that may be `nan` (`none`). -/
abbrev Num (K : Type) := Option K

namespace Num
variable {K : Type} [Field K] [LinearOrder K]

/-- `x > y`: false if one of them is `nan`. -/
def gt : Num K → Num K → Bool
  | some x, some y => decide (y < x)
  | _, _ => false

/-- A dot product where values may be `nan`: then so is the result (0 times `nan` is `nan`).  `dot` is the one on numbers. -/
def dotBy (dot : List K → List K → K) (w : List K) (g : List (Num K)) : Num K :=
  if g.any Option.isNone then none else some (dot w (g.filterMap id))

/-- The products of the elements, added up. -/
def dot (w : List K) (g : List (Num K)) : Num K := dotBy (fun w v => (List.zipWith (· * ·) w v).sum) w g

end Num

variable {K : Type} [Field K] [LinearOrder K]

/-- `max(l)` of Python: the first element, replaced by each later one that compares greater. -/
def numMax : List (Num K) → Py (Num K)
  | [] => .error .valueError
  | a :: l => .ok (l.foldl (fun m x => if Num.gt x m then x else m) a)

/-- `min(l)`. -/
def numMin : List (Num K) → Py (Num K)
  | [] => .error .valueError
  | a :: l => .ok (l.foldl (fun m x => if Num.gt m x then x else m) a)

/-- `int(v)` and the like, which raise `ValueError` for `nan`. -/
def Num.number : Num K → Py K
  | some x => .ok x
  | none => .error .valueError

/-- `max(l)`, where what is done with it raises `ValueError` if it is `nan`. -/
def maxNumber (l : List (Num K)) : Py K := numMax l >>= Num.number

/-- `min(l)`, likewise. -/
def minNumber (l : List (Num K)) : Py K := numMin l >>= Num.number

end Ghedt
