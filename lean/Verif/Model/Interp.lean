import Verif.Py
import Mathlib.Data.List.Sort

/-!
# Model of `scipy.interpolate.interp1d` with the default `kind='linear'`, and of list assignment

`interp1d(x, y)` sorts the points by abscissa (stable sort), raises `ValueError` when the lengths differ
and, on evaluation, `ValueError` outside the range of the abscissae; inside it evaluates
`numpy.interp`: the segment used is the last one whose left end is at most the argument, and the
last ordinate at the right end.
-/

namespace Ghedt

/-- `l[i] = v`: `IndexError` outside `-len ≤ i < len`. -/
def pySet {α : Type} (l : List α) (i : ℤ) (v : α) : Py (List α) :=
  let j := if i < 0 then i + l.length else i
  if j < 0 then .error .indexError
  else if j.toNat < l.length then .ok (l.set j.toNat v)
  else .error .indexError

/-- `int(x)` of a float: truncation. -/
def pyInt {K : Type} [Field K] [LinearOrder K] [FloorRing K] (x : K) : ℤ :=
  if 0 ≤ x then ⌊x⌋ else ⌈x⌉

/-- `round(x)`: to the nearest integer, halves to even. -/
def pyRound {K : Type} [Field K] [LinearOrder K] [FloorRing K] (x : K) : ℤ :=
  let r := x - (⌊x⌋ : K)
  if r < 1 / 2 then ⌊x⌋
  else if 1 / 2 < r then ⌊x⌋ + 1
  else if ⌊x⌋ % 2 = 0 then ⌊x⌋ else ⌊x⌋ + 1

variable {K : Type} [Field K] [LinearOrder K]

/-- Evaluation on points sorted by abscissa. -/
def interpNodes : List (K × K) → K → Py K
  | [], _ => .error .valueError
  | [p], v => if v = p.1 then .ok p.2 else .error .valueError
  | p :: q :: rest, v =>
    if v < p.1 then .error .valueError
    else if v < q.1 then .ok ((q.2 - p.2) / (q.1 - p.1) * (v - p.1) + p.2)
    else interpNodes (q :: rest) v

/-- `interp1d(x, y)(v)`. -/
def interp1d (x y : List K) (v : K) : Py K :=
  if x.length ≠ y.length then .error .valueError
  else interpNodes ((x.zip y).insertionSort fun a b => a.1 ≤ b.1) v

end Ghedt
