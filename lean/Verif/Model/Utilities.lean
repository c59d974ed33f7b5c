import Verif.Py
import Mathlib.Analysis.SpecialFunctions.Pow.Real

/-!
# Model of `ghedt/utilities.py`

Covered: the spatial, design and statistics functions.  Not covered: JSON/pickle/file functions and
`MinorSymLogLocator` (plotting).
-/

namespace Ghedt.Utilities

variable {K : Type} [Field K] [LinearOrder K]

/-- `Eskilson_log_times`, utilities.py:18-24. -/
def eskilsonLogTimes : List K :=
  [-85 / 10, -78 / 10, -72 / 10, -65 / 10, -59 / 10, -52 / 10, -45 / 10, -3963 / 1000, -327 / 100,
   -2864 / 1000, -2577 / 1000, -2171 / 1000, -1884 / 1000, -1191 / 1000, -497 / 1000, -274 / 1000,
   -51 / 1000, 196 / 1000, 419 / 1000, 642 / 1000, 873 / 1000, 1112 / 1000, 1335 / 1000,
   1679 / 1000, 2028 / 1000, 2275 / 1000, 3003 / 1000]

/-- `borehole_spacing`, utilities.py:29-42.  Only `borehole.r_b` is read.  `coordinates[0]` is
evaluated before the length is looked at. -/
noncomputable def boreholeSpacing (r_b : ℝ) (coordinates : List (ℝ × ℝ)) : Py ℝ := do
  let p0 ← pyGet coordinates 0
  if coordinates.length = 1 then return r_b
  else if coordinates.length > 1 then
    let p1 ← pyGet coordinates 1
    return max r_b (Real.sqrt ((p1.1 - p0.1) ^ 2 + (p1.2 - p0.2) ^ 2))
  else .error .valueError

/-- `polygonal_area`, utilities.py:45-53. -/
def polygonalArea (corners : List (K × K)) : Py K := do
  let n : ℤ := corners.length
  let area ← (pyRange 0 n).foldlM (fun (area : K) (i : ℤ) => do
    let j := (i + 1) % n
    let ci ← pyGet corners i
    let cj ← pyGet corners j
    return area + ci.1 * cj.2 - cj.1 * ci.2) 0
  return |area| / 2

/-- `make_rectangle_perimeter`, utilities.py:68-76. -/
def makeRectanglePerimeter (lengthX lengthY : K) (origin : K × K := (0, 0)) : List (K × K) :=
  [(origin.1, origin.2), (origin.1 + lengthX, origin.2),
   (origin.1 + lengthX, origin.2 + lengthY), (origin.1, origin.2 + lengthY)]

/-- `number_of_boreholes`, utilities.py:79-81.  `func` is the rounding (`np.ceil` by default,
`np.floor` elsewhere) with its integral result. -/
def numberOfBoreholes (length B : K) (func : K → ℤ) : Py ℤ := do
  let q ← pyDiv length B
  return func q + 1

/-- `length_of_side`, utilities.py:84-86. -/
def lengthOfSide (N : ℤ) (B : K) : K := ((N - 1 : ℤ) : K) * B

/-- `spacing_along_length`, utilities.py:89-91. -/
def spacingAlongLength (L : K) (N : ℤ) : Py K := pyDiv L ((N - 1 : ℤ) : K)

/-- `sign`, utilities.py:96-103: `int(abs(x)/x)`. -/
def sign [FloorRing K] (x : K) : Py ℤ := do
  let q ← pyDiv |x| x
  return (if 0 ≤ q then ⌊q⌋ else ⌈q⌉)

/-- `check_bracket`, utilities.py:106-118 (the deprecation warning is dropped). -/
def checkBracket (signL signR : ℤ) : Bool :=
  if signL < 0 ∧ 0 < signR then true
  else if signR < 0 ∧ 0 < signL then true
  else false

/-- `compute_mpe`, utilities.py:159-182. -/
def computeMpe (actual predicted : List K) : Py K := do
  pyAssert (actual.length = predicted.length)
  let summation ← (pyRange 0 (actual.length : ℤ)).foldlM (fun (s : K) (i : ℤ) => do
    let p ← pyGet predicted i
    let a ← pyGet actual i
    let q ← pyDiv (p - a) a
    return s + q) 0
  pyDiv (summation * 100) ((actual.length : ℤ) : K)

end Ghedt.Utilities
