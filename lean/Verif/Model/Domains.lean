import Verif.Model.Coordinates
import Verif.Model.FeatureRecognition
import Mathlib.Data.List.Sort

/-!
# Model of `ghedt/domains.py`

Lengths and spacings live in an ordered field with floor (`FloorRing`); `int(np.ceil(x))` is `⌈x⌉`,
`int(np.floor(x))` is `⌊x⌋`; every `/` may raise `ZeroDivisionError`.  `disp` printing is dropped.
-/

namespace Ghedt.Domains
open Coordinates

variable {K : Type} [Field K] [LinearOrder K]

/-- `if transpose: r = transpose_coordinates(r)`, e.g. domains.py:65-66. -/
def maybeTranspose (t : Bool) (r : List (K × K)) : List (K × K) :=
  if t then transposeCoordinates r else r

/-- `square_and_near_square`, domains.py:9-28. -/
def squareAndNearSquare (lower upper : ℤ) (B : K) : Py (List (List (K × K))) := do
  if lower < 1 ∨ upper < 1 then throw .valueError
  if upper < lower then throw .valueError
  let nested ← (pyRange lower (upper + 1)).mapM fun i : ℤ =>
    (pyRange 0 2).mapM fun j : ℤ => rectangle i (i + j) B B
  return nested.flatten

section floor
variable [FloorRing K]

/-- Loop state of `rectangular`: `iter`, `n_2_old`, `rectangle_domain`. -/
structure RectState (K : Type) where
  iter : ℕ
  n2Old : ℤ
  domain : List (List (K × K))

/-- Body of the `for N` loop of `rectangular`, domains.py:57-86. -/
def rectangularStep (length1 length2 : K) (transpose : Bool) (Nmin : ℤ) (s : RectState K) (N : ℤ) :
    Py (RectState K) := do
  let B ← pyDiv length1 ((N - 1 : ℤ) : K)
  let q ← pyDiv length2 B
  let n2 : ℤ := ⌊q + 1⌋
  let s ← (if s.iter = 0 then do
      let line ← (pyRange 1 Nmin).mapM fun i : ℤ => do
        let r ← rectangle i 1 B B
        pure (maybeTranspose transpose r)
      let rows ← (pyRange 1 n2).mapM fun j : ℤ => do
        let r ← rectangle Nmin j B B
        pure (maybeTranspose transpose r)
      pure { s with iter := s.iter + 1, domain := s.domain ++ line ++ rows }
    else pure s : Py (RectState K))
  if s.n2Old = n2 then
    return s
  else
    let r ← rectangle N n2 B B
    return { s with domain := s.domain ++ [maybeTranspose transpose r], n2Old := n2 }

/-- `rectangular`, domains.py:31-88. -/
def rectangular (lengthX lengthY Bmin Bmax : K) : Py (List (List (K × K))) := do
  let (length1, length2, transpose) :=
    if lengthX ≥ lengthY then (lengthX, lengthY, false) else (lengthY, lengthX, true)
  let a ← pyDiv length1 Bmin
  let b ← pyDiv length1 Bmax
  let n1max := a + 1
  let n1min := b + 1
  let Nmin : ℤ := ⌈n1min⌉
  let Nmax : ℤ := ⌊n1max⌋
  let s ← (pyRange Nmin (Nmax + 1)).foldlM
    (rectangularStep length1 length2 transpose Nmin) ⟨0, 1, []⟩
  return s.domain

/-- Body of the `for n_1` loop of `bi_rectangular`, domains.py:121-153; the state is
`(iter, bi_rectangle_domain)`. -/
def biRectangularStep (length1 length2 Bmax2 : K) (transpose : Bool)
    (s : ℕ × List (List (K × K))) (n1 : ℤ) : Py (ℕ × List (List (K × K))) := do
  let q ← pyDiv length2 Bmax2
  let n2 : ℤ := ⌈q + 1⌉
  let b2 ← pyDiv length2 ((n2 - 1 : ℤ) : K)
  let b1 ← pyDiv length1 ((n1 - 1 : ℤ) : K)
  let s ← (if s.1 = 0 then do
      let line ← (pyRange 1 n1).mapM fun i : ℤ => do
        let r ← rectangle i 1 b1 b2
        pure (maybeTranspose transpose r)
      let rows ← (pyRange 1 n2).mapM fun j : ℤ => do
        let r ← rectangle n1 j b1 b2
        pure (maybeTranspose transpose r)
      pure (s.1 + 1, s.2 ++ line ++ rows)
    else pure s : Py (ℕ × List (List (K × K))))
  let r ← rectangle n1 n2 b1 b2
  return (s.1, s.2 ++ [maybeTranspose transpose r])

/-- `bi_rectangular`, domains.py:91-155. -/
def biRectangular (lengthX lengthY Bmin BmaxX BmaxY : K) (transpose : Bool) :
    Py (List (List (K × K))) := do
  let (length1, length2, Bmax1, Bmax2) :=
    if lengthX ≥ lengthY then (lengthX, lengthY, BmaxX, BmaxY)
    else (lengthY, lengthX, BmaxY, BmaxX)
  let a ← pyDiv length1 Bmin
  let b ← pyDiv length1 Bmax1
  let n1max := a + 1
  let n1min := b + 1
  let Nmin : ℤ := ⌈n1min⌉
  let Nmax : ℤ := ⌊n1max⌋
  let s ← (pyRange Nmin (Nmax + 1)).foldlM
    (biRectangularStep length1 length2 Bmax2 transpose) (0, [])
  return s.2

/-- `bi_rectangle_nested`, domains.py:158-190. -/
def biRectangleNested (lengthX lengthY Bmin BmaxX BmaxY : K) :
    Py (List (List (List (K × K)))) := do
  let (length1, length2, Bmax1, Bmax2, transpose) :=
    if lengthX ≥ lengthY then (lengthX, lengthY, BmaxX, BmaxY, false)
    else (lengthY, lengthX, BmaxY, BmaxX, true)
  let a ← pyDiv length2 Bmin
  let b ← pyDiv length2 Bmax2
  let n2max := a + 1
  let n2min := b + 1
  let Nmin : ℤ := ⌈n2min⌉
  let Nmax : ℤ := ⌊n2max⌋
  (pyRange Nmin (Nmax + 1)).mapM fun n2 : ℤ => do
    let b2 ← pyDiv length2 ((n2 - 1 : ℤ) : K)
    biRectangular length1 length2 Bmin Bmax1 b2 transpose

end floor

/-- The `while` loop of `zoned_rectangle_domain`, domains.py:217-246, with explicit fuel. -/
def zonedLoop (n1 n2 : ℤ) (b1 b2 : K) (transpose : Bool) :
    ℕ → ℤ → ℤ → List (List (K × K)) → Py (List (List (K × K)))
  | 0, _, _, _ => .error .outOfFuel
  | fuel + 1, ni1, ni2, domain =>
    if ni1 < n1 - 2 ∨ ni2 < n2 - 2 then do
      let ratio ← pyDiv b1 b2
      let bi1 ← pyDiv (((n1 - 1 : ℤ) : K) * b1) ((ni1 + 1 : ℤ) : K)
      let bi2 ← pyDiv (((n2 - 1 : ℤ) : K) * b2) ((ni2 + 1 : ℤ) : K)
      let bi1p1 ← pyDiv (((n1 - 1 : ℤ) : K) * b1) ((ni1 + 2 : ℤ) : K)
      let bi2p1 ← pyDiv (((n2 - 1 : ℤ) : K) * b2) ((ni2 + 2 : ℤ) : K)
      let ratio1 ← pyDiv bi1 bi2p1
      let _ratio2 ← pyDiv bi2 bi1p1
      let (ni1, ni2) ← (if ratio1 > ratio then pure (ni1 + 1, ni2)
        else if ratio1 ≤ ratio then pure (ni1, ni2 + 1)
        else throw .valueError : Py (ℤ × ℤ))
      let z ← zonedRectangle n1 n2 b1 b2 ni1 ni2
      zonedLoop n1 n2 b1 b2 transpose fuel ni1 ni2 (domain ++ [maybeTranspose transpose z])
    else return domain

/-- `zoned_rectangle_domain`, domains.py:193-248.  Note that the first field is appended
without looking at `transpose`. -/
def zonedRectangleDomain (fuel : ℕ) (lengthX lengthY : K) (nx ny : ℤ) (transpose : Bool) :
    Py (List (List (K × K))) := do
  let (length1, length2, n1, n2) :=
    if lengthX ≥ lengthY then (lengthX, lengthY, nx, ny) else (lengthY, lengthX, ny, nx)
  let b1 ← pyDiv length1 ((n1 - 1 : ℤ) : K)
  let b2 ← pyDiv length2 ((n2 - 1 : ℤ) : K)
  let z ← zonedRectangle n1 n2 b1 b2 1 1
  zonedLoop n1 n2 b1 b2 transpose fuel 1 1 [z]

/-- Value of a loop variable after `for l in range(a, b)`: the last element, or the old value if
the range is empty. -/
def lastOr (l a b : ℤ) : ℤ := if a < b then b - 1 else l

/-- Loop state of `bi_rectangle_zoned_nested`: `j, k, l` and the result list. -/
structure ZonedState (K : Type) where
  j : ℤ
  k : ℤ
  l : ℤ
  out : List (List (List (K × K)))

/-- The start-up shapes of the first nested domain, domains.py:291-321:
one borehole to a line, line to L, L to lopsided U, U to open rectangle. -/
def zonedStartup (lengthX lengthY : K) (Nmin1 Nmin2 : ℤ) (transpose : Bool) :
    Py (List (List (K × K))) := do
  let bx ← pyDiv lengthX ((Nmin1 - 1 : ℤ) : K)
  let bY ← pyDiv lengthY ((Nmin2 - 1 : ℤ) : K)
  let lines ← (pyRange 1 (Nmin1 + 1)).mapM fun l : ℤ => do
    let r ← rectangle l 1 bx bY
    pure (maybeTranspose transpose r)
  let ls ← (pyRange 2 (Nmin2 + 1)).mapM fun l : ℤ => do
    let r ← lShape Nmin1 l bx bY
    pure (maybeTranspose transpose r)
  let us ← (pyRange 2 (Nmin2 + 1)).mapM fun l : ℤ => do
    let r ← lopU Nmin1 Nmin2 bx bY l
    pure (maybeTranspose transpose r)
  let cs ← (pyRange 1 (Nmin1 - 1)).mapM fun l : ℤ => do
    let r ← cShape Nmin1 Nmin2 bx bY l
    pure (maybeTranspose transpose r)
  return lines ++ ls ++ us ++ cs

/-- Body of the `for i` loop of `bi_rectangle_zoned_nested`, domains.py:288-344. -/
def zonedNestedStep (fuel : ℕ) (lengthX lengthY length1 length2 : K) (transpose : Bool)
    (Nmin1 Nmin2 : ℤ) (n1Values n2Values : List ℤ) (s : ZonedState K) (i : ℤ) :
    Py (ZonedState K) := do
  let (domain, l) ← (if s.l = 0 then do
      let d ← zonedStartup lengthX lengthY Nmin1 Nmin2 transpose
      let l := lastOr s.l 1 (Nmin1 + 1)
      let l := lastOr l 2 (Nmin2 + 1)
      let l := lastOr l 2 (Nmin2 + 1)
      let l := lastOr l 1 (Nmin1 - 1)
      pure (d, l + 1)
    else pure ([], s.l) : Py (List (List (K × K)) × ℤ))
  let n1 ← pyGet n1Values s.j
  let n2 ← pyGet n2Values s.k
  let zoned ← zonedRectangleDomain fuel length1 length2 n1 n2 transpose
  let domain := domain ++ zoned
  let (j, k) :=
    if i % 2 = 0 then
      if s.j < (n1Values.length : ℤ) - 1 then (s.j + 1, s.k) else (s.j, s.k + 1)
    else
      if s.k < (n2Values.length : ℤ) - 1 then (s.j, s.k + 1) else (s.j + 1, s.k)
  return ⟨j, k, l, s.out ++ [domain]⟩

/-- `bi_rectangle_zoned_nested`, domains.py:251-346. -/
def biRectangleZonedNested [FloorRing K] (fuel : ℕ) (lengthX lengthY Bmin BmaxX BmaxY : K) :
    Py (List (List (List (K × K)))) := do
  let (length1, length2, Bmax1, Bmax2, transpose) :=
    if lengthX ≥ lengthY then (lengthX, lengthY, BmaxX, BmaxY, false)
    else (lengthY, lengthX, BmaxY, BmaxX, true)
  let n1maxm ← pyDiv length1 Bmin
  let n1minm ← pyDiv length1 Bmax1
  let n2maxm ← pyDiv length2 Bmin
  let n2minm ← pyDiv length2 Bmax2
  let Nmin1 : ℤ := ⌈n1minm + 1⌉
  let Nmax1 : ℤ := ⌊n1maxm + 1⌋
  let Nmin2 : ℤ := ⌈n2minm + 1⌉
  let Nmax2 : ℤ := ⌊n2maxm + 1⌋
  let n1Values := pyRange Nmin1 (Nmax1 + 1)
  let n2Values := pyRange Nmin2 (Nmax2 + 1)
  let s ← (pyRange 0 ((n1Values.length : ℤ) + n2Values.length - 1)).foldlM
    (zonedNestedStep fuel lengthX lengthY length1 length2 transpose Nmin1 Nmin2 n1Values n2Values)
    ⟨0, 0, 0, []⟩
  return s.out

/-- `verify_excess`, domains.py:393-403: the differences and the flag. -/
def verifyExcess (domain : List K) : List K × Bool :=
  let deltas := (domain.zip domain.tail).map fun p => p.2 - p.1
  (deltas, deltas.foldl (fun unimodal d => if d > 0 then false else unimodal) true)

/-- Inner loop of `reorder_domain`, domains.py:417-420: first key with that size; if none matches
nothing is appended. -/
def firstOfSize {α : Type} (numbers : PyDict ℕ ℕ) (domain : List (List α)) (size : ℕ) :
    Py (List (List α)) :=
  match List.find? (fun q : ℕ × ℕ => decide (q.2 = size)) numbers with
  | some q => do
    let f ← pyGet domain (q.1 : ℤ)
    return [f]
  | none => return []

/-- `reorder_domain`, domains.py:406-422.  `sorted` is Mathlib's (stable) insertion sort. -/
def reorderDomain {α : Type} (domain : List (List α)) : Py (List (List α)) := do
  let numbers : PyDict ℕ ℕ := domain.zipIdx.foldl (fun d q => PyDict.set d q.2 q.1.length) []
  let sortedValues : List ℕ := (PyDict.values numbers).insertionSort (· ≤ ·)
  let picked ← sortedValues.mapM fun i => firstOfSize numbers domain i
  return picked.flatten

/-- `polygonal_land_constraint`, domains.py:349-388.  `building_description=None` is `[]`. -/
def polygonalLandConstraint [FloorRing K] (polyTest : List (K × K) → K × K → K)
    (propertyBoundary : List (K × K)) (Bmin BmaxX BmaxY : K) (building : List (K × K)) :
    Py (List (List (List (K × K)))) := do
  let outer := FeatureRecognition.determineLargestRectangle propertyBoundary
  let length ← pyMax (outer.map Prod.fst)
  let width ← pyMax (outer.map Prod.snd)
  let nested ← biRectangleNested length width Bmin BmaxX BmaxY
  let cutout := nested.map fun dom => dom.filterMap fun coordinates =>
    let new := FeatureRecognition.removeCutout polyTest coordinates propertyBoundary false true
    if new.length = 0 then none
    else some (FeatureRecognition.removeCutout polyTest new building true false)
  cutout.mapM reorderDomain

end Ghedt.Domains
