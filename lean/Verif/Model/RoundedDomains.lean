import Verif.Model.Rounding
import Verif.Model.Domains
import Verif.Model.Utilities
import Verif.Model.Design

/-!
# Model of the candidate generators in floating-point arithmetic

The functions of `coordinates.py`, `domains.py`, `utilities.py` and `design.py` that compute candidate fields, once
more, with every `+`, `*`, `/` on floats rounded by `R : Rounding K`.  Whole numbers are exact (`int`, or floats
below `2^53`), as are `np.floor`, `np.ceil` and comparisons.  With `Rounding.exact` each of these is the
definition of `Model/Coordinates`, `Model/Domains`, `Model/Design` of the same name (C117).
-/

namespace Ghedt.Rounded
open Coordinates Domains

variable {K : Type} [Field K] [LinearOrder K] (R : Rounding K)

/-- `a + b` on floats. -/
def add (a b : K) : K := R.fl (a + b)
/-- `a * b` on floats. -/
def mul (a b : K) : K := R.fl (a * b)
/-- `a / b` on floats or ints: raises `ZeroDivisionError` when `b == 0`. -/
def div (a b : K) : Py K := if b = 0 then .error .zeroDivisionError else .ok (R.fl (a / b))

/-- `rectangle`, coordinates.py:11-21. -/
def rectangle (Nx Ny : ℤ) (Bx By : K) (origin : K × K := (0, 0)) : Py (List (K × K)) := do
  let nbh := Nx * Ny
  let r := (pyRange 0 Nx).flatMap fun i : ℤ =>
    (pyRange 0 Ny).map fun j : ℤ =>
      (add R origin.1 (mul R (i : K) Bx), add R origin.2 (mul R (j : K) By))
  pyAssert ((r.length : ℤ) = nbh)
  return r

/-- `open_rectangle`, coordinates.py:24-41. -/
def openRectangle (Nx Ny : ℤ) (Bx By : K) : Py (List (K × K)) := do
  if Nx > 2 ∧ Ny > 2 then
    let nbh := Ny * 2 + (Nx - 2) * 2
    let openR :=
      ((pyRange 0 Nx).map fun i : ℤ => (mul R (i : K) Bx, (0 : K)))
      ++ ((pyRange 1 (Ny - 1)).flatMap fun j : ℤ =>
            [((0 : K), mul R (j : K) By), (mul R ((Nx - 1 : ℤ) : K) Bx, mul R (j : K) By)])
      ++ ((pyRange 0 Nx).map fun i : ℤ => (mul R (i : K) Bx, mul R ((Ny - 1 : ℤ) : K) By))
    pyAssert ((openR.length : ℤ) = nbh)
    return openR
  else
    let nbh := Nx * Ny
    let openR ← rectangle R Nx Ny Bx By
    pyAssert ((openR.length : ℤ) = nbh)
    return openR

/-- `C_shape`, coordinates.py:44-58. -/
def cShape (Nx1 Ny : ℤ) (Bx By : K) (Nx2 : ℤ) : Py (List (K × K)) := do
  let nbh := Nx1 + (Ny * 2) - 1 + Nx2 - 1
  let xLoc : K := mul R ((Nx1 - 1 : ℤ) : K) Bx
  let yLoc : K := mul R ((Ny - 1 : ℤ) : K) By
  let c :=
    ((pyRange 0 Nx1).map fun i : ℤ => (mul R (i : K) Bx, (0 : K)))
    ++ ((pyRange 1 Ny).map fun j : ℤ => ((0 : K), mul R (j : K) By))
    ++ ((pyRange 1 Ny).map fun j : ℤ => (xLoc, mul R (j : K) By))
    ++ ((pyRange 1 (Nx2 + 1)).map fun i : ℤ => (mul R (i : K) Bx, yLoc))
  pyAssert ((c.length : ℤ) = nbh)
  return c

/-- `lop_U`, coordinates.py:77-88. -/
def lopU (Nx Ny1 : ℤ) (Bx By : K) (Ny2 : ℤ) : Py (List (K × K)) := do
  let nbh := Nx + Ny1 - 1 + Ny2 - 1
  let xLoc : K := mul R ((Nx - 1 : ℤ) : K) Bx
  let u :=
    ((pyRange 0 Nx).map fun i : ℤ => (mul R (i : K) Bx, (0 : K)))
    ++ ((pyRange 1 Ny1).map fun j : ℤ => ((0 : K), mul R (j : K) By))
    ++ ((pyRange 1 Ny2).map fun j : ℤ => (xLoc, mul R (j : K) By))
  pyAssert ((u.length : ℤ) = nbh)
  return u

/-- `L_shape`, coordinates.py:91-99. -/
def lShape (Nx Ny : ℤ) (Bx By : K) : Py (List (K × K)) := do
  let nbh := Nx + Ny - 1
  let l :=
    ((pyRange 0 Nx).map fun i : ℤ => (mul R (i : K) Bx, (0 : K)))
    ++ ((pyRange 1 Ny).map fun j : ℤ => ((0 : K), mul R (j : K) By))
  pyAssert ((l.length : ℤ) = nbh)
  return l

/-- `zoned_rectangle`, coordinates.py:102-124. -/
def zonedRectangle (Nx Ny : ℤ) (Bx By : K) (Nix Niy : ℤ) : Py (List (K × K)) := do
  if Nix > Nx - 2 then throw .valueError
  if Niy > Ny - 2 then throw .valueError
  let perimeter ← openRectangle R Nx Ny Bx By
  let Bix ← div R (mul R ((Nx - 1 : ℤ) : K) Bx) ((Nix + 1 : ℤ) : K)
  let Biy ← div R (mul R ((Ny - 1 : ℤ) : K) By) ((Niy + 1 : ℤ) : K)
  let interior ← rectangle R Nix Niy Bix Biy (Bix, Biy)
  return perimeter ++ interior

/-- `number_of_boreholes`, utilities.py:79-81. -/
def numberOfBoreholes (length B : K) (func : K → ℤ) : Py ℤ := do
  let q ← div R length B
  return func q + 1

/-- `square_and_near_square`, domains.py:9-28. -/
def squareAndNearSquare (lower upper : ℤ) (B : K) : Py (List (List (K × K))) := do
  if lower < 1 ∨ upper < 1 then throw .valueError
  if upper < lower then throw .valueError
  let nested ← (pyRange lower (upper + 1)).mapM fun i : ℤ =>
    (pyRange 0 2).mapM fun j : ℤ => rectangle R i (i + j) B B
  return nested.flatten

section floor
variable [FloorRing K]

/-- Body of the `for N` loop of `rectangular`, domains.py:57-86. -/
def rectangularStep (length1 length2 : K) (transpose : Bool) (Nmin : ℤ) (s : RectState K) (N : ℤ) :
    Py (RectState K) := do
  let B ← div R length1 ((N - 1 : ℤ) : K)
  let q ← div R length2 B
  let n2 : ℤ := ⌊add R q 1⌋
  let s ← (if s.iter = 0 then do
      let line ← (pyRange 1 Nmin).mapM fun i : ℤ => do
        let r ← rectangle R i 1 B B
        pure (maybeTranspose transpose r)
      let rows ← (pyRange 1 n2).mapM fun j : ℤ => do
        let r ← rectangle R Nmin j B B
        pure (maybeTranspose transpose r)
      pure { s with iter := s.iter + 1, domain := s.domain ++ line ++ rows }
    else pure s : Py (RectState K))
  if s.n2Old = n2 then
    return s
  else
    let r ← rectangle R N n2 B B
    return { s with domain := s.domain ++ [maybeTranspose transpose r], n2Old := n2 }

/-- `rectangular`, domains.py:31-88. -/
def rectangular (lengthX lengthY Bmin Bmax : K) : Py (List (List (K × K))) := do
  let (length1, length2, transpose) :=
    if lengthX ≥ lengthY then (lengthX, lengthY, false) else (lengthY, lengthX, true)
  let a ← div R length1 Bmin
  let b ← div R length1 Bmax
  let n1max := add R a 1
  let n1min := add R b 1
  let Nmin : ℤ := ⌈n1min⌉
  let Nmax : ℤ := ⌊n1max⌋
  let s ← (pyRange Nmin (Nmax + 1)).foldlM
    (rectangularStep R length1 length2 transpose Nmin) ⟨0, 1, []⟩
  return s.domain

/-- Body of the `for n_1` loop of `bi_rectangular`, domains.py:121-153; the state is
`(iter, bi_rectangle_domain)`. -/
def biRectangularStep (length1 length2 Bmax2 : K) (transpose : Bool)
    (s : ℕ × List (List (K × K))) (n1 : ℤ) : Py (ℕ × List (List (K × K))) := do
  let q ← div R length2 Bmax2
  let n2 : ℤ := ⌈add R q 1⌉
  let b2 ← div R length2 ((n2 - 1 : ℤ) : K)
  let b1 ← div R length1 ((n1 - 1 : ℤ) : K)
  let s ← (if s.1 = 0 then do
      let line ← (pyRange 1 n1).mapM fun i : ℤ => do
        let r ← rectangle R i 1 b1 b2
        pure (maybeTranspose transpose r)
      let rows ← (pyRange 1 n2).mapM fun j : ℤ => do
        let r ← rectangle R n1 j b1 b2
        pure (maybeTranspose transpose r)
      pure (s.1 + 1, s.2 ++ line ++ rows)
    else pure s : Py (ℕ × List (List (K × K))))
  let r ← rectangle R n1 n2 b1 b2
  return (s.1, s.2 ++ [maybeTranspose transpose r])

/-- `bi_rectangular`, domains.py:91-155. -/
def biRectangular (lengthX lengthY Bmin BmaxX BmaxY : K) (transpose : Bool) :
    Py (List (List (K × K))) := do
  let (length1, length2, Bmax1, Bmax2) :=
    if lengthX ≥ lengthY then (lengthX, lengthY, BmaxX, BmaxY)
    else (lengthY, lengthX, BmaxY, BmaxX)
  let a ← div R length1 Bmin
  let b ← div R length1 Bmax1
  let n1max := add R a 1
  let n1min := add R b 1
  let Nmin : ℤ := ⌈n1min⌉
  let Nmax : ℤ := ⌊n1max⌋
  let s ← (pyRange Nmin (Nmax + 1)).foldlM
    (biRectangularStep R length1 length2 Bmax2 transpose) (0, [])
  return s.2

/-- `bi_rectangle_nested`, domains.py:158-190. -/
def biRectangleNested (lengthX lengthY Bmin BmaxX BmaxY : K) :
    Py (List (List (List (K × K)))) := do
  let (length1, length2, Bmax1, Bmax2, transpose) :=
    if lengthX ≥ lengthY then (lengthX, lengthY, BmaxX, BmaxY, false)
    else (lengthY, lengthX, BmaxY, BmaxX, true)
  let a ← div R length2 Bmin
  let b ← div R length2 Bmax2
  let n2max := add R a 1
  let n2min := add R b 1
  let Nmin : ℤ := ⌈n2min⌉
  let Nmax : ℤ := ⌊n2max⌋
  (pyRange Nmin (Nmax + 1)).mapM fun n2 : ℤ => do
    let b2 ← div R length2 ((n2 - 1 : ℤ) : K)
    biRectangular R length1 length2 Bmin Bmax1 b2 transpose

end floor

/-- The `while` loop of `zoned_rectangle_domain`, domains.py:217-246, with explicit fuel. -/
def zonedLoop (n1 n2 : ℤ) (b1 b2 : K) (transpose : Bool) :
    ℕ → ℤ → ℤ → List (List (K × K)) → Py (List (List (K × K)))
  | 0, _, _, _ => .error .outOfFuel
  | fuel + 1, ni1, ni2, domain =>
    if ni1 < n1 - 2 ∨ ni2 < n2 - 2 then do
      let ratio ← div R b1 b2
      let bi1 ← div R (mul R ((n1 - 1 : ℤ) : K) b1) ((ni1 + 1 : ℤ) : K)
      let bi2 ← div R (mul R ((n2 - 1 : ℤ) : K) b2) ((ni2 + 1 : ℤ) : K)
      let bi1p1 ← div R (mul R ((n1 - 1 : ℤ) : K) b1) ((ni1 + 2 : ℤ) : K)
      let bi2p1 ← div R (mul R ((n2 - 1 : ℤ) : K) b2) ((ni2 + 2 : ℤ) : K)
      let ratio1 ← div R bi1 bi2p1
      let _ratio2 ← div R bi2 bi1p1
      let (ni1, ni2) ← (if ratio1 > ratio then pure (ni1 + 1, ni2)
        else if ratio1 ≤ ratio then pure (ni1, ni2 + 1)
        else throw .valueError : Py (ℤ × ℤ))
      let z ← zonedRectangle R n1 n2 b1 b2 ni1 ni2
      zonedLoop n1 n2 b1 b2 transpose fuel ni1 ni2 (domain ++ [maybeTranspose transpose z])
    else return domain

/-- `zoned_rectangle_domain`, domains.py:193-248. -/
def zonedRectangleDomain (fuel : ℕ) (lengthX lengthY : K) (nx ny : ℤ) (transpose : Bool) :
    Py (List (List (K × K))) := do
  let (length1, length2, n1, n2) :=
    if lengthX ≥ lengthY then (lengthX, lengthY, nx, ny) else (lengthY, lengthX, ny, nx)
  let b1 ← div R length1 ((n1 - 1 : ℤ) : K)
  let b2 ← div R length2 ((n2 - 1 : ℤ) : K)
  let z ← zonedRectangle R n1 n2 b1 b2 1 1
  zonedLoop R n1 n2 b1 b2 transpose fuel 1 1 [z]

/-- The start-up shapes of the first nested domain, domains.py:291-321. -/
def zonedStartup (lengthX lengthY : K) (Nmin1 Nmin2 : ℤ) (transpose : Bool) :
    Py (List (List (K × K))) := do
  let bx ← div R lengthX ((Nmin1 - 1 : ℤ) : K)
  let bY ← div R lengthY ((Nmin2 - 1 : ℤ) : K)
  let lines ← (pyRange 1 (Nmin1 + 1)).mapM fun l : ℤ => do
    let r ← rectangle R l 1 bx bY
    pure (maybeTranspose transpose r)
  let ls ← (pyRange 2 (Nmin2 + 1)).mapM fun l : ℤ => do
    let r ← lShape R Nmin1 l bx bY
    pure (maybeTranspose transpose r)
  let us ← (pyRange 2 (Nmin2 + 1)).mapM fun l : ℤ => do
    let r ← lopU R Nmin1 Nmin2 bx bY l
    pure (maybeTranspose transpose r)
  let cs ← (pyRange 1 (Nmin1 - 1)).mapM fun l : ℤ => do
    let r ← cShape R Nmin1 Nmin2 bx bY l
    pure (maybeTranspose transpose r)
  return lines ++ ls ++ us ++ cs

/-- Body of the `for i` loop of `bi_rectangle_zoned_nested`, domains.py:288-344. -/
def zonedNestedStep (fuel : ℕ) (lengthX lengthY length1 length2 : K) (transpose : Bool)
    (Nmin1 Nmin2 : ℤ) (n1Values n2Values : List ℤ) (s : ZonedState K) (i : ℤ) :
    Py (ZonedState K) := do
  let (domain, l) ← (if s.l = 0 then do
      let d ← zonedStartup R lengthX lengthY Nmin1 Nmin2 transpose
      let l := lastOr s.l 1 (Nmin1 + 1)
      let l := lastOr l 2 (Nmin2 + 1)
      let l := lastOr l 2 (Nmin2 + 1)
      let l := lastOr l 1 (Nmin1 - 1)
      pure (d, l + 1)
    else pure ([], s.l) : Py (List (List (K × K)) × ℤ))
  let n1 ← pyGet n1Values s.j
  let n2 ← pyGet n2Values s.k
  let zoned ← zonedRectangleDomain R fuel length1 length2 n1 n2 transpose
  let domain := domain ++ zoned
  let (j, k) :=
    if i % 2 = 0 then
      if s.j < (n1Values.length : ℤ) - 1 then (s.j + 1, s.k) else (s.j, s.k + 1)
    else
      if s.k < (n2Values.length : ℤ) - 1 then (s.j, s.k + 1) else (s.j + 1, s.k)
  return ⟨j, k, l, s.out ++ [domain]⟩

section floor
variable [FloorRing K]

/-- `bi_rectangle_zoned_nested`, domains.py:251-346. -/
def biRectangleZonedNested (fuel : ℕ) (lengthX lengthY Bmin BmaxX BmaxY : K) :
    Py (List (List (List (K × K)))) := do
  let (length1, length2, Bmax1, Bmax2, transpose) :=
    if lengthX ≥ lengthY then (lengthX, lengthY, BmaxX, BmaxY, false)
    else (lengthY, lengthX, BmaxY, BmaxX, true)
  let n1maxm ← div R length1 Bmin
  let n1minm ← div R length1 Bmax1
  let n2maxm ← div R length2 Bmin
  let n2minm ← div R length2 Bmax2
  let Nmin1 : ℤ := ⌈add R n1minm 1⌉
  let Nmax1 : ℤ := ⌊add R n1maxm 1⌋
  let Nmin2 : ℤ := ⌈add R n2minm 1⌉
  let Nmax2 : ℤ := ⌊add R n2maxm 1⌋
  let n1Values := pyRange Nmin1 (Nmax1 + 1)
  let n2Values := pyRange Nmin2 (Nmax2 + 1)
  let s ← (pyRange 0 ((n1Values.length : ℤ) + n2Values.length - 1)).foldlM
    (zonedNestedStep R fuel lengthX lengthY length1 length2 transpose Nmin1 Nmin2 n1Values n2Values)
    ⟨0, 0, 0, []⟩
  return s.out

open Design in
/-- `Design.__init__`, design.py:45-80. -/
def designInit (fuel : ℕ) (gc : Constraints K) (routine : String) : Py (Candidates K) := do
  checkInputs gc routine
  if routine = "near-square" then
    let length ← arg gc.length
    let B ← arg gc.B
    let n ← numberOfBoreholes R length B fun q => ⌊q⌋
    let d ← squareAndNearSquare R 1 n B
    return .flat d
  else if routine = "rectangle" then
    let length ← arg gc.length
    let width ← arg gc.width
    let Bmin ← arg gc.Bmin
    let BmaxX ← arg gc.BmaxX
    let d ← rectangular R length width Bmin BmaxX
    return .flat d
  else if routine = "bi-rectangle" then
    let length ← arg gc.length
    let width ← arg gc.width
    let Bmin ← arg gc.Bmin
    let BmaxX ← arg gc.BmaxX
    let BmaxY ← arg gc.BmaxY
    let d ← biRectangleNested R length width Bmin BmaxX BmaxY
    return .nested d
  else if routine = "bi-zoned" then
    let length ← arg gc.length
    let width ← arg gc.width
    let Bmin ← arg gc.Bmin
    let BmaxX ← arg gc.BmaxX
    let BmaxY ← arg gc.BmaxY
    let d ← biRectangleZonedNested R fuel length width Bmin BmaxX BmaxY
    return .nested d
  else throw .valueError

end floor

end Ghedt.Rounded
