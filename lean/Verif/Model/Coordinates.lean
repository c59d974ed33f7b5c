import Verif.Py

/-!
# Model of `ghedt/coordinates.py`

A borehole is a pair `(x, y)` over an arbitrary ordered field `K` (floats read as exact numbers),
a borehole field is the list of its boreholes.  The append loops of the Python code are written as
`map`/`flatMap` over the same ranges; the final `assert len(..) == nbh` is kept.
-/

namespace Ghedt.Coordinates

variable {K : Type} [Field K] [LinearOrder K]

/-- `transpose_coordinates`, coordinates.py:3-8. -/
def transposeCoordinates (coordinates : List (K × K)) : List (K × K) :=
  coordinates.map fun p => (p.2, p.1)

/-- `rectangle`, coordinates.py:11-21. -/
def rectangle (Nx Ny : ℤ) (Bx By : K) (origin : K × K := (0, 0)) : Py (List (K × K)) := do
  let nbh := Nx * Ny
  let r := (pyRange 0 Nx).flatMap fun i : ℤ =>
    (pyRange 0 Ny).map fun j : ℤ => (origin.1 + (i : K) * Bx, origin.2 + (j : K) * By)
  pyAssert ((r.length : ℤ) = nbh)
  return r

/-- `open_rectangle`, coordinates.py:24-41. -/
def openRectangle (Nx Ny : ℤ) (Bx By : K) : Py (List (K × K)) := do
  if Nx > 2 ∧ Ny > 2 then
    let nbh := Ny * 2 + (Nx - 2) * 2
    let openR :=
      ((pyRange 0 Nx).map fun i : ℤ => ((i : K) * Bx, (0 : K)))
      ++ ((pyRange 1 (Ny - 1)).flatMap fun j : ℤ =>
            [((0 : K), (j : K) * By), (((Nx - 1 : ℤ) : K) * Bx, (j : K) * By)])
      ++ ((pyRange 0 Nx).map fun i : ℤ => ((i : K) * Bx, ((Ny - 1 : ℤ) : K) * By))
    pyAssert ((openR.length : ℤ) = nbh)
    return openR
  else
    let nbh := Nx * Ny
    let openR ← rectangle Nx Ny Bx By
    pyAssert ((openR.length : ℤ) = nbh)
    return openR

/-- `C_shape`, coordinates.py:44-58. -/
def cShape (Nx1 Ny : ℤ) (Bx By : K) (Nx2 : ℤ) : Py (List (K × K)) := do
  let nbh := Nx1 + (Ny * 2) - 1 + Nx2 - 1
  let xLoc : K := ((Nx1 - 1 : ℤ) : K) * Bx
  let yLoc : K := ((Ny - 1 : ℤ) : K) * By
  let c :=
    ((pyRange 0 Nx1).map fun i : ℤ => ((i : K) * Bx, (0 : K)))
    ++ ((pyRange 1 Ny).map fun j : ℤ => ((0 : K), (j : K) * By))
    ++ ((pyRange 1 Ny).map fun j : ℤ => (xLoc, (j : K) * By))
    ++ ((pyRange 1 (Nx2 + 1)).map fun i : ℤ => ((i : K) * Bx, yLoc))
  pyAssert ((c.length : ℤ) = nbh)
  return c

/-- `U_shape`, coordinates.py:61-74.  The right leg is never generated (sic). -/
def uShape (Nx Ny : ℤ) (Bx By : K) : Py (List (K × K)) := do
  if Nx > 2 ∧ Ny > 1 then
    let nbh := 2 * Ny + (Nx - 2)
    let u :=
      ((pyRange 0 Nx).map fun i : ℤ => ((i : K) * Bx, (0 : K)))
      ++ ((pyRange 1 Ny).map fun j : ℤ => ((0 : K), (j : K) * By))
    pyAssert ((u.length : ℤ) = nbh)
    return u
  else
    let nbh := Nx * Ny
    let u ← rectangle Nx Ny Bx By
    pyAssert ((u.length : ℤ) = nbh)
    return u

/-- `lop_U`, coordinates.py:77-88. -/
def lopU (Nx Ny1 : ℤ) (Bx By : K) (Ny2 : ℤ) : Py (List (K × K)) := do
  let nbh := Nx + Ny1 - 1 + Ny2 - 1
  let xLoc : K := ((Nx - 1 : ℤ) : K) * Bx
  let u :=
    ((pyRange 0 Nx).map fun i : ℤ => ((i : K) * Bx, (0 : K)))
    ++ ((pyRange 1 Ny1).map fun j : ℤ => ((0 : K), (j : K) * By))
    ++ ((pyRange 1 Ny2).map fun j : ℤ => (xLoc, (j : K) * By))
  pyAssert ((u.length : ℤ) = nbh)
  return u

/-- `L_shape`, coordinates.py:91-99. -/
def lShape (Nx Ny : ℤ) (Bx By : K) : Py (List (K × K)) := do
  let nbh := Nx + Ny - 1
  let l :=
    ((pyRange 0 Nx).map fun i : ℤ => ((i : K) * Bx, (0 : K)))
    ++ ((pyRange 1 Ny).map fun j : ℤ => ((0 : K), (j : K) * By))
  pyAssert ((l.length : ℤ) = nbh)
  return l

/-- `zoned_rectangle`, coordinates.py:102-124. -/
def zonedRectangle (Nx Ny : ℤ) (Bx By : K) (Nix Niy : ℤ) : Py (List (K × K)) := do
  if Nix > Nx - 2 then throw .valueError
  if Niy > Ny - 2 then throw .valueError
  let perimeter ← openRectangle Nx Ny Bx By
  let Bix ← pyDiv (((Nx - 1 : ℤ) : K) * Bx) ((Nix + 1 : ℤ) : K)
  let Biy ← pyDiv (((Ny - 1 : ℤ) : K) * By) ((Niy + 1 : ℤ) : K)
  let interior ← rectangle Nix Niy Bix Biy (Bix, Biy)
  return perimeter ++ interior

end Ghedt.Coordinates
