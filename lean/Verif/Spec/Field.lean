import Verif.Py

/-!
# Specification vocabulary for borehole fields

Nothing here refers to the model.
-/

namespace Ghedt.Spec

variable {K : Type} [Field K] [LinearOrder K]

/-- The lattice of `Nx × Ny` points with spacings `Bx`, `By` anchored at `o`. -/
def OnLattice (Nx Ny : ℤ) (Bx By : K) (o : K × K) (p : K × K) : Prop :=
  ∃ i j : ℤ, (0 ≤ i ∧ i < Nx) ∧ (0 ≤ j ∧ j < Ny) ∧ p = (o.1 + i * Bx, o.2 + j * By)

/-- The outline of the `Nx × Ny` lattice anchored at the origin: first/last column or
first/last row. -/
def OnOutline (Nx Ny : ℤ) (Bx By : K) (p : K × K) : Prop :=
  ∃ i j : ℤ, (0 ≤ i ∧ i < Nx) ∧ (0 ≤ j ∧ j < Ny) ∧ (i = 0 ∨ i = Nx - 1 ∨ j = 0 ∨ j = Ny - 1) ∧
    p = (i * Bx, j * By)

/-- The borehole lies in the closed rectangle `[0,Lx] × [0,Ly]`. -/
def InLand (Lx Ly : K) (p : K × K) : Prop :=
  (0 ≤ p.1 ∧ p.1 ≤ Lx) ∧ (0 ≤ p.2 ∧ p.2 ≤ Ly)

/-- Strictly inside the rectangle. -/
def StrictlyInside (Lx Ly : K) (p : K × K) : Prop :=
  (0 < p.1 ∧ p.1 < Lx) ∧ (0 < p.2 ∧ p.2 < Ly)

/-- Every borehole of every field of the domain lies in the land. -/
def DomainInLand (Lx Ly : K) (d : List (List (K × K))) : Prop :=
  ∀ f ∈ d, ∀ p ∈ f, InLand Lx Ly p

/-- The number of boreholes strictly increases along the domain. -/
def SizesStrictlyIncrease {α : Type} (d : List (List α)) : Prop :=
  d.Pairwise fun f g => f.length < g.length

end Ghedt.Spec

namespace Ghedt.Spec
variable {K : Type} [Field K]

/-- An L: the bottom row of `Nx` points and the left column of `Ny` points. -/
def OnL (Nx Ny : ℤ) (Bx By : K) (p : K × K) : Prop :=
  ∃ i j : ℤ, p = (i * Bx, j * By) ∧
    ((j = 0 ∧ 0 ≤ i ∧ i < Nx) ∨ (i = 0 ∧ 0 ≤ j ∧ j < Ny))

/-- A lopsided U: an L with a right column of `Ny2` points. -/
def OnLopU (Nx Ny1 Ny2 : ℤ) (Bx By : K) (p : K × K) : Prop :=
  ∃ i j : ℤ, p = (i * Bx, j * By) ∧
    ((j = 0 ∧ 0 ≤ i ∧ i < Nx) ∨ (i = 0 ∧ 0 ≤ j ∧ j < Ny1) ∨ (i = Nx - 1 ∧ 0 ≤ j ∧ j < Ny2))

/-- A C: bottom row of `Nx1`, two columns of `Ny`, and the first `Nx2` interior points of the
top row. -/
def OnC (Nx1 Ny Nx2 : ℤ) (Bx By : K) (p : K × K) : Prop :=
  ∃ i j : ℤ, p = (i * Bx, j * By) ∧
    ((j = 0 ∧ 0 ≤ i ∧ i < Nx1) ∨ ((i = 0 ∨ i = Nx1 - 1) ∧ 0 ≤ j ∧ j < Ny) ∨
      (j = Ny - 1 ∧ 1 ≤ i ∧ i ≤ Nx2))

end Ghedt.Spec

namespace Ghedt.Spec
variable {K : Type} [Field K]

/-- The field is an `nx × ny` rectangular grid with spacings `Bx`, `By` anchored at the origin:
it has `nx*ny ≥ 1` boreholes, no two coincide, and they are exactly the lattice points. -/
structure IsGrid (nx ny : ℤ) (Bx By : K) (f : List (K × K)) : Prop where
  one_le_x : 1 ≤ nx
  one_le_y : 1 ≤ ny
  count : (f.length : ℤ) = nx * ny
  points : ∀ p, p ∈ f ↔ ∃ i j : ℤ, (0 ≤ i ∧ i < nx) ∧ (0 ≤ j ∧ j < ny) ∧ p = (i * Bx, j * By)
  distinct : f.Nodup

end Ghedt.Spec

namespace Ghedt.Spec

/-- Exactly one of the two counts grows, by one. -/
def UnitStep (p q : ℤ × ℤ) : Prop :=
  (q.1 = p.1 + 1 ∧ q.2 = p.2) ∨ (q.1 = p.1 ∧ q.2 = p.2 + 1)

/-- `path` is a sequence of pairs starting at `a`, ending at `b`, each step a `UnitStep`. -/
def UnitPath (a b : ℤ × ℤ) (path : List (ℤ × ℤ)) : Prop :=
  path.head? = some a ∧ path.getLast? = some b ∧ path.IsChain UnitStep

end Ghedt.Spec

namespace Ghedt.Spec

/-- How the interior of a zoned field grows inside an outline of `n1 × n2` boreholes.  With `x` interior columns and `y`
interior rows a side of `n1 - 1` outer gaps is divided into `x + 1` interior gaps, and one of `n2 - 1` outer gaps into
`y + 1`.  A column is added if the gaps between columns are, relative to the outer ones, wider than the gaps between
rows would be after adding a row; otherwise a row is added. -/
def InteriorStep (n1 n2 : ℤ) (p q : ℤ × ℤ) : Prop :=
  q = if ((n1 - 1 : ℤ) : ℚ) / ((p.1 + 1 : ℤ) : ℚ) > ((n2 - 1 : ℤ) : ℚ) / ((p.2 + 2 : ℤ) : ℚ) then (p.1 + 1, p.2)
    else (p.1, p.2 + 1)

/-- The `i`-th step of a walk over pairs of counts bounded by `(m1, m2)`: even steps raise the first count, odd steps the
second, unless that count is at its bound already; then the other one is raised. -/
def AlternatingStep (m1 m2 : ℤ) (i : ℕ) (p q : ℤ × ℤ) : Prop :=
  q = if i % 2 = 0 then (if p.1 < m1 then (p.1 + 1, p.2) else (p.1, p.2 + 1))
    else (if p.2 < m2 then (p.1, p.2 + 1) else (p.1 + 1, p.2))

end Ghedt.Spec
