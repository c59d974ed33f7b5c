import Verif.Model.Radial
import Verif.Spec.Radial

/-!
# Specification vocabulary for the radial grid

Uses only the input and cell records of the model.
-/

namespace Ghedt.Radial
open Real

/-- A physically meaningful single U-tube: positive radii, properties and resistances; the wall is thin
enough for the fluid core of the radial model to have a positive radius (in particular every wall
thinner than 0.7 outer radii); the equivalent pipe fits into the borehole; the borehole is
narrower than 5 m; the borehole resistance exceeds half the convective resistance. -/
structure Tube.Sound (u : Tube) : Prop where
  rIn : 0 < u.rIn
  wall : u.rIn < u.rOut
  core : 2 * (u.rOut - u.rIn) < √2 * u.rOut
  fits : √2 * u.rOut < u.rb
  narrow : u.rb < 5
  H : 0 < u.H
  rhoCpPipe : 0 < u.rhoCpPipe
  rhoCpGrout : 0 < u.rhoCpGrout
  kSoil : 0 < u.kSoil
  ks : 0 < u.ks
  rhoCpSoil : 0 < u.rhoCpSoil
  rhoFluid : 0 < u.rhoFluid
  cpFluid : 0 < u.cpFluid
  Rf : 0 < u.Rf
  Rp : 0 < u.Rp
  Rb : u.Rf / 2 < u.Rb

/-- Radii in order, positive conductivity, capacity and volume. -/
structure Cell.Phys (c : Cell) : Prop where
  inner : 0 < c.inner
  center : c.inner ≤ c.center
  outer : c.center < c.outer
  k : 0 < c.k
  rhoCp : 0 < c.rhoCp
  volume : 0 < c.volume

/-- every cell is physical, all but the first have some thickness inside their centre -/
def Grid (cells : List Cell) : Prop :=
  2 ≤ cells.length ∧ ∀ i : ℕ, ∀ c, cells[i]? = some c → c.Phys ∧ (i ≠ 0 → c.inner < c.center)

noncomputable section

/-- Thermal conductance, per metre of borehole, between the centres of two adjacent cylindrical shells: the
conductance of the outer half of `a` in series with the inner half of `b`. -/
def conductance (a b : Cell) : ℝ :=
  2 * π / (log (a.outer / a.center) / a.k + log (b.center / b.inner) / b.k)

/-- Conductance between cells `i` and `i + 1` of a grid. -/
def conductances (cells : List Cell) (i : ℕ) : ℝ :=
  conductance (cells.getD i Cell.zero) (cells.getD (i + 1) Cell.zero)

/-- Heat capacity of cell `i` divided by the time step. -/
def capacities (dt : ℝ) (cells : List Cell) (i : ℕ) : ℝ :=
  (cells.getD i Cell.zero).rhoCp * (cells.getD i Cell.zero).volume / dt

/-- Temperature of cell `i`. -/
def temperatures (cells : List Cell) (i : ℕ) : ℝ := (cells.getD i Cell.zero).temp

/-- Thermal resistance of a whole cylindrical shell, per metre. -/
def shellResistance (c : Cell) : ℝ := log (c.outer / c.inner) / (2 * π * c.k)

end

end Ghedt.Radial
