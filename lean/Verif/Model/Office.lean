import Verif.Model.OfficeLoads
import Verif.Model.Creation

/-!
# Model of the arguments of the scripts `ghedt/examples/Design/find_*.py`

The numbers with which the four scripts make their designs; `OfficeLoads` has the loads.  The lines cited are those of
find_near_square.py; the other three differ in the line numbers only, by at most one.  The fluid and the external code are
those of `world`.
-/

namespace Ghedt.Office
open Ghedt.GHE Ghedt.Bhe Ghedt.Search Ghedt.WholeSearch

noncomputable section

/-- The list of hourly loads, W, extraction positive, find_near_square.py:113-120.  Simplification: the decimal numbers of the
file, not the doubles nearest to them. -/
def hourly : List ℝ := List.zipWith (fun (x y : ℕ) => ((x : ℝ) - y) / 10 ^ 13) Extracted.table Rejected.table

/-- find_near_square.py:24 -/
def rOut : ℝ := 2667 / 100 / 1000 / 2

/-- find_near_square.py:25 -/
def rIn : ℝ := 216 / 10 / 1000 / 2

/-- find_near_square.py:26 -/
def shank : ℝ := 323 / 10 / 1000

/-- `pipe_single` with `single_u_tube`, find_near_square.py:43-45, 55, 62, 69-70. -/
def single : Py Hardware := do
  let pos ← placePipes shank rOut 1
  return .single ⟨pos, rIn, rOut, shank, 1 / 10 ^ 6, 4 / 10, 1542 * 1000⟩

/-- `pipe_double` with `double_u_tube`, find_near_square.py:47-48, 55, 62, 71-72. -/
def double : Py Hardware := do
  let pos ← placePipes shank rOut 2
  return .multiple ⟨pos, rIn, rOut, shank, 1 / 10 ^ 6, 4 / 10, 1542 * 1000⟩

/-- `pipe_coaxial` with `coaxial_tube`, find_near_square.py:28-38, 50-51, 56, 62, 73-75. -/
def coaxial : Py Hardware := do
  let rInner := (442 / 10 / 1000 / 2, 50 / 1000 / 2)
  let rOuter := (974 / 10 / 1000 / 2, 110 / 1000 / 2)
  return .coaxial ⟨rInner, rOuter, 1 / 10 ^ 6, (4 / 10, 4 / 10), 1542 * 1000, (0, 0), 0⟩

/-- The arguments of `Design`, find_near_square.py:16-18, 57-64, 76-80, 90-111, 134-137 (the number of iterations is the default
of search_routines.py:16). -/
def problem (world : Problem) (pipe : Hardware) : Problem :=
  { world with
    flow := "borehole"
    V := 2 / 10
    media := ⟨pipe, world.media.fluid, ⟨1, 3901 * 1000⟩, ⟨2, 2343493 / 1000 * 1000, 183 / 10⟩⟩
    borehole := ⟨96, 2, 75 / 1000⟩
    startMonth := 1
    endMonth := 20 * 12
    maxEFT := 35
    minEFT := 5
    maxHeight := 135
    minHeight := 60
    hourly := hourly
    method := "hybrid"
    maxIter := 15 }

end

end Ghedt.Office
