import Verif.Model.Compare
import Verif.Model.Plots

/-!
# Model of the scripts `ghedt/examples/Design/find_*.py` with their pictures

`Model/Compare` has the designs of these scripts and what is printed.  Here are the constraints they are made with and the
picture of the first field, which is saved before the second design is made.  The problems (exchangers, media, loads) are
parameters, the file is written in the working directory, `render` is what is written for a figure.
-/

namespace Ghedt.FindScripts
open Ghedt.GHE Ghedt.Search Ghedt.WholeSearch Ghedt.Script Ghedt.Compare Ghedt.Files Ghedt.Plots Ghedt.Utilities

noncomputable section

/-- The land in which a script designs, the routine, and what its picture shows besides the boreholes. -/
structure Setting where
  constraints : Design.Constraints ℝ
  /-- of the first design -/
  routine : String
  /-- of the others -/
  later : String
  perimeter : List (ℝ × ℝ)
  noGo : Option (List (ℝ × ℝ))
  picture : String

/-- find_near_square.py:19, 127-130, 137, 154-159, 166 and 188. -/
def nearSquare : Setting :=
  ⟨{ B := some 5, length := some (lengthOfSide 32 5) }, "near-square", "near-square", [], none, "near-square.png"⟩

/-- The outline of the land drawn, find_rectangle.py:166-169, find_bi_rectangle.py and find_bi_zoned_rectangle.py:164-167. -/
def land : List (ℝ × ℝ) := makeRectanglePerimeter 85 80

/-- The building drawn, find_rectangle.py:171-175, find_bi_rectangle.py and find_bi_zoned_rectangle.py:169-173. -/
def building : List (ℝ × ℝ) := makeRectanglePerimeter 50 (333 / 10) (origin := (15, 365 / 10))

/-- find_rectangle.py:123-137, 147, 165-182, 189 and 211. -/
def rectangle : Setting :=
  ⟨{ length := some 85, width := some (365 / 10), Bmin := some 3, BmaxX := some 10 }, "rectangle", "rectangle", land,
    some building, "rectangular.png"⟩

/-- find_bi_rectangle.py:123-138, 145, 162-180, 187 and 209. -/
def biRectangle : Setting :=
  ⟨{ length := some 85, width := some (365 / 10), Bmin := some (445 / 100), BmaxX := some 10, BmaxY := some 12 },
    "bi-rectangle", "bi-rectangle", land, some building, "bi-rectangular.png"⟩

/-- find_bi_zoned_rectangle.py:123-138, 145, 162-180, 187 and 209: the later designs are not zoned. -/
def biZoned : Setting :=
  ⟨{ length := some 85, width := some (365 / 10), Bmin := some (445 / 100), BmaxX := some 10, BmaxY := some 12 },
    "bi-zoned", "bi-rectangle", land, some building, "bi-zoned.png"⟩

/-- The first design, find_near_square.py:132-156: what is printed, the borehole object afterwards and the coordinates to be
drawn, `bisection_search.ghe.GFunction.bore_locations`. -/
def first (fuel : ℕ) (set : Setting) (b : Bhe.Borehole) (p : Problem) :
    Py (Summary × Bhe.Borehole × List (ℝ × ℝ)) := do
  let c ← Design.designInit fuel set.constraints set.routine
  match findAndSize ⟨{ p with borehole := b }, set.routine, c⟩ {} with
  | (.error e, _) => .error e
  | (.ok _, s) =>
    match s.held with
    | none => .error .attributeError
    | some x =>
      let H := (Whole.borehole x.state.bhe).H
      let nbh := x.env.db.locations.length
      .ok (⟨H, nbh, H * nbh⟩, { b with H := H }, x.env.db.locations)

/-- The other designs, find_near_square.py:161-203. -/
def others (fuel : ℕ) (set : Setting) : Bhe.Borehole → List Problem → List Summary × Option PyErr
  | _, [] => ([], none)
  | b, p :: ps =>
    match (do
      let c ← Design.designInit fuel set.constraints set.later
      block b ⟨p, set.later, c⟩) with
    | .error e => ([], some e)
    | .ok (s, b') =>
      let (ss, e) := others fuel set b' ps
      (s :: ss, e)

/-- A script for the exchangers `p :: ps`: what was printed, the exception that ended it, and the disk. -/
def script (render : Fig ℝ → String) (fuel : ℕ) (set : Setting) (b : Bhe.Borehole) (p : Problem) (ps : List Problem)
    (d : Disk) : (List Summary × Option PyErr) × Disk :=
  match first fuel set b p with
  | .error e => (([], some e), d)
  | .ok (s, b', coordinates) =>
    match (do
      let fig ← St.lift (visualizeArea set.perimeter coordinates set.noGo)
      dumpTo (fun f => (render f, none)) ([], set.picture) fig : St Disk Unit) d with
    | (.error e, d') => (([s], some e), d')
    | (.ok _, d') =>
      let (ss, e) := others fuel set b' ps
      ((s :: ss, e), d')

end

end Ghedt.FindScripts
