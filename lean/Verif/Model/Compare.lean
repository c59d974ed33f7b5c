import Verif.Model.Script

/-!
# Model of the scripts `ghedt/examples/Design/find_*.py`

Each of them makes one `Borehole` object and, with it and the same media, loads and constraints, three designs: for a single
U-tube, a double U-tube and a coaxial tube.  Each design is found, sized and reported before the next one is made; the variable
`bisection_search` is used for all of them.  The plot of the field saved after the first report
is in `Model/FindScripts`.
-/

namespace Ghedt.Compare
open Ghedt.GHE Ghedt.Search Ghedt.WholeSearch Ghedt.Script

/-- What is printed about a design, find_near_square.py:148-152 (before rounding to the digits printed). -/
structure Summary where
  /-- 'Height' -/
  height : ℝ
  /-- 'Number of boreholes' -/
  boreholes : ℕ
  /-- 'Total Drilling' -/
  drilling : ℝ

noncomputable section

/-- One design, find_near_square.py:141-152, 170-181 and 192-203 (find_rectangle.py, find_bi_rectangle.py and
find_bi_zoned_rectangle.py alike), with the borehole object as it is then; what is printed, and the borehole object
afterwards. -/
def block (b : Bhe.Borehole) (i : Saved) : Py (Summary × Bhe.Borehole) :=
  match findAndSize { i with problem := { i.problem with borehole := b } } {} with
  | (.error e, _) => .error e
  | (.ok _, s) =>
    match s.held with
    | none => .error .attributeError
    | some x =>
      let H := (Whole.borehole x.state.bhe).H
      let nbh := x.env.db.locations.length
      .ok (⟨H, nbh, H * nbh⟩, { b with H := H })

/-- The script: one design after another, until one of them raises; what was printed, and the exception that ended it. -/
def compare : Bhe.Borehole → List Saved → List Summary × Option PyErr
  | _, [] => ([], none)
  | b, i :: rest =>
    match block b i with
    | .error e => ([], some e)
    | .ok (s, b') =>
      let (ss, e) := compare b' rest
      (s :: ss, e)

end

end Ghedt.Compare
