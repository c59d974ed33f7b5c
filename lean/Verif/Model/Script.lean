import Verif.Model.Files
import Verif.Model.WholeSearch

/-!
# Model of the script `ghedt/examples/Design/FromFile/design_from_input.py`

The file it reads holds a pickled `Design` object: its arguments and the candidate fields it computed from the constraints
when it was made (`coordinates_domain`, `coordinates_domain_nested`, design.py:59-75).
-/

namespace Ghedt.Script
open Ghedt.GHE Ghedt.Search Ghedt.WholeSearch Ghedt.Files

/-- A `Design` object. -/
structure Saved where
  problem : Problem
  routine : String
  candidates : Design.Candidates ℝ

noncomputable section

/-- `search = design.find_design(); search.ghe.compute_g_functions(); search.ghe.size(method='hybrid')`,
design_from_input.py:17-21; the coordinates selected. -/
def findAndSize (i : Saved) : St WholeSearch.State (Option (ℤ × List (ℝ × ℝ))) := do
  let r ← findDesign i.problem i.routine i.candidates
  computeG i.problem
  let _ ← onHeld fun env => Whole.size env "hybrid"
  return r

/-- Lines 17-25 of design_from_input.py, with `oak_ridge_export(search, file_name=out)` at the end.  Only the disk outlasts
the script.  Without selected coordinates `len(None)` raises. -/
def designToFile (enc : Encoder Json) (out : File) (i : Saved) : St Disk Unit := fun d =>
  match findAndSize i {} with
  | (.error e, _) => (.error e, d)
  | (.ok r, s) =>
    match s.held with
    | none => (.error .attributeError, d)
    | some x =>
      match r with
      | none => (.error .typeError, d)
      | some (_, selected) =>
        let q := oakRidgeExport enc out selected x.env (x.state, d)
        (q.1, q.2.2)

/-- The whole script, design_from_input.py:7-25, with the names of its two files as parameters. -/
def designFromInput (dec : String → Py Saved) (enc : Encoder Json) (input out : File) : St Disk Unit := do
  let i ← readInputFile dec input
  designToFile enc out i

end

end Ghedt.Script
