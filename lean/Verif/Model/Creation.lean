import Verif.Model.Script

/-!
# Model of the scripts `ghedt/examples/Design/FromFile/create_*_input_file.py`

They make one `GeometricConstraints` object with keyword arguments, and from it several `Design` objects, each of which is
written with `create_input_file` before the next one is made.
-/

namespace Ghedt.Creation
open Ghedt.Search Ghedt.WholeSearch Ghedt.Files Ghedt.Script Ghedt.Design

noncomputable section

/-- The names of the parameters of `GeometricConstraints.__init__`, media.py:2-5. -/
def parameters : List String :=
  ["length", "width", "B", "B_min", "B_max_x", "B_max_y", "outer_constraints", "no_go"]

/-- `GeometricConstraints(name=value, ...)`, media.py:2-21: a name that is not a parameter is a `TypeError`.  The values of
`outer_constraints` and `no_go` are never read. -/
def constraints (kw : PyDict String ℝ) : Py (Constraints ℝ) :=
  if (PyDict.keys kw).all (parameters.contains ·) then
    .ok { length := PyDict.find? kw "length", width := PyDict.find? kw "width", B := PyDict.find? kw "B",
          Bmin := PyDict.find? kw "B_min", BmaxX := PyDict.find? kw "B_max_x", BmaxY := PyDict.find? kw "B_max_y" }
  else .error .typeError

/-- What a design is made of besides the constraints, and the name it is written under. -/
structure Order where
  file : File
  problem : Problem
  routine : String

/-- `design = Design(...)`, then `create_input_file(design, file_name=...)`, for one design after the other,
create_bi_rectangle_input_file.py:133-140, create_rectangular_input_file.py:131-138 and
create_near_square_input_file.py:127-154. -/
def createFiles (enc : Encoder Saved) (fuel : ℕ) (gc : Constraints ℝ) : List Order → St Disk Unit
  | [] => return ()
  | o :: rest => do
    let candidates ← St.lift (designInit fuel gc o.routine)
    createInputFile enc o.file ⟨o.problem, o.routine, candidates⟩
    createFiles enc fuel gc rest

/-- The whole script. -/
def createScript (enc : Encoder Saved) (fuel : ℕ) (kw : PyDict String ℝ) (orders : List Order) : St Disk Unit := do
  let gc ← St.lift (constraints kw)
  createFiles enc fuel gc orders

end

end Ghedt.Creation
