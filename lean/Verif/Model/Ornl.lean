import Verif.Model.Creation

/-!
# Model of the script `ghedt/examples/Design/FromFile/design_from_ornl_json_input.py`

It reads parameters written by another program, makes a near-square design of single U-tubes, finds and sizes it and exports
it.  The keyword arguments of `GeometricConstraints` other than `B` are a parameter, `extra`: the script gives none.
-/

namespace Ghedt.Ornl
open Ghedt.GHE Ghedt.Bhe Ghedt.Search Ghedt.WholeSearch Ghedt.Files Ghedt.Script Ghedt.Design Ghedt.Creation

noncomputable section

/-- The numbers the script takes from the file, lines 20-81. -/
structure Given where
  maxHeight : ℝ
  boreholeRadius : ℝ
  spacing : ℝ
  pipeDiameter : ℝ
  pipeThickness : ℝ
  tubeDistance : ℝ
  kPipe : ℝ
  kSoil : ℝ
  kGrout : ℝ
  rhoCpSoil : ℝ
  ugt : ℝ
  flowRate : ℝ

/-- `data[key]` where a number is expected.  Simplification: anything else raises `TypeError` here, where the code raises
when it computes with it. -/
def number (data : PyDict String Json) (key : String) : Py ℝ := do
  match ← PyDict.get data key with
  | .num x => return x
  | .int n => return n
  | _ => throw .typeError

/-- The look-ups of lines 20-81, in order. -/
def readGiven (data : PyDict String Json) : Py Given := do
  let maxHeight ← number data "max_height"
  let boreholeRadius ← number data "bore_hole_radius"
  let spacing ← number data "B_spacing"
  let pipeDiameter ← number data "pipe_out_diameter"
  let pipeThickness ← number data "pipe_thickness"
  let tubeDistance ← number data "u-tube_distance"
  let kPipe ← number data "pipe_thermal_conductivity"
  let kSoil ← number data "ground_thermal_conductivity"
  let kGrout ← number data "grout_thermal_conductivity"
  let rhoCpSoil ← number data "ground_thermal_heat_capacity"
  let ugt ← number data "ground_temperature"
  let flowRate ← number data "design_flow_rate"
  return ⟨maxHeight, boreholeRadius, spacing, pipeDiameter, pipeThickness, tubeDistance, kPipe, kSoil, kGrout, rhoCpSoil,
    ugt, flowRate⟩

/-- The pipe, lines 28-60. -/
def pipe (g : Given) : Py Pipe := do
  let rOut := g.pipeDiameter / 2
  let rIn := rOut - g.pipeThickness
  let pos ← placePipes g.tubeDistance rOut 1
  return ⟨pos, rIn, rOut, g.tubeDistance, 1 / 10 ^ 6, g.kPipe, 1542 * 1000⟩

/-- The arguments of `Design`, lines 20-102 and 115-118 (`method` and the number of iterations are the defaults of
design.py:16 and search_routines.py:16); the fluid and the external code are those of `world`. -/
def problem (world : Problem) (g : Given) (pipe : Pipe) (loads : List ℝ) : Problem :=
  { world with
    flow := "system"
    V := g.flowRate * 1000
    media := ⟨.single pipe, world.media.fluid, ⟨g.kGrout, 3901 * 1000⟩, ⟨g.kSoil, g.rhoCpSoil, g.ugt⟩⟩
    borehole := ⟨g.maxHeight, 2, g.boreholeRadius⟩
    startMonth := 1
    endMonth := 20 * 12
    maxEFT := 35
    minEFT := 5
    maxHeight := 135
    minHeight := 60
    hourly := loads
    method := "hybrid"
    maxIter := 15 }

/-- The whole script, design_from_ornl_json_input.py:14-130; `dec` is `json.load`, `csv` makes the list of loads of the text
of the table. -/
def script (world : Problem) (fuel : ℕ) (dec : String → Py Json) (csv : String → Py (List ℝ)) (enc : Encoder Json)
    (extra : PyDict String ℝ) (params table out : File) : St Disk Unit := do
  let data ← jsLoad dec params
  let data ← St.lift (match data with
    | .obj l => Except.ok l
    | _ => Except.error .typeError)
  let g ← St.lift (readGiven data)
  let pipe ← St.lift (pipe g)
  let text ← readAll table
  let loads ← St.lift (csv text)
  let gc ← St.lift (constraints (("B", g.spacing) :: extra))
  let candidates ← St.lift (designInit fuel gc "near-square")
  designToFile enc out ⟨problem world g pipe loads, "near-square", candidates⟩

end

end Ghedt.Ornl
