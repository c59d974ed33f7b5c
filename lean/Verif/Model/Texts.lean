import Verif.Model.Report
import Verif.Model.PeakTable

/-!
# Model of the texts of the parts of an exchanger

`__repr__` of media.py, borehole_heat_exchangers.py and `HybridLoad`, and with them the whole of `GHE.__repr__`.
`Format` has the texts of numbers and of objects of other packages.  Some lines depend on the Python type of a number
(`type(x) == float`, false for integers and numpy numbers), which its value does not tell: `Kinds` has the answers.
-/

namespace Ghedt.Report
open Ghedt.GHE Ghedt.Bhe Ghedt.Whole

/-- Texts of numbers, tuples and lists, and of objects of other packages. -/
structure Format where
  /-- `str` of an integer -/
  int : ℤ → String
  /-- `str` of a number -/
  num : ℝ → String
  /-- `str(round(x, 4))` -/
  num4 : ℝ → String
  /-- `str` of a list of two numbers -/
  list2 : ℝ × ℝ → String
  /-- `str` of a tuple of two numbers -/
  tuple2 : ℝ × ℝ → String
  /-- `str` of a list of positions -/
  points : List (ℝ × ℝ) → String
  /-- `gt.boreholes.Borehole.__repr__` -/
  hole : Borehole → String
  /-- `gt.media.Fluid.__repr__` -/
  fluid : Fluid → String
  /-- `DataFrame.to_string` -/
  frame : GL.Frame ℝ → String

/-- Which numbers are of type `float`. -/
structure Kinds where
  soil : Bool
  grout : Bool
  pipe : Bool
  radius : Bool

noncomputable section

variable (fm : Format)

/-- `ThermalProperty.__repr__`, media.py:9-24, for an object of class `cls` whose conductivity has the text `k`. -/
def thermalText (cls k : String) (rhoCp : ℝ) : String :=
  "<class 'ghedt.peak_load_analysis_tool.media." ++ cls ++ "'>" ++ "\n"
    ++ justify "Thermal conductivity" (k ++ " (W/m.K)")
    ++ justify "Volumetric heat capacity" (fm.num4 rhoCp ++ " (J/K.m3)")

/-- `str(round(x, 4))` for a `float`, else `str(x)`, media.py:15-20. -/
def typed (float : Bool) (x : ℝ) : String := if float then fm.num4 x else fm.num x

/-- `Soil.__repr__`, media.py:97-106. -/
def soilText (float : Bool) (s : Soil) : String :=
  thermalText fm "Soil" (typed fm float s.k) s.rhoCp
    ++ justify "Undisturbed ground temperature" (fm.num4 s.ugt ++ " (degrees Celsius)")

/-- `Grout.__repr__`: that of `ThermalProperty`. -/
def groutText (float : Bool) (g : Grout) : String := thermalText fm "Grout" (typed fm float g.k) g.rhoCp

/-- `Pipe.__repr__` of the pipe of a U-tube, media.py:49-71. -/
def pipeText (kd : Kinds) (p : Pipe) : String :=
  thermalText fm "Pipe" (typed fm kd.pipe p.k) p.rhoCp
    ++ justify "Pipe Positions (Center of pipes)" (fm.points p.pos)
    ++ (if kd.radius then
          justify "Pipe inner radius" (fm.num4 p.rIn ++ " (m)") ++ justify "Pipe outer radius" (fm.num4 p.rOut ++ " (m)")
        else
          justify "Pipe inner radii" (fm.num p.rIn ++ " (m)") ++ justify "Pipe outer radii" (fm.num p.rOut ++ " (m)"))
    ++ justify "Shank spacing (pipe to pipe)" (fm.num4 p.s ++ " (m)")
    ++ justify "Pipe roughness" (fm.num p.eps ++ " (m)")
    ++ justify "Number of pipes" (fm.int ((p.pos.length / 2 : ℕ) : ℤ))

/-- `Pipe.__repr__` of the pipe of a coaxial exchanger, media.py:49-71: radii and conductivities are lists, the position is
not. -/
def coaxPipeText (p : CoaxPipe) : String :=
  thermalText fm "Pipe" (fm.list2 p.k) p.rhoCp
    ++ justify "Pipe Positions (Center of pipes)" (fm.tuple2 p.pos)
    ++ (justify "Pipe inner radii" (fm.list2 p.rInner ++ " (m)") ++ justify "Pipe outer radii" (fm.list2 p.rOuter ++ " (m)"))
    ++ justify "Shank spacing (pipe to pipe)" (fm.num4 p.s ++ " (m)")
    ++ justify "Pipe roughness" (fm.num p.eps ++ " (m)")
    ++ justify "Number of pipes" (fm.int 1)

/-- `BasePipe.__repr__`, borehole_heat_exchangers.py:35-63, for an object of class `cls`. -/
def baseText (kd : Kinds) (cls : String) (t : UTube) : Py String := do
  let Re ← reportedReynolds t.mPipe t.pipe.rIn t.pipe.eps t.fluid
  return "<class 'ghedt.peak_load_analysis_tool.borehole_heat_exchangers." ++ cls ++ "'>" ++ "\n" ++ rule
    ++ justify "Mass flow borehole" (fm.num4 t.mBorehole ++ " (kg/s)")
    ++ justify "Mass flow pipe" (fm.num4 t.mPipe ++ " (kg/s)")
    ++ (fm.hole t.b ++ "\n")
    ++ soilText fm kd.soil t.soil
    ++ groutText fm kd.grout t.grout
    ++ pipeText fm kd t.pipe
    ++ fm.fluid t.fluid
    ++ "\n"
    ++ justify "Reynolds number" (fm.num4 Re)
    ++ justify "Convection coefficient" (fm.num4 t.hf ++ " (W/m2.K)")
    ++ justify "Pipe resistance" (fm.num4 t.Rp ++ " (m.K/W)")
    ++ justify "Fluid resistance" (fm.num4 t.Rf ++ " (m.K/W)")

/-- `SingleUTube.__repr__`, borehole_heat_exchangers.py:127-138. -/
def singleText (ext : Ext) (kd : Kinds) (t : UTube) : Py String := do
  let out ← baseText fm kd "SingleUTube" t
  let Rb := ext.rbStar t.circuit t.b t.mBorehole t.fluid.cp
  return out ++ justify "Effective borehole resistance" (fm.num4 Rb ++ " (m.K/W)")

/-- `MultipleUTube.__repr__`, borehole_heat_exchangers.py:223-236. -/
def multipleText (ext : Ext) (kd : Kinds) (t : UTube) : Py String := do
  let out ← baseText fm kd "MultipleUTube" t
  let Rb := ext.rbStar t.circuit t.b t.mBorehole t.fluid.cp
  match t.circuit.config with
  | none => .error .typeError
  | some config =>
    return out ++ justify "Effective borehole resistance" (fm.num4 Rb ++ " (m.K/W)") ++ justify "Config" config

/-- `CoaxialBase.__repr__`, borehole_heat_exchangers.py:283-334. -/
def coaxialText (ext : Ext) (kd : Kinds) (c : Coax) : Py String := do
  let ReAnnulus ← computeReynoldsConcentric c.mPipe c.pipe.rInner.2 c.pipe.rOuter.1 c.fluid
  let Re ← computeReynolds c.mPipe c.pipe.rInner.1 c.pipe.eps c.fluid
  let Rb := ext.rbStarCoax c.pipe.rInner c.pipe.rOuter c.soil.k c.grout.k c.Rff c.Rfp c.b c.mBorehole c.fluid.cp
  return "<class 'ghedt.peak_load_analysis_tool.borehole_heat_exchangers.CoaxialPipe'>" ++ "\n" ++ rule
    ++ justify "Mass flow borehole" (fm.num4 c.mBorehole ++ " (kg/s)")
    ++ justify "Mass flow pipe" (fm.num4 c.mPipe ++ " (kg/s)")
    ++ (fm.hole c.b ++ "\n")
    ++ soilText fm kd.soil c.soil
    ++ groutText fm kd.grout c.grout
    ++ coaxPipeText fm c.pipe
    ++ fm.fluid c.fluid
    ++ "\n"
    ++ justify "Inner pipe resistance" (fm.num4 c.RpIn ++ " (m.K/W)")
    ++ justify "Outer pipe resistance" (fm.num4 c.RpOut ++ " (m.K/W)")
    ++ justify "Grout resistance" (fm.num4 c.Rgrout ++ " (m.K/W)")
    ++ justify "Reynolds annulus" (fm.num4 ReAnnulus)
    ++ justify "Inner annulus convection coef" (fm.num4 c.hAnIn ++ " (W/m2.K)")
    ++ justify "Outer annulus convection coef" (fm.num4 c.hAnOut ++ " (W/m2.K)")
    ++ justify "Inner annulus resistance" (fm.num4 c.RfAnIn ++ " (m.K/W)")
    ++ justify "Outer annulus resistance" (fm.num4 c.RfAnOut ++ " (m.K/W)")
    ++ justify "Reynolds inner" (fm.num4 Re)
    ++ justify "Inner Convection coefficient" (fm.num4 c.hIn ++ " (W/m2.K)")
    ++ justify "Fluid-to-fluid resistance" (fm.num4 c.Rff ++ " (m.K/W)")
    ++ justify "Fluid-to-pipe resistance" (fm.num4 c.Rfp ++ " (m.K/W)")
    ++ justify "Effective borehole resistance" (fm.num4 Rb ++ " (m.K/W)")

/-- `bhe.__repr__()`. -/
def exchangerText (ext : Ext) (kd : Kinds) : Exchanger → Py String
  | .single t => singleText fm ext kd t
  | .multiple t => multipleText fm ext kd t
  | .coaxial c => coaxialText fm ext kd c
  | .other => .error .attributeError

/-- `SimulationParameters.__repr__`, media.py:124-139. -/
def paramsText (env : Whole.Env) : String :=
  "<class 'ghedt.peak_load_analysis_tool.media.SimulationParameters'>" ++ "\n"
    ++ justify "Start month" (fm.int env.startMonth ++ " (months)")
    ++ justify "End month" (fm.int env.endMonth ++ "(months)")
    ++ justify "Max EFT Allowable" (fm.num env.maxEFT ++ " (degrees Celsius)")
    ++ justify "Min EFT Allowable" (fm.num env.minEFT ++ " (degrees Celsius)")
    ++ justify "Maximum height" (fm.num env.maxHeight ++ " (m)")
    ++ justify "Minimum height" (fm.num env.minHeight ++ " (m)")

/-- `HybridLoad.__repr__`, ground_loads.py:423-428. -/
def peaksText (env : Whole.Env) : Py String := do
  let F ← GL.peakTable env.rejection env.extraction
  return "<class 'ghedt.peak_load_analysis_tool.ground_loads.HybridLoad'>" ++ "\n" ++ fm.frame F

/-- `GHE.__repr__` with the texts of its parts, ground_heat_exchangers.py:58-85 and 236-281; `kx` and `kt` are for the
exchanger and the equivalent tube.  (The table of the peaks is made after the lines on the temperatures; this order matters
only if both raise.) -/
def fullReport (kx kt : Kinds) (env : Whole.Env) : St Whole.State String := do
  let s ← St.get
  let bhe ← St.lift (exchangerText fm env.ext kx s.bhe)
  let tube ← St.lift (singleText fm env.ext kt (tubeOf s))
  let peaks ← St.lift (peaksText fm env)
  report { int := fun n => fm.int (n : ℤ), num := fm.num, num4 := fm.num4, bhe := fun _ => bhe, tube := fun _ => tube,
           params := paramsText fm env, peaks := peaks } env

end

end Ghedt.Report
