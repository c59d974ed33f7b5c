import Verif.Model.Texts
import Verif.Model.Plots

/-!
# Model of the scripts in `ghedt/examples/BHE`

The numbers written at the head of the scripts are parameters.  A script prints lines and writes pictures; nothing else
outlasts it.  The pictures of a borehole drawn by `pygfunction` and the texts of numbers are arbitrary.
-/

namespace Ghedt.TubeScript
open Real Ghedt.GHE Ghedt.Bhe Ghedt.Report Ghedt.Plots

/-- What is seen of a script: the arguments of its calls of `print`, in order, and the pictures by file name. -/
structure Screen (Image : Type) where
  lines : List String
  pictures : String → Option Image

/-- What the scripts use besides ghedt: `pygfunction`, `scipy`, texts of numbers and pictures. -/
structure World (Image : Type) where
  ext : Ext
  brent : ℝ → ℝ → Finder ℝ
  fm : Format
  kd : Kinds
  /-- `'{0:.8f}'.format(x)` -/
  fixed8 : ℝ → String
  /-- `'{0:.4f}'.format(x)` -/
  fixed4 : ℝ → String
  /-- `'{0:4f}'.format(x)` -/
  wide4 : ℝ → String
  /-- `visualize_pipes()` of a U-tube -/
  draw : UTube → Py Image
  /-- and of a coaxial exchanger -/
  drawCoax : Coax → Py Image

/-- The numbers at the head of a script for U-tubes, except for the volume flow. -/
structure Given where
  b : Borehole
  rIn : ℝ
  rOut : ℝ
  s : ℝ
  eps : ℝ
  k : ℝ
  rhoCp : ℝ
  grout : Grout
  soil : Soil
  fluid : Fluid

/-- The same for a coaxial exchanger. -/
structure GivenCoax where
  b : Borehole
  pipe : CoaxPipe
  grout : Grout
  soil : Soil
  fluid : Fluid

noncomputable section

variable {Image : Type} (w : World Image)

/-- `print(line)` -/
def say (line : String) : St (Screen Image) Unit := St.modify fun s => { s with lines := s.lines ++ [line] }

/-- `fig.savefig(file)` -/
def savefig (file : String) (fig : Image) : St (Screen Image) Unit :=
  St.modify fun s => { s with pictures := Function.update s.pictures file (some fig) }

/-- `len(val) * '-'` -/
def dashes (title : String) : String := String.ofList (List.replicate title.length '-')

/-- `m_flow_borehole = V_flow_borehole / 1000. * fluid.rho` -/
def massFlow (V : ℝ) (fluid : Fluid) : ℝ := V / 1000 * fluid.rho

/-- The pipe of the U-tubes with `n` U-tubes: `plat.media.Pipe(place_pipes(s, r_out, n), r_in, r_out, s, …)`,
SingleUTube.py:26-36, DoubleUTube.py:25-35, double_to_single_u_tube.py:29-33. -/
def givenPipe (g : Given) (n : ℤ) : Py Pipe := do
  let pos ← placePipes g.s g.rOut n
  return ⟨pos, g.rIn, g.rOut, g.s, g.eps, g.k, g.rhoCp⟩

/-- `SingleUTube(m_flow_borehole, fluid, borehole, pipe, grout, soil)` in the scripts. -/
def givenSingle (g : Given) (V : ℝ) : Py UTube := do
  let pipe ← givenPipe g 1
  mkSingle w.ext (massFlow V g.fluid) g.fluid g.b pipe g.grout g.soil

/-- `MultipleUTube(m_flow_borehole, fluid, borehole, pipe, grout, soil, config)` in the scripts. -/
def givenDouble (g : Given) (V : ℝ) (config : String) : Py UTube := do
  let pipe ← givenPipe g 2
  mkMultiple w.ext (massFlow V g.fluid) g.fluid g.b pipe g.grout g.soil (some config)

/-- `CoaxialPipe(m_flow_borehole, fluid, borehole, pipe, grout, soil)` in the scripts. -/
def givenCoax (g : GivenCoax) (V : ℝ) : Coax :=
  mkCoax w.ext (massFlow V g.fluid) g.fluid g.b g.pipe g.grout g.soil

/-! ### `EquivalentPipes` -/

/-- The four numbers printed first, double_to_single_u_tube.py:58-61, coaxial_to_single_u_tube.py:65-68. -/
def showVolumes (v : Volumes) : St (Screen Image) Unit := do
  say ("Fluid volume per meter (m^2): " ++ w.fixed8 v.fluid)
  say ("Pipe volume per meter (m^2): " ++ w.fixed8 v.pipe)
  say ("Total Convective Resistance (K/(W/m)): " ++ w.fixed8 v.Rconv)
  say ("Total Pipe Resistance (K/(W/m)): " ++ w.fixed8 v.Rpipe)

/-- From `compute_equivalent` to the end, double_to_single_u_tube.py:63-85, coaxial_to_single_u_tube.py:71-95. -/
def convertAndShow (file : String) (x : Exchanger) : St (Screen Image) Unit := do
  let (s, _) ← St.lift (computeEquivalent w.ext w.brent x)
  say ("\n" ++ "Single U-tube equivalent parameters" ++ "\n" ++ dashes "Single U-tube equivalent parameters")
  let V ← St.lift (pyDiv (s.mPipe * 1000) s.fluid.rho)
  say ("Fluid volumetric flow rate (L/s): " ++ w.fixed8 V)
  say ("Radius of inner pipe (m): " ++ w.fixed8 s.circuit.rIn)
  say ("Radius of outer pipe (m): " ++ w.fixed8 s.circuit.rOut)
  say ("Shank spacing (m): " ++ w.fixed8 s.pipe.s)
  say ("Convection coefficient (): " ++ w.fixed8 s.hf)
  say ("Pipe thermal conductivity (W/m.K): " ++ w.fixed8 s.pipe.k)
  say ("Grout thermal conductivity (W/m.K): " ++ w.fixed8 s.grout.k)
  let (r, s) := computeEffective w.ext none none s
  let Rb ← St.lift r
  say ("Effective borehole resistance (m.K/W): " ++ w.fixed8 Rb)
  let text ← St.lift (singleText w.fm w.ext w.kd s)
  say text
  let fig ← St.lift (w.draw s)
  savefig file fig

/-- double_to_single_u_tube.py:5-85. -/
def doubleToSingle (g : Given) (V : ℝ) : St (Screen Image) Unit := do
  let t ← St.lift (givenDouble w g V "parallel")
  say ("Intermediate variables" ++ "\n" ++ dashes "Intermediate variables")
  showVolumes w (uTubeVolumes t)
  convertAndShow w "double_to_single_equivalent.png" (.multiple t)

/-- coaxial_to_single_u_tube.py:5-95. -/
def coaxToSingle (g : GivenCoax) (V : ℝ) : St (Screen Image) Unit := do
  let c := givenCoax w g V
  say "Intermediate variables"
  say (dashes "Intermediate variables")
  showVolumes w (concentricTubeVolumes c)
  say "\n"
  convertAndShow w "coaxial_to_single_equivalent.png" (.coaxial c)

/-! ### `BoreholeResistance` -/

/-- The four numbers of a U-tube, SingleUTube.py:53-62, DoubleUTube.py:58-68 and 75-83. -/
def showTube (g : Given) (t : UTube) : St (Screen Image) Unit := do
  let Re ← St.lift (computeReynolds t.mPipe g.rIn g.eps g.fluid)
  say ("Reynolds number: " ++ w.fm.num Re)
  say ("Pipe resistance (K/(W/m)) : " ++ w.fm.num t.Rp)
  say ("Convection coefficient (W/m2.K): " ++ w.fm.num t.hf)
  say ("Convective resistance (K/(W/m)): " ++ w.fm.num t.circuit.Rfp)

/-- SingleUTube.py:5-72. -/
def singleScript (g : Given) (V : ℝ) : St (Screen Image) Unit := do
  let t ← St.lift (givenSingle w g V)
  let text ← St.lift (singleText w.fm w.ext w.kd t)
  say text
  showTube w g t
  let (r, t) := computeEffective w.ext none none t
  let Rb ← St.lift r
  say ("Borehole thermal resistance: " ++ w.fixed4 Rb ++ " m.K/W")
  let fig ← St.lift (w.draw t)
  savefig "single_u_tube.png" fig

/-- DoubleUTube.py:5-98; when `print("Parallel")` is reached the Reynolds number has been computed. -/
def doubleScript (g : Given) (V : ℝ) : St (Screen Image) Unit := do
  let ser ← St.lift (givenDouble w g V "series")
  let par ← St.lift (givenDouble w g V "parallel")
  let text ← St.lift (multipleText w.fm w.ext w.kd par)
  say text
  let _ ← St.lift (computeReynolds par.mPipe g.rIn g.eps g.fluid)
  say "Parallel"
  showTube w g par
  let (r, par) := computeEffective w.ext none none par
  let Rb ← St.lift r
  say ("Borehole thermal resistance (parallel): " ++ w.fixed4 Rb ++ " m.K/W")
  say "Series"
  showTube w g ser
  let (r, ser) := computeEffective w.ext none none ser
  let Rb ← St.lift r
  say ("Borehole thermal resistance (series): " ++ w.fixed4 Rb ++ " m.K/W")
  let fig ← St.lift (w.draw ser)
  savefig "double_u_tube_series.png" fig
  let fig ← St.lift (w.draw par)
  savefig "double_u_tube_parallel.png" fig

/-- Coaxial.py:6-81. -/
def coaxScript (g : GivenCoax) (V : ℝ) : St (Screen Image) Unit := do
  let c := givenCoax w g V
  let text ← St.lift (coaxialText w.fm w.ext w.kd c)
  say text
  let (r, c) := coaxEffective w.ext none none c
  let Rb ← St.lift r
  say ("Intermediate variables" ++ "\n" ++ dashes "Intermediate variables")
  let Re ← St.lift (computeReynolds c.mPipe c.pipe.rOuter.2 g.pipe.eps g.fluid)
  say ("Reynolds number: " ++ w.fm.num Re)
  say ("Convection coefficient (W/m2.K): " ++ w.fm.num c.hAnOut)
  say ("Convective resistance (K/(W/m)): " ++ w.fm.num c.Rfp)
  say ("Borehole thermal resistance: " ++ w.wide4 Rb ++ " m.K/W")
  let fig ← St.lift (w.drawCoax c)
  savefig "Coaxial.png" fig

/-! ### `validation.py` -/

/-- `borehole_values[tube]`: three lists. -/
structure Column where
  vDot : List ℝ := []
  Rb : List ℝ := []
  Re : List ℝ := []

/-- Body of the loop over the flow rates for U-tubes, validation.py:61-90. -/
def sweepTubes (g : Given) (cols : Column × Column) (V : ℝ) : Py (Column × Column) := do
  let (single, double) := cols
  let single := { single with vDot := single.vDot ++ [V] }
  let double := { double with vDot := double.vDot ++ [V] }
  let t ← givenSingle w g V
  let Re ← computeReynolds t.mPipe g.rIn g.eps g.fluid
  let single := { single with Re := single.Re ++ [Re] }
  let d ← givenDouble w g V "parallel"
  let Re ← computeReynolds d.mPipe g.rIn g.eps g.fluid
  let double := { double with Re := double.Re ++ [Re] }
  let Rb ← (computeEffective w.ext none none t).1
  let single := { single with Rb := single.Rb ++ [Rb] }
  let Rb ← (computeEffective w.ext none none d).1
  let double := { double with Rb := double.Rb ++ [Rb] }
  return (single, double)

/-- Body of the loop for coaxial exchangers, validation.py:133-149. -/
def sweepCoax (g : GivenCoax) (col : Column) (V : ℝ) : Py Column := do
  let col := { col with vDot := col.vDot ++ [V] }
  let c := givenCoax w g V
  let Re ← computeReynoldsConcentric c.mPipe g.pipe.rInner.2 g.pipe.rOuter.1 g.fluid
  let col := { col with Re := col.Re ++ [Re] }
  let Rb ← (coaxEffective w.ext none none c).1
  return { col with Rb := col.Rb ++ [Rb] }

/-- `borehole_values` after line 149 of validation.py, by the names of its keys, in order. -/
def validationValues (g : Given) (gc : GivenCoax) (flows coaxFlows : List ℝ) : Py (List (String × Column)) := do
  let (single, double) ← flows.foldlM (sweepTubes w g) ({}, {})
  let coax ← coaxFlows.foldlM (sweepCoax w gc) {}
  return [("Single U-tube", single), ("Double U-tube", double), ("Coaxial", coax)]

/-- A plot of the two figures for one exchanger: the computed points and those of the other program.  A sheet or column that
is not in the workbook raises `KeyError`; lists of different lengths raise `ValueError`. -/
def comparePlots (sheets : List (String × Column)) (tube : String × Column) : Py (List (Mark ℝ) × List (Mark ℝ)) := do
  let a ← scatter tube.2.Re tube.2.Rb (tube.1 ++ " (GLHEDT)")
  let other ← PyDict.get sheets tube.1
  let b ← scatter other.Re other.Rb (tube.1 ++ " (GLHEPRO)")
  let c ← scatter tube.2.vDot tube.2.Rb (tube.1 ++ " (PLAT)")
  let d ← scatter other.vDot other.Rb (tube.1 ++ " (GLHEPRO)")
  return ([a, b], [c, d])

/-- validation.py:7-195: `sheets` is the workbook `GLHEPRO.xlsx`, whose sheets have the three columns; a picture is drawn
from its three plots. -/
def validation (render : List (List (Mark ℝ)) → Image) (sheets : Py (List (String × Column))) (g : Given) (gc : GivenCoax)
    (flows coaxFlows : List ℝ) : St (Screen Image) Unit := do
  let values ← St.lift (validationValues w g gc flows coaxFlows)
  let sheets ← St.lift sheets
  let plots ← St.lift (values.mapM (comparePlots sheets))
  savefig "Rb_vs_Re.png" (render (plots.map Prod.fst))
  savefig "Rb_vs_Vdot.png" (render (plots.map Prod.snd))

end

end Ghedt.TubeScript
