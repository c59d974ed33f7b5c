/-!
# Specification of the texts printed for the parts of an exchanger

Nothing here refers to the model.
-/

namespace Ghedt.Spec

/-- What the text of a borehole heat exchanger says before its own results. -/
structure Parts where
  kind : String
  /-- flow through the borehole and through a pipe -/
  flow : String
  pipeFlow : String
  hole : String
  soilConductivity : String
  soilCapacity : String
  soilTemperature : String
  groutConductivity : String
  groutCapacity : String
  pipeConductivity : String
  pipeCapacity : String
  positions : String
  /-- whether there is one radius, or a list of radii -/
  oneRadius : Bool
  inner : String
  outer : String
  spacing : String
  roughness : String
  number : String
  fluid : String

/-- These lines. -/
def Parts.lines (p : Parts) : List String := [
  "<class 'ghedt.peak_load_analysis_tool.borehole_heat_exchangers.", p.kind, "'>\n",
  "--------------------------------------------------\n",
  "Mass flow borehole                      = ", p.flow, " (kg/s)\n",
  "Mass flow pipe                          = ", p.pipeFlow, " (kg/s)\n",
  p.hole, "\n",
  "<class 'ghedt.peak_load_analysis_tool.media.Soil'>\n",
  "Thermal conductivity                    = ", p.soilConductivity, " (W/m.K)\n",
  "Volumetric heat capacity                = ", p.soilCapacity, " (J/K.m3)\n",
  "Undisturbed ground temperature          = ", p.soilTemperature, " (degrees Celsius)\n",
  "<class 'ghedt.peak_load_analysis_tool.media.Grout'>\n",
  "Thermal conductivity                    = ", p.groutConductivity, " (W/m.K)\n",
  "Volumetric heat capacity                = ", p.groutCapacity, " (J/K.m3)\n",
  "<class 'ghedt.peak_load_analysis_tool.media.Pipe'>\n",
  "Thermal conductivity                    = ", p.pipeConductivity, " (W/m.K)\n",
  "Volumetric heat capacity                = ", p.pipeCapacity, " (J/K.m3)\n",
  "Pipe Positions (Center of pipes)        = ", p.positions, "\n",
  if p.oneRadius then "Pipe inner radius                       = " else "Pipe inner radii                        = ",
  p.inner, " (m)\n",
  if p.oneRadius then "Pipe outer radius                       = " else "Pipe outer radii                        = ",
  p.outer, " (m)\n",
  "Shank spacing (pipe to pipe)            = ", p.spacing, " (m)\n",
  "Pipe roughness                          = ", p.roughness, " (m)\n",
  "Number of pipes                         = ", p.number, "\n",
  p.fluid, "\n"]

/-- Text of a U-tube exchanger. -/
structure UTubePage where
  parts : Parts
  reynolds : String
  convection : String
  pipeResistance : String
  fluidResistance : String
  effective : String
  config : Option String

def UTubePage.text (p : UTubePage) : String :=
  String.join (p.parts.lines ++ [
    "Reynolds number                         = ", p.reynolds, "\n",
    "Convection coefficient                  = ", p.convection, " (W/m2.K)\n",
    "Pipe resistance                         = ", p.pipeResistance, " (m.K/W)\n",
    "Fluid resistance                        = ", p.fluidResistance, " (m.K/W)\n",
    "Effective borehole resistance           = ", p.effective, " (m.K/W)\n"] ++
    match p.config with
    | none => []
    | some c => ["Config                                  = ", c, "\n"])

/-- Text of a coaxial exchanger. -/
structure CoaxPage where
  parts : Parts
  innerPipe : String
  outerPipe : String
  grout : String
  reynoldsAnnulus : String
  innerCoefficient : String
  outerCoefficient : String
  innerResistance : String
  outerResistance : String
  reynolds : String
  convection : String
  fluidFluid : String
  fluidPipe : String
  effective : String

def CoaxPage.text (p : CoaxPage) : String :=
  String.join (p.parts.lines ++ [
    "Inner pipe resistance                   = ", p.innerPipe, " (m.K/W)\n",
    "Outer pipe resistance                   = ", p.outerPipe, " (m.K/W)\n",
    "Grout resistance                        = ", p.grout, " (m.K/W)\n",
    "Reynolds annulus                        = ", p.reynoldsAnnulus, "\n",
    "Inner annulus convection coef           = ", p.innerCoefficient, " (W/m2.K)\n",
    "Outer annulus convection coef           = ", p.outerCoefficient, " (W/m2.K)\n",
    "Inner annulus resistance                = ", p.innerResistance, " (m.K/W)\n",
    "Outer annulus resistance                = ", p.outerResistance, " (m.K/W)\n",
    "Reynolds inner                          = ", p.reynolds, "\n",
    "Inner Convection coefficient            = ", p.convection, " (W/m2.K)\n",
    "Fluid-to-fluid resistance               = ", p.fluidFluid, " (m.K/W)\n",
    "Fluid-to-pipe resistance                = ", p.fluidPipe, " (m.K/W)\n",
    "Effective borehole resistance           = ", p.effective, " (m.K/W)\n"])

/-- Text of the simulation parameters. -/
structure ParametersPage where
  start : String
  stop : String
  maxTemperature : String
  minTemperature : String
  maxHeight : String
  minHeight : String

def ParametersPage.text (p : ParametersPage) : String :=
  String.join [
    "<class 'ghedt.peak_load_analysis_tool.media.SimulationParameters'>\n",
    "Start month                             = ", p.start, " (months)\n",
    "End month                               = ", p.stop, "(months)\n",
    "Max EFT Allowable                       = ", p.maxTemperature, " (degrees Celsius)\n",
    "Min EFT Allowable                       = ", p.minTemperature, " (degrees Celsius)\n",
    "Maximum height                          = ", p.maxHeight, " (m)\n",
    "Minimum height                          = ", p.minHeight, " (m)\n"]

end Ghedt.Spec
