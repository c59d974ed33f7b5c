import Verif.Props.Report
import Verif.Props.PeakTable
import Verif.Model.Texts
import Verif.Spec.Texts

/-!
# The texts of the parts of an exchanger (C110)
-/

set_option linter.unusedSectionVars false

namespace Ghedt.Report
open Real Ghedt.GHE Ghedt.Bhe Ghedt.Radial Ghedt.Whole Ghedt.Spec

noncomputable section

variable {fm : Format} {ext : Ext} {kd : Kinds}

theorem rule_eq : rule = "--------------------------------------------------\n" := by decide +kernel

theorem justify_eq {c u : String} (v : String) (h : ljust c 40 ++ "= " = u) : justify c v = u ++ (v ++ "\n") := by
  unfold justify
  rw [h, String.append_assoc]

theorem unit_eq {c u t tn : String} (v : String) (h : ljust c 40 ++ "= " = u) (ht : t ++ "\n" = tn) :
    justify c (v ++ t) = u ++ (v ++ tn) := by
  rw [justify_eq _ h, String.append_assoc, ht]

theorem join_lines (a b : List String) : String.join a ++ String.join b = String.join (a ++ b) :=
  (join_append a b).symm

theorem thermal_lines (cls k : String) (c : ℝ) : thermalText fm cls k c = String.join [
    "<class 'ghedt.peak_load_analysis_tool.media." ++ cls ++ "'>\n",
    "Thermal conductivity                    = ", k, " (W/m.K)\n",
    "Volumetric heat capacity                = ", fm.num4 c, " (J/K.m3)\n"] := by
  unfold thermalText
  rw [unit_eq (c := "Thermal conductivity") (u := "Thermal conductivity                    = ") (t := " (W/m.K)") (tn := " (W/m.K)\n") _ (by decide +kernel) (by decide +kernel),
    unit_eq (c := "Volumetric heat capacity") (u := "Volumetric heat capacity                = ") (t := " (J/K.m3)") (tn := " (J/K.m3)\n") _ (by decide +kernel) (by decide +kernel)]
  have e3 : "'>\n" = "'>" ++ "\n" := by decide +kernel
  rw [e3]
  simp [String.append_assoc]

theorem soil_lines (f : Bool) (s : Soil) : soilText fm f s = String.join [
    "<class 'ghedt.peak_load_analysis_tool.media.Soil'>\n",
    "Thermal conductivity                    = ", typed fm f s.k, " (W/m.K)\n",
    "Volumetric heat capacity                = ", fm.num4 s.rhoCp, " (J/K.m3)\n",
    "Undisturbed ground temperature          = ", fm.num4 s.ugt, " (degrees Celsius)\n"] := by
  unfold soilText
  rw [unit_eq (c := "Undisturbed ground temperature") (u := "Undisturbed ground temperature          = ") (t := " (degrees Celsius)") (tn := " (degrees Celsius)\n") _ (by decide +kernel) (by decide +kernel)]
  have e : "<class 'ghedt.peak_load_analysis_tool.media." ++ "Soil" ++ "'>\n" =
      "<class 'ghedt.peak_load_analysis_tool.media.Soil'>\n" := by decide +kernel
  rw [thermal_lines, e]
  simp [String.append_assoc]

theorem grout_lines (f : Bool) (g : Grout) : groutText fm f g = String.join [
    "<class 'ghedt.peak_load_analysis_tool.media.Grout'>\n",
    "Thermal conductivity                    = ", typed fm f g.k, " (W/m.K)\n",
    "Volumetric heat capacity                = ", fm.num4 g.rhoCp, " (J/K.m3)\n"] := by
  unfold groutText
  have e : "<class 'ghedt.peak_load_analysis_tool.media." ++ "Grout" ++ "'>\n" =
      "<class 'ghedt.peak_load_analysis_tool.media.Grout'>\n" := by decide +kernel
  rw [thermal_lines, e]

set_option simprocs false in
theorem pipe_lines (p : Pipe) : pipeText fm kd p = String.join [
    "<class 'ghedt.peak_load_analysis_tool.media.Pipe'>\n",
    "Thermal conductivity                    = ", typed fm kd.pipe p.k, " (W/m.K)\n",
    "Volumetric heat capacity                = ", fm.num4 p.rhoCp, " (J/K.m3)\n",
    "Pipe Positions (Center of pipes)        = ", fm.points p.pos, "\n",
    if kd.radius then "Pipe inner radius                       = " else "Pipe inner radii                        = ",
    typed fm kd.radius p.rIn, " (m)\n",
    if kd.radius then "Pipe outer radius                       = " else "Pipe outer radii                        = ",
    typed fm kd.radius p.rOut, " (m)\n",
    "Shank spacing (pipe to pipe)            = ", fm.num4 p.s, " (m)\n",
    "Pipe roughness                          = ", fm.num p.eps, " (m)\n",
    "Number of pipes                         = ", fm.int ((p.pos.length / 2 : ℕ) : ℤ), "\n"] := by
  unfold pipeText
  rw [justify_eq (c := "Pipe Positions (Center of pipes)") (u := "Pipe Positions (Center of pipes)        = ") _ (by decide +kernel),
    unit_eq (c := "Pipe inner radius") (u := "Pipe inner radius                       = ") (t := " (m)") (tn := " (m)\n") _ (by decide +kernel) (by decide +kernel),
    unit_eq (c := "Pipe outer radius") (u := "Pipe outer radius                       = ") (t := " (m)") (tn := " (m)\n") _ (by decide +kernel) (by decide +kernel),
    unit_eq (c := "Pipe inner radii") (u := "Pipe inner radii                        = ") (t := " (m)") (tn := " (m)\n") _ (by decide +kernel) (by decide +kernel),
    unit_eq (c := "Pipe outer radii") (u := "Pipe outer radii                        = ") (t := " (m)") (tn := " (m)\n") _ (by decide +kernel) (by decide +kernel),
    unit_eq (c := "Shank spacing (pipe to pipe)") (u := "Shank spacing (pipe to pipe)            = ") (t := " (m)") (tn := " (m)\n") _ (by decide +kernel) (by decide +kernel),
    unit_eq (c := "Pipe roughness") (u := "Pipe roughness                          = ") (t := " (m)") (tn := " (m)\n") _ (by decide +kernel) (by decide +kernel),
    justify_eq (c := "Number of pipes") (u := "Number of pipes                         = ") _ (by decide +kernel)]
  have e : "<class 'ghedt.peak_load_analysis_tool.media." ++ "Pipe" ++ "'>\n" =
      "<class 'ghedt.peak_load_analysis_tool.media.Pipe'>\n" := by decide +kernel
  rw [thermal_lines, e]
  unfold typed
  cases kd.radius <;> simp [String.append_assoc]

set_option simprocs false in
theorem coaxPipe_lines (p : CoaxPipe) : coaxPipeText fm p = String.join [
    "<class 'ghedt.peak_load_analysis_tool.media.Pipe'>\n",
    "Thermal conductivity                    = ", fm.list2 p.k, " (W/m.K)\n",
    "Volumetric heat capacity                = ", fm.num4 p.rhoCp, " (J/K.m3)\n",
    "Pipe Positions (Center of pipes)        = ", fm.tuple2 p.pos, "\n",
    "Pipe inner radii                        = ", fm.list2 p.rInner, " (m)\n",
    "Pipe outer radii                        = ", fm.list2 p.rOuter, " (m)\n",
    "Shank spacing (pipe to pipe)            = ", fm.num4 p.s, " (m)\n",
    "Pipe roughness                          = ", fm.num p.eps, " (m)\n",
    "Number of pipes                         = ", fm.int 1, "\n"] := by
  unfold coaxPipeText
  rw [justify_eq (c := "Pipe Positions (Center of pipes)") (u := "Pipe Positions (Center of pipes)        = ") _ (by decide +kernel),
    unit_eq (c := "Pipe inner radii") (u := "Pipe inner radii                        = ") (t := " (m)") (tn := " (m)\n") _ (by decide +kernel) (by decide +kernel),
    unit_eq (c := "Pipe outer radii") (u := "Pipe outer radii                        = ") (t := " (m)") (tn := " (m)\n") _ (by decide +kernel) (by decide +kernel),
    unit_eq (c := "Shank spacing (pipe to pipe)") (u := "Shank spacing (pipe to pipe)            = ") (t := " (m)") (tn := " (m)\n") _ (by decide +kernel) (by decide +kernel),
    unit_eq (c := "Pipe roughness") (u := "Pipe roughness                          = ") (t := " (m)") (tn := " (m)\n") _ (by decide +kernel) (by decide +kernel),
    justify_eq (c := "Number of pipes") (u := "Number of pipes                         = ") _ (by decide +kernel)]
  have e : "<class 'ghedt.peak_load_analysis_tool.media." ++ "Pipe" ++ "'>\n" =
      "<class 'ghedt.peak_load_analysis_tool.media.Pipe'>\n" := by decide +kernel
  rw [thermal_lines, e]
  simp [String.append_assoc]

set_option simprocs false in
theorem params_lines (env : Whole.Env) : paramsText fm env = ParametersPage.text
    { start := fm.int env.startMonth, stop := fm.int env.endMonth, maxTemperature := fm.num env.maxEFT,
      minTemperature := fm.num env.minEFT, maxHeight := fm.num env.maxHeight, minHeight := fm.num env.minHeight } := by
  unfold paramsText ParametersPage.text
  rw [unit_eq (c := "Start month") (u := "Start month                             = ") (t := " (months)") (tn := " (months)\n") _ (by decide +kernel) (by decide +kernel),
    unit_eq (c := "End month") (u := "End month                               = ") (t := "(months)") (tn := "(months)\n") _ (by decide +kernel) (by decide +kernel),
    unit_eq (c := "Max EFT Allowable") (u := "Max EFT Allowable                       = ") (t := " (degrees Celsius)") (tn := " (degrees Celsius)\n") _ (by decide +kernel) (by decide +kernel),
    unit_eq (c := "Min EFT Allowable") (u := "Min EFT Allowable                       = ") (t := " (degrees Celsius)") (tn := " (degrees Celsius)\n") _ (by decide +kernel) (by decide +kernel),
    unit_eq (c := "Maximum height") (u := "Maximum height                          = ") (t := " (m)") (tn := " (m)\n") _ (by decide +kernel) (by decide +kernel),
    unit_eq (c := "Minimum height") (u := "Minimum height                          = ") (t := " (m)") (tn := " (m)\n") _ (by decide +kernel) (by decide +kernel)]
  have e : "<class 'ghedt.peak_load_analysis_tool.media.SimulationParameters'>" ++ "\n" =
      "<class 'ghedt.peak_load_analysis_tool.media.SimulationParameters'>\n" := by decide +kernel
  rw [e]
  simp [String.append_assoc]

/-- The lines on what an exchanger with U-tubes is made of: flow `m` through the borehole and `mp` through a pipe; numbers
of type `float` are rounded to four decimals, but for the roughness; half the number of positions is the number of pipes. -/
def partsOf (fm : Format) (kd : Kinds) (kind : String) (m mp : ℝ) (fluid : Fluid) (b : Borehole) (pipe : Pipe) (grout : Grout)
    (soil : Soil) : Parts where
  kind := kind
  flow := fm.num4 m
  pipeFlow := fm.num4 mp
  hole := fm.hole b
  soilConductivity := if kd.soil then fm.num4 soil.k else fm.num soil.k
  soilCapacity := fm.num4 soil.rhoCp
  soilTemperature := fm.num4 soil.ugt
  groutConductivity := if kd.grout then fm.num4 grout.k else fm.num grout.k
  groutCapacity := fm.num4 grout.rhoCp
  pipeConductivity := if kd.pipe then fm.num4 pipe.k else fm.num pipe.k
  pipeCapacity := fm.num4 pipe.rhoCp
  positions := fm.points pipe.pos
  oneRadius := kd.radius
  inner := if kd.radius then fm.num4 pipe.rIn else fm.num pipe.rIn
  outer := if kd.radius then fm.num4 pipe.rOut else fm.num pipe.rOut
  spacing := fm.num4 pipe.s
  roughness := fm.num pipe.eps
  number := fm.int ((pipe.pos.length / 2 : ℕ) : ℤ)
  fluid := fm.fluid fluid

set_option simprocs false in
theorem base_lines {cls : String} {t : UTube} {Re : ℝ}
    (hRe : reportedReynolds t.mPipe t.pipe.rIn t.pipe.eps t.fluid = .ok Re) :
    baseText fm kd cls t = .ok (String.join ((partsOf fm kd cls t.mBorehole t.mPipe t.fluid t.b t.pipe t.grout t.soil).lines ++ [
      "Reynolds number                         = ", fm.num4 Re, "\n",
      "Convection coefficient                  = ", fm.num4 t.hf, " (W/m2.K)\n",
      "Pipe resistance                         = ", fm.num4 t.Rp, " (m.K/W)\n",
      "Fluid resistance                        = ", fm.num4 t.Rf, " (m.K/W)\n"])) := by
  unfold baseText
  rw [hRe, Except.ok_bind]
  rw [unit_eq (c := "Mass flow borehole") (u := "Mass flow borehole                      = ") (t := " (kg/s)") (tn := " (kg/s)\n") _ (by decide +kernel) (by decide +kernel),
    unit_eq (c := "Mass flow pipe") (u := "Mass flow pipe                          = ") (t := " (kg/s)") (tn := " (kg/s)\n") _ (by decide +kernel) (by decide +kernel),
    justify_eq (c := "Reynolds number") (u := "Reynolds number                         = ") _ (by decide +kernel),
    unit_eq (c := "Convection coefficient") (u := "Convection coefficient                  = ") (t := " (W/m2.K)") (tn := " (W/m2.K)\n") _ (by decide +kernel) (by decide +kernel),
    unit_eq (c := "Pipe resistance") (u := "Pipe resistance                         = ") (t := " (m.K/W)") (tn := " (m.K/W)\n") _ (by decide +kernel) (by decide +kernel),
    unit_eq (c := "Fluid resistance") (u := "Fluid resistance                        = ") (t := " (m.K/W)") (tn := " (m.K/W)\n") _ (by decide +kernel) (by decide +kernel)]
  rw [rule_eq, soil_lines, grout_lines, pipe_lines]
  have e3 : "'>\n" = "'>" ++ "\n" := by decide +kernel
  unfold Parts.lines partsOf
  rw [e3, ← join_lines]
  refine congrArg Except.ok ?_
  simp [String.append_assoc, typed]

theorem reynolds_ok {m r eps : ℝ} {fl : Fluid} (hmu : fl.mu ≠ 0) (hrho : fl.rho ≠ 0) (hr : eps ^ 2 ≠ r ^ 2) :
    computeReynoldsConcentric m r eps fl = .ok (2 * m / (π * fl.mu * (r + eps))) := by
  have hA : π * (eps ^ 2 - r ^ 2) ≠ 0 := mul_ne_zero pi_ne_zero (sub_ne_zero.2 hr)
  unfold computeReynoldsConcentric
  simp only [pyDiv_ok hrho, Except.ok_bind, pyDiv_ok hA, pyDiv_ok hmu]
  have h1 : r + eps ≠ 0 := by
    intro h
    apply hr
    rw [eq_neg_of_add_eq_zero_left h, neg_sq]
  have h2 : eps - r ≠ 0 := by
    intro h
    apply hr
    rw [sub_eq_zero.1 h]
  have e : eps ^ 2 - r ^ 2 = (eps - r) * (r + eps) := by ring
  congr 1
  rw [e]
  field_simp

theorem reynolds_pipe {m r eps : ℝ} {fl : Fluid} (hmu : fl.mu ≠ 0) (hrho : fl.rho ≠ 0) (hr : r ≠ 0) :
    computeReynolds m r eps fl = .ok (2 * m / (π * fl.mu * r)) := by
  have hA : π * r ^ 2 ≠ 0 := mul_ne_zero pi_ne_zero (pow_ne_zero 2 hr)
  have hD : 2 * r ≠ 0 := mul_ne_zero two_ne_zero hr
  unfold computeReynolds
  simp only [pyDiv_ok hD, pyDiv_ok hrho, Except.ok_bind, pyDiv_ok hA, pyDiv_ok hmu]
  congr 1
  field_simp

set_option simprocs false in
theorem single_page {t : UTube} {Re : ℝ} (hRe : reportedReynolds t.mPipe t.pipe.rIn t.pipe.eps t.fluid = .ok Re) :
    singleText fm ext kd t = .ok (UTubePage.text
      { parts := partsOf fm kd "SingleUTube" t.mBorehole t.mPipe t.fluid t.b t.pipe t.grout t.soil, reynolds := fm.num4 Re,
        convection := fm.num4 t.hf, pipeResistance := fm.num4 t.Rp, fluidResistance := fm.num4 t.Rf,
        effective := fm.num4 (ext.rbStar t.circuit t.b t.mBorehole t.fluid.cp), config := none }) := by
  unfold singleText
  rw [base_lines hRe, Except.ok_bind]
  dsimp only
  rw [unit_eq (c := "Effective borehole resistance") (u := "Effective borehole resistance           = ") (t := " (m.K/W)") (tn := " (m.K/W)\n") _ (by decide +kernel) (by decide +kernel)]
  unfold UTubePage.text
  refine congrArg Except.ok ?_
  dsimp only
  rw [← join_lines, ← join_lines, ← join_lines]
  simp [String.append_assoc]

set_option simprocs false in
theorem multiple_page {t : UTube} {Re : ℝ} (hRe : reportedReynolds t.mPipe t.pipe.rIn t.pipe.eps t.fluid = .ok Re)
    {config : String} (hc : t.circuit.config = some config) :
    multipleText fm ext kd t = .ok (UTubePage.text
      { parts := partsOf fm kd "MultipleUTube" t.mBorehole t.mPipe t.fluid t.b t.pipe t.grout t.soil, reynolds := fm.num4 Re,
        convection := fm.num4 t.hf, pipeResistance := fm.num4 t.Rp, fluidResistance := fm.num4 t.Rf,
        effective := fm.num4 (ext.rbStar t.circuit t.b t.mBorehole t.fluid.cp), config := some config }) := by
  unfold multipleText
  rw [base_lines hRe, Except.ok_bind, hc]
  dsimp only
  rw [unit_eq (c := "Effective borehole resistance") (u := "Effective borehole resistance           = ") (t := " (m.K/W)") (tn := " (m.K/W)\n") _ (by decide +kernel) (by decide +kernel),
    justify_eq (c := "Config") (u := "Config                                  = ") _ (by decide +kernel)]
  unfold UTubePage.text
  refine congrArg Except.ok ?_
  dsimp only
  rw [← join_lines, ← join_lines, ← join_lines]
  simp [String.append_assoc]

set_option simprocs false in
theorem coaxial_page {c : Coax} {Ra Re : ℝ}
    (hRa : computeReynoldsConcentric c.mPipe c.pipe.rInner.2 c.pipe.rOuter.1 c.fluid = .ok Ra)
    (hRe : computeReynolds c.mPipe c.pipe.rInner.1 c.pipe.eps c.fluid = .ok Re) :
    coaxialText fm ext kd c = .ok (CoaxPage.text
      { parts :=
          { kind := "CoaxialPipe", flow := fm.num4 c.mBorehole, pipeFlow := fm.num4 c.mPipe, hole := fm.hole c.b,
            soilConductivity := if kd.soil then fm.num4 c.soil.k else fm.num c.soil.k,
            soilCapacity := fm.num4 c.soil.rhoCp, soilTemperature := fm.num4 c.soil.ugt,
            groutConductivity := if kd.grout then fm.num4 c.grout.k else fm.num c.grout.k,
            groutCapacity := fm.num4 c.grout.rhoCp, pipeConductivity := fm.list2 c.pipe.k,
            pipeCapacity := fm.num4 c.pipe.rhoCp, positions := fm.tuple2 c.pipe.pos, oneRadius := false,
            inner := fm.list2 c.pipe.rInner, outer := fm.list2 c.pipe.rOuter, spacing := fm.num4 c.pipe.s,
            roughness := fm.num c.pipe.eps, number := fm.int 1, fluid := fm.fluid c.fluid },
        innerPipe := fm.num4 c.RpIn, outerPipe := fm.num4 c.RpOut, grout := fm.num4 c.Rgrout,
        reynoldsAnnulus := fm.num4 Ra, innerCoefficient := fm.num4 c.hAnIn, outerCoefficient := fm.num4 c.hAnOut,
        innerResistance := fm.num4 c.RfAnIn, outerResistance := fm.num4 c.RfAnOut, reynolds := fm.num4 Re,
        convection := fm.num4 c.hIn, fluidFluid := fm.num4 c.Rff, fluidPipe := fm.num4 c.Rfp,
        effective := fm.num4 (ext.rbStarCoax c.pipe.rInner c.pipe.rOuter c.soil.k c.grout.k c.Rff c.Rfp c.b c.mBorehole
          c.fluid.cp) }) := by
  unfold coaxialText
  rw [hRa, Except.ok_bind, hRe, Except.ok_bind]
  dsimp only
  rw [unit_eq (c := "Mass flow borehole") (u := "Mass flow borehole                      = ") (t := " (kg/s)") (tn := " (kg/s)\n") _ (by decide +kernel) (by decide +kernel),
    unit_eq (c := "Mass flow pipe") (u := "Mass flow pipe                          = ") (t := " (kg/s)") (tn := " (kg/s)\n") _ (by decide +kernel) (by decide +kernel),
    unit_eq (c := "Inner pipe resistance") (u := "Inner pipe resistance                   = ") (t := " (m.K/W)") (tn := " (m.K/W)\n") _ (by decide +kernel) (by decide +kernel),
    unit_eq (c := "Outer pipe resistance") (u := "Outer pipe resistance                   = ") (t := " (m.K/W)") (tn := " (m.K/W)\n") _ (by decide +kernel) (by decide +kernel),
    unit_eq (c := "Grout resistance") (u := "Grout resistance                        = ") (t := " (m.K/W)") (tn := " (m.K/W)\n") _ (by decide +kernel) (by decide +kernel),
    justify_eq (c := "Reynolds annulus") (u := "Reynolds annulus                        = ") _ (by decide +kernel),
    unit_eq (c := "Inner annulus convection coef") (u := "Inner annulus convection coef           = ") (t := " (W/m2.K)") (tn := " (W/m2.K)\n") _ (by decide +kernel) (by decide +kernel),
    unit_eq (c := "Outer annulus convection coef") (u := "Outer annulus convection coef           = ") (t := " (W/m2.K)") (tn := " (W/m2.K)\n") _ (by decide +kernel) (by decide +kernel),
    unit_eq (c := "Inner annulus resistance") (u := "Inner annulus resistance                = ") (t := " (m.K/W)") (tn := " (m.K/W)\n") _ (by decide +kernel) (by decide +kernel),
    unit_eq (c := "Outer annulus resistance") (u := "Outer annulus resistance                = ") (t := " (m.K/W)") (tn := " (m.K/W)\n") _ (by decide +kernel) (by decide +kernel),
    justify_eq (c := "Reynolds inner") (u := "Reynolds inner                          = ") _ (by decide +kernel),
    unit_eq (c := "Inner Convection coefficient") (u := "Inner Convection coefficient            = ") (t := " (W/m2.K)") (tn := " (W/m2.K)\n") _ (by decide +kernel) (by decide +kernel),
    unit_eq (c := "Fluid-to-fluid resistance") (u := "Fluid-to-fluid resistance               = ") (t := " (m.K/W)") (tn := " (m.K/W)\n") _ (by decide +kernel) (by decide +kernel),
    unit_eq (c := "Fluid-to-pipe resistance") (u := "Fluid-to-pipe resistance                = ") (t := " (m.K/W)") (tn := " (m.K/W)\n") _ (by decide +kernel) (by decide +kernel),
    unit_eq (c := "Effective borehole resistance") (u := "Effective borehole resistance           = ") (t := " (m.K/W)") (tn := " (m.K/W)\n") _ (by decide +kernel) (by decide +kernel)]
  rw [rule_eq, soil_lines, grout_lines, coaxPipe_lines]
  have e : "<class 'ghedt.peak_load_analysis_tool.borehole_heat_exchangers.CoaxialPipe'>" ++ "\n" =
      "<class 'ghedt.peak_load_analysis_tool.borehole_heat_exchangers." ++ ("CoaxialPipe" ++ "'>\n") := by decide +kernel
  unfold CoaxPage.text Parts.lines
  rw [e, ← join_lines]
  refine congrArg Except.ok ?_
  simp [String.append_assoc, typed]

/-! ## after any updates -/

/-- `update_thermal_resistance(m, fluid)` called again and again: flow and fluid may be given or not. -/
def updated (ext : Ext) (us : List (Option ℝ × Option Fluid)) (t : UTube) : UTube :=
  us.foldl (fun t u => (updateThermal ext u.1 u.2 t).2) t

/-- the same for the class of several U-tubes -/
def updatedMultiple (ext : Ext) (us : List (Option ℝ × Option Fluid)) (t : UTube) : UTube :=
  us.foldl (fun t u => (updateThermalMultiple ext u.1 u.2 t).2) t

theorem last_cons {α β : Type} (f : α → Option β) (u : α) (us : List α) (d : β) :
    ((u :: us).filterMap f).getLastD d = (us.filterMap f).getLastD ((f u).getD d) := by
  cases h : f u with
  | none => rw [List.filterMap_cons_none h]; rfl
  | some v => rw [List.filterMap_cons_some h, List.getLastD_cons]; rfl

theorem updated_eq {m mp : ℝ} {fluid : Fluid} {b : Borehole} {pipe : Pipe} {grout : Grout} {soil : Soil} {n : ℤ}
    {config : Option String} {t : UTube} (hmp : massFlowRatePipe m config = .ok mp)
    (ht : mkUTube ext m fluid b pipe grout soil n config = .ok t) (us : List (Option ℝ × Option Fluid)) :
    let m' := (us.filterMap Prod.fst).getLastD m
    let fl := (us.filterMap Prod.snd).getLastD fluid
    let hf := ext.hPipe mp pipe.rIn fl pipe.eps
    let Rp := log (pipe.rOut / pipe.rIn) / (2 * π * pipe.k)
    let Rf := 1 / (hf * 2 * π * pipe.rIn)
    let t' : UTube := ⟨m', mp, fl, b, pipe, grout, soil, hf, Rp, Rf,
      ⟨pipe.pos, pipe.rIn, pipe.rOut, soil.k, grout.k, Rf + Rp, n, config⟩⟩
    updated ext us t = t' ∧ updatedMultiple ext us t = t' := by
  have key : ∀ (us : List (Option ℝ × Option Fluid)) (m : ℝ) (fluid : Fluid),
      let T : ℝ → Fluid → UTube := fun m fl => ⟨m, mp, fl, b, pipe, grout, soil, ext.hPipe mp pipe.rIn fl pipe.eps,
        rConduction pipe.rIn pipe.rOut pipe.k, 1 / (ext.hPipe mp pipe.rIn fl pipe.eps * 2 * π * pipe.rIn),
        ⟨pipe.pos, pipe.rIn, pipe.rOut, soil.k, grout.k, 1 / (ext.hPipe mp pipe.rIn fl pipe.eps * 2 * π * pipe.rIn) +
          rConduction pipe.rIn pipe.rOut pipe.k, n, config⟩⟩
      updated ext us (T m fluid) = T ((us.filterMap Prod.fst).getLastD m) ((us.filterMap Prod.snd).getLastD fluid) ∧
      updatedMultiple ext us (T m fluid) =
        T ((us.filterMap Prod.fst).getLastD m) ((us.filterMap Prod.snd).getLastD fluid) := by
    intro us
    induction us with
    | nil => intro m fluid; exact ⟨rfl, rfl⟩
    | cons u us ih =>
      intro m fluid
      rw [last_cons, last_cons]
      exact ih (u.1.getD m) (u.2.getD fluid)
  unfold mkUTube at ht
  rw [hmp, Except.ok_bind] at ht
  cases ht
  exact key us m fluid

/-! ## C110 — what the text of an exchanger says -/

/-- C110: the text of a single U-tube, just made or after any updates of flow and fluid: the flow through the borehole,
the fluid and the effective resistance are those given last; the flow through the pipe, and with it the Reynolds number and
the convection coefficient, stays the one the exchanger was made with.  The Reynolds number shown is `2 m / (π μ (r + ε))`. -/
theorem C110_single (fm : Format) (kd : Kinds) (m : ℝ) (fluid : Fluid) (b : Borehole) (pipe : Pipe) (grout : Grout) (soil : Soil)
    (t : UTube) (ht : mkSingle ext m fluid b pipe grout soil = .ok t) (us : List (Option ℝ × Option Fluid)) (m' : ℝ)
    (fl : Fluid) (hm' : (us.filterMap Prod.fst).getLastD m = m') (hfl : (us.filterMap Prod.snd).getLastD fluid = fl)
    (hmu : fl.mu ≠ 0) (hrho : fl.rho ≠ 0) (hr : pipe.eps ^ 2 ≠ pipe.rIn ^ 2) :
    let hf := ext.hPipe m pipe.rIn fl pipe.eps
    let Rp := log (pipe.rOut / pipe.rIn) / (2 * π * pipe.k)
    let Rf := 1 / (hf * 2 * π * pipe.rIn)
    exchangerText fm ext kd (.single (updated ext us t)) = .ok (UTubePage.text
      { parts := partsOf fm kd "SingleUTube" m' m fl b pipe grout soil
        reynolds := fm.num4 (2 * m / (π * fl.mu * (pipe.rIn + pipe.eps)))
        convection := fm.num4 hf
        pipeResistance := fm.num4 Rp
        fluidResistance := fm.num4 Rf
        effective := fm.num4 (ext.rbStar ⟨pipe.pos, pipe.rIn, pipe.rOut, soil.k, grout.k, Rf + Rp, 1, none⟩ b m' fl.cp)
        config := none }) := by
  have h := (updated_eq (mp := m) (by simp [massFlowRatePipe]) ht us).1
  rw [hm', hfl] at h
  rw [h]
  exact single_page (reynolds_ok hmu hrho hr)

/-- C110: the text of several U-tubes: through a pipe flows half the flow if they are in parallel. -/
theorem C110_multiple (fm : Format) (kd : Kinds) (m : ℝ) (fluid : Fluid) (b : Borehole) (pipe : Pipe) (grout : Grout) (soil : Soil)
    (config : String) (mp : ℝ) (hmp : config = "series" ∧ mp = m ∨ config = "parallel" ∧ mp = m / 2) (t : UTube)
    (ht : mkMultiple ext m fluid b pipe grout soil (some config) = .ok t) (us : List (Option ℝ × Option Fluid)) (m' : ℝ)
    (fl : Fluid) (hm' : (us.filterMap Prod.fst).getLastD m = m') (hfl : (us.filterMap Prod.snd).getLastD fluid = fl)
    (hmu : fl.mu ≠ 0) (hrho : fl.rho ≠ 0) (hr : pipe.eps ^ 2 ≠ pipe.rIn ^ 2) :
    let hf := ext.hPipe mp pipe.rIn fl pipe.eps
    let Rp := log (pipe.rOut / pipe.rIn) / (2 * π * pipe.k)
    let Rf := 1 / (hf * 2 * π * pipe.rIn)
    exchangerText fm ext kd (.multiple (updatedMultiple ext us t)) = .ok (UTubePage.text
      { parts := partsOf fm kd "MultipleUTube" m' mp fl b pipe grout soil
        reynolds := fm.num4 (2 * mp / (π * fl.mu * (pipe.rIn + pipe.eps)))
        convection := fm.num4 hf
        pipeResistance := fm.num4 Rp
        fluidResistance := fm.num4 Rf
        effective := fm.num4 (ext.rbStar ⟨pipe.pos, pipe.rIn, pipe.rOut, soil.k, grout.k, Rf + Rp,
          ((pipe.pos.length / 2 : ℕ) : ℤ), some config⟩ b m' fl.cp)
        config := some config }) := by
  have h := (updated_eq (mp := mp) (by rcases hmp with ⟨rfl, rfl⟩ | ⟨rfl, rfl⟩ <;> simp [massFlowRatePipe]) ht us).2
  rw [hm', hfl] at h
  rw [h]
  exact multiple_page (reynolds_ok hmu hrho hr) rfl

/-- `update_thermal_resistance` of a coaxial exchanger called again and again. -/
def updatedCoax (ext : Ext) (us : List (Option ℝ × Option Fluid)) (c : Coax) : Coax :=
  us.foldl (fun c u => (coaxUpdateThermal ext u.1 u.2 c).2) c

theorem updatedCoax_eq (m : ℝ) (fluid : Fluid) (b : Borehole) (pipe : CoaxPipe) (grout : Grout) (soil : Soil)
    (us : List (Option ℝ × Option Fluid)) :
    updatedCoax ext us (mkCoax ext m fluid b pipe grout soil) =
      { mkCoax ext ((us.filterMap Prod.fst).getLastD m) ((us.filterMap Prod.snd).getLastD fluid) b pipe grout soil with
        mPipe := m } := by
  have key : ∀ (us : List (Option ℝ × Option Fluid)) (m' : ℝ) (fluid : Fluid),
      updatedCoax ext us { mkCoax ext m' fluid b pipe grout soil with mPipe := m } =
      { mkCoax ext ((us.filterMap Prod.fst).getLastD m') ((us.filterMap Prod.snd).getLastD fluid) b pipe grout soil with
        mPipe := m } := by
    intro us
    induction us with
    | nil => intro m' fluid; rfl
    | cons u us ih =>
      intro m' fluid
      rw [last_cons, last_cons]
      exact ih (u.1.getD m') (u.2.getD fluid)
  exact key us m fluid

/-- C110: the text of a coaxial exchanger, just made or after any updates: here the convection coefficients are those of
the flow given last, the flow through the pipe and the two Reynolds numbers those of the flow it was made with. -/
theorem C110_coaxial (fm : Format) (kd : Kinds) (m : ℝ) (fluid : Fluid) (b : Borehole) (pipe : CoaxPipe) (grout : Grout)
    (soil : Soil) (us : List (Option ℝ × Option Fluid)) (m' : ℝ) (fl : Fluid)
    (hm' : (us.filterMap Prod.fst).getLastD m = m') (hfl : (us.filterMap Prod.snd).getLastD fluid = fl) (hmu : fl.mu ≠ 0)
    (hrho : fl.rho ≠ 0) (hr : pipe.rInner.1 ≠ 0) (ha : pipe.rOuter.1 ^ 2 ≠ pipe.rInner.2 ^ 2) :
    let hAn := ext.hAnnulus m' pipe.rInner.2 pipe.rOuter.1 fl pipe.eps
    let hIn := ext.hPipe m' pipe.rInner.1 fl pipe.eps
    let RpIn := log (pipe.rInner.2 / pipe.rInner.1) / (2 * π * pipe.k.1)
    let RpOut := log (pipe.rOuter.2 / pipe.rOuter.1) / (2 * π * pipe.k.2)
    let RaIn := 1 / (hAn.1 * 2 * π * pipe.rInner.2)
    let RaOut := 1 / (hAn.2 * 2 * π * pipe.rOuter.1)
    let Rff := 1 / (hIn * 2 * π * pipe.rInner.1) + RpIn + RaIn
    let Rfp := RpOut + RaOut
    exchangerText fm ext kd (.coaxial (updatedCoax ext us (mkCoax ext m fluid b pipe grout soil))) = .ok (CoaxPage.text
      { parts :=
          { kind := "CoaxialPipe", flow := fm.num4 m', pipeFlow := fm.num4 m, hole := fm.hole b,
            soilConductivity := if kd.soil then fm.num4 soil.k else fm.num soil.k,
            soilCapacity := fm.num4 soil.rhoCp, soilTemperature := fm.num4 soil.ugt,
            groutConductivity := if kd.grout then fm.num4 grout.k else fm.num grout.k,
            groutCapacity := fm.num4 grout.rhoCp, pipeConductivity := fm.list2 pipe.k,
            pipeCapacity := fm.num4 pipe.rhoCp, positions := fm.tuple2 pipe.pos, oneRadius := false,
            inner := fm.list2 pipe.rInner, outer := fm.list2 pipe.rOuter, spacing := fm.num4 pipe.s,
            roughness := fm.num pipe.eps, number := fm.int 1, fluid := fm.fluid fl }
        innerPipe := fm.num4 RpIn
        outerPipe := fm.num4 RpOut
        grout := fm.num4 (log (b.rb / pipe.rOuter.2) / (2 * π * grout.k))
        reynoldsAnnulus := fm.num4 (2 * m / (π * fl.mu * (pipe.rInner.2 + pipe.rOuter.1)))
        innerCoefficient := fm.num4 hAn.1
        outerCoefficient := fm.num4 hAn.2
        innerResistance := fm.num4 RaIn
        outerResistance := fm.num4 RaOut
        reynolds := fm.num4 (2 * m / (π * fl.mu * pipe.rInner.1))
        convection := fm.num4 hIn
        fluidFluid := fm.num4 Rff
        fluidPipe := fm.num4 Rfp
        effective := fm.num4 (ext.rbStarCoax pipe.rInner pipe.rOuter soil.k grout.k Rff Rfp b m' fl.cp) }) := by
  have h := updatedCoax_eq (ext := ext) m fluid b pipe grout soil us
  rw [hm', hfl] at h
  rw [h]
  exact coaxial_page (reynolds_ok hmu hrho ha) (reynolds_pipe hmu hrho hr)

/-- C110: a pipe as rough as it is wide cannot be printed: the text of a U-tube raises `ZeroDivisionError`. -/
theorem C110_rough (fm : Format) (kd : Kinds) (t : UTube) (hrho : t.fluid.rho ≠ 0) (h : t.pipe.eps = t.pipe.rIn) :
    exchangerText fm ext kd (.single t) = .error .zeroDivisionError ∧
      exchangerText fm ext kd (.multiple t) = .error .zeroDivisionError := by
  have e : reportedReynolds t.mPipe t.pipe.rIn t.pipe.eps t.fluid = .error .zeroDivisionError := by
    rw [h]
    exact C76_no_annulus _ _ _ hrho
  constructor
  · show singleText fm ext kd t = _
    unfold singleText baseText
    rw [e]
    rfl
  · show multipleText fm ext kd t = _
    unfold multipleText baseText
    rw [e]
    rfl

/-! ## the whole text -/

/-- The text of the equivalent tube `s`: the effective resistance it shows is the one the short-time response is computed
with. -/
def tubePage (fm : Format) (ext : Ext) (kt : Kinds) (s : UTube) : UTubePage where
  parts := partsOf fm kt "SingleUTube" s.mBorehole s.mPipe s.fluid s.b s.pipe s.grout s.soil
  reynolds := fm.num4 (2 * s.mPipe / (π * s.fluid.mu * (s.pipe.rIn + s.pipe.eps)))
  convection := fm.num4 s.hf
  pipeResistance := fm.num4 s.Rp
  fluidResistance := fm.num4 s.Rf
  effective := fm.num4 (radialTube ext s).Rb
  config := none

/-- The text of the simulation parameters of `env`. -/
def parametersPage (fm : Format) (env : Whole.Env) : ParametersPage where
  start := fm.int env.startMonth
  stop := fm.int env.endMonth
  maxTemperature := fm.num env.maxEFT
  minTemperature := fm.num env.minEFT
  maxHeight := fm.num env.maxHeight
  minHeight := fm.num env.minHeight

/-- the texts used -/
def textWith (fm : Format) (env : Whole.Env) (X T : String) (F : GL.Frame ℝ) : Text where
  int := fun n => fm.int (n : ℤ)
  num := fm.num
  num4 := fm.num4
  bhe := fun _ => X
  tube := fun _ => T
  params := (parametersPage fm env).text
  peaks := "<class 'ghedt.peak_load_analysis_tool.ground_loads.HybridLoad'>\n" ++ fm.frame F

theorem fullReport_eq {kx kt : Kinds} {env : Whole.Env} {st : Whole.State} {X : String} {s : UTube} {F : GL.Frame ℝ}
    (hX : exchangerText fm env.ext kx st.bhe = .ok X) (hs : tubeOf st = s) (hmu : s.fluid.mu ≠ 0) (hrho : s.fluid.rho ≠ 0)
    (hr : s.pipe.eps ^ 2 ≠ s.pipe.rIn ^ 2) (hF : GL.peakTable env.rejection env.extraction = .ok F) :
    fullReport fm kx kt env st = report (textWith fm env X (tubePage fm env.ext kt s).text F) env st := by
  have hT : singleText fm env.ext kt s = .ok (tubePage fm env.ext kt s).text := single_page (reynolds_ok hmu hrho hr)
  have hP : peaksText fm env =
      .ok ("<class 'ghedt.peak_load_analysis_tool.ground_loads.HybridLoad'>\n" ++ fm.frame F) := by
    unfold peaksText
    rw [hF, Except.ok_bind]
    have e : "<class 'ghedt.peak_load_analysis_tool.ground_loads.HybridLoad'>" ++ "\n" =
      "<class 'ghedt.peak_load_analysis_tool.ground_loads.HybridLoad'>\n" := by decide +kernel
    rw [e]
    rfl
  unfold fullReport
  rw [St.get_bind, hs, St.lift_ok hX, St.lift_ok hT, St.lift_ok hP, params_lines]
  rfl

section
variable {env : Whole.Env} {lo hi : ℝ} {x : Exchanger} {s0 : Whole.State}

theorem evaluated_parts (hc : Covered env lo hi x s0) {ops : List Op}
    (hops : ∀ y, Op.height y ∈ ops → Within env lo hi y) {st : Whole.State}
    (hst : Evaluated env lo hi (ops.foldl (perform env) s0) st) {h : ℝ} (hh : (borehole st.bhe).H = h) {s : UTube}
    (hR : Ready env lo hi x h s) : st.bhe = setHeight h x ∧ tubeOf st = s := by
  obtain ⟨hk, -⟩ := hc.facts
  obtain ⟨⟨⟨z, hz, -⟩, -⟩, ⟨s', hco⟩, -⟩ := hst.facts hc hops
  obtain rfl : z = h := by rw [← hh, hz, borehole_setHeight hk]
  refine ⟨hz, ?_⟩
  have h1 := hco.converts
  rw [hz, hR.converts] at h1
  cases h1
  exact hco.tube

/-- C110: the whole text of an exchanger in the state left by a simulation or by sizing, after any use: besides what C100
says, the text of the exchanger at the height it has (see above), of its equivalent tube for that height, of the simulation
parameters, and the table of the peaks. -/
theorem C110_report (fm : Format) (kx kt : Kinds) (hc : Covered env lo hi x s0) (ops : List Op)
    (hops : ∀ y, Op.height y ∈ ops → Within env lo hi y) (st : Whole.State)
    (hst : Evaluated env lo hi (ops.foldl (perform env) s0) st) (h : ℝ) (hh : (borehole st.bhe).H = h) (s : UTube)
    (hR : Ready env lo hi x h s) (a b : ℝ) (hT : Times env s a b) (h27 : env.db.logTime.length = 27)
    (u w : ℝ) (hu : maxNumber st.HPEFT = .ok u) (hw : minNumber st.HPEFT = .ok w) (X : String)
    (hX : exchangerText fm env.ext kx (setHeight h x) = .ok X) (hmu : s.fluid.mu ≠ 0) (hrho : s.fluid.rho ≠ 0)
    (hr : s.pipe.eps ^ 2 ≠ s.pipe.rIn ^ 2) (F : GL.Frame ℝ) (hF : GL.peakTable env.rejection env.extraction = .ok F) :
    (charTime s * exp a < 1 / 10 ^ 12 + 120 * 49 → (fullReport fm kx kt env st).1 = .error .valueError) ∧
    (1 / 10 ^ 12 + 120 * 49 ≤ charTime s * exp a → ∃ pairs rad lt gs ans tb, (fullReport fm kx kt env st).1 = .ok (Page.text
        { boreholes := fm.int env.db.locations.length, depth := fm.num4 h, spacing := fm.num4 env.bSpacing,
          exchanger := X, tube := (tubePage fm env.ext kt s).text, parameters := (parametersPage fm env).text,
          temperatures := some (fm.num4 u, fm.num4 w, fm.num4 (max (u - env.maxEFT) (env.minEFT - w))),
          peaks := "<class 'ghedt.peak_load_analysis_tool.ground_loads.HybridLoad'>\n" ++ fm.frame F,
          places := env.db.locations.map fun q => (fm.num q.1, fm.num q.2),
          curve := pairs.map fun q => (fm.num4 q.1, fm.num4 q.2) }) ∧
      calcSts env.solve (radialTube env.ext s) none false env.fuel = .ok (rad, lt, gs) ∧
      GF.request env.spl env.db (env.bSpacing / h) "default" {} = (.ok ans, tb) ∧
      pairs.Sublist ((lt.zip gs).filter (fun p => decide (p.1 ≤ a)) ++
        env.db.logTime.zip (ans.g.map fun v => v - log ((borehole x).rb / ans.rb))) ∧
      (env.db.logTime.zip (ans.g.map fun v => v - log ((borehole x).rb / ans.rb))) <:+ pairs ∧
      (pairs.map Prod.fst).Pairwise (· < ·) ∧ 77 ≤ pairs.length ∧ pairs.length ≤ 126) := by
  obtain ⟨h1, h2⟩ := evaluated_parts hc hops hst hh hR
  rw [← h1] at hX
  rw [fullReport_eq hX h2 hmu hrho hr hF]
  exact print_evaluated hc ops hops st hst h hh s hR a b hT h27 u w hu hw _

end

/-- C110: the whole text of what `find_design` leaves (every routine but bi-zoned): the exchanger is the one made for the
maximum height and the field selected, and the table is that of the hourly loads, in kilowatts, split by sign. -/
theorem C110_design (fm : Format) (kx kt : Kinds) {p : WholeSearch.Problem} (routine : String) (hz : routine ≠ "bi-zoned")
    (c : Design.Candidates ℝ) (c' : WholeSearch.State) (k : ℤ) (f : List (ℝ × ℝ))
    (h : WholeSearch.findDesign p routine c {} = (.ok (some (k, f)), c')) (bhe : Exchanger) (s : UTube)
    (hu : WholeSearch.Usable p f p.maxHeight bhe s) (hs : WholeSearch.Seam s) (X : String)
    (hX : exchangerText fm p.ext kx bhe = .ok X) (hmu : s.fluid.mu ≠ 0) (hrho : s.fluid.rho ≠ 0)
    (hr : s.pipe.eps ^ 2 ≠ s.pipe.rIn ^ 2) :
    ∃ y, c'.held = some y ∧
    (charTime s * exp (-(85 / 10)) < 1 / 10 ^ 12 + 120 * 49 →
      (fullReport fm kx kt y.env y.state).1 = .error .valueError) ∧
    (1 / 10 ^ 12 + 120 * 49 ≤ charTime s * exp (-(85 / 10)) → ∃ (pairs : List (ℝ × ℝ)) (B : ℝ) (F : GL.Frame ℝ)
      (rad : Radial) (lt gs : List ℝ) (cl hl : GL.Loads ℝ) (hy : GL.Hybrid ℝ),
      (fullReport fm kx kt y.env y.state).1 = .ok (Page.text
        { boreholes := fm.int f.length, depth := fm.num4 p.maxHeight, spacing := fm.num4 B,
          exchanger := X, tube := (tubePage fm p.ext kt s).text,
          parameters := ParametersPage.text
            { start := fm.int p.startMonth, stop := fm.int p.endMonth, maxTemperature := fm.num p.maxEFT,
              minTemperature := fm.num p.minEFT, maxHeight := fm.num p.maxHeight, minHeight := fm.num p.minHeight },
          temperatures := none,
          peaks := "<class 'ghedt.peak_load_analysis_tool.ground_loads.HybridLoad'>\n" ++ fm.frame F,
          places := f.map fun q => (fm.num q.1, fm.num q.2),
          curve := pairs.map fun q => (fm.num4 q.1, fm.num4 q.2) }) ∧
      Utilities.boreholeSpacing p.borehole.rb f = .ok B ∧
      calcSts p.solve (radialTube p.ext s) none false p.fuel = .ok (rad, lt, gs) ∧
      GL.mkHybrid (respOf (radialTube p.ext s) rad lt gs) ((p.hourly.map fun x => max (-x) 0).map (· / 1000))
        ((p.hourly.map fun x => max x 0).map (· / 1000)) p.startMonth p.endMonth 2019 = .ok (cl, hl, hy) ∧
      GL.peakTable cl hl = .ok F) := by
  obtain ⟨k', f', y, -, -, hre, -, hy, hheld, -⟩ := WholeSearch.C93_returned routine hz c c' _ h
  obtain rfl : f' = f := by cases hre; rfl
  obtain ⟨B, g, sts, cl, hl, hyb, -, -, -, h1, -, -, hmk, hB, hf⟩ := WholeSearch.fresh_ok hu
  rw [hy] at hf
  cases hf
  have htube : tubeOf ⟨bhe, s, sts, {}, [], []⟩ = s := by
    have hco := hu.converts
    unfold tubeOf
    cases bhe with
    | single t => cases hco; rfl
    | _ => rfl
  obtain ⟨F, hF, -⟩ := GL.C109_table hmk
  obtain ⟨y, hy', c1, c2⟩ := C100_design routine hz c c' k f' h bhe s hu hs
    (textWith fm (WholeSearch.envOf p f' p.maxHeight B g (cl, hl, hyb)) X (tubePage fm p.ext kt s).text F)
  rw [hheld] at hy'
  cases hy'
  have hfull := fullReport_eq (fm := fm) (kx := kx) (kt := kt)
    (env := WholeSearch.envOf p f' p.maxHeight B g (cl, hl, hyb)) (st := ⟨bhe, s, sts, {}, [], []⟩) hX htube hmu hrho hr hF
  refine ⟨_, hheld, ?_, ?_⟩
  · rw [hfull]
    exact c1
  · intro hge
    obtain ⟨pairs, rad, lt, gs, g', B', e1, -, -, e2, -⟩ := c2 hge
    rw [hB] at e2
    cases e2
    refine ⟨pairs, B, F, sts.1, sts.2.1, sts.2.2, cl, hl, hyb, ?_, hB, h1, hmk, hF⟩
    rw [hfull]
    exact e1

/-! ### the theorems apply -/

/-- a double U-tube in parallel, made, then given another flow: half the first flow is still what goes through a pipe -/
example (fm : Format) (kd : Kinds) (b : Borehole) (pos : List (ℝ × ℝ)) :
    ∃ t X, mkMultiple Whole.exExt 2 Whole.exWater b ⟨pos, 1 / 100, 13 / 1000, 4 / 100, 1 / 1000, 2, 5⟩ ⟨1, 1⟩ ⟨2, 3, 18⟩
        (some "parallel") = .ok t ∧
      exchangerText fm Whole.exExt kd (.multiple (updatedMultiple Whole.exExt [(some 3, none), (none, none)] t)) =
        .ok (UTubePage.text X) ∧
      X.parts.flow = fm.num4 3 ∧ X.parts.pipeFlow = fm.num4 (2 / 2) ∧ X.config = some "parallel" := by
  refine ⟨_, _, rfl, C110_multiple fm kd 2 Whole.exWater b _ _ _ "parallel" (2 / 2) (.inr ⟨rfl, rfl⟩) _ rfl _ 3 Whole.exWater rfl
    rfl ?_ ?_ ?_, rfl, rfl, rfl⟩ <;> norm_num [Whole.exWater]

/-- a single U-tube -/
example (fm : Format) (kd : Kinds) (b : Borehole) (pos : List (ℝ × ℝ)) :
    ∃ t X, mkSingle Whole.exExt 2 Whole.exWater b ⟨pos, 1 / 100, 13 / 1000, 4 / 100, 1 / 1000, 2, 5⟩ ⟨1, 1⟩ ⟨2, 3, 18⟩ = .ok t ∧
      exchangerText fm Whole.exExt kd (.single (updated Whole.exExt [(none, some ⟨2, 3, 4, 5⟩)] t)) = .ok (UTubePage.text X) ∧
      X.parts.fluid = fm.fluid ⟨2, 3, 4, 5⟩ := by
  refine ⟨_, _, rfl, C110_single fm kd 2 Whole.exWater b _ _ _ _ rfl _ 2 ⟨2, 3, 4, 5⟩ rfl rfl ?_ ?_ ?_, rfl⟩ <;> norm_num

/-- a coaxial exchanger -/
example (fm : Format) (kd : Kinds) (b : Borehole) :
    ∃ X, exchangerText fm Whole.exExt kd (.coaxial (updatedCoax Whole.exExt [(some 3, none)]
        (mkCoax Whole.exExt 2 Whole.exWater b ⟨(1 / 50, 1 / 45), (1 / 20, 1 / 18), 1 / 1000, (1, 2), 3, (0, 0), 0⟩ ⟨1, 1⟩
          ⟨2, 3, 18⟩))) = .ok (CoaxPage.text X) ∧ X.parts.flow = fm.num4 3 ∧ X.parts.pipeFlow = fm.num4 2 := by
  refine ⟨_, C110_coaxial fm kd 2 Whole.exWater b _ _ _ _ 3 Whole.exWater rfl rfl ?_ ?_ ?_ ?_, rfl, rfl⟩ <;>
    norm_num [Whole.exWater]

/-- the design of the search example is printed in full -/
example (fm : Format) (kx kt : Kinds) : ∃ n c' y text, WholeSearch.findDesign WholeSearch.exProblem "rectangle"
      (.flat [WholeSearch.exRow 1, WholeSearch.exRow n]) {} = (.ok (some (1, WholeSearch.exRow n)), c') ∧
    c'.held = some y ∧ (fullReport fm kx kt y.env y.state).1 = .ok (Page.text text) ∧ text.boreholes = fm.int n := by
  obtain ⟨n, hn⟩ := WholeSearch.exFind
  rcases hd : WholeSearch.findDesign WholeSearch.exProblem "rectangle"
    (.flat [WholeSearch.exRow 1, WholeSearch.exRow n]) {} with ⟨r, c'⟩
  rw [hd] at hn
  change r = _ at hn
  subst hn
  have h0 : n ≠ 0 := by
    rintro rfl
    obtain ⟨k, f, x, -, -, hr, -, hx, -⟩ := WholeSearch.C93_returned "rectangle" (by decide) _ c' _ hd
    cases hr
    rw [show WholeSearch.exRow 0 = [] from rfl,
      (WholeSearch.C95_refused (p := WholeSearch.exProblem) (f := [])).1 rfl] at hx
    cases hx
  obtain ⟨s, hu, hct⟩ := WholeSearch.exUsable (WholeSearch.exRow n) (WholeSearch.exRow_ne h0) 100 (by tauto)
    (WholeSearch.exRow_spacing n)
  have hseam := WholeSearch.exSeam s 100 (.inr rfl) hct
  obtain ⟨e1, -⟩ := WholeSearch.exp_bounds
  have hlong : (6000 : ℝ) ≤ charTime s * exp (-(85 / 10)) := by
    rw [hct]
    generalize exp (-(85 / 10 : ℝ)) = z at *
    nlinarith
  obtain ⟨-, -, -, -, k1, -, k2, -⟩ := C74_multiple _ _ (Whole.exDouble 100) s _ (Whole.exDouble_sound 100) hu.converts
  have k3 : 0 < s.pipe.rIn := hu.sound.rIn
  obtain ⟨y, hy, -, r⟩ := C110_design fm kx kt "rectangle" (by decide) _ c' 1 _ hd _ s hu hseam _
    (multiple_page (t := Whole.exDouble 100)
      (reynolds_ok (by norm_num [Whole.exDouble, Whole.exWater]) (by norm_num [Whole.exDouble, Whole.exWater])
        (by norm_num [Whole.exDouble])) rfl)
    (by rw [k1]; norm_num [Whole.exDouble, Whole.exWater]) (by rw [k1]; norm_num [Whole.exDouble, Whole.exWater])
    (by rw [k2]; show (0 : ℝ) ^ 2 ≠ _; rw [zero_pow two_ne_zero]; exact (pow_pos k3 2).ne)
  obtain ⟨pairs, B, F, -, -, -, -, -, -, p1, -⟩ := r (by linarith)
  exact ⟨n, c', y, _, hd, hy, p1, by simp [WholeSearch.exRow]⟩

/-- a pipe whose roughness is its inner radius -/
example (fm : Format) (kd : Kinds) : exchangerText fm Whole.exExt kd (.single { Whole.exDouble 100 with
    pipe := { (Whole.exDouble 100).pipe with eps := (Whole.exDouble 100).pipe.rIn } }) = .error .zeroDivisionError :=
  (C110_rough fm kd _ (by norm_num [Whole.exDouble, Whole.exWater]) rfl).1

/-- one borehole under ten kilowatts, sized: the whole text, with its temperatures -/
example (fm : Format) (kx kt : Kinds) : ∃ y st text, (fullReport fm kx kt y st).1 = .ok (Page.text text) ∧
    text.depth = fm.num4 100 ∧ text.boreholes = fm.int 1 ∧ text.temperatures ≠ none := by
  obtain ⟨x, y, st, hx, hy, hsz, hH⟩ := WholeSearch.exSized
  obtain ⟨sa, hsa⟩ := WholeSearch.exSizable 1 one_ne_zero
  obtain ⟨s, hu, hct⟩ := WholeSearch.exUsable (WholeSearch.exRow 1) (WholeSearch.exRow_ne one_ne_zero) 100 (by tauto)
    (WholeSearch.exRow_spacing 1)
  have hseam := WholeSearch.exSeam s 100 (.inr rfl) hct
  obtain ⟨hcov, hR, hT, h27⟩ := ready_at hsa x y hx hy (by show (100 : ℝ) ∈ [(50 : ℝ), (50 + 100) / 2, 100]; simp) hu
  obtain ⟨e1, -⟩ := WholeSearch.exp_bounds
  have hlong : (6000 : ℝ) ≤ charTime s * exp (-(85 / 10)) := by
    rw [hct]
    generalize exp (-(85 / 10 : ℝ)) = z at *
    nlinarith
  have hev := Evaluated.sized (env := y.env) (lo := 50) (hi := 100) (s := y.state) "hourly" _ _ hsz
  obtain ⟨r, st', hsim', -, -, -, hmax, hmin⟩ := C99_sized hcov [] (by simp) "hourly" _ st hsz [] (by simp)
  obtain ⟨x1, y1, g1, g2, henv, -, hloc, -⟩ := WholeSearch.C97_cover hsa
  change WholeSearch.fresh WholeSearch.exProblem _ 100 = _ at g1
  rw [hx] at g1
  cases g1
  rw [hy] at g2
  cases g2
  obtain ⟨B, g, sts, cl, hl, hyb, -, -, -, -, -, -, hmk, -, hf⟩ := WholeSearch.fresh_ok hu
  rw [hx] at hf
  cases hf
  obtain ⟨F, hF, -⟩ := GL.C109_table hmk
  obtain ⟨-, -, -, -, k1, -, k2, -⟩ := C74_multiple _ _ (Whole.exDouble 100) s _ (Whole.exDouble_sound 100) hu.converts
  have k3 : 0 < s.pipe.rIn := hu.sound.rIn
  obtain ⟨-, q⟩ := C110_report fm kx kt hcov [] (by simp) st hev 100 hH s hR _ _ (hT hseam) h27 _ _ hmax hmin _
    (multiple_page (t := Whole.exDouble 100) (ext := y.env.ext)
      (reynolds_ok (by norm_num [Whole.exDouble, Whole.exWater]) (by norm_num [Whole.exDouble, Whole.exWater])
        (by norm_num [Whole.exDouble])) rfl)
    (by rw [k1]; norm_num [Whole.exDouble, Whole.exWater]) (by rw [k1]; norm_num [Whole.exDouble, Whole.exWater])
    (by rw [k2]; show (0 : ℝ) ^ 2 ≠ _; rw [zero_pow two_ne_zero]; exact (pow_pos k3 2).ne) F
    (by rw [henv]; exact hF)
  obtain ⟨pairs, -, -, -, -, -, p1, -⟩ := q (by linarith)
  refine ⟨y.env, st, _, p1, rfl, ?_, by simp⟩
  rw [hloc]
  simp [WholeSearch.exRow]

end

end Ghedt.Report
