import Verif.Model.TubeScripts

/-!
# What the scripts in `ghedt/examples/BHE` are to print
-/

namespace Ghedt.TubeScript
open Real Ghedt.Bhe

/-- The four lines about the exchanger that is converted. -/
def volumeLines (f : ℝ → String) (fluid wall convective pipe : ℝ) : List String :=
  ["Fluid volume per meter (m^2): " ++ f fluid, "Pipe volume per meter (m^2): " ++ f wall,
   "Total Convective Resistance (K/(W/m)): " ++ f convective, "Total Pipe Resistance (K/(W/m)): " ++ f pipe]

/-- The lines about the equivalent tube, before its report. -/
def tubeLines (f : ℝ → String) (flow rIn rOut gap h kPipe kGrout Rb : ℝ) : List String :=
  ["\nSingle U-tube equivalent parameters\n-----------------------------------",
   "Fluid volumetric flow rate (L/s): " ++ f flow, "Radius of inner pipe (m): " ++ f rIn,
   "Radius of outer pipe (m): " ++ f rOut, "Shank spacing (m): " ++ f gap, "Convection coefficient (): " ++ f h,
   "Pipe thermal conductivity (W/m.K): " ++ f kPipe, "Grout thermal conductivity (W/m.K): " ++ f kGrout,
   "Effective borehole resistance (m.K/W): " ++ f Rb]

/-- The lines about the flow in a U-tube and its resistances. -/
def resistanceLines (f : ℝ → String) (Re Rp h R : ℝ) : List String :=
  ["Reynolds number: " ++ f Re, "Pipe resistance (K/(W/m)) : " ++ f Rp, "Convection coefficient (W/m2.K): " ++ f h,
   "Convective resistance (K/(W/m)): " ++ f R]

/-- Positive radii, the pipe wall outside, a borehole and a fluid. -/
structure Given.Sound (g : Given) : Prop where
  rIn : 0 < g.rIn
  rOut : g.rIn < g.rOut
  rb : 0 < g.b.rb
  eps : 0 ≤ g.eps
  smooth : g.eps < g.rIn
  rho : 0 < g.fluid.rho
  mu : 0 < g.fluid.mu

/-- Four increasing radii, a borehole and a fluid. -/
structure GivenCoax.Sound (g : GivenCoax) : Prop where
  r1 : 0 < g.pipe.rInner.1
  r2 : g.pipe.rInner.1 < g.pipe.rInner.2
  r3 : g.pipe.rInner.2 < g.pipe.rOuter.1
  r4 : g.pipe.rOuter.1 < g.pipe.rOuter.2
  rb : 0 < g.b.rb
  eps : 0 ≤ g.pipe.eps
  smooth : √2 * g.pipe.eps < g.pipe.rInner.1
  rho : 0 < g.fluid.rho
  mu : 0 < g.fluid.mu

/-- The three lists of a table have one length. -/
def Column.Even (c : Column) : Prop := c.Re.length = c.Rb.length ∧ c.vDot.length = c.Rb.length

end Ghedt.TubeScript
