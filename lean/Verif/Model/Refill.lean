import Verif.Model.Shared

/-!
# Media that an exchanger shares with its caller

`BasePipe.__init__` and `CoaxialBase.__init__` store the fluid, pipe, grout and soil they are given, not copies of them
(borehole_heat_exchangers.py:16-20, 245-249): a caller that changes them in place changes them for the exchanger too.
`pygfunction` is given the conductivities of soil and grout and the geometry when the exchanger is made, and keeps them
(123-125, 189-191, 393-395).
-/

namespace Ghedt.Refill
open Ghedt.Bhe Ghedt.Whole

noncomputable section

/-- The contents of the objects `Fluid`, `Grout`, `Soil` and `Pipe` (peak_load_analysis_tool/media.py:4-48, 89-95) that an
exchanger shares with its caller, but for the geometry of the pipe.  A coaxial pipe has two conductivities. -/
structure Contents where
  fluid : Fluid
  grout : Grout
  soil : Soil
  eps : ℝ
  pipeRhoCp : ℝ
  pipeK : ℝ
  coaxK : ℝ × ℝ

/-- The exchanger when the caller has given the shared objects other contents; all else stays, in particular what
`pygfunction` keeps (`circuit`), borehole_heat_exchangers.py:16-20, 245-249.  The equivalent tube has objects of its own
(equivalance.py:85-92), and a single U-tube is its own equivalent; either is made anew before it is used.

Simplified for a coaxial exchanger, which stores its roughness (251) and, in `pygfunction`, the conductivities of soil and grout
a second time: of those three the model has one value each, and they are taken to be left alone. -/
def fill (c : Contents) : Exchanger → Exchanger
  | .single t => .single { t with
      fluid := c.fluid
      grout := c.grout
      soil := c.soil
      pipe := { t.pipe with eps := c.eps, k := c.pipeK, rhoCp := c.pipeRhoCp } }
  | .multiple t => .multiple { t with
      fluid := c.fluid
      grout := c.grout
      soil := c.soil
      pipe := { t.pipe with eps := c.eps, k := c.pipeK, rhoCp := c.pipeRhoCp } }
  | .coaxial t => .coaxial { t with
      fluid := c.fluid
      grout := { t.grout with rhoCp := c.grout.rhoCp }
      soil := { t.soil with rhoCp := c.soil.rhoCp, ugt := c.soil.ugt }
      pipe := { t.pipe with k := c.coaxK, rhoCp := c.pipeRhoCp } }
  | .other => .other

end

end Ghedt.Refill
