import Verif.Model.SearchRoutines

/-!
# Flow rates and the set-up of an exchanger for a concrete field

The part of `BaseGHE.__init__` that turns the system flow into the per-borehole mass flow, and the
part of `initialize_ghe` that runs before anything thermal is computed.
-/

namespace Ghedt.Search
open Utilities
variable {K : Type} [Field K] [LinearOrder K]

/-- `BaseGHE.__init__`, ground_heat_exchangers.py:23-27: `(V_flow_borehole, m_flow_borehole)` from
the system flow and the number of borehole locations. -/
def gheFlow (Vsystem rho : K) (nBoreholes : ℕ) : Py (K × K) := do
  let vb ← pyDiv Vsystem (nBoreholes : K)
  return (vb, vb / 1000 * rho)

/-- `initialize_ghe` / `__init__` up to the g-function, search_routines.py:72-85 and 25-40: flows,
then spacing.  `thermal` stands for everything after that (live g-function, exchanger). -/
noncomputable def buildConcrete (flow : String) (V rho r_b : ℝ)
    (thermal : List (ℝ × ℝ) → ℝ → Py Unit) (coordinates : List (ℝ × ℝ)) (H : ℝ) : Py Unit := do
  let _ ← retrieveFlow flow V rho coordinates.length
  let _ ← boreholeSpacing r_b coordinates
  thermal coordinates H

end Ghedt.Search
