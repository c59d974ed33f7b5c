import Verif.Model.WholeSearch

/-!
# Model of `GHE` objects made from a g-function database, and of the scripts in `ghedt/examples/gFunctions`

The arguments are those of a `Problem`; `minHeight`, `maxHeight` and the limits are `sim_params`.  The scripts multiply or
divide the volume flow by the number of boreholes themselves, with the results of `retrieve_flow`.
-/

namespace Ghedt.Library
open Ghedt.GHE Ghedt.Search Ghedt.WholeSearch Ghedt.Utilities

noncomputable section

/-- `GHE(V_flow_system, B, bhe_object, fluid, borehole, pipe, grout, soil, g_function, sim_params, loads)`,
live_g_function_sim_and_size.py:121-123 and 140-142, computed_g_function_sim_and_size.py:103-105. -/
def make (p : Problem) (B : ℝ) (db : GF.DB ℝ) : Py Held := do
  let flows ← retrieveFlow p.flow p.V p.media.fluid.rho db.locations.length
  mkGhe p flows.1 B p.media p.borehole db

/-- `ghe.size(method)`, then `ghe.bhe.b.H`. -/
def sized (x : Held) (method : String) : Py ℝ :=
  match Whole.size x.env method x.state with
  | (.error e, _) => .error e
  | (.ok _, s) => .ok (Whole.borehole s.bhe).H

/-- computed_g_function_sim_and_size.py:58-111: import a database, make the exchanger, size it; the height printed. -/
def computed (p : Problem) (B : ℝ) (data : GF.RawDB ℝ) : Py ℝ := do
  let db ← GF.importDB p.toFloat data
  let x ← make p B db
  sized x "hybrid"

/-- live_g_function_sim_and_size.py:112-146: an exchanger with the g-function of its height is simulated; then one with the
g-functions of the heights `Hs` is made and sized.  The temperatures (maximum, minimum) and the height printed.  The options
passed in lines 112-116 are the defaults, so both calls compute curves by `p.gf`. -/
def live (p : Problem) (B : ℝ) (f : List (ℝ × ℝ)) (Hs : List ℝ) : Py ((ℝ × ℝ) × ℝ) := do
  let flows ← retrieveFlow p.flow p.V p.media.fluid.rho f.length
  let db ← GF.computeLive p.fmt p.toFloat (p.gf flows.2 p.media f) B [p.borehole.H] [p.borehole.rb] [p.borehole.D]
    eskilsonLogTimes f
  let x ← make p B db
  let temps ← (Whole.simulate x.env "hybrid" x.state).1
  let db ← GF.computeLive p.fmt p.toFloat (p.gf flows.2 p.media f) B Hs (List.replicate Hs.length p.borehole.rb)
    (List.replicate Hs.length p.borehole.D) eskilsonLogTimes f
  let y ← make p B db
  let H ← sized y "hybrid"
  return (temps, H)

end

end Ghedt.Library
