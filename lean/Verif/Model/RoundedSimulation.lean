import Verif.Model.RoundedDomains
import Verif.Model.GroundHeatExchangers

/-!
# Model of what a simulation is asked for, in floating-point arithmetic

The loads and times `GHE.simulate` hands to the superposition, with every operation on floats rounded.  The superposition
itself is a dot product of numpy, whose order of summation, hence rounding, is not fixed by the code.
-/

namespace Ghedt.Rounded
open GHE

variable {K : Type} [Field K] [LinearOrder K] [FloorRing K] (R : Rounding K)

/-- `int(x)` of a float: truncation. -/
def trunc (x : K) : ℤ := if 0 ≤ x then ⌊x⌋ else ⌈x⌉

/-- The loads (W, rejection positive) and times (hours) of `simulate(method)`, ground_heat_exchangers.py:297-315. -/
def simulationInput (env : GheEnv K) (method : String) : Py (List K × List K) :=
  if method = "hybrid" then
    .ok ((env.load.drop 2).map (fun q => mul R q 1000), env.hour.drop 2)
  else if method = "hourly" then
    let nMonths : ℤ := env.endMonth - env.startMonth + 1
    let nHours : ℤ := trunc (mul R (R.fl ((nMonths : K) / 12)) 8760)
    let nYears : ℤ := ⌈R.fl ((nHours : K) / 8760)⌉
    let Q := (List.replicate nYears.toNat env.hourly).flatten
    .ok (Q.map (fun q => mul R (-1) q), (pyRange 1 (nHours + 1)).map fun i : ℤ => (i : K))
  else .error .valueError

end Ghedt.Rounded
