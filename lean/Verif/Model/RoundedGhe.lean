import Verif.Model.RoundedSimulation
import Verif.Model.RoundedLoads

/-!
# Model of the simulation of an exchanger in floating-point arithmetic

`_simulate_detailed`, `simulate`, `cost` and the objective of `size` of `ghedt/ground_heat_exchangers.py` once more, with every
operation on floats rounded by `R : Rounding K`.  The order in which `numpy` adds up a dot product is not fixed by the code:
`dot` is a parameter.  What is read from the exchanger (`Thermal`: the g-function, `2. * np.pi * k`, the resistance, …) consists
of given floats.  With `Rounding.exact` and the exact dot product each of these is the definition of
`Model/GroundHeatExchangers` of the same name (C127).
-/

namespace Ghedt.Rounded
open GHE

variable {K : Type} [Field K] [LinearOrder K] (R : Rounding K) (dot : List K → List K → K)

/-- `cost`, ground_heat_exchangers.py:127-133. -/
def cost (maxAllowable minAllowable maxEFT minEFT : K) : K :=
  max (sub R maxEFT maxAllowable) (sub R minAllowable minEFT)

/-- `_simulate_detailed`, ground_heat_exchangers.py:135-178: `(HPEFT, delta_Tb)`.  `float(self.nbh)` is exact; `th.g` includes
`np.log((_time * 3600.) / ts)`. -/
def simulateDetailed (th : Thermal K) (Q t : List K) : Py (List (Num K) × List (Num K)) := do
  let n : ℤ := Q.length
  let Qb := 0 :: Q.map fun q => R.fl (q / th.nbh)
  let tv := 0 :: t
  let dQ := List.zipWith (sub R) Qb.tail Qb
  let out ← (pyRange 1 (n + 1)).mapM fun i : ℤ => do
    let ti ← pyGet tv i
    let gv ← (tv.take i.toNat).mapM fun τ => th.answer (sub R ti τ)
    let w := (dQ.take i.toNat).map fun q => R.fl (R.fl (q / th.H) / th.twoPiK)
    if w.length ≠ gv.length then throw .valueError
    let delta := Num.dotBy dot w gv
    let Tb := delta.map (add R th.Tg ·)
    let q ← pyGet Qb i
    let Tbulk := Tb.map (add R · (mul R (R.fl (q / th.H)) th.Rb))
    return (Tbulk.map (sub R · (R.fl (q / mul R (mul R 2 th.mdot) th.cp))), delta)
  return (out.map Prod.fst, out.map Prod.snd)

/-- `simulate`, ground_heat_exchangers.py:283-322. -/
def simulate [FloorRing K] (env : GheEnv K) (method : String) : St (GheState K) (K × K) := do
  let s ← St.get
  let _ ← St.lift (div R env.bSpacing s.H)
  let th ← St.lift (env.thermal s.H)
  let (Q, t) ← St.lift (simulationInput R env method)
  let (hpeft, dTb) ← St.lift (simulateDetailed R dot th Q t)
  St.modify fun s => { s with HPEFT := hpeft, dTb := dTb }
  let hi ← St.lift (maxNumber hpeft)
  let lo ← St.lift (minNumber hpeft)
  return (hi, lo)

/-- `local_objective` inside `size`, ground_heat_exchangers.py:327-331; also `calculate_excess` of a search,
search_routines.py:98-109, for an exchanger of this height. -/
def localObjective [FloorRing K] (env : GheEnv K) (method : String) (H : K) : St (GheState K) K := do
  St.modify fun s => { s with H := H }
  let (hi, lo) ← simulate R dot env method
  return cost R env.maxEFT env.minEFT hi lo

end Ghedt.Rounded
