import Verif.PyState
import Verif.Model.Nan
import Verif.Model.Utilities

/-!
# Model of `ghedt/ground_heat_exchangers.py` and of `solve_root` in `equivalance.py`

Simplifications.  Floats are an ordered field.  The logarithm inside `_simulate_detailed` is folded
into the response function: `Thermal.g Δ` is `g(log(Δ*3600/ts))`, the value of the interpolated
g-function a time `Δ` (hours) after a load change; it may raise (outside the table).  Everything that
`simulate` recomputes for the current height (resistances, equivalent tube, short-time g-function,
long-time interpolation) is the parameter `GheEnv.thermal`.  numpy divisions by the nonzero
quantities `nbh`, `H`, `2πk`, `2 m cp` are field divisions.
-/

namespace Ghedt.GHE
open Utilities

variable {K : Type} [Field K] [LinearOrder K]

/-! ### `solve_root` and the root finder -/

/-- A root finder as an interaction: it asks for values of the objective and finally returns or
raises.  `scipy.optimize.brentq` is one such (deterministic, finitely many questions); nothing else
is assumed about it. -/
inductive Finder (K : Type) where
  | done (x : K)
  | fail (e : PyErr)
  | ask (x : K) (next : K → Finder K)

/-- Run a root finder against an objective function, which may change state. -/
def Finder.run {σ : Type} (obj : K → St σ K) : Finder K → St σ K
  | .done x => pure x
  | .fail e => St.throw e
  | .ask x next => do
    let v ← obj x
    (next v).run obj

/-- Sign as computed by `int(v / abs(v))`, equivalance.py:43-44. -/
def signDiv [FloorRing K] (v : K) : Py ℤ := do
  let q ← pyDiv v |v|
  return (if 0 ≤ q then ⌊q⌋ else ⌈q⌉)

/-- `solve_root`, equivalance.py:23-55.  `brent lower upper` is the call of `brentq` on that
bracket. -/
def solveRoot [FloorRing K] {σ : Type} (brent : K → K → Finder K) (x : K) (obj : K → St σ K)
    (lower upper : Option K) : St σ K := do
  let lower := lower.getD (x / 100)
  let upper := upper.getD (x * 10)
  let minus ← obj lower
  let plus ← obj upper
  let minusSign ← St.lift (signDiv minus)
  let plusSign ← St.lift (signDiv plus)
  if plusSign ≠ minusSign then (brent lower upper).run obj
  else if plusSign = -1 ∧ minusSign = -1 then return upper
  else if plusSign = 1 ∧ minusSign = 1 then return lower
  else return x

/-! ### Combining short and long time steps -/

/-- The `while` loop of `combine_sts_lts`, ground_heat_exchangers.py:96-100: the first index whose
value exceeds `m`; running off the end is an `IndexError`. -/
def stopIndex (m : K) : List K → ℕ → Py ℕ
  | [], _ => .error .indexError
  | v :: rest, i => if v ≤ m then stopIndex m rest (i + 1) else .ok i

/-- `combine_sts_lts`, ground_heat_exchangers.py:84-106: the abscissae and ordinates handed to
`interp1d`, which raises `ValueError` if they differ in length. -/
def combineStsLts (logTimeLts gLts logTimeSts gSts : List K) : Py (List K × List K) := do
  let maxSts ← pyMax logTimeSts
  let minLts ← pyMin logTimeLts
  let (logTime, g) ← (if maxSts < minLts then pure (logTimeSts ++ logTimeLts, gSts ++ gLts)
    else do
      let i ← stopIndex minLts logTimeSts 0
      pure (pySlice logTimeSts 0 i ++ logTimeLts, pySlice gSts 0 i ++ gLts) :
        Py (List K × List K))
  if logTime.length ≠ g.length then throw .valueError
  return (logTime, g)

/-! ### Simulation -/

/-- `cost`, ground_heat_exchangers.py:127-133. -/
def cost (maxAllowable minAllowable maxEFT minEFT : K) : K :=
  max (maxEFT - maxAllowable) (minAllowable - minEFT)

/-- What `_simulate_detailed` reads from the exchanger at its current height. -/
structure Thermal (K : Type) where
  g : K → Py K
  nbh : K
  H : K
  twoPiK : K
  Tg : K
  Rb : K
  mdot : K
  cp : K

/-- `g(np.log((_time * 3600.) / ts))` for one time difference: the logarithm of a negative number is `nan`, and so is
what `interp1d` answers; otherwise the answer of the g-function, which may raise (it does for 0, whose logarithm is
`-inf`). -/
def Thermal.answer (th : Thermal K) (Δ : K) : Py (Num K) :=
  if Δ < 0 then .ok none
  else do
    let v ← th.g Δ
    return some v

/-- `_simulate_detailed`, ground_heat_exchangers.py:135-178: `(HPEFT, delta_Tb)`.  `tv[0:i]` and
`dQ[0:i]` are `take i`; their dot product raises `ValueError` if they differ in length. -/
def simulateDetailed (th : Thermal K) (Q t : List K) : Py (List (Num K) × List (Num K)) := do
  let n : ℤ := Q.length
  let Qb := 0 :: Q.map (· / th.nbh)
  let tv := 0 :: t
  let dQ := List.zipWith (· - ·) Qb.tail Qb
  let out ← (pyRange 1 (n + 1)).mapM fun i : ℤ => do
    let ti ← pyGet tv i
    let gv ← (tv.take i.toNat).mapM fun τ => th.answer (ti - τ)
    let w := (dQ.take i.toNat).map fun q => q / th.H / th.twoPiK
    if w.length ≠ gv.length then throw .valueError
    let delta := Num.dot w gv
    let Tb := delta.map (th.Tg + ·)
    let q ← pyGet Qb i
    let Tbulk := Tb.map (· + q / th.H * th.Rb)
    return (Tbulk.map (· - q / (2 * th.mdot * th.cp)), delta)
  return (out.map Prod.fst, out.map Prod.snd)

/-- What stays fixed while a GHE object is simulated and sized. -/
structure GheEnv (K : Type) where
  bSpacing : K
  /-- everything recomputed for the current height -/
  thermal : K → Py (Thermal K)
  /-- `hybrid_load.load` (kW) and `hybrid_load.hour` -/
  load : List K
  hour : List K
  /-- hourly ground extraction loads of one year (W) -/
  hourly : List K
  startMonth : ℤ
  endMonth : ℤ
  maxEFT : K
  minEFT : K
  minHeight : K
  maxHeight : K

/-- The attributes that change: `bhe.b.H`, `HPEFT`, `dTb`. -/
structure GheState (K : Type) where
  H : K
  HPEFT : List (Num K) := []
  dTb : List (Num K) := []

/-- The loads (W, rejection positive) and times (hours) of `simulate(method)`,
ground_heat_exchangers.py:297-315. `int(n_months / 12. * 8760.)` truncates. -/
def simulationInput [FloorRing K] (env : GheEnv K) (method : String) : Py (List K × List K) :=
  if method = "hybrid" then
    .ok ((env.load.drop 2).map (· * 1000), env.hour.drop 2)
  else if method = "hourly" then
    let nMonths : ℤ := env.endMonth - env.startMonth + 1
    let h : K := (nMonths : K) / 12 * 8760
    let nHours : ℤ := if 0 ≤ h then ⌊h⌋ else ⌈h⌉
    let nYears : ℤ := ⌈(nHours : K) / 8760⌉
    let Q := (List.replicate nYears.toNat env.hourly).flatten
    .ok (Q.map (-1 * ·), (pyRange 1 (nHours + 1)).map fun i : ℤ => (i : K))
  else .error .valueError

/-- `simulate`, ground_heat_exchangers.py:283-322.  The two numbers returned are `nan` if the first temperature is;
then the callers raise `ValueError` (`sign`, utilities.py:96-103 and `solve_root`, equivalance.py:41-42, take `int` of
it), here `simulate` does.  The first temperature is `nan` only if the first time is negative, which does not happen
(C129). -/
def simulate [FloorRing K] (env : GheEnv K) (method : String) : St (GheState K) (K × K) := do
  let s ← St.get
  let _ ← St.lift (pyDiv env.bSpacing s.H)
  let th ← St.lift (env.thermal s.H)
  let (Q, t) ← St.lift (simulationInput env method)
  let (hpeft, dTb) ← St.lift (simulateDetailed th Q t)
  St.modify fun s => { s with HPEFT := hpeft, dTb := dTb }
  let hi ← St.lift (maxNumber hpeft)
  let lo ← St.lift (minNumber hpeft)
  return (hi, lo)

/-- `local_objective` inside `size`, ground_heat_exchangers.py:327-331. -/
def localObjective [FloorRing K] (env : GheEnv K) (method : String) (H : K) :
    St (GheState K) K := do
  St.modify fun s => { s with H := H }
  let (hi, lo) ← simulate env method
  return cost env.maxEFT env.minEFT hi lo

/-- The two warnings `size` may issue. -/
inductive Warning
  | notShallowEnough | notDeepEnough
  deriving DecidableEq, Repr

/-- `size`, ground_heat_exchangers.py:324-352.  Returns the warnings issued; the value found by
`solve_root` is discarded by the code, the height is whatever the objective last set. -/
def size [FloorRing K] (brent : K → K → Finder K) (env : GheEnv K) (method : String) :
    St (GheState K) (List Warning) := do
  St.modify fun s => { s with H := (env.maxHeight + env.minHeight) / 2 }
  let s ← St.get
  let _ ← solveRoot brent s.H (localObjective env method) (some env.minHeight)
    (some env.maxHeight)
  let s ← St.get
  return (if s.H = env.minHeight then [.notShallowEnough] else []) ++
    (if s.H = env.maxHeight then [.notDeepEnough] else [])

end Ghedt.GHE
