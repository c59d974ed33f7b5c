import Verif.PyState
import Verif.Model.Utilities

/-!
# Model of `ghedt/search_routines.py`

The thermal simulation is a parameter.  `Env.build f H` stands for everything `initialize_ghe` does
with the coordinates `f` and height `H` (flow, spacing, live g-function, GHE constructor): it
succeeds or raises.  `Env.sim f H` is `ghe.cost(*ghe.simulate(method))` of the exchanger so built:
the excess temperature, or an exception.  Both are arbitrary functions; nothing (monotonicity,
sign, continuity) is assumed of them in the model.  `Env.sizeH f H` is the height left in the
exchanger by `compute_g_functions(); size('hybrid')`.  A field is an abstract type `F` with a
number of boreholes `Env.nbh`.

Simplifications: a failing `build` leaves the previous exchanger in place (in the code the height
of the shared borehole has already been overwritten); printing is dropped; `deepcopy` of numbers
and dictionaries is the identity on immutable values.
-/

namespace Ghedt.Search
open Utilities

/-- `l.index(x)`: `ValueError` if absent. -/
def pyIndexOf {K : Type} [DecidableEq K] (l : List K) (x : K) : Py ℤ :=
  match l.findIdx? (fun y => decide (y = x)) with
  | some i => .ok (i : ℤ)
  | none => .error .valueError

structure Env (F K : Type) where
  build : F → K → Py Unit
  sim : F → K → Py K
  sizeH : F → K → Py K
  nbh : F → ℕ
  minHeight : K
  maxHeight : K
  /-- `borehole.H` as handed to the constructor -/
  boreholeH : K
  maxIter : ℤ

/-- The attributes of the search object that change: `calculated_temperatures`, the held exchanger
(`ghe`: its coordinates and height), and for `BisectionZD` `calculated_temperatures_nested` and
`calculated_heights`.  `log` records every simulation, for counting. -/
structure State (F K : Type) where
  temps : PyDict ℤ K := []
  ghe : Option (F × K) := none
  tempsNested : PyDict ℤ (PyDict ℤ K) := []
  heights : PyDict ℤ K := []
  log : List (F × K) := []

variable {F K : Type} [Field K] [LinearOrder K] [FloorRing K]

/-- `initialize_ghe`, search_routines.py:72-96. -/
def initializeGhe (env : Env F K) (coordinates : F) (H : K) : St (State F K) Unit := do
  St.lift (env.build coordinates H)
  St.modify fun s => { s with ghe := some (coordinates, H) }

/-- `calculate_excess`, search_routines.py:98-109. -/
def calculateExcess (env : Env F K) (coordinates : F) (H : K) : St (State F K) K := do
  initializeGhe env coordinates H
  St.modify fun s => { s with log := s.log ++ [(coordinates, H)] }
  St.lift (env.sim coordinates H)

/-- The `while` loop of `search`, search_routines.py:176-192; `rem` is `max_iter - i`.  Returns
`(i, xL_idx, xR_idx)`. -/
def bisect (env : Env F K) (domain : List F) (xLsign : ℤ) :
    ℕ → ℤ → ℤ → ℤ → St (State F K) (ℤ × ℤ × ℤ)
  | 0, i, xL, xR => pure (i, xL, xR)
  | rem + 1, i, xL, xR => do
    let c : ℤ := ⌈((xL + xR : ℤ) : ℚ) / 2⌉
    if c = xL ∨ c = xR then pure (i, xL, xR)
    else
      let f ← St.lift (pyGet domain c)
      let T ← calculateExcess env f env.maxHeight
      St.modify fun s => { s with temps := PyDict.set s.temps c T }
      let cSign ← St.lift (sign T)
      if cSign = xLsign then bisect env domain xLsign rem (i + 1) c xR
      else bisect env domain xLsign rem (i + 1) xL c

/-- The selection at the end of `search`, search_routines.py:202-210 (and 347-355): the key of the
first largest non-positive excess. -/
def selectKey (temps : PyDict ℤ K) : Py ℤ := do
  let keys := PyDict.keys temps
  let values := PyDict.values temps
  let negative := values.filter fun v => decide (v ≤ 0)
  let excessOfInterest ← pyMax negative
  let idx ← pyIndexOf values excessOfInterest
  pyGet keys idx

/-- The part of `search` after the initial checks, search_routines.py:171-215. -/
def searchBisection (env : Env F K) (domain : List F) (xL xR : ℤ) (T0u Tm1 : K) :
    St (State F K) (Option (ℤ × F)) := do
  let xLsign ← St.lift (sign T0u)
  let _xRsign ← St.lift (sign Tm1)
  let (i, _, _) ← bisect env domain xLsign env.maxIter.toNat 0 xL xR
  let coordinates ← St.lift (pyGet domain i)
  let H := env.maxHeight
  let _ ← calculateExcess env coordinates H
  let s ← St.get
  let key ← St.lift (selectKey s.temps)
  let selected ← St.lift (pyGet domain key)
  initializeGhe env selected H
  return some (key, selected)

/-- `Bisection1D.search`, search_routines.py:111-215.  `none` is `(None, None)`. -/
def search (env : Env F K) (domain : List F) : St (State F K) (Option (ℤ × F)) := do
  let xL : ℤ := 0
  let xR : ℤ := (domain.length : ℤ) - 1
  let fR ← St.lift (pyGet domain xR)
  let fL ← St.lift (pyGet domain xL)
  let T0l ← calculateExcess env fL env.minHeight
  let T0u ← calculateExcess env fL env.maxHeight
  let Tm1 ← calculateExcess env fR env.maxHeight
  St.modify fun s => { s with temps := PyDict.set s.temps xL T0u }
  St.modify fun s => { s with temps := PyDict.set s.temps xR Tm1 }
  let s0l ← St.lift (sign T0l)
  let s0u ← St.lift (sign T0u)
  if checkBracket s0l s0u = true then
    let f0 ← St.lift (pyGet domain 0)
    initializeGhe env f0 env.maxHeight
    return some (0, f0)
  else
    let s0u' ← St.lift (sign T0u)
    let sm1 ← St.lift (sign Tm1)
    if checkBracket s0u' sm1 = true then searchBisection env domain xL xR T0u Tm1
    else if T0u < 0 ∧ Tm1 < 0 then St.throw .valueError
    else if T0u > 0 ∧ Tm1 > 0 then St.throw .valueError
    else return none

/-- `Bisection1D.__init__` up to `search`, search_routines.py:20-53: the first field is looked up
and an exchanger is built for it at the borehole's own height. -/
def setup (env : Env F K) (domain : List F) : St (State F K) Unit := do
  let coordinates ← St.lift (pyGet domain 0)
  initializeGhe env coordinates env.boreholeH
  St.modify fun s => { s with temps := [] }

/-- `Bisection1D.__init__` with `search=True`, search_routines.py:11-56. -/
def bisection1D (env : Env F K) (domain : List F) : St (State F K) (Option (ℤ × F)) := do
  setup env domain
  search env domain

/-- The outer domain of the nested searches, search_routines.py:242-244 and 289-291. -/
def outerDomain (nested : List (List F)) : Py (List F) := do
  let first ← pyGet nested 0
  let head ← pyGet first 0
  let lasts ← nested.mapM fun d => pyGet d (-1)
  return head :: lasts

/-- `Bisection2D.__init__`, search_routines.py:219-261.  `key - 1` on `None` is a `TypeError`. -/
def bisection2D (env : Env F K) (nested : List (List F)) : St (State F K) (Option (ℤ × F)) := do
  let first ← St.lift (pyGet nested 0)
  setup env first
  let outer ← St.lift (outerDomain nested)
  let r ← search env outer
  match r with
  | none => St.throw .typeError
  | some (key, _) =>
    let inner ← St.lift (pyGet nested (key - 1))
    St.modify fun s => { s with temps := [] }
    search env inner

/-- `compute_g_functions(); size(method='hybrid')` on the held exchanger. -/
def sizeHeld (env : Env F K) : St (State F K) (F × K) := do
  let s ← St.get
  match s.ghe with
  | none => St.throw .attributeError
  | some (f, H) =>
    let H' ← St.lift (env.sizeH f H)
    St.modify fun s => { s with ghe := some (f, H') }
    return (f, H')

/-- The `while` loop of `search_successive`, search_routines.py:312-335; `rem` is
`min(len(nested), max_iter) - i`. -/
def successiveLoop (env : Env F K) (nested : List (List F)) :
    ℕ → ℤ → K → St (State F K) Unit
  | 0, _, _ => pure ()
  | rem + 1, i, oldHeight => do
    let domain ← St.lift (pyGet nested i)
    St.modify fun s => { s with temps := [] }
    let r ← St.tryExcept (do let r ← search env domain; return some r) .valueError (pure none)
    match r with
    | none => pure ()
    | some none => St.throw .typeError
    | some (some (_, selected)) =>
      St.modify fun s => { s with tempsNested := PyDict.set s.tempsNested i s.temps }
      let (_, H) ← sizeHeld env
      let total := (env.nbh selected : K) * H
      St.modify fun s => { s with heights := PyDict.set s.heights i total }
      if oldHeight < total then pure ()
      else successiveLoop env nested rem (i + 1) total

/-- `search_successive` with `max_iter=None`, search_routines.py:304-363. -/
def searchSuccessive (env : Env F K) (nested : List (List F)) (outerKey : ℤ) :
    St (State F K) (ℤ × F) := do
  let maxIter := outerKey + 7
  successiveLoop env nested (min (nested.length : ℤ) maxIter - outerKey).toNat outerKey 99999
  let s ← St.get
  let keys := PyDict.keys s.heights
  let values := PyDict.values s.heights
  let m ← St.lift (pyMin values)
  let idx ← St.lift (pyIndexOf values m)
  let selOuter ← St.lift (pyGet keys idx)
  let temps ← St.lift (PyDict.get s.tempsNested selOuter)
  St.modify fun s => { s with temps := temps }
  let key ← St.lift (selectKey temps)
  let domain ← St.lift (pyGet nested selOuter)
  let selected ← St.lift (pyGet domain key)
  initializeGhe env selected env.maxHeight
  let _ ← sizeHeld env
  return (key, selected)

/-- `BisectionZD.__init__`, search_routines.py:265-302.  `None > 0` is a `TypeError`. -/
def bisectionZD (env : Env F K) (nested : List (List F)) : St (State F K) (ℤ × F) := do
  let first ← St.lift (pyGet nested 0)
  setup env first
  let outer ← St.lift (outerDomain nested)
  let r ← search env outer
  match r with
  | none => St.throw .typeError
  | some (key, _) =>
    let outerKey := if key > 0 then key - 1 else key
    St.modify fun s => { s with heights := [] }
    searchSuccessive env nested outerKey

/-- `retrieve_flow`, search_routines.py:58-70: `(V_flow_system, m_flow_borehole)`. -/
def retrieveFlow (flow : String) (V rho : K) (nCoordinates : ℕ) : Py (K × K) :=
  if flow = "borehole" then .ok (V * (nCoordinates : K), V / 1000 * rho)
  else if flow = "system" then do
    let vb ← pyDiv V (nCoordinates : K)
    return (V, vb / 1000 * rho)
  else .error .valueError

end Ghedt.Search
