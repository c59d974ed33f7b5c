import Verif.Model.WholeGhe
import Verif.Model.FlowRates
import Verif.Model.Design

/-!
# Model of the searches of `search_routines.py` with the exchangers they build

`Verif/Model/SearchRoutines.lean` takes the excess temperature of a field as a parameter.  Here the searches
hold an exchanger object (`Verif/Model/WholeGhe.lean`), build each new one from the media and the borehole of
the one held, as the program does, and simulate and size it.  The borehole object is shared by the user, by
`Design` and by every exchanger built; its height is overwritten by each of them, so that the height it has
afterwards is that of the exchanger held.

Printing is dropped.  A field is the list of its coordinates.  The class of the exchanger and its pipe go
together (`Hardware`): a U-tube class is given a U-tube pipe, the coaxial class a coaxial one.
-/

namespace Ghedt.WholeSearch
open Real Ghedt.GHE Ghedt.Bhe Ghedt.Radial Ghedt.Whole Ghedt.Search Ghedt.Utilities

noncomputable section

/-- `bhe_object` with the pipe it is given. -/
inductive Hardware
  | single (pipe : Pipe)
  | multiple (pipe : Pipe)
  | coaxial (pipe : CoaxPipe)
  | other

/-- `fluid`, `pipe` (with the class), `grout` and `soil`. -/
structure Media where
  hardware : Hardware
  fluid : Fluid
  grout : Grout
  soil : Soil

/-- `bhe_object(m_flow_borehole, fluid, borehole, pipe, grout, soil)`: the constructors of
borehole_heat_exchangers.py:113, 176 (`config='parallel'`) and 374.  Another class is refused later, by
`compute_equivalent`. -/
def makeExchanger (ext : Ext) (m : ℝ) (media : Media) (b : Borehole) : Py Exchanger :=
  match media.hardware with
  | .single pipe => do
    let t ← mkSingle ext m media.fluid b pipe media.grout media.soil
    return .single t
  | .multiple pipe => do
    let t ← mkMultiple ext m media.fluid b pipe media.grout media.soil (some "parallel")
    return .multiple t
  | .coaxial pipe => .ok (.coaxial (mkCoax ext m media.fluid b pipe media.grout media.soil))
  | .other => .ok .other

/-- `bhe.fluid`, `bhe.pipe`, `bhe.grout`, `bhe.soil`, read from the exchanger held. -/
def mediaOf : Exchanger → Media
  | .single t => ⟨.single t.pipe, t.fluid, t.grout, t.soil⟩
  | .multiple t => ⟨.multiple t.pipe, t.fluid, t.grout, t.soil⟩
  | .coaxial c => ⟨.coaxial c.pipe, c.fluid, c.grout, c.soil⟩
  | .other => ⟨.other, ⟨0, 0, 0, 0⟩, ⟨0, 0⟩, ⟨0, 0, 0⟩⟩

/-- What the user gives to `Design` or to a search, and the external code. -/
structure Problem where
  ext : Ext
  /-- `brentq` -/
  brent : ℝ → ℝ → Finder ℝ
  /-- `dgtsv` -/
  solve : Solver
  /-- bound on the number of passes through the loop of the short-time model -/
  fuel : ℕ
  /-- spline interpolation of g-functions -/
  spl : String → List ℝ → List ℝ → ℝ → ℝ
  /-- `calculate_g_function(m_flow_borehole, …, coordinates, borehole, …)`: the curve for the given mass flow,
  media and coordinates, and height, radius and burial depth -/
  gf : ℝ → Media → List (ℝ × ℝ) → ℝ → ℝ → ℝ → Py (List ℝ)
  /-- `'{}'.format` and `float` -/
  fmt : ℝ → String
  toFloat : String → Py ℝ
  flow : String
  V : ℝ
  media : Media
  borehole : Borehole
  startMonth : ℤ
  endMonth : ℤ
  maxEFT : ℝ
  minEFT : ℝ
  minHeight : ℝ
  maxHeight : ℝ
  hourly : List ℝ
  method : String
  maxIter : ℤ

/-- A `GHE` object: what is fixed until `compute_g_functions`, and the rest. -/
structure Held where
  env : Whole.Env
  state : Whole.State

/-- `GHE.__init__`, ground_heat_exchangers.py:12-47 and 204-234: mass flow per borehole, exchanger, equivalent
tube, short-time response, then the hybrid load from that response (`units='W'`, `year=2019`). -/
def mkGhe (p : Problem) (Vsystem B : ℝ) (media : Media) (b : Borehole) (db : GF.DB ℝ) : Py Held := do
  let (_, m) ← gheFlow Vsystem media.fluid.rho db.locations.length
  let bhe ← makeExchanger p.ext m media b
  let (eq, bhe) ← computeEquivalent p.ext p.brent bhe
  let sts ← calcSts p.solve (radialTube p.ext eq) none false p.fuel
  let (rejection, extraction) ← GL.splitHeatAndCool p.hourly "W"
  let (cl, hl, h) ← GL.mkHybrid (respOf (radialTube p.ext eq) sts.1 sts.2.1 sts.2.2) rejection extraction
    p.startMonth p.endMonth 2019
  return ⟨{ ext := p.ext, brent := p.brent, solve := p.solve, fuel := p.fuel, spl := p.spl, db := db,
            bSpacing := B, rejection := cl, extraction := hl, load := h.load, hour := h.hour, hourly := p.hourly, startMonth := p.startMonth,
            endMonth := p.endMonth, maxEFT := p.maxEFT, minEFT := p.minEFT, minHeight := p.minHeight,
            maxHeight := p.maxHeight },
          ⟨bhe, eq, sts, {}, [], []⟩⟩

/-- The part of `initialize_ghe` after the height is set, search_routines.py:77-96, and of `__init__`, 38-51:
spacing, live g-function for the one height, exchanger. -/
def buildGhe (p : Problem) (flows : ℝ × ℝ) (media : Media) (b : Borehole) (coordinates : List (ℝ × ℝ)) :
    Py Held := do
  let B ← boreholeSpacing b.rb coordinates
  let db ← GF.computeLive p.fmt p.toFloat (p.gf flows.2 media coordinates) B [b.H] [b.rb] [b.D] eskilsonLogTimes
    coordinates
  mkGhe p flows.1 B media b db

/-- The attributes of the search object that change. -/
structure State where
  temps : PyDict ℤ ℝ := []
  held : Option Held := none
  tempsNested : PyDict ℤ (PyDict ℤ ℝ) := []
  heights : PyDict ℤ ℝ := []

/-- A method of the exchanger held; `self.ghe` is an `AttributeError` before there is one. -/
def onHeld {α : Type} (m : Whole.Env → St Whole.State α) : St State α := fun s =>
  match s.held with
  | none => (.error .attributeError, s)
  | some h =>
    let r := m h.env h.state
    (r.1, { s with held := some ⟨h.env, r.2⟩ })

/-- `initialize_ghe`, search_routines.py:72-96. -/
def initializeGhe (p : Problem) (coordinates : List (ℝ × ℝ)) (H : ℝ) : St State Unit := do
  let bhe ← onHeld fun _ => do let s ← St.get; return s.bhe
  let flows ← St.lift (retrieveFlow p.flow p.V (mediaOf bhe).fluid.rho coordinates.length)
  onHeld fun _ => St.modify fun s => s.at H
  let bhe ← onHeld fun _ => do let s ← St.get; return s.bhe
  let h ← St.lift (buildGhe p flows (mediaOf bhe) (Whole.borehole bhe) coordinates)
  St.modify fun s => { s with held := some h }

/-- `calculate_excess`, search_routines.py:98-109. -/
def calculateExcess (p : Problem) (coordinates : List (ℝ × ℝ)) (H : ℝ) : St State ℝ := do
  initializeGhe p coordinates H
  let (hi, lo) ← onHeld fun env => Whole.simulate env p.method
  onHeld fun env => pure (cost env.maxEFT env.minEFT hi lo)

/-- The `while` loop of `search`, search_routines.py:176-192; `rem` is `max_iter - i`. -/
def bisect (p : Problem) (domain : List (List (ℝ × ℝ))) (xLsign : ℤ) :
    ℕ → ℤ → ℤ → ℤ → St State (ℤ × ℤ × ℤ)
  | 0, i, xL, xR => pure (i, xL, xR)
  | rem + 1, i, xL, xR => do
    let c : ℤ := ⌈((xL + xR : ℤ) : ℚ) / 2⌉
    if c = xL ∨ c = xR then pure (i, xL, xR)
    else
      let f ← St.lift (pyGet domain c)
      let T ← calculateExcess p f p.maxHeight
      St.modify fun s => { s with temps := PyDict.set s.temps c T }
      let cSign ← St.lift (sign T)
      if cSign = xLsign then bisect p domain xLsign rem (i + 1) c xR
      else bisect p domain xLsign rem (i + 1) xL c

/-- The part of `search` after the initial checks, search_routines.py:171-215. -/
def searchBisection (p : Problem) (domain : List (List (ℝ × ℝ))) (xL xR : ℤ) (T0u Tm1 : ℝ) :
    St State (Option (ℤ × List (ℝ × ℝ))) := do
  let xLsign ← St.lift (sign T0u)
  let _xRsign ← St.lift (sign Tm1)
  let (i, _, _) ← bisect p domain xLsign p.maxIter.toNat 0 xL xR
  let coordinates ← St.lift (pyGet domain i)
  let H := p.maxHeight
  let _ ← calculateExcess p coordinates H
  let s ← St.get
  let key ← St.lift (selectKey s.temps)
  let selected ← St.lift (pyGet domain key)
  initializeGhe p selected H
  return some (key, selected)

/-- `Bisection1D.search`, search_routines.py:111-215.  `none` is `(None, None)`. -/
def search (p : Problem) (domain : List (List (ℝ × ℝ))) : St State (Option (ℤ × List (ℝ × ℝ))) := do
  let xL : ℤ := 0
  let xR : ℤ := (domain.length : ℤ) - 1
  let fR ← St.lift (pyGet domain xR)
  let fL ← St.lift (pyGet domain xL)
  let T0l ← calculateExcess p fL p.minHeight
  let T0u ← calculateExcess p fL p.maxHeight
  let Tm1 ← calculateExcess p fR p.maxHeight
  St.modify fun s => { s with temps := PyDict.set s.temps xL T0u }
  St.modify fun s => { s with temps := PyDict.set s.temps xR Tm1 }
  let s0l ← St.lift (sign T0l)
  let s0u ← St.lift (sign T0u)
  if checkBracket s0l s0u = true then
    let f0 ← St.lift (pyGet domain 0)
    initializeGhe p f0 p.maxHeight
    return some (0, f0)
  else
    let s0u' ← St.lift (sign T0u)
    let sm1 ← St.lift (sign Tm1)
    if checkBracket s0u' sm1 = true then searchBisection p domain xL xR T0u Tm1
    else if T0u < 0 ∧ Tm1 < 0 then St.throw .valueError
    else if T0u > 0 ∧ Tm1 > 0 then St.throw .valueError
    else return none

/-- `Bisection1D.__init__` up to `search`, search_routines.py:20-53: the first exchanger is built from the
borehole and the media given. -/
def setup (p : Problem) (domain : List (List (ℝ × ℝ))) : St State Unit := do
  let coordinates ← St.lift (pyGet domain 0)
  let flows ← St.lift (retrieveFlow p.flow p.V p.media.fluid.rho coordinates.length)
  let h ← St.lift (buildGhe p flows p.media p.borehole coordinates)
  St.modify fun s => { s with held := some h }
  St.modify fun s => { s with temps := [] }

/-- `Bisection1D.__init__` with `search=True`, search_routines.py:11-56. -/
def bisection1D (p : Problem) (domain : List (List (ℝ × ℝ))) : St State (Option (ℤ × List (ℝ × ℝ))) := do
  setup p domain
  search p domain

/-- `Bisection2D.__init__`, search_routines.py:219-261. -/
def bisection2D (p : Problem) (nested : List (List (List (ℝ × ℝ)))) :
    St State (Option (ℤ × List (ℝ × ℝ))) := do
  let first ← St.lift (pyGet nested 0)
  setup p first
  let outer ← St.lift (outerDomain nested)
  let r ← search p outer
  match r with
  | none => St.throw .typeError
  | some (key, _) =>
    let inner ← St.lift (pyGet nested (key - 1))
    St.modify fun s => { s with temps := [] }
    search p inner

/-- `BaseGHE.compute_g_functions` on the exchanger held, ground_heat_exchangers.py:180-201: a new g-function
object, with an empty interpolation table. -/
def computeG (p : Problem) : St State Unit := fun s =>
  match s.held with
  | none => (.error .attributeError, s)
  | some h =>
    match GF.computeGFunctions p.fmt p.toFloat
        (p.gf (flowOf h.state.bhe) (mediaOf h.state.bhe) h.env.db.locations) h.env.bSpacing h.env.minHeight
        h.env.maxHeight (Whole.borehole h.state.bhe).rb (Whole.borehole h.state.bhe).D h.env.db with
    | .error e => (.error e, s)
    | .ok db => (.ok (), { s with held := some ⟨{ h.env with db := db }, { h.state with table := {} }⟩ })

/-- `compute_g_functions(); size(method='hybrid')`, then `bhe.b.H`. -/
def sizeHeld (p : Problem) : St State ℝ := do
  computeG p
  let _ ← onHeld fun env => Whole.size env "hybrid"
  onHeld fun _ => do let s ← St.get; return (Whole.borehole s.bhe).H

/-- The `while` loop of `search_successive`, search_routines.py:312-335. -/
def successiveLoop (p : Problem) (nested : List (List (List (ℝ × ℝ)))) : ℕ → ℤ → ℝ → St State Unit
  | 0, _, _ => pure ()
  | rem + 1, i, oldHeight => do
    let domain ← St.lift (pyGet nested i)
    St.modify fun s => { s with temps := [] }
    let r ← St.tryExcept (do let r ← search p domain; return some r) .valueError (pure none)
    match r with
    | none => pure ()
    | some none => St.throw .typeError
    | some (some (_, selected)) =>
      St.modify fun s => { s with tempsNested := PyDict.set s.tempsNested i s.temps }
      let H ← sizeHeld p
      let total := (selected.length : ℝ) * H
      St.modify fun s => { s with heights := PyDict.set s.heights i total }
      if oldHeight < total then pure ()
      else successiveLoop p nested rem (i + 1) total

/-- `search_successive` with `max_iter=None`, search_routines.py:304-363. -/
def searchSuccessive (p : Problem) (nested : List (List (List (ℝ × ℝ)))) (outerKey : ℤ) :
    St State (ℤ × List (ℝ × ℝ)) := do
  let maxIter := outerKey + 7
  successiveLoop p nested (min (nested.length : ℤ) maxIter - outerKey).toNat outerKey 99999
  let s ← St.get
  let keys := PyDict.keys s.heights
  let values := PyDict.values s.heights
  let m ← St.lift (pyMin values)
  let idx ← St.lift (pyIndexOf values m)
  let selOuter ← St.lift (pyGet keys idx)
  let temps ← St.lift (PyDict.get s.tempsNested selOuter)
  St.modify fun s => { s with temps := temps }
  let key ← St.lift (selectKey temps)
  let domain ← St.lift (pyGet nested selOuter)
  let selected ← St.lift (pyGet domain key)
  initializeGhe p selected p.maxHeight
  let _ ← sizeHeld p
  return (key, selected)

/-- `BisectionZD.__init__`, search_routines.py:265-302. -/
def bisectionZD (p : Problem) (nested : List (List (List (ℝ × ℝ)))) : St State (ℤ × List (ℝ × ℝ)) := do
  let first ← St.lift (pyGet nested 0)
  setup p first
  let outer ← St.lift (outerDomain nested)
  let r ← search p outer
  match r with
  | none => St.throw .typeError
  | some (key, _) =>
    let outerKey := if key > 0 then key - 1 else key
    St.modify fun s => { s with heights := [] }
    searchSuccessive p nested outerKey

/-- `find_design`, design.py:82-125, on a new search object. -/
def findDesign (p : Problem) (routine : String) (c : Design.Candidates ℝ) :
    St State (Option (ℤ × List (ℝ × ℝ))) := do
  if routine = "near-square" then
    let d ← St.lift c.asFlat
    bisection1D p d
  else if routine = "rectangle" then
    let d ← St.lift c.asFlat
    bisection1D p d
  else if routine = "bi-rectangle" then
    let d ← St.lift c.asNested
    bisection2D p d
  else if routine = "bi-zoned" then
    let d ← St.lift c.asNested
    let r ← bisectionZD p d
    return some r
  else St.throw .valueError

/-- `Design(…).find_design()`, design.py:12-125: the candidate fields from the constraints, then the search. `fuel` bounds
the loop that makes zoned candidates. -/
def design (p : Problem) (fuel : ℕ) (gc : Design.Constraints ℝ) (routine : String) :
    St State (Option (ℤ × List (ℝ × ℝ))) := do
  let c ← St.lift (Design.designInit fuel gc routine)
  findDesign p routine c

end

end Ghedt.WholeSearch
