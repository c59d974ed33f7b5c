import Verif.Model.RoundedLoads

/-!
# Model of the hybrid load in floating-point arithmetic

`HybridLoad` of `peak_load_analysis_tool/ground_loads.py` once more, with every `+`, `-`, `*`, `/` on floats rounded by
`R : Rounding K`.  The calendar functions (`monthdays`, `firstmonthhour`, `lastmonthhour`) compute with whole numbers, which
Python does not round; a whole number is rounded when it is combined with a float or put into an array of floats.  With
`Rounding.exact` each of these is the definition of `Model/GroundLoads` of the same name (C126).
-/

namespace Ghedt.Rounded
open Search GL

variable {K : Type} [Field K] [LinearOrder K] (R : Rounding K) (dot : List K → List K → K)

/-- `peak_energy`, ground_loads.py:354-356. -/
def peakEnergy (L : Loads K) (mi : ℤ) : Py K := do
  let p ← pyGet L.peak mi
  let d ← pyGet L.duration mi
  return mul R p d

/-- `peak_hour_range`, ground_loads.py:358-371.  The day of the peak is a whole number. -/
def peakHourRange (L : Loads K) (mi totalMonths : ℤ) : Py (K × K) := do
  let pd ← pyGet L.peakDay mi
  let d ← pyGet L.duration mi
  let hoursToMidDay : ℤ := (pd - 1) * 24 + 12
  let half := R.fl (d / 2)
  let f ← firstmonthhour totalMonths
  let first : K := sub R (R.fl ((f + hoursToMidDay : ℤ) : K)) half
  let first := if first < 0 then R.fl (1 / 1000000) else first
  return (first, add R first d)

/-- Body of the loop of `_place_loads`, ground_loads.py:552-561; `o` is the pair of an element of
`order` and its `sign`. -/
def placeStep (rate : K) (mi i : ℤ) (includePeak : Bool) (s : Hybrid K) (o : Loads K × K) :
    Py (Hybrid K) := do
  let p ← pyGet o.1.peak mi
  if p > 0 ∧ includePeak = true then
    let (first, last) ← peakHourRange R o.1 mi i
    return (s.push rate first).push (mul R o.2 p) last
  else return s

/-- `_place_loads`, ground_loads.py:551-565; `order` and `sign` are zipped. -/
def placeLoads (order : List (Loads K × K)) (rate : K) (mi i : ℤ) (includePeak : Bool)
    (s : Hybrid K) : Py (Hybrid K) := do
  let s ← order.foldlM (placeStep R rate mi i includePeak) s
  let e ← lastmonthhour i
  return s.push rate (R.fl (e : K))

/-- `mrate` and `peak_day_diff` of a month, ground_loads.py:570-585. -/
def monthRate (cl hl : Loads K) (mi : ℤ) (includePeak : Bool) : Py (K × ℤ) := do
  let md ← monthdays mi
  let totalC ← pyGet cl.total mi
  let totalH ← pyGet hl.total mi
  if includePeak = true then
    let dc ← pyGet cl.duration mi
    let dh ← pyGet hl.duration mi
    let mduration : K := sub R (sub R (R.fl ((md * 24 : ℤ) : K)) dc) dh
    let ec ← peakEnergy R cl mi
    let eh ← peakEnergy R hl mi
    let mload := add R (sub R (sub R totalC totalH) ec) eh
    let rate ← div R mload mduration
    let pdc ← pyGet cl.peakDay mi
    let pdh ← pyGet hl.peakDay mi
    return (rate, pdc - pdh)
  else
    let mduration : K := R.fl ((md * 24 : ℤ) : K)
    let mload := sub R totalC totalH
    let rate ← div R mload mduration
    return (rate, 0)

/-- Body of the month loop of `process_monthly_loads`, ground_loads.py:538-602. -/
def monthStep (cl hl : Loads K) (startMonth endMonth : ℤ) (s : Hybrid K) (i : ℤ) :
    Py (Hybrid K) := do
  let mi := if i % 12 = 0 then 12 else i % 12
  let includePeak : Bool := if i < startMonth + 12 then true
    else if i > endMonth - 12 then true else false
  let (rate, dayDiff) ← monthRate R cl hl mi includePeak
  if dayDiff < 0 then placeLoads R [(cl, 1), (hl, -1)] rate mi i includePeak s
  else if dayDiff > 0 then placeLoads R [(hl, -1), (cl, 1)] rate mi i includePeak s
  else
    let e ← lastmonthhour i
    return s.push rate (R.fl (e : K))

/-- Body of the last loop of `process_monthly_loads`, ground_loads.py:610-612. -/
def sfStep (load : List K) (sf : List K) (i : ℤ) : Py (List K) := do
  let a ← pyGet load i
  let b ← pyGet load (i - 1)
  return sf ++ [sub R a b]

/-- `process_monthly_loads`, ground_loads.py:522-612, started by `HybridLoad.__init__`
(`self.load = np.array(0)` etc., lines 417-421). -/
def processMonthlyLoads (cl hl : Loads K) (startMonth endMonth : ℤ) : Py (Hybrid K) := do
  let s : Hybrid K := ⟨[0], [0], [0]⟩
  let f ← firstmonthhour startMonth
  let s := s.push 0 (R.fl ((f - 1 : ℤ) : K))
  let s ← (pyRange startMonth (endMonth + 1)).foldlM (monthStep R cl hl startMonth endMonth) s
  let sf ← (pyRange 1 s.hour.length).foldlM (sfStep R s.load) s.sfload
  return { s with sfload := sf }

/-- `HybridLoad.__init__`, ground_loads.py:375-421, without the unused COP attributes. -/
def mkHybrid (r : Resp K) (rejection extraction : List K) (startMonth endMonth year : ℤ) :
    Py (Loads K × Loads K × Hybrid K) := do
  let cl ← mkLoads R dot r rejection year
  let hl ← mkLoads R dot r extraction year
  let h ← processMonthlyLoads R cl hl startMonth endMonth
  return (cl, hl, h)

end Ghedt.Rounded
