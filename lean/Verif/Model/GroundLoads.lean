import Verif.Model.Interp
import Verif.Model.SearchRoutines

/-!
# Model of `ghedt/peak_load_analysis_tool/ground_loads.py`

Simplifications.  Floats are an ordered field.  `Resp.g Δ` is `g_sts(log(Δ*3600/ts))`, the short-time
response `Δ` hours after a load change; it may raise.  numpy divisions by `two_pi_k` are field
divisions.  Entry 0 of the thirteen-entry lists is the placeholder 0.  The data frame is in
`Verif/Model/PeakTable.lean`; the two plotting methods are not modelled.
-/

namespace Ghedt.GL
open Search

variable {K : Type} [Field K] [LinearOrder K]

/-! ### Calendar -/

/-- `monthdays`, ground_loads.py:828-835. -/
def monthdays (month : ℤ) : Py ℤ :=
  let md := if month > 12 then month % 12 else month
  pyGet [31, 31, 28, 31, 30, 31, 30, 31, 31, 30, 31, 30, 31] md

/-- `firstmonthhour`, ground_loads.py:838-844. -/
def firstmonthhour (month : ℤ) : Py ℤ :=
  if month > 1 then
    (pyRange 1 month).foldlM (fun (fmh : ℤ) (i : ℤ) => do
      let mi := i % 12
      let d ← monthdays mi
      return fmh + 24 * d) 1
  else .ok 1

/-- `lastmonthhour`, ground_loads.py:847-853. -/
def lastmonthhour (month : ℤ) : Py ℤ := do
  let lmh ← (pyRange 1 (month + 1)).foldlM (fun (lmh : ℤ) (i : ℤ) => do
    let d ← monthdays i
    return lmh + d * 24) 0
  return (if month = 1 then 31 * 24 else lmh)

/-- `calendar.isleap`. -/
def isLeap (year : ℤ) : Bool := decide (year % 4 = 0 ∧ (year % 100 ≠ 0 ∨ year % 400 = 0))

/-- `calendar.monthrange(year, i)[1]`. -/
def monthrange (year i : ℤ) : Py ℤ :=
  if 1 ≤ i ∧ i ≤ 12 then do
    let d ← pyGet [0, 31, 28, 31, 30, 31, 30, 31, 31, 30, 31, 30, 31] i
    return d + (if i = 2 ∧ isLeap year = true then 1 else 0)
  else .error .valueError

/-- `[0] + [monthrange(year, i)[1] for i in range(1, 13)]`, ground_loads.py:66-67, 132-133, 622-623. -/
def daysInMonth (year : ℤ) : Py (List ℤ) := do
  let l ← (pyRange 1 13).mapM fun i : ℤ => monthrange year i
  return 0 :: l

/-- The dictionary of `number_to_month`, ground_loads.py:809-812. -/
def monthNames : PyDict String String :=
  [("1", "January"), ("2", "February"), ("3", "March"), ("4", "April"), ("5", "May"),
   ("6", "June"), ("7", "July"), ("8", "August"), ("9", "September"), ("10", "October"),
   ("11", "November"), ("12", "December")]

/-- `number_to_month` on integers, ground_loads.py:805-817; `none` is the implicit `None` (a message
is printed). -/
def numberToMonth (x : ℤ) : Py (Option String) :=
  if x ≤ 12 ∧ x > 0 then do
    let n ← PyDict.get monthNames (toString x)
    return some n
  else .ok none

/-- `monthindex`, ground_loads.py:820-825. -/
def monthindex (name : String) : Option ℤ :=
  PyDict.find? [("January", 1), ("February", 2), ("March", 3), ("April", 4), ("May", 5),
    ("June", 6), ("July", 7), ("August", 8), ("September", 9), ("October", 10), ("November", 11),
    ("December", 12)] name

/-! ### Synthetic loads -/

/-- `synthetic_load_function`, ground_loads.py:16-45; the updated list is returned. -/
def syntheticLoad (loads : List K) (avg peak : K) (duration peakDay prev hours : ℤ) : List K :=
  let loads := pySliceAssign loads prev (prev + hours) (List.replicate hours.toNat avg)
  let noon := peakDay * 24 + prev + 12
  let start : ℤ := ⌊(noon : ℚ) - (duration : ℚ) / 2⌋
  pySliceAssign loads start (start + duration) (List.replicate duration.toNat peak)

/-- The unit scale, ground_loads.py:58-63 and 447-452. -/
def unitScale (units : String) : Py K :=
  if units = "W" then .ok 1000 else if units = "kW" then .ok 1 else .error .valueError

/-- Loop state of the two writers of synthetic years. -/
structure Synth (K : Type) where
  rej : List K
  ext : List K
  dayExt : ℤ := 7
  dayRej : ℤ := 19
  prev : ℤ := 0

/-- Body of the loop of `create_synthetic_doubling_load_profile`, ground_loads.py:84-117; `days` is
`days_in_month`. -/
def doublingStep (scale : K) (days : List ℤ) (s : Synth K) (i : ℤ) : Py (Synth K) := do
  let d ← pyGet days i
  let hours := 24 * d
  let n : ℤ := days.length
  let ext := syntheticLoad s.ext ((i : K) * scale) (2 * (i : K) * scale) i s.dayExt s.prev hours
  let rej := syntheticLoad s.rej ((n - i : ℤ) : K) (2 * ((n - i : ℤ) : K) * scale) (n - i)
    s.dayRej s.prev hours
  return ⟨rej, ext, s.dayExt + 1, s.dayRej - 1, s.prev + hours⟩

/-- `create_synthetic_doubling_load_profile`, ground_loads.py:48-119: `(rejection, extraction)`. -/
def createSyntheticDoubling (units : String) (year : ℤ) : Py (List K × List K) := do
  let scale : K ← unitScale units
  let days ← daysInMonth year
  let zeros : List K := List.replicate (days.sum * 24).toNat 0
  let s ← (pyRange 1 days.length).foldlM (doublingStep scale days) { rej := zeros, ext := zeros }
  return (s.rej, s.ext)

/-- Body of the loop of `split_heat_and_cool`, ground_loads.py:454-460; the state is
`(rejection, extraction)`, `q` is `(load, i)`. -/
def splitHourStep (scale : K) (s : List K × List K) (q : K × ℕ) : Py (List K × List K) := do
  if q.1 ≥ 0 then
    let v ← pyDiv q.1 scale
    let e ← pySet s.2 (q.2 : ℤ) v
    return (s.1, e)
  else
    let v ← pyDiv q.1 (-scale)
    let r ← pySet s.1 (q.2 : ℤ) v
    return (r, s.2)

/-- `split_heat_and_cool`, ground_loads.py:430-462: `(rejection, extraction)`. -/
def splitHeatAndCool (hourly : List K) (units : String) : Py (List K × List K) := do
  let rej := List.replicate hourly.length (0 : K)
  let ext := List.replicate hourly.length (0 : K)
  let scale ← unitScale units
  hourly.zipIdx.foldlM (splitHourStep scale) (rej, ext)

/-! ### Monthly loads -/

/-- The short-time response of the borehole: `g_sts`, `two_pi_k`, `Rb`. -/
structure Resp (K : Type) where
  g : ℤ → Py K
  twoPiK : K
  Rb : K

/-- The attributes of `Loads`. -/
structure Loads (K : Type) where
  hourly : List K
  days : List ℤ
  total : List K
  peak : List K
  average : List K
  peakDay : List ℤ
  twoDay : List (List K)
  tempsNm : List (List K)
  tempsPk : List (List K)
  duration : List K

/-- Loop state of `split_load_by_month`. -/
structure Split (K : Type) where
  prev : ℤ
  total : List K
  peak : List K
  average : List K
  peakDay : List ℤ

/-- Body of the loop of `split_load_by_month`, ground_loads.py:173-195; `q` is `(days, i)`.
`math.ceil(idx / 24)` is the ceiling of the exact quotient. -/
def splitStep (hourly : List K) (s : Split K) (q : ℤ × ℕ) : Py (Split K) := do
  let i : ℤ := q.2
  let hours := 24 * q.1
  let month := pySlice hourly s.prev (s.prev + hours)
  pyAssert ((month.length : ℤ) = hours)
  let total ← pySet s.total i month.sum
  let pk ← pyMax month
  let peak ← pySet s.peak i pk
  let avg ← pyDiv month.sum (month.length : K)
  let average ← pySet s.average i avg
  let idx ← pyIndexOf month pk
  let peakDay ← pySet s.peakDay i ⌈(idx : ℚ) / 24⌉
  return ⟨s.prev + hours, total, peak, average, peakDay⟩

/-- `split_load_by_month`, ground_loads.py:167-197. -/
def splitLoadByMonth (hourly : List K) (days : List ℤ) : Py (Split K) :=
  ((days.drop 1).zipIdx 1).foldlM (splitStep hourly)
    ⟨0, List.replicate 13 0, List.replicate 13 0, List.replicate 13 0, List.replicate 13 0⟩

/-- Body of the loop of `process_two_day_loads`, ground_loads.py:219-243; `padded` is the year with
its last day in front and its first day behind; the state is
`(hours_in_previous_months, monthly_two_day_hourly_peak)`. -/
def twoDayStep (padded : List K) (days peakDay : List ℤ) (s : ℤ × List (List K)) (q : ℤ × ℕ) :
    Py (ℤ × List (List K)) := do
  let i : ℤ := q.2
  let hours := 24 * q.1
  let pd ← pyGet peakDay i
  let start := s.1 + (pd - 1) * 24
  let window := pySlice padded start (start + 2 * 24)
  pyAssert (window.length = 2 * 24)
  let dayStart := pyInt (((start - 24 : ℤ) : ℚ) / 24)
  let inMonth := dayStart - (pySlice days 0 i).sum
  pyAssert (inMonth = pd - 1)
  return (s.1 + hours, s.2 ++ [window])

/-- `process_two_day_loads`, ground_loads.py:199-245. -/
def processTwoDayLoads (hourly : List K) (days peakDay : List ℤ) : Py (List (List K)) := do
  let n : ℤ := hourly.length
  let padded := pySlice hourly (n - 24) n ++ hourly ++ pySlice hourly 0 24
  let s ← ((days.drop 1).zipIdx 1).foldlM (twoDayStep padded days peakDay) (24, [[0]])
  return s.2

/-- `simulate_hourly`, ground_loads.py:298-317. -/
def simulateHourly (r : Resp K) (hourTime : List ℤ) (q : List K) : Py (List K) := do
  let qdt := List.zipWith (· - ·) q.tail q
  let out ← (pyRange 1 hourTime.length).mapM fun n : ℤ => do
    let tn ← pyGet hourTime n
    let gv ← (hourTime.take n.toNat).mapM fun τ : ℤ => r.g (tn - τ)
    let w := (qdt.take n.toNat).map (· / r.twoPiK)
    if w.length ≠ gv.length then throw .valueError
    let deltaTb := (List.zipWith (· * ·) w gv).sum
    let qn ← pyGet q n
    return deltaTb + qn * r.Rb
  return 0 :: out

/-- `perform_current_month_simulation`, ground_loads.py:319-352: the peak duration and the two
temperature histories that are appended. -/
def performMonth (r : Resp K) (twoDay : List K) (peakLoad avgLoad : K) :
    Py (K × List K × List K) := do
  let hourTime := pyRange 0 (2 * 24 + 1)
  let qPeak := 0 :: List.replicate (2 * 24) (peakLoad - avgLoad)
  let qn ← (pyRange 1 qPeak.length).mapM fun i : ℤ => do
    let l ← pyGet twoDay i
    let a ← pyDiv (l - avgLoad) peakLoad
    return a * l
  let qNominal := 0 :: qn
  let pk ← simulateHourly r hourTime qPeak
  let nm ← simulateHourly r hourTime qNominal
  let m ← pyMax nm
  let d ← (if m > 0 then interp1d pk (hourTime.map fun h : ℤ => (h : K)) m
    else .ok (1 / 1000000))
  return (d, pk, nm)

/-- Body of the loop of `find_peak_durations`, ground_loads.py:250-294; the state is
`(monthly_peak_duration, temps_pk, temps_nm)`. -/
def durationStep (r : Resp K) (twoDay : List (List K)) (peak average : List K)
    (s : List K × List (List K) × List (List K)) (i : ℤ) :
    Py (List K × List (List K) × List (List K)) := do
  let w ← pyGet twoDay i
  let current := 0 :: w
  let p ← pyGet peak i
  let m ← pyMax current
  let diff := p - m
  let used := if |diff| < 1 / 10 then p else m
  let avg ← pyGet average i
  if used ≠ 0 then
    let (d, pk, nm) ← performMonth r current used avg
    let duration ← pySet s.1 i d
    return (duration, s.2.1 ++ [pk], s.2.2 ++ [nm])
  else
    let duration ← pySet s.1 i (1 / 1000000)
    return (duration, s.2.1, s.2.2)

/-- `Loads.__init__`, ground_loads.py:123-165. -/
def mkLoads (r : Resp K) (hourly : List K) (year : ℤ) : Py (Loads K) := do
  let days ← daysInMonth year
  pyAssert ((hourly.length : ℤ) = days.sum * 24)
  let s ← splitLoadByMonth hourly days
  let twoDay ← processTwoDayLoads hourly days s.peakDay
  let (duration, pk, nm) ← (pyRange 1 days.length).foldlM
    (durationStep r twoDay s.peak s.average) (List.replicate 13 0, [[0]], [[0]])
  return ⟨hourly, days, s.total, s.peak, s.average, s.peakDay, twoDay, nm, pk, duration⟩

/-- `peak_energy`, ground_loads.py:354-356. -/
def peakEnergy (L : Loads K) (mi : ℤ) : Py K := do
  let p ← pyGet L.peak mi
  let d ← pyGet L.duration mi
  return p * d

/-- `peak_hour_range`, ground_loads.py:358-371. -/
def peakHourRange (L : Loads K) (mi totalMonths : ℤ) : Py (K × K) := do
  let pd ← pyGet L.peakDay mi
  let d ← pyGet L.duration mi
  let hoursToMidDay : ℤ := (pd - 1) * 24 + 12
  let f ← firstmonthhour totalMonths
  let first : K := (f : K) + (hoursToMidDay : K) - d / 2
  let first := if first < 0 then 1 / 1000000 else first
  return (first, first + d)

/-! ### The hybrid load sequence -/

/-- `self.load`, `self.hour`, `self.sfload`. -/
structure Hybrid (K : Type) where
  load : List K
  hour : List K
  sfload : List K

/-- Appending one `(load, hour)` pair. -/
def Hybrid.push (s : Hybrid K) (l h : K) : Hybrid K :=
  { s with load := s.load ++ [l], hour := s.hour ++ [h] }

/-- Body of the loop of `_place_loads`, ground_loads.py:552-561; `o` is the pair of an element of
`order` and its `sign`. -/
def placeStep (rate : K) (mi i : ℤ) (includePeak : Bool) (s : Hybrid K) (o : Loads K × K) :
    Py (Hybrid K) := do
  let p ← pyGet o.1.peak mi
  if p > 0 ∧ includePeak = true then
    let (first, last) ← peakHourRange o.1 mi i
    return (s.push rate first).push (o.2 * p) last
  else return s

/-- `_place_loads`, ground_loads.py:551-565; `order` and `sign` are zipped. -/
def placeLoads (order : List (Loads K × K)) (rate : K) (mi i : ℤ) (includePeak : Bool)
    (s : Hybrid K) : Py (Hybrid K) := do
  let s ← order.foldlM (placeStep rate mi i includePeak) s
  let e ← lastmonthhour i
  return s.push rate (e : K)

/-- `mrate` and `peak_day_diff` of a month, ground_loads.py:570-585. -/
def monthRate (cl hl : Loads K) (mi : ℤ) (includePeak : Bool) : Py (K × ℤ) := do
  let md ← monthdays mi
  let totalC ← pyGet cl.total mi
  let totalH ← pyGet hl.total mi
  if includePeak = true then
    let dc ← pyGet cl.duration mi
    let dh ← pyGet hl.duration mi
    let mduration : K := (md : K) * 24 - dc - dh
    let ec ← peakEnergy cl mi
    let eh ← peakEnergy hl mi
    let mload := totalC - totalH - ec + eh
    let rate ← pyDiv mload mduration
    let pdc ← pyGet cl.peakDay mi
    let pdh ← pyGet hl.peakDay mi
    return (rate, pdc - pdh)
  else
    let mduration : K := (md : K) * 24
    let mload := totalC - totalH
    let rate ← pyDiv mload mduration
    return (rate, 0)

/-- Body of the month loop of `process_monthly_loads`, ground_loads.py:538-602. -/
def monthStep (cl hl : Loads K) (startMonth endMonth : ℤ) (s : Hybrid K) (i : ℤ) :
    Py (Hybrid K) := do
  let mi := if i % 12 = 0 then 12 else i % 12
  let includePeak : Bool := if i < startMonth + 12 then true
    else if i > endMonth - 12 then true else false
  let (rate, dayDiff) ← monthRate cl hl mi includePeak
  if dayDiff < 0 then placeLoads [(cl, 1), (hl, -1)] rate mi i includePeak s
  else if dayDiff > 0 then placeLoads [(hl, -1), (cl, 1)] rate mi i includePeak s
  else
    let e ← lastmonthhour i
    return s.push rate (e : K)

/-- Body of the last loop of `process_monthly_loads`, ground_loads.py:610-612. -/
def sfStep (load : List K) (sf : List K) (i : ℤ) : Py (List K) := do
  let a ← pyGet load i
  let b ← pyGet load (i - 1)
  return sf ++ [a - b]

/-- `process_monthly_loads`, ground_loads.py:522-612, started by `HybridLoad.__init__`
(`self.load = np.array(0)` etc., lines 417-421). -/
def processMonthlyLoads (cl hl : Loads K) (startMonth endMonth : ℤ) : Py (Hybrid K) := do
  let s : Hybrid K := ⟨[0], [0], [0]⟩
  let f ← firstmonthhour startMonth
  let s := s.push 0 ((f - 1 : ℤ) : K)
  let s ← (pyRange startMonth (endMonth + 1)).foldlM (monthStep cl hl startMonth endMonth) s
  let sf ← (pyRange 1 s.hour.length).foldlM (sfStep s.load) s.sfload
  return { s with sfload := sf }

/-- `HybridLoad.__init__`, ground_loads.py:375-421, without the unused COP attributes. -/
def mkHybrid (r : Resp K) (rejection extraction : List K) (startMonth endMonth year : ℤ) :
    Py (Loads K × Loads K × Hybrid K) := do
  let cl ← mkLoads r rejection year
  let hl ← mkLoads r extraction year
  let h ← processMonthlyLoads cl hl startMonth endMonth
  return (cl, hl, h)

/-- Body of the loop of `hourly_load_representation`, ground_loads.py:638-668; the state is
`(rejection, extraction, hours_in_previous_months)`. -/
def representStep [FloorRing K] (cl hl : Loads K) (days : List ℤ) (s : List K × List K × ℤ) (i : ℤ) :
    Py (List K × List K × ℤ) := do
  let d ← pyGet days i
  let hours := 24 * d
  let avgR ← pyGet cl.average i
  let avgE ← pyGet hl.average i
  let pkE ← pyGet hl.peak i
  let durE ← pyGet hl.duration i
  let dayE ← pyGet hl.peakDay i
  let pkR ← pyGet cl.peak i
  let durR ← pyGet cl.duration i
  let dayR ← pyGet cl.peakDay i
  return (syntheticLoad s.1 avgR pkR (pyRound durR) dayR s.2.2 hours,
    syntheticLoad s.2.1 avgE pkE (pyRound durE) dayE s.2.2 hours, s.2.2 + hours)

/-- `hourly_load_representation`, ground_loads.py:614-670: `(rejection, extraction)`. -/
def hourlyLoadRepresentation [FloorRing K] (cl hl : Loads K) (year : ℤ) :
    Py (List K × List K) := do
  let days ← daysInMonth year
  let zeros : List K := List.replicate (days.sum * 24).toNat 0
  let s ← (pyRange 1 days.length).foldlM (representStep cl hl days) (zeros, zeros, 0)
  return (s.1, s.2.1)

end Ghedt.GL
