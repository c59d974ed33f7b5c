import Verif.Model.RoundedDomains
import Verif.Model.GroundLoads

/-!
# Model of the monthly loads in floating-point arithmetic

`Loads` of `peak_load_analysis_tool/ground_loads.py` once more, with every `+`, `-`, `*`, `/` on floats rounded by
`R : Rounding K`.  `sum` adds from the left (as Python did before 3.12).  The order in which `numpy` adds up a dot product is
not fixed by the code: `dot` is a parameter.  The response `r.g`, `r.twoPiK`, `r.Rb` consists of given floats.  With
`Rounding.exact` and the exact dot product each of these is the definition of `Model/GroundLoads` of the same name
(C124).
-/

namespace Ghedt.Rounded
open Search GL

variable {K : Type} [Field K] [LinearOrder K] (R : Rounding K) (dot : List K → List K → K)

/-- `a - b` on floats. -/
def sub (a b : K) : K := R.fl (a - b)

/-- `sum(l)` of a list of floats. -/
def sum (l : List K) : K := l.foldl (add R) 0

/-- `numpy.interp` inside the range, as `interpNodes` of `Model/Interp`. -/
def interpNodes : List (K × K) → K → Py K
  | [], _ => .error .valueError
  | [p], v => if v = p.1 then .ok p.2 else .error .valueError
  | p :: q :: rest, v =>
    if v < p.1 then .error .valueError
    else if v < q.1 then .ok (add R (mul R (R.fl (sub R q.2 p.2 / sub R q.1 p.1)) (sub R v p.1)) p.2)
    else interpNodes (q :: rest) v

/-- `interp1d(x, y)(v)`. -/
def interp1d (x y : List K) (v : K) : Py K :=
  if x.length ≠ y.length then .error .valueError
  else interpNodes R ((x.zip y).insertionSort fun a b => a.1 ≤ b.1) v

/-- Body of the loop of `split_load_by_month`, ground_loads.py:173-195; `q` is `(days, i)`.
`math.ceil(idx / 24)` is the ceiling of the exact quotient: the index is below 744, so rounding the quotient does not
change it. -/
def splitStep (hourly : List K) (s : Split K) (q : ℤ × ℕ) : Py (Split K) := do
  let i : ℤ := q.2
  let hours := 24 * q.1
  let month := pySlice hourly s.prev (s.prev + hours)
  pyAssert ((month.length : ℤ) = hours)
  let total ← pySet s.total i (sum R month)
  let pk ← pyMax month
  let peak ← pySet s.peak i pk
  let avg ← div R (sum R month) (month.length : K)
  let average ← pySet s.average i avg
  let idx ← pyIndexOf month pk
  let peakDay ← pySet s.peakDay i ⌈(idx : ℚ) / 24⌉
  return ⟨s.prev + hours, total, peak, average, peakDay⟩

/-- `split_load_by_month`, ground_loads.py:167-197. -/
def splitLoadByMonth (hourly : List K) (days : List ℤ) : Py (Split K) :=
  ((days.drop 1).zipIdx 1).foldlM (splitStep R hourly)
    ⟨0, List.replicate 13 0, List.replicate 13 0, List.replicate 13 0, List.replicate 13 0⟩

/-- `simulate_hourly`, ground_loads.py:298-317. -/
def simulateHourly (r : Resp K) (hourTime : List ℤ) (q : List K) : Py (List K) := do
  let qdt := List.zipWith (sub R) q.tail q
  let out ← (pyRange 1 hourTime.length).mapM fun n : ℤ => do
    let tn ← pyGet hourTime n
    let gv ← (hourTime.take n.toNat).mapM fun τ : ℤ => r.g (tn - τ)
    let w := (qdt.take n.toNat).map fun x => R.fl (x / r.twoPiK)
    if w.length ≠ gv.length then throw .valueError
    let deltaTb := dot w gv
    let qn ← pyGet q n
    return add R deltaTb (mul R qn r.Rb)
  return 0 :: out

/-- `perform_current_month_simulation`, ground_loads.py:319-352. -/
def performMonth (r : Resp K) (twoDay : List K) (peakLoad avgLoad : K) :
    Py (K × List K × List K) := do
  let hourTime := pyRange 0 (2 * 24 + 1)
  let qPeak := 0 :: List.replicate (2 * 24) (sub R peakLoad avgLoad)
  let qn ← (pyRange 1 qPeak.length).mapM fun i : ℤ => do
    let l ← pyGet twoDay i
    let a ← div R (sub R l avgLoad) peakLoad
    return mul R a l
  let qNominal := 0 :: qn
  let pk ← simulateHourly R dot r hourTime qPeak
  let nm ← simulateHourly R dot r hourTime qNominal
  let m ← pyMax nm
  let d ← (if m > 0 then interp1d R pk (hourTime.map fun h : ℤ => (h : K)) m
    else .ok (R.fl (1 / 1000000)))
  return (d, pk, nm)

/-- Body of the loop of `find_peak_durations`, ground_loads.py:250-294; the state is
`(monthly_peak_duration, temps_pk, temps_nm)`. -/
def durationStep (r : Resp K) (twoDay : List (List K)) (peak average : List K)
    (s : List K × List (List K) × List (List K)) (i : ℤ) :
    Py (List K × List (List K) × List (List K)) := do
  let w ← pyGet twoDay i
  let current := 0 :: w
  let p ← pyGet peak i
  let m ← pyMax current
  let diff := sub R p m
  let used := if |diff| < R.fl (1 / 10) then p else m
  let avg ← pyGet average i
  if used ≠ 0 then
    let (d, pk, nm) ← performMonth R dot r current used avg
    let duration ← pySet s.1 i d
    return (duration, s.2.1 ++ [pk], s.2.2 ++ [nm])
  else
    let duration ← pySet s.1 i (R.fl (1 / 1000000))
    return (duration, s.2.1, s.2.2)

/-- `Loads.__init__`, ground_loads.py:123-165. -/
def mkLoads (r : Resp K) (hourly : List K) (year : ℤ) : Py (Loads K) := do
  let days ← daysInMonth year
  pyAssert ((hourly.length : ℤ) = days.sum * 24)
  let s ← splitLoadByMonth R hourly days
  let twoDay ← processTwoDayLoads hourly days s.peakDay
  let (duration, pk, nm) ← (pyRange 1 days.length).foldlM
    (durationStep R dot r twoDay s.peak s.average) (List.replicate 13 0, [[0]], [[0]])
  return ⟨hourly, days, s.total, s.peak, s.average, s.peakDay, twoDay, nm, pk, duration⟩

end Ghedt.Rounded
