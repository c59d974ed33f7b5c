import Verif.Py
import Mathlib.Algebra.Order.Floor.Ring

/-!
# Model of the locator of minor ticks

`raise_if_exceeds` (which only warns about more than 1000 ticks) and `tick_values`, utilities.py:251-253 (which always raises), are left out.
-/

namespace Ghedt.Ticks
variable {K : Type} [Field K] [LinearOrder K] [FloorRing K]

/-- `np.arange(a, b, step)[1:]` for `step ≠ 0`. -/
def arangeTail (a b step : K) : List K := ((List.range (⌈(b - a) / step⌉).toNat).map fun k : ℕ => a + k * step).drop 1

/-- Body of the loop of `MinorSymLogLocator.__call__`, utilities.py:236-246.  Numbers of numpy: dividing by 0 gives an
infinite step, for which `arange` has no elements after the first; a gap of length 0 gives `nan` or the step 0, for which
`arange` raises. -/
def gapTicks (linthresh : K) (nints : ℤ) (a b : K) : Py (List K) :=
  let majorstep := b - a
  let ndivs : K := if |a + majorstep / 2| < linthresh then nints else nints - 1
  if majorstep = 0 then .error .valueError
  else if ndivs = 0 then .ok []
  else .ok (arangeTail a b (majorstep / ndivs))

/-- The temporary tick at the lower end, utilities.py:210-222; `first` and `second` are the two lowest major ticks. -/
def lowerEnd (linthresh first second : K) : K :=
  let dmlower := second - first
  if first ≠ 0 ∧ ((first ≠ linthresh ∧ dmlower > linthresh) ∨ (dmlower = linthresh ∧ first < 0)) then first * 10
  else first - linthresh

/-- The temporary tick at the upper end, utilities.py:213 and 224-231. -/
def upperEnd (linthresh last before : K) : K :=
  let dmupper := last - before
  if last ≠ 0 ∧ ((|last| ≠ linthresh ∧ dmupper > linthresh) ∨ (dmupper = linthresh ∧ last > 0)) then last * 10
  else last + linthresh

/-- `MinorSymLogLocator.__init__` and `__call__`, utilities.py:192-248; the given major ticks are `axis.get_majorticklocs()`. -/
def minorTicks (linthresh : K) (nints : ℤ) (major : List K) : Py (List K) := do
  if major.length = 1 then return []
  let m1 ← pyGet major 1
  let m0 ← pyGet major 0
  let ml ← pyGet major (-1)
  let mb ← pyGet major (-2)
  let all := lowerEnd linthresh m0 m1 :: major ++ [upperEnd linthresh ml mb]
  let gaps ← (pyRange 1 all.length).mapM fun i => do
    let b ← pyGet all i
    let a ← pyGet all (i - 1)
    gapTicks linthresh nints a b
  return gaps.flatten

end Ghedt.Ticks
