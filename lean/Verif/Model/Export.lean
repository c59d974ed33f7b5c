import Verif.Py

/-!
# Model of the g-function sampling in `oak_ridge_export` (search_routines.py) and `GHE.__repr__`
-/

namespace Ghedt.Export

/-- `range(a, b, s)`: `ValueError` for step 0. -/
def pyRangeStep (a b s : ℤ) : Py (List ℤ) :=
  if s = 0 then .error .valueError
  else if 0 < s then .ok ((List.range ((b - a + s - 1) / s).toNat).map fun k : ℕ => a + (k : ℤ) * s)
  else .ok ((List.range ((a - b - s - 1) / (-s)).toNat).map fun k : ℕ => a + (k : ℤ) * s)

/-- The values of `x` selected for export, search_routines.py:393-409 (`start = 1`,
`nSts = 30`) and ground_heat_exchangers.py:262-279 (`start = 0`, `nSts = 50`): every `step`-th of the
values before the last 27, then the last 27. `np.floor(a / b)` of integers is integer floor division. -/
def sample {α : Type} (start nSts : ℤ) (x : List α) : Py (List α) := do
  let total : ℤ := x.length
  let nLts : ℤ := 27
  let step := (total - nLts) / nSts
  let idx ← pyRangeStep start (total - nLts) step
  let sts ← idx.mapM fun i : ℤ => pyGet x i
  return sts ++ pySlice x (total - nLts) total

/-- The pairs of `d['g_function_pairs']`, search_routines.py:393-413. -/
def exportPairs {α : Type} (x y : List α) : Py (List (α × α)) := do
  let lntts ← sample 1 30 x
  let g ← sample 1 30 y
  (pyRange 0 lntts.length).mapM fun i : ℤ => do
    let a ← pyGet lntts i
    let b ← pyGet g i
    return (a, b)

/-- The table printed by `GHE.__repr__`, ground_heat_exchangers.py:258-281. -/
def reprPairs {α : Type} (x y : List α) : Py (List (α × α)) := do
  let lntts ← sample 0 50 x
  let g ← sample 0 50 y
  (pyRange 0 lntts.length).mapM fun i : ℤ => do
    let a ← pyGet lntts i
    let b ← pyGet g i
    return (a, b)

end Ghedt.Export
