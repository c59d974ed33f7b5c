import Verif.Model.GroundLoads

/-!
# Model of `HybridLoad.create_dataframe_of_peak_analysis` (ground_loads.py)

A pandas data frame is represented by its index, its columns and its rows.  `np.array(res)` turns the peak days into
floats.  Printing a frame (`to_string`) is not modelled.
-/

namespace Ghedt.GL

variable {K : Type} [Field K] [LinearOrder K]

/-- `pd.DataFrame(values, index=index, columns=columns)`. -/
structure Frame (K : Type) where
  index : List (Option String)
  columns : List (String × String)
  rows : List (List K)
  deriving DecidableEq

/-- `pd.DataFrame(…)` raises `ValueError` unless the shape of the array is that of the labels. -/
def mkFrame (rows : List (List K)) (index : List (Option String)) (columns : List (String × String)) :
    Py (Frame K) :=
  if rows.length = index.length ∧ ∀ r ∈ rows, r.length = columns.length then .ok ⟨index, columns, rows⟩
  else .error .valueError

/-- `hybrid_time_step_fields`, ground_loads.py:471-473. -/
def peakFields : PyDict String (PyDict String K) :=
  [("Total", []), ("Peak", []), ("Average", []), ("Peak Day", []), ("Peak Duration", [])]

/-- `d[field][kind] = v` for a dictionary of dictionaries. -/
def setIn (d : PyDict String (PyDict String K)) (field kind : String) (v : K) :
    Py (PyDict String (PyDict String K)) := do
  let inner ← PyDict.get d field
  return PyDict.set d field (PyDict.set inner kind v)

/-- Body of the loop over the months, ground_loads.py:477-497. -/
def peakTableStep (cl hl : Loads K) (d : PyDict (Option String) (PyDict String (PyDict String K)))
    (i : ℤ) : Py (PyDict (Option String) (PyDict String (PyDict String K))) := do
  let name ← numberToMonth i
  let e : PyDict String (PyDict String K) := peakFields
  let v ← pyGet cl.total i
  let e ← setIn e "Total" "rejection" v
  let v ← pyGet hl.total i
  let e ← setIn e "Total" "extraction" v
  let v ← pyGet cl.peak i
  let e ← setIn e "Peak" "rejection" v
  let v ← pyGet hl.peak i
  let e ← setIn e "Peak" "extraction" v
  let v ← pyGet cl.average i
  let e ← setIn e "Average" "rejection" v
  let v ← pyGet hl.average i
  let e ← setIn e "Average" "extraction" v
  let v ← pyGet cl.peakDay i
  let e ← setIn e "Peak Day" "rejection" (v : K)
  let v ← pyGet hl.peakDay i
  let e ← setIn e "Peak Day" "extraction" (v : K)
  let v ← pyGet cl.duration i
  let e ← setIn e "Peak Duration" "rejection" v
  let v ← pyGet hl.duration i
  let e ← setIn e "Peak Duration" "extraction" v
  return PyDict.set d name e

/-- `create_dataframe_of_peak_analysis`, ground_loads.py:464-520. -/
def peakTable (cl hl : Loads K) : Py (Frame K) := do
  let d ← (pyRange 1 13).foldlM (peakTableStep cl hl) []
  let columns := (PyDict.keys (peakFields (K := K))).flatMap fun field =>
    [(field, "rejection"), (field, "extraction")]
  let rows := (PyDict.values d).map fun e => (PyDict.values e).flatMap fun inner => PyDict.values inner
  mkFrame rows (PyDict.keys d) columns

end Ghedt.GL
