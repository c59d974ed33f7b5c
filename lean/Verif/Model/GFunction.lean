import Verif.PyState
import Mathlib.Data.List.Sort

/-!
# Model of `ghedt/gfunction.py`

Not modelled: `calculate_g_function` (pygfunction; here the parameter `gf`) and the plotting methods.
Simplifications.  Floats are an ordered field.  A key of the g-function database (`'5_100_0.075_2'`)
is represented by the list of its `_`-separated fields; `float(s)` is the parameter `toFloat`.
`scipy.interpolate.interp1d(x, y, kind, fill_value)` and `lagrange(x, y)` are represented by the data
they were given (`Curve`); the value of the interpolant is the parameter
`spl kind x y : K → K`, while the bounds check and the argument checks of `interp1d` are modelled.
-/

namespace Ghedt.GF

variable {K : Type} [Field K] [LinearOrder K]

/-- The attributes set by `GFunction.__init__`, gfunction.py:107-123 (the interpolation table is
`Table`). -/
structure DB (K : Type) where
  B : K
  rb : PyDict K K
  D : PyDict K K
  g : PyDict K (List K)
  logTime : List K
  locations : List (K × K)
  deriving DecidableEq

/-- What `interp1d` or `lagrange` was given. -/
structure Curve (K : Type) where
  kind : String
  x : List K
  y : List K
  extrapolate : Bool

/-- `self.interpolation_table`: the entries `'g'`, `'rb'`, `'D'`. -/
structure Table (K : Type) where
  g : Option (List (Curve K)) := none
  rb : Option (Curve K) := none
  D : Option (Curve K) := none

/-- Constructing `lagrange(x, y)` or `interp1d(x, y, kind=kind, fill_value=fill_value)`,
gfunction.py:222-225, 239-251: `lagrange` indexes `y` by the indices of `x`; `interp1d` raises
`ValueError` if the lengths differ or there are too few points for the kind. -/
def mkCurve (kind : String) (x y : List K) (extrapolate : Bool) : Py (Curve K) :=
  if kind = "lagrange" then
    if y.length < x.length then .error .indexError else .ok ⟨kind, x, y, extrapolate⟩
  else if x.length ≠ y.length then .error .valueError
  else if kind = "quadratic" ∧ x.length < 3 ∨ kind = "cubic" ∧ x.length < 4 then .error .valueError
  else .ok ⟨kind, x, y, extrapolate⟩

/-- Calling the interpolant: `interp1d` without extrapolation raises `ValueError` outside the range
of its abscissae. -/
def evalCurve (spl : String → List K → List K → K → K) (c : Curve K) (h : K) : Py K :=
  if c.kind ≠ "lagrange" ∧ c.extrapolate = false ∧ ((∀ v ∈ c.x, h < v) ∨ (∀ v ∈ c.x, v < h)) then
    .error .valueError
  else .ok (spl c.kind c.x c.y h)

/-- The loop building the g-function interpolants, gfunction.py:214-226, over the indices of
`log_time`; the partially built list stays in the table if an index is missing. -/
def buildG (db : DB K) (kind : String) (ext : Bool) : List ℤ → St (Table K) Unit
  | [] => pure ()
  | i :: rest => do
    let y ← St.lift ((PyDict.values db.g).mapM fun c => pyGet c i)
    let c ← St.lift (mkCurve kind (PyDict.keys db.g) y ext)
    St.modify fun t => { t with g := some (t.g.getD [] ++ [c]) }
    buildG db kind ext rest

/-- Building the interpolation table, gfunction.py:209-254. -/
def buildTable (db : DB K) (kind : String) (ext : Bool) : St (Table K) Unit := do
  St.modify fun t => { t with g := some [] }
  buildG db kind ext (pyRange 0 db.logTime.length)
  let heights := PyDict.keys db.rb
  let ds := heights.filterMap fun h => PyDict.find? db.D h
  let rb ← St.lift (mkCurve kind heights (PyDict.values db.rb) ext)
  St.modify fun t => { t with rb := some rb }
  match mkCurve kind heights ds ext with
  | .ok c => St.modify fun t => { t with D := some c }
  | .error _ => pure ()

/-- Result of `g_function_interpolation`: the g-function, the radius, the burial depth (or `None`)
and the equivalent height; `warned` records whether the extrapolation warning was issued. -/
structure Answer (K : Type) where
  g : List K
  rb : K
  D : Option K
  Heq : K
  warned : Bool
  deriving DecidableEq

/-- Number of curves a kind of interpolation needs: `interpolation_kinds`, gfunction.py:196-197. -/
def curvesNeeded (kind : String) : Py ℕ :=
  if kind = "linear" then .ok 2 else if kind = "quadratic" then .ok 3
  else if kind = "cubic" then .ok 4 else if kind = "lagrange" then .ok 2 else .error .keyError

/-- `curves_by_kind`, gfunction.py:198. -/
def kindFor (n : ℕ) : Py String :=
  if n = 2 then .ok "linear" else if n = 3 then .ok "quadratic" else if n = 4 then .ok "cubic"
  else .error .keyError

/-- The end of `g_function_interpolation`, gfunction.py:256-267: evaluating the table. -/
def readTable (spl : String → List K → List K → K → K) (db : DB K) (Heq : K) (warned : Bool)
    (t : Table K) : Py (Answer K) := do
  let rbc ← (match t.rb with | some c => .ok c | none => .error .keyError : Py (Curve K))
  let rb ← evalCurve spl rbc Heq
  let D : Option K := match t.D with
    | none => none
    | some c => match evalCurve spl c Heq with
      | .ok v => some v
      | .error _ => none
  let curves ← (match t.g with | some c => .ok c | none => .error .keyError : Py (List (Curve K)))
  let g ← (pyRange 0 db.logTime.length).mapM fun i : ℤ => do
    let c ← pyGet curves i
    evalCurve spl c Heq
  return ⟨g, rb, D, Heq, warned⟩

/-- `g_function_interpolation`, gfunction.py:125-267. -/
def request (spl : String → List K → List K → K → K) (db : DB K) (bOverH : K) (kind : String) :
    St (Table K) (Answer K) := do
  let inv ← St.lift (pyDiv 1 bOverH)
  let H0 := inv * db.B
  let heights := PyDict.keys db.g
  let hi ← St.lift (pyMax heights)
  let H1 := if |H0 - hi| < 1 / 1000000 then hi else H0
  let lo ← St.lift (pyMin heights)
  let Heq := if |H1 - lo| < 1 / 1000000 then lo else H1
  let ext : Bool := if lo ≤ Heq ∧ Heq ≤ hi then false
    else if |lo - Heq| < 1 / 1000 then false else true
  let single : Bool := kind = "default" ∧ heights.length < 2
  if single then
    let h0 ← St.lift (pyGet heights 0)
    let q ← St.lift (pyDiv (Heq - h0) h0)
    if q < 1 / 1000 ∨ lo - Heq < 1 / 1000 then
      let g ← St.lift (PyDict.get db.g h0)
      let rb ← St.lift (PyDict.get db.rb h0)
      let D ← St.lift (PyDict.get db.D h0)
      return ⟨g, rb, some D, Heq, ext⟩
    else St.throw .valueError
  else
    let kind := if kind = "default" then
        (if 5 ≤ heights.length then "cubic" else if 3 ≤ heights.length then "quadratic"
          else "linear")
      else kind
    if heights.length < 2 then St.throw .valueError
    else
      let needed ← St.lift (curvesNeeded kind)
      let kind ← St.lift (if needed > heights.length then kindFor heights.length else .ok kind)
      let t ← St.get
      if t.g.isNone then buildTable db kind ext
      let t ← St.get
      St.lift (readTable spl db Heq ext t)

/-- `correct_coordinates`, gfunction.py:294-311. -/
def correctCoordinates (db : DB K) (B : K) : Py (List (K × K)) := do
  let scale ← pyDiv B db.B
  return db.locations.map fun p =>
    if p.1 = 0 ∧ p.2 = 0 then (p.1, p.2)
    else if p.1 = 0 then (p.1, p.2 * scale)
    else (p.1 * scale, p.2 * scale)

/-- `borehole_radius_correction`, gfunction.py:269-292; `log` is `np.log`. -/
def radiusCorrection (log : K → K) (g : List K) (rb rbStar : K) : Py (List K) :=
  g.mapM fun v => do
    let q ← pyDiv rbStar rb
    return v - log q

/-- The dictionary read by `configure_database_file_for_usage`. -/
structure RawDB (K : Type) where
  g : PyDict (List String) (List K)
  locations : List (K × K)
  logTime : List K

/-- `int(x)` of a float: truncation. -/
def truncInt [FloorRing K] (x : K) : ℤ := if 0 ≤ x then ⌊x⌋ else ⌈x⌉

/-- The three temporary dictionaries of `configure_database_file_for_usage`. -/
structure Tmp (K : Type) where
  g : PyDict K (List K) := []
  rb : PyDict K K := []
  D : PyDict K K := []

/-- One iteration of the loop over the keys, gfunction.py:447-463; the time dictionary is never
used and left out.  The `try` around the burial depth swallows every exception. -/
def importEntry (toFloat : String → Py K) (t : Tmp K) (e : List String × List K) : Py (Tmp K) := do
  let f1 ← pyGet e.1 1
  let height ← toFloat f1
  let g := PyDict.set t.g height e.2
  let f2 ← pyGet e.1 2
  let rb ← toFloat f2
  let rbs := PyDict.set t.rb height rb
  let ds := match (do let f3 ← pyGet e.1 3; toFloat f3 : Py K) with
    | .ok D => PyDict.set t.D height D
    | .error _ => t.D
  return ⟨g, rbs, ds⟩

/-- `configure_database_file_for_usage` followed by the constructor, gfunction.py:421-497. -/
def importDB [FloorRing K] (toFloat : String → Py K) (raw : RawDB K) : Py (DB K) := do
  let t ← raw.g.foldlM (importEntry toFloat) {}
  let first ← pyGet (PyDict.keys raw.g) 0
  let f0 ← pyGet first 0
  let B ← toFloat f0
  let keys := (PyDict.keys t.g).insertionSort fun a b => truncInt a ≤ truncInt b
  let g ← keys.mapM fun k => do let v ← PyDict.get t.g k; return (k, v)
  let ds := match (keys.mapM fun k => do let v ← PyDict.get t.D k; return (k, v) :
      Py (PyDict K K)) with
    | .ok d => d
    | .error _ => keys.map fun k => (k, 2)
  let rbs ← keys.mapM fun k => do let v ← PyDict.get t.rb k; return (k, v)
  return ⟨B, rbs, ds, g, raw.logTime, raw.locations⟩

/-- `compute_live_g_function`, gfunction.py:70-104.  `gf H rb D` is the curve computed by
`calculate_g_function` for these dimensions; `fmt` is `'{}'.format`. -/
def computeLive [FloorRing K] (fmt : K → String) (toFloat : String → Py K)
    (gf : K → K → K → Py (List K)) (B : K) (Hs rbs Ds : List K) (logTime : List K)
    (locations : List (K × K)) : Py (DB K) := do
  let d ← (pyRange 0 Hs.length).foldlM (fun (d : PyDict (List String) (List K)) (i : ℤ) => do
    let H ← pyGet Hs i
    let rb ← pyGet rbs i
    let D ← pyGet Ds i
    let curve ← gf H rb D
    return PyDict.set d [fmt B, fmt H, fmt rb, fmt D] curve) []
  importDB toFloat ⟨d, locations, logTime⟩

/-- `BaseGHE.compute_g_functions`, ground_heat_exchangers.py:180-201: curves at the smallest, the
average and the largest height. -/
def computeGFunctions [FloorRing K] (fmt : K → String) (toFloat : String → Py K)
    (gf : K → K → K → Py (List K)) (B minH maxH rb D : K) (old : DB K) : Py (DB K) :=
  computeLive fmt toFloat gf B [minH, (minH + maxH) / 2, maxH] [rb, rb, rb] [D, D, D] old.logTime
    old.locations

end Ghedt.GF
