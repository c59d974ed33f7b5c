import Verif.Model.Files
import Verif.Model.GFunction
import Verif.Model.GroundLoads

/-!
# Model of the plots

A figure is the list of what is drawn in it, in order, with the labels of its axes; sizes, fonts, colours not needed to
tell lines apart, grids, legends and limits of axes are left out.  The texts of numbers are parameters.
-/

namespace Ghedt.Plots
open Ghedt.Files Ghedt.Search

/-- What is drawn. -/
inductive Mark (K : Type)
  | points (p : List (K × K)) (label : String)
  | line (p : List (K × K)) (style label : String)
  | text (t : String) (p : K × K)
  | tick (x : K)

/-- A figure. -/
structure Fig (K : Type) where
  marks : List (Mark K)
  xlabel : String
  ylabel : String

variable {K : Type} [Field K] [LinearOrder K]

/-- `x, y = list(zip(*points))`: an empty list cannot be unpacked in two. -/
def unzip2 (p : List (K × K)) : Py (List K × List K) := if p = [] then .error .valueError else .ok p.unzip

/-- `ax.plot(x, y, style, label=…)`: the lists must be of one length. -/
def plotLine (x y : List K) (style label : String) : Py (Mark K) :=
  if x.length = y.length then .ok (.line (x.zip y) style label) else .error .valueError

/-- `ax.scatter(x, y, label=…)`. -/
def scatter (x y : List K) (label : String) : Py (Mark K) :=
  if x.length = y.length then .ok (.points (x.zip y) label) else .error .valueError

/-- `visualize_coordinates`, coordinates.py:127-155. -/
def visualizeCoordinates (coordinates : List (K × K)) : Py (Fig K) := do
  let (x, y) ← unzip2 coordinates
  let m ← scatter x y ""
  return ⟨[m], "x (m)", "y (m)"⟩

/-- `GFunction.visualize_borefield`, gfunction.py:357-380. -/
def visualizeBorefield (db : GF.DB K) (locations : Option (List (K × K))) : Py (Fig K) := do
  let (x, y) ← unzip2 (locations.getD db.locations)
  let m ← scatter x y ""
  return ⟨[m], "x (m)", "y (m)"⟩

/-- `GFunction.visualize_area_and_constraints`, gfunction.py:382-420. -/
def visualizeArea (perimeter coordinates : List (K × K)) (noGo : Option (List (K × K))) : Py (Fig K) := do
  let a ← (if perimeter.length > 0 then do
      let p0 ← pyGet perimeter 0
      let (x, y) ← unzip2 (perimeter ++ [p0])
      let m ← plotLine x y "g" ""
      return [m]
    else return [])
  let b ← (if coordinates.length > 0 then do
      let (x, y) ← unzip2 coordinates
      let m ← scatter x y ""
      return [m]
    else return [])
  let c ← (match noGo with
    | some l => do
      let p0 ← pyGet l 0
      let (x, y) ← unzip2 (l ++ [p0])
      let m ← plotLine x y "r" ""
      return [m]
    | none => return [])
  return ⟨a ++ b ++ c, "x (m)", "y (m)"⟩

/-- `str(i).zfill(3)`. -/
def zfill3 (i : ℕ) : String := String.ofList (List.replicate (3 - (toString i).length) '0' ++ (toString i).toList)

/-- Body of the loop of `visualize_domain`, domains.py:430-447; `savefig` adds `.png`.  `render` is what is written for a
figure. -/
def domainStep (render : Fig K → String) (folder : List String) (q : List (K × K) × ℕ) : St Disk Unit := do
  let (x, y) ← St.lift (unzip2 q.1)
  let m ← St.lift (scatter x y "")
  dumpTo (fun f => (render f, none)) (folder, zfill3 q.2 ++ ".png") ⟨[m], "x (m)", "y (m)"⟩

/-- The loop. -/
def domainLoop (render : Fig K → String) (folder : List String) : List (List (K × K) × ℕ) → St Disk Unit
  | [] => return ()
  | q :: l => do
    domainStep render folder q
    domainLoop render folder l

/-- `visualize_domain`, domains.py:425-447. -/
def visualizeDomain (render : Fig K → String) (domain : List (List (K × K))) (folder : List String) :
    St Disk Unit := do
  createIfNot folder
  domainLoop render folder domain.zipIdx

/-- Body of the loop of `visualize_g_functions`, gfunction.py:331-341; `num4` is `str(round(x, 4))`. -/
def gStep [FloorRing K] (num4 : K → String) (db : GF.DB K) (marks : List (Mark K)) (q : K × List K) : Py (List (Mark K)) := do
  let m ← plotLine db.logTime q.2 "" (toString (pyInt db.B) ++ "/" ++ toString (pyInt q.1))
  let x ← pyGet db.logTime (-1)
  let y ← pyGet q.2 (-1)
  let r ← pyDiv db.B q.1
  return marks ++ [m, .text (num4 r) (if q.1 = 8 then (x - 4 / 10, y - 5) else (x - 4 / 10, y + 1))]

/-- `GFunction.visualize_g_functions`, gfunction.py:313-355. -/
def visualizeGFunctions [FloorRing K] (num4 : K → String) (db : GF.DB K) : Py (Fig K) := do
  let marks ← db.g.reverse.foldlM (gStep num4 db) [.text "B/H" (275 / 100, 135)]
  return ⟨marks, "ln(t/t$_s$)", "g-function"⟩

/-- `self.hourly_rejection_loads` of a `HybridLoad`: there is no such attribute, ground_loads.py:375-421. -/
def hourlyRejectionLoads : Py (List K) := .error .attributeError

/-- Body of the loop of `visualize_hourly_heat_extraction`, ground_loads.py:684-691; the state is
`(rejection, extraction)`. -/
def hourlyStep (cl hl : GL.Loads K) (s : List (K × K) × List (K × K)) (i : ℤ) :
    Py (List (K × K) × List (K × K)) := do
  let l ← hourlyRejectionLoads
  let v ← pyGet l i
  let h ← pyGet hl.hourly i
  let rejection := if v ≠ 0 then s.1 ++ [((i : K), -h)] else s.1
  let c ← pyGet cl.hourly i
  let extraction := if c ≠ 0 then s.2 ++ [((i : K), c)] else s.2
  return (rejection, extraction)

/-- `HybridLoad.visualize_hourly_heat_extraction`, ground_loads.py:672-716. -/
def visualizeHourly (cl hl : GL.Loads K) : Py (Fig K) := do
  let (rejection, extraction) ← (pyRange 0 hl.hourly.length).foldlM (hourlyStep cl hl) ([], [])
  let a := if extraction.length > 0 then
    [Mark.points extraction "Building in heating mode (ground heat extraction)"] else []
  let b := if rejection.length > 0 then
    [Mark.points rejection "Building in cooling mode (ground heat rejection)"] else []
  return ⟨a ++ b, "Hours in one year", "Ground extraction loads (kW)"⟩

/-- `draw_horizontal`, ground_loads.py:730-744. -/
def drawHorizontal (nm : List K) (duration : K) : Py (List (Mark K)) := do
  let m ← pyMax nm
  let i ← pyIndexOf nm m
  return [.line [(duration, m), ((i : K), m)] "orange" "", .points [(duration, m)] "X"]

/-- One half of `visualize_fluid_simulation_results`: `extraction` with the loads `cl`, ground_loads.py:753-769, and
`rejection` with the loads `hl`, ground_loads.py:771-786; `round1` is `round(x, 1)`. -/
def fluidHalf (round1 : K → K) (L : GL.Loads K) (month : ℤ) (pkStyle nmStyle name : String) :
    Py (List (Mark K) × K) := do
  let time := (pyRange 0 (2 * 24 + 1)).map fun h : ℤ => (h : K)
  let pk ← pyGet L.tempsPk month
  let a ← plotLine time pk pkStyle ("Peak " ++ name)
  let nm ← pyGet L.tempsNm month
  let b ← plotLine time nm nmStyle name
  let d ← pyGet L.duration month
  let c ← drawHorizontal nm d
  return (a :: b :: c, round1 d)

/-- `HybridLoad.visualize_fluid_simulation_results`, ground_loads.py:718-802.  Of the ticks only those added are kept. -/
def visualizeFluid (round1 : K → K) (cl hl : GL.Loads K) (month : ℤ) (extraction rejection : Bool) : Py (Fig K) := do
  let a ← (if extraction then do
      let r ← fluidHalf round1 cl month "k--" "b-" "Extraction"
      return ([r.1], [r.2])
    else return ([], []))
  let b ← (if rejection then do
      let r ← fluidHalf round1 hl month "k." "r-." "Rejection"
      return ([r.1], [r.2])
    else return ([], []))
  return ⟨(a.1 ++ b.1).flatten ++ (a.2 ++ b.2).map .tick, "Time (hours)",
    "Change in fluid temperature, $\\Delta$T$_f$ ($\\degree$C)"⟩

end Ghedt.Plots
