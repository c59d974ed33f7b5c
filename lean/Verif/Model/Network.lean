import Verif.Model.WholeSearch

/-!
# Model of `calculate_g_function`: what `pygfunction` is asked to compute

`pygfunction` is the parameter `Pyg`: it answers a `Query` with a curve, or raises.  `Network(...)` and
`gFunction(...)` are one call here.
-/

namespace Ghedt.Network
open Real Ghedt.GHE Ghedt.Bhe Ghedt.Whole Ghedt.WholeSearch

noncomputable section

/-- `gt.boreholes.Borehole(H, D, r_b, x, y, tilt, orientation)`. -/
structure Bore where
  H : ℝ
  D : ℝ
  rb : ℝ
  x : ℝ
  y : ℝ
  tilt : ℝ
  orientation : ℝ

/-- The first argument of `gFunction`: boreholes, or `Network(boreholes, exchangers, m_flow_network, cp_f)`. -/
inductive Source
  | boreholes (field : List Bore)
  | network (field : List Bore) (exchangers : List Exchanger) (flow cp : ℝ)

/-- The arguments of `gFunction`. -/
structure Query where
  source : Source
  alpha : ℝ
  times : List ℝ
  boundary : String
  nSegments : ℤ
  ratios : Option (List ℝ)
  disp : Bool
  method : String

/-- `pygfunction`. -/
structure Pyg where
  /-- `gt.utilities.segment_ratios(nSegments, end_length_ratio)` -/
  ratios : ℤ → ℝ → Py (List ℝ)
  /-- `gFunction(...).gFunc.tolist()` -/
  gFunction : Query → Py (List ℝ)

/-- The keyword arguments of `calculate_g_function`, gfunction.py:12-14, with their defaults. -/
structure Settings where
  nSegments : ℤ := 8
  endLengthRatio : ℝ := 2 / 100
  segments : String := "unequal"
  solver : String := "equivalent"
  boundary : String := "MIFT"
  ratios : Option (List ℝ) := none
  disp : Bool := false

/-- The loop over the coordinates, gfunction.py:25-33: a borehole for each, and an exchanger of its own if the
boundary condition needs it.  (`makeExchanger` does not use the position of the borehole.) -/
def placeBoreholes (ext : Ext) (m : ℝ) (media : Media) (boundary : String) (b : Bore) (coordinates : List (ℝ × ℝ)) :
    Py (List Bore × List Exchanger) :=
  (pyRange 0 coordinates.length).foldlM (fun (acc : List Bore × List Exchanger) (i : ℤ) => do
    let c ← pyGet coordinates i
    let bore : Bore := ⟨b.H, b.D, b.rb, c.1, c.2, b.tilt, b.orientation⟩
    if boundary = "MIFT" then
      let bhe ← makeExchanger ext m media ⟨bore.H, bore.D, bore.rb⟩
      return (acc.1 ++ [bore], acc.2 ++ [bhe])
    else return (acc.1 ++ [bore], acc.2)) ([], [])

/-- `str.lower`, gfunction.py:38, of ASCII letters; no other character has a letter of 'equal' or 'unequal' as its lower
case. -/
def lower (s : String) : String := String.ofList (s.toList.map Char.toLower)

/-- The segment ratios among the options, gfunction.py:37-51; `none` for an option that is not there. -/
def segmentRatios (lib : Pyg) (o : Settings) : Py (Option (List ℝ)) :=
  if lower o.segments = "equal" then .ok none
  else if lower o.segments = "unequal" then
    match o.ratios with
    | none => do let r ← lib.ratios o.nSegments o.endLengthRatio; return some r
    | some r => .ok (some r)
  else .error .valueError

/-- `calculate_g_function`, gfunction.py:9-67. -/
def calculateG (ext : Ext) (lib : Pyg) (m : ℝ) (media : Media) (times : List ℝ) (coordinates : List (ℝ × ℝ)) (b : Bore)
    (o : Settings) : Py (List ℝ) := do
  let (field, bhes) ← placeBoreholes ext m media o.boundary b coordinates
  let alpha ← pyDiv media.soil.k media.soil.rhoCp
  let ratios ← segmentRatios lib o
  if o.boundary = "UHTR" ∨ o.boundary = "UBWT" then
    lib.gFunction ⟨.boreholes field, alpha, times, o.boundary, o.nSegments, ratios, o.disp, o.solver⟩
  else if o.boundary = "MIFT" then
    lib.gFunction ⟨.network field bhes ((field.length : ℝ) * m) media.fluid.cp, alpha, times, o.boundary, o.nSegments,
      ratios, o.disp, o.solver⟩
  else .error .valueError

/-- One pass through the loop of `compute_live_g_function`, gfunction.py:78-97: the characteristic time of the height, the
times for the given logarithms, the curve.  (The key and the database around it are `GF.computeLive`.) -/
def liveCurve (ext : Ext) (lib : Pyg) (logTime : List ℝ) (o : Settings) (m : ℝ) (media : Media)
    (coordinates : List (ℝ × ℝ)) (H rb D : ℝ) : Py (List ℝ) := do
  let alpha ← pyDiv media.soil.k media.soil.rhoCp
  let ts ← pyDiv (H ^ 2) (9 * alpha)
  calculateG ext lib m media (logTime.map fun l => exp l * ts) coordinates ⟨H, D, rb, 0, 0, 0, 0⟩ o

end

end Ghedt.Network
