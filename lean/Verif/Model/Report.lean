import Verif.Model.WholeGhe
import Verif.Model.Export

/-!
# Model of what is written about an exchanger

`GHE.__repr__` (ground_heat_exchangers.py) and `oak_ridge_export` (search_routines.py).  Both ask the exchanger for
its g-function, which may fill the interpolation table, so that they are not mere observers.  How numbers are turned
into text is a parameter (`Text`), and so are the texts of the parts of the exchanger.  Writing the dictionary to a
JSON file is not modelled.
-/

namespace Ghedt.Report
open Ghedt.GHE Ghedt.Bhe Ghedt.Whole

/-- `s.ljust(w)`. -/
def ljust (s : String) (w : ℕ) : String := s ++ String.ofList (List.replicate (w - s.length) ' ')

/-- `s.center(w)`, as CPython does it: of an odd number of blanks the extra one goes left if `w` is odd, else
right. -/
def center (s : String) (w : ℕ) : String :=
  let pad := w - s.length
  let left := pad / 2 + (pad % 2) * (w % 2)
  String.ofList (List.replicate left ' ') ++ s ++ String.ofList (List.replicate (pad - left) ' ')

/-- `50 * '-' + '\n'`. -/
def rule : String := String.ofList (List.replicate 50 '-') ++ "\n"

/-- `justify`, ground_heat_exchangers.py:54-56 (the same function in media.py and
borehole_heat_exchangers.py). -/
def justify (category value : String) : String := ljust category 40 ++ "= " ++ value ++ "\n"

/-- `header`, ground_heat_exchangers.py:49-52. -/
def header (text : String) : String := rule ++ "|" ++ center text 48 ++ "|\n" ++ rule

/-- Texts that are not modelled. -/
structure Text where
  /-- `str` of an integer -/
  int : ℕ → String
  /-- `str` of a float -/
  num : ℝ → String
  /-- `str(round(x, 4))` -/
  num4 : ℝ → String
  /-- `bhe.__repr__()` -/
  bhe : Exchanger → String
  /-- `bhe_eq.__repr__()` -/
  tube : UTube → String
  /-- `sim_params.__repr__()` -/
  params : String
  /-- `hybrid_load.__repr__()` -/
  peaks : String

noncomputable section

/-- `self.bhe_eq`: for a single U-tube it is the exchanger itself (equivalance.py:11-12), for the others an object
of its own. -/
def tubeOf (s : Whole.State) : UTube :=
  match s.bhe with
  | .single t => t
  | _ => s.bheEq

/-- `BaseGHE.__repr__`, ground_heat_exchangers.py:58-85. -/
def baseReport (tx : Text) (env : Whole.Env) (s : Whole.State) : String :=
  rule ++ header "GHEDT GHE Output - Version 0.1" ++ rule
    ++ justify "Number of borheoles" (tx.int env.db.locations.length)
    ++ justify "Depth of the borehole" (tx.num4 (borehole s.bhe).H ++ " (m)")
    ++ justify "Bore hole spacing" (tx.num4 env.bSpacing ++ " (m)")
    ++ header "Borehole Heat Exchanger" ++ tx.bhe s.bhe
    ++ header "Equivalent Borehole Heat Exchanger" ++ tx.tube (tubeOf s)
    ++ header "Simulation parameters" ++ tx.params

/-- The lines on the temperatures in `GHE.__repr__`, ground_heat_exchangers.py:239-252; the header made before
them is not added to the output (sic).  If the first temperature were `nan`, which it is not (C129), `nan` would be
printed; here that raises. -/
def results (tx : Text) (env : Whole.Env) (s : Whole.State) : Py String :=
  if 0 < s.HPEFT.length then do
    let hi ← maxNumber s.HPEFT
    let lo ← minNumber s.HPEFT
    return justify "Max HP entering temp" (tx.num4 hi ++ " (degrees Celsius)")
      ++ justify "Min HP entering temp" (tx.num4 lo ++ " (degrees Celsius)")
      ++ justify "Excess fluid temperature"
        (tx.num4 (cost env.maxEFT env.minEFT hi lo) ++ " (degrees Celsius)")
  else .ok ""

/-- `output += …` in a loop over a list. -/
def lines {α : Type} (f : α → String) (l : List α) : String := l.foldl (fun out a => out ++ f a) ""

/-- `GHE.__repr__`, ground_heat_exchangers.py:236-281. -/
def report (tx : Text) (env : Whole.Env) : St Whole.State String := do
  let s ← St.get
  let temps ← St.lift (results tx env s)
  let places ← St.lift ((pyRange 0 env.db.locations.length).mapM fun i : ℤ => pyGet env.db.locations i)
  let bOverH ← St.lift (pyDiv env.bSpacing (borehole s.bhe).H)
  let (x, y) ← grabG env bOverH
  let pairs ← St.lift (Export.reprPairs x y)
  return baseReport tx env s ++ temps ++ header "Peak Load Analysis" ++ tx.peaks ++ "\n"
    ++ header "GFunction Information" ++ "Coordinates\nx(m)\ty(m)\n"
    ++ lines (fun q : ℝ × ℝ => tx.num q.1 ++ "\t" ++ tx.num q.2 ++ "\n") places
    ++ "G-Function\nln(t/ts)\tg\n"
    ++ lines (fun q : ℝ × ℝ => tx.num4 q.1 ++ "\t" ++ tx.num4 q.2 ++ "\n") pairs

/-- `d['single_u_tube']`. -/
structure TubeRecord where
  rb : ℝ
  rIn : ℝ
  rOut : ℝ
  s : ℝ
  pos : List (ℝ × ℝ)
  mFlow : ℝ
  kGrout : ℝ
  kSoil : ℝ
  kPipe : ℝ

/-- search_routines.py:376-389; `r_in`, `r_out` and `pos` are the attributes `pygfunction` keeps. -/
def recordOf (t : UTube) : TubeRecord where
  rb := t.b.rb
  rIn := t.circuit.rIn
  rOut := t.circuit.rOut
  s := t.pipe.s
  pos := t.circuit.pos
  mFlow := t.mBorehole
  kGrout := t.grout.k
  kSoil := t.soil.k
  kPipe := t.pipe.k

/-- The dictionary of `oak_ridge_export`. -/
structure Exported where
  boreholeLength : ℝ
  numberOfBoreholes : ℕ
  pairs : List (ℝ × ℝ)
  tube : TubeRecord

/-- `oak_ridge_export` on the exchanger held by the search and the coordinates selected,
search_routines.py:368-416. -/
def oakRidge (selected : List (ℝ × ℝ)) (env : Whole.Env) : St Whole.State Exported := do
  let s ← St.get
  let bOverH ← St.lift (pyDiv env.bSpacing (borehole s.bhe).H)
  let (x, y) ← grabG env bOverH
  let pairs ← St.lift (Export.exportPairs x y)
  return ⟨(borehole s.bhe).H, selected.length, pairs, recordOf (tubeOf s)⟩

end

end Ghedt.Report
