import Verif.Model.WholeSearch

/-!
# Model of a session with several designs

A script makes `Borehole` objects, runs designs with them and works with the exchangers found, as the scripts in
`ghedt/examples/Design` do: there one borehole object is given to all designs.  `Design`, the search objects and
all exchangers refer to the object given (design.py:20, search_routines.py:49 and 76, ground_heat_exchangers.py:31
with the classes of borehole_heat_exchangers.py, which keep `borehole` as `self.b`); nobody copies it, except for
the equivalent tube (equivalance.py:70).  So its height, which the package overwrites, is one number for all of
them.  Here a borehole object is a number, the address, and the height of an exchanger is read from there.

The package writes no attribute of a borehole but `H`.  Of what an exchanger refers to, fluid, pipe, grout, soil,
simulation parameters and the lists of loads and coordinates are shared as well; they are only read.
-/

namespace Ghedt.Session
open Ghedt.GHE Ghedt.Bhe Ghedt.Whole Ghedt.Search Ghedt.WholeSearch

noncomputable section

/-- A search object that was returned: the borehole object it refers to, what was given to the design, and the
exchanger `.ghe`.  The height in `ghe` is not used: see `World.see`. -/
structure Result where
  place : ℕ
  problem : Problem
  ghe : Held

/-- The borehole objects, and the variables of the script that hold search objects. -/
structure World where
  boreholes : ℕ → Borehole
  results : String → Option Result

/-- An exchanger as it is found at this moment: its height is that of the borehole object. -/
def World.see (w : World) (r : Result) : Held := ⟨r.ghe.env, r.ghe.state.at (w.boreholes r.place).H⟩

/-- The exchanger of the search object in a variable. -/
def World.look (w : World) (name : String) : Option Held := (w.results name).map w.see

/-- `borehole.H = H` for the borehole object at the address. -/
def World.setHeight (w : World) (a : ℕ) (H : ℝ) : World :=
  { w with boreholes := fun k => if k = a then { w.boreholes k with H := H } else w.boreholes k }

/-- `name = …`. -/
def World.assign (w : World) (name : String) (r : Result) : World :=
  { w with results := fun k => if k = name then some r else w.results k }

/-- The statements of a script. -/
inductive Act
  /-- `borehole.H = H` -/
  | height (a : ℕ) (H : ℝ)
  /-- `name = design.find_design()`, the design having been given the borehole `a`; the borehole in `p` is not used -/
  | design (name : String) (a : ℕ) (p : Problem) (routine : String) (c : Design.Candidates ℝ)
  /-- `name.ghe.compute_g_functions()` -/
  | gFunctions (name : String)
  /-- `name.ghe.simulate(method=method)` -/
  | simulate (name method : String)
  /-- `name.ghe.size(method=method)` -/
  | size (name method : String)

/-- What the script sees of a statement: the value or the exception. -/
inductive Outcome
  | done
  | found (r : Py (Option (ℤ × List (ℝ × ℝ))))
  | computed (r : Py Unit)
  | temperatures (r : Py (ℝ × ℝ))
  | sized (r : Py (List Warning))
  | nameError

/-- A method of the exchanger in a variable, run on the exchanger as it is found; the height it leaves is that of the
borehole object. -/
def World.method (w : World) (name : String) (say : Py α → Outcome) (m : Problem → St WholeSearch.State α) :
    Outcome × World :=
  match w.results name with
  | none => (.nameError, w)
  | some r =>
    let q := m r.problem { held := some (w.see r) }
    match q.2.held with
    | none => (say q.1, w)
    | some x => (say q.1, (w.setHeight r.place (borehole x.state.bhe).H).assign name { r with ghe := x })

/-- One statement.  `find_design` (design.py:82-125) works on the borehole object at the address and leaves it with the
height of the exchanger last made or sized, whether it returns or raises; if it raises, nothing is assigned. -/
def step (w : World) : Act → Outcome × World
  | .height a H => (.done, w.setHeight a H)
  | .design name a p routine c =>
    let q := findDesign { p with borehole := w.boreholes a } routine c {}
    match q.2.held with
    | none => (.found q.1, w)
    | some x =>
      let w' := w.setHeight a (borehole x.state.bhe).H
      match q.1 with
      | .error _ => (.found q.1, w')
      | .ok _ => (.found q.1, w'.assign name ⟨a, p, x⟩)
  | .gFunctions name => w.method name .computed fun p => computeG p
  | .simulate name m => w.method name .temperatures fun _ => onHeld fun env => Whole.simulate env m
  | .size name m => w.method name .sized fun _ => onHeld fun env => Whole.size env m

/-- A script that goes on after exceptions: what it has seen, and the objects at its end. -/
def run : World → List Act → List Outcome × World
  | w, [] => ([], w)
  | w, act :: acts =>
    let (o, w) := step w act
    let (os, w) := run w acts
    (o :: os, w)

end

end Ghedt.Session
