import Verif.Model.Domains
import Verif.Model.SearchRoutines

/-!
# Model of `ghedt/design.py` and of `GeometricConstraints` in `ghedt/media.py`

A field is a list of coordinates.  Printing and the `hourly` warning are dropped.
-/

namespace Ghedt.Design
open Search Domains Utilities

variable {K : Type} [Field K] [LinearOrder K] [FloorRing K]

/-- `GeometricConstraints`, media.py:1-21: every constraint defaults to `None`.
`outer_constraints` and `no_go` are never read by `Design` and are left out. -/
structure Constraints (K : Type) where
  length : Option K := none
  width : Option K := none
  B : Option K := none
  Bmin : Option K := none
  BmaxX : Option K := none
  BmaxY : Option K := none

/-- `check_inputs`, media.py:23-40.  The third branch tests
`method == 'bi-rectangle' or 'bi-zoned'`, which is always true. -/
def checkInputs (gc : Constraints K) (method : String) : Py Unit := do
  if method = "near-square" then
    pyAssert (gc.B.isSome = true)
    pyAssert (gc.length.isSome = true)
  else if method = "rectangle" then
    pyAssert (gc.width.isSome = true)
    pyAssert (gc.length.isSome = true)
    pyAssert (gc.Bmin.isSome = true)
    pyAssert (gc.BmaxX.isSome = true)
  else
    pyAssert (gc.width.isSome = true)
    pyAssert (gc.length.isSome = true)
    pyAssert (gc.Bmin.isSome = true)
    pyAssert (gc.BmaxX.isSome = true)
    pyAssert (gc.BmaxY.isSome = true)

/-- Using a constraint in arithmetic: `None` is a `TypeError`. -/
def arg (x : Option K) : Py K :=
  match x with
  | some v => .ok v
  | none => .error .typeError

/-- The attribute set by `Design.__init__`: `coordinates_domain` or `coordinates_domain_nested`. -/
inductive Candidates (K : Type) where
  | flat (d : List (List (K × K)))
  | nested (d : List (List (List (K × K))))
  deriving DecidableEq

/-- `Design.__init__`, design.py:45-80: `check_inputs`, then the candidate fields. -/
def designInit (fuel : ℕ) (gc : Constraints K) (routine : String) : Py (Candidates K) := do
  checkInputs gc routine
  if routine = "near-square" then
    let length ← arg gc.length
    let B ← arg gc.B
    let n ← numberOfBoreholes length B fun q => ⌊q⌋
    let d ← squareAndNearSquare 1 n B
    return .flat d
  else if routine = "rectangle" then
    let length ← arg gc.length
    let width ← arg gc.width
    let Bmin ← arg gc.Bmin
    let BmaxX ← arg gc.BmaxX
    let d ← rectangular length width Bmin BmaxX
    return .flat d
  else if routine = "bi-rectangle" then
    let length ← arg gc.length
    let width ← arg gc.width
    let Bmin ← arg gc.Bmin
    let BmaxX ← arg gc.BmaxX
    let BmaxY ← arg gc.BmaxY
    let d ← biRectangleNested length width Bmin BmaxX BmaxY
    return .nested d
  else if routine = "bi-zoned" then
    let length ← arg gc.length
    let width ← arg gc.width
    let Bmin ← arg gc.Bmin
    let BmaxX ← arg gc.BmaxX
    let BmaxY ← arg gc.BmaxY
    let d ← biRectangleZonedNested fuel length width Bmin BmaxX BmaxY
    return .nested d
  else throw .valueError

/-- `self.coordinates_domain`: `AttributeError` if `__init__` set the other attribute. -/
def Candidates.asFlat : Candidates K → Py (List (List (K × K)))
  | .flat d => .ok d
  | .nested _ => .error .attributeError

/-- `self.coordinates_domain_nested`. -/
def Candidates.asNested : Candidates K → Py (List (List (List (K × K))))
  | .nested d => .ok d
  | .flat _ => .error .attributeError

/-- `find_design`, design.py:82-125: which search is run on which candidates, all of them with the
default `max_iter`.  The result is the search's selection; the search object is the final state. -/
def findDesign (env : Env (List (K × K)) K) (routine : String) (c : Candidates K) :
    St (State (List (K × K)) K) (Option (ℤ × List (K × K))) := do
  if routine = "near-square" then
    let d ← St.lift c.asFlat
    bisection1D env d
  else if routine = "rectangle" then
    let d ← St.lift c.asFlat
    bisection1D env d
  else if routine = "bi-rectangle" then
    let d ← St.lift c.asNested
    bisection2D env d
  else if routine = "bi-zoned" then
    let d ← St.lift c.asNested
    let r ← bisectionZD env d
    return some r
  else St.throw .valueError

/-- `Design(...).find_design()` on a fresh search object. -/
def design (fuel : ℕ) (env : Env (List (K × K)) K) (gc : Constraints K) (routine : String) :
    St (State (List (K × K)) K) (Option (ℤ × List (K × K))) := do
  let c ← St.lift (designInit fuel gc routine)
  findDesign env routine c

end Ghedt.Design
