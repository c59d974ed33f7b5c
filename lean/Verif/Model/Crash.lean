import Verif.Model.Plots
import Mathlib.Data.Set.Insert

/-!
# The file functions, killed

The functions of `Model/Files` and `visualize_domain` of `Model/Plots`, once more, written in the same way, in a monad that
also collects what the process leaves on the disk if it is killed on the way.  Opening a file for writing and making one
directory are atomic; of a text that is written any beginning can have reached the disk.
-/

namespace Ghedt.Crash
open Ghedt.Files Ghedt.Plots

/-- A computation on the disk: its outcome, and the disks it can leave if it is killed. -/
def Cr (α : Type) := Disk → (Py α × Disk) × Set Disk

instance : Monad Cr where
  pure a := fun d => ((.ok a, d), {d})
  bind m f := fun d =>
    match (m d).1 with
    | (.ok a, d') => ((f a d').1, (m d).2 ∪ (f a d').2)
    | (.error e, d') => ((.error e, d'), (m d).2)

/-- A call of the operating system that happens wholly or not at all. -/
def atomic {α : Type} (m : St Disk α) : Cr α := fun d => (m d, {d, (m d).2})

/-- Something that does not touch the disk. -/
def lift {α : Type} (x : Py α) : Cr α := atomic (St.lift x)

/-- Writing to an open file: a part of the text can be written. -/
def append (f : File) (t : String) : Cr Unit := fun d =>
  (Files.append f t d, {d' | ∃ a b, t = a ++ b ∧ d' = (Files.append f a d).2})

/-- `with open(f, 'w') as fp: dump(v, fp)`, as `Files.dumpTo`. -/
def dumpTo {V : Type} (enc : Encoder V) (f : File) (v : V) : Cr Unit := do
  atomic (openWrite f)
  append f (enc v).1
  match (enc v).2 with
  | none => return ()
  | some e => lift (.error e)

/-- `js_dump`, utilities.py:123-125. -/
def jsDump {V : Type} (enc : Encoder V) (f : File) (v : V) : Cr Unit := dumpTo enc (f.1, f.2 ++ ".json") v

/-- `js_load`, utilities.py:128-130. -/
def jsLoad {V : Type} (dec : String → Py V) (f : File) : Cr V := do
  let t ← atomic (readAll f)
  lift (dec t)

/-- `create_input_file`, utilities.py:139-145. -/
def createInputFile {V : Type} (enc : Encoder V) (f : File) (v : V) : Cr Unit := dumpTo enc (f.1, f.2 ++ ".obj") v

/-- `read_input_file`, utilities.py:148-154. -/
def readInputFile {V : Type} (dec : String → Py V) (f : File) : Cr V := do
  let t ← atomic (readAll f)
  lift (dec t)

/-- The directories `names` one inside the other, in the directory `pre`, as `Files.makeInside`. -/
def makeInside (pre : List String) : List String → Cr Unit
  | [] => return ()
  | n :: names => do
    atomic (mkdir (pre ++ [n]))
    makeInside (pre ++ [n]) names

/-- `create_if_not`, utilities.py:133-136. -/
def createIfNot (p : List String) : Cr Unit := do
  let d ← atomic St.get
  if d.exists p then return () else makeInside [] p

variable {K : Type} [Field K] [LinearOrder K]

/-- Body of the loop of `visualize_domain`, domains.py:430-447, as `Plots.domainStep`. -/
def domainStep (render : Fig K → String) (folder : List String) (q : List (K × K) × ℕ) : Cr Unit := do
  let (x, y) ← lift (unzip2 q.1)
  let m ← lift (scatter x y "")
  dumpTo (fun f => (render f, none)) (folder, zfill3 q.2 ++ ".png") ⟨[m], "x (m)", "y (m)"⟩

/-- The loop. -/
def domainLoop (render : Fig K → String) (folder : List String) : List (List (K × K) × ℕ) → Cr Unit
  | [] => return ()
  | q :: l => do
    domainStep render folder q
    domainLoop render folder l

/-- `visualize_domain`, domains.py:425-447. -/
def visualizeDomain (render : Fig K → String) (domain : List (List (K × K))) (folder : List String) : Cr Unit := do
  createIfNot folder
  domainLoop render folder domain.zipIdx

/-- `oak_ridge_export(search, file_name)`, search_routines.py:368-418, started in a state of the exchanger: what it leaves on
the disk if it is killed.  Nothing is written before the dump. -/
noncomputable def exportLeft (enc : Encoder Json) (f : File) (selected : List (ℝ × ℝ)) (env : Whole.Env)
    (st : Whole.State) (d : Disk) : Set Disk :=
  match Report.oakRidge selected env st with
  | (.error _, _) => {d}
  | (.ok e, _) => {d} ∪ (jsDump enc f (exportJson e) d).2

end Ghedt.Crash
