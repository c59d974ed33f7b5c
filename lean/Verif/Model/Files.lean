import Verif.Model.Report

/-!
# Model of the file functions of utilities.py and of `oak_ridge_export`

A disk has directories and files with contents.  A path is a list of names, a file a directory and a name; the root is
the working directory.  Opening can fail only because a directory is missing or is in the way: rights, full disks and
other processes are not modelled.  The encoders (`json.dump`, `pickle.dump`) are arbitrary: they write some text and may
then raise; so are the decoders.
-/

namespace Ghedt.Files

/-- A file: the directory it is in and its name. -/
abbrev File := List String × String

structure Disk where
  dirs : List String → Bool
  files : File → Option String

/-- Whether a path is a file. -/
def Disk.isFile (d : Disk) (p : List String) : Bool :=
  match p.getLast? with
  | none => false
  | some n => (d.files (p.dropLast, n)).isSome

/-- `os.path.exists`. -/
def Disk.exists (d : Disk) (p : List String) : Bool := d.dirs p || d.isFile p

/-- `open(f, 'w')`: the file is made, or emptied. -/
def openWrite (f : File) : St Disk Unit := fun d =>
  if d.dirs f.1 && !d.dirs (f.1 ++ [f.2]) then
    (.ok (), { d with files := fun g => if g = f then some "" else d.files g })
  else (.error .osError, d)

/-- Writing to an open file. -/
def append (f : File) (t : String) : St Disk Unit := fun d =>
  (.ok (), { d with files := fun g => if g = f then (d.files f).map (· ++ t) else d.files g })

/-- `open(f)` and reading everything. -/
def readAll (f : File) : St Disk String := fun d =>
  match d.files f with
  | some t => (.ok t, d)
  | none => (.error .osError, d)

/-- An encoder: the text it writes and what it raises then, if anything. -/
abbrev Encoder (V : Type) := V → String × Option PyErr

/-- `with open(f, 'w') as fp: dump(v, fp)`. -/
def dumpTo {V : Type} (enc : Encoder V) (f : File) (v : V) : St Disk Unit := do
  openWrite f
  append f (enc v).1
  match (enc v).2 with
  | none => return ()
  | some e => St.lift (.error e)

/-- `js_dump`, utilities.py:123-125. -/
def jsDump {V : Type} (enc : Encoder V) (f : File) (v : V) : St Disk Unit := dumpTo enc (f.1, f.2 ++ ".json") v

/-- `js_load`, utilities.py:128-130. -/
def jsLoad {V : Type} (dec : String → Py V) (f : File) : St Disk V := do
  let t ← readAll f
  St.lift (dec t)

/-- `create_input_file`, utilities.py:139-145. -/
def createInputFile {V : Type} (enc : Encoder V) (f : File) (v : V) : St Disk Unit := dumpTo enc (f.1, f.2 ++ ".obj") v

/-- `read_input_file`, utilities.py:148-154. -/
def readInputFile {V : Type} (dec : String → Py V) (f : File) : St Disk V := do
  let t ← readAll f
  St.lift (dec t)

/-- `os.mkdir` of a path below an existing directory, in `os.makedirs`, which passes over the directories there are. -/
def mkdir (p : List String) : St Disk Unit := fun d =>
  if d.dirs p then (.ok (), d)
  else if d.isFile p then (.error .osError, d)
  else (.ok (), { d with dirs := fun q => decide (q = p) || d.dirs q })

/-- The directories `names` one inside the other, in the directory `pre`. -/
def makeInside (pre : List String) : List String → St Disk Unit
  | [] => return ()
  | n :: names => do
    mkdir (pre ++ [n])
    makeInside (pre ++ [n]) names

/-- `os.makedirs`: the directories on the way, from the top. -/
def makedirs (p : List String) : St Disk Unit := makeInside [] p

/-- `create_if_not`, utilities.py:133-136. -/
def createIfNot (p : List String) : St Disk Unit := do
  let d ← St.get
  if d.exists p then return () else makedirs p

/-- A value of JSON, as far as it is used here. -/
inductive Json
  | num (x : ℝ)
  | int (n : ℤ)
  | arr (l : List Json)
  | obj (l : List (String × Json))

open Ghedt.Report Ghedt.GHE in
/-- The dictionary of `oak_ridge_export` with its keys in order, search_routines.py:370-414; a pair of numbers is written
as a list of two. -/
def exportJson (e : Exported) : Json :=
  .obj [("borehole_length", .num e.boreholeLength), ("number_of_boreholes", .int e.numberOfBoreholes),
    ("g_function_pairs", .arr (e.pairs.map fun q : ℝ × ℝ => .obj [("ln_tts", .num q.1), ("g_value", .num q.2)])),
    ("single_u_tube", .obj [("r_b", .num e.tube.rb), ("r_in", .num e.tube.rIn), ("r_out", .num e.tube.rOut),
      ("s", .num e.tube.s), ("pos", .arr (e.tube.pos.map fun q : ℝ × ℝ => .arr [.num q.1, .num q.2])),
      ("m_flow_borehole", .num e.tube.mFlow), ("k_g", .num e.tube.kGrout), ("k_s", .num e.tube.kSoil),
      ("k_p", .num e.tube.kPipe)])]

/-- `oak_ridge_export(search, file_name)`, search_routines.py:368-418: the exchanger and the disk are changed. -/
noncomputable def oakRidgeExport (enc : Encoder Json) (f : File) (selected : List (ℝ × ℝ)) (env : Whole.Env) :
    St (Whole.State × Disk) Unit := fun s =>
  match Report.oakRidge selected env s.1 with
  | (.error e, t) => (.error e, (t, s.2))
  | (.ok e, t) =>
    let r := jsDump enc f (exportJson e) s.2
    (r.1, (t, r.2))

end Ghedt.Files
