import Verif.Props.Script
import Verif.Model.Creation

/-!
# Scripts that write designs to files (C145)
-/

set_option linter.unusedSectionVars false

namespace Ghedt.Creation
open Ghedt.Search Ghedt.WholeSearch Ghedt.Files Ghedt.Script Ghedt.Design

noncomputable section

variable {c : Codec Json Saved} {d : Disk} {fuel : ℕ} {kw : PyDict String ℝ} {os : List Order} {gc : Constraints ℝ}

/-- the file a design is written to -/
def Order.path (o : Order) : File := (o.file.1, o.file.2 ++ ".obj")

/-- The design was made and its file has the text the encoder made of it. -/
def Written (c : Codec Json Saved) (fuel : ℕ) (gc : Constraints ℝ) (o : Order) (d : Disk) : Prop :=
  ∃ cand t, designInit fuel gc o.routine = .ok cand ∧ c.pickle ⟨o.problem, o.routine, cand⟩ = (t, none) ∧
    d.files o.path = some t

theorem find?_iff {kw : PyDict String ℝ} (hn : (PyDict.keys kw).Nodup) (name : String) (v : ℝ) :
    PyDict.find? kw name = some v ↔ (name, v) ∈ kw := by
  induction kw with
  | nil => simp [PyDict.find?]
  | cons q kw ih =>
    obtain ⟨k, w⟩ := q
    rw [PyDict.keys, List.map_cons, List.nodup_cons] at hn
    unfold PyDict.find?
    by_cases hk : k = name
    · subst hk
      rw [if_pos rfl, Option.some.injEq, List.mem_cons]
      constructor
      · rintro rfl
        exact .inl rfl
      · rintro (h | h)
        · cases h
          rfl
        · exact absurd (List.mem_map.2 ⟨_, h, rfl⟩) hn.1
    · rw [if_neg hk, ih hn.2, List.mem_cons]
      constructor
      · exact .inr
      · rintro (h | h)
        · cases h
          exact absurd rfl hk
        · exact h

/-- C145: constraints are given by keyword.  If each name is a parameter, each constraint has the value given under its name,
and is `None` if there is none; otherwise `TypeError` is raised. -/
theorem C145_keywords (hn : (PyDict.keys kw).Nodup) :
    ((∀ name ∈ PyDict.keys kw, name ∈ ["length", "width", "B", "B_min", "B_max_x", "B_max_y", "outer_constraints", "no_go"]) →
      ∃ gc, constraints kw = .ok gc ∧ ∀ v, (gc.length = some v ↔ ("length", v) ∈ kw) ∧ (gc.width = some v ↔ ("width", v) ∈ kw) ∧
        (gc.B = some v ↔ ("B", v) ∈ kw) ∧ (gc.Bmin = some v ↔ ("B_min", v) ∈ kw) ∧
        (gc.BmaxX = some v ↔ ("B_max_x", v) ∈ kw) ∧ (gc.BmaxY = some v ↔ ("B_max_y", v) ∈ kw)) ∧
    ((∃ name ∈ PyDict.keys kw, name ∉
        ["length", "width", "B", "B_min", "B_max_x", "B_max_y", "outer_constraints", "no_go"]) →
      constraints kw = .error .typeError) := by
  constructor
  · intro h
    refine ⟨_, if_pos (by
      rw [List.all_eq_true]
      intro name hname
      exact List.contains_iff_mem.2 (h name hname)), fun v => ?_⟩
    exact ⟨find?_iff hn _ v, find?_iff hn _ v, find?_iff hn _ v, find?_iff hn _ v, find?_iff hn _ v, find?_iff hn _ v⟩
  · rintro ⟨name, h1, h2⟩
    refine if_neg ?_
    rw [List.all_eq_true]
    intro h
    exact h2 (List.contains_iff_mem.1 (h name h1))

/-- C145: with a name that is not a parameter, such as `unconstrained` in two of the shipped scripts, the script raises
`TypeError` and writes nothing, whatever the designs. -/
theorem C145_unknown (h : ∃ name ∈ PyDict.keys kw, name ∉
    ["length", "width", "B", "B_min", "B_max_x", "B_max_y", "outer_constraints", "no_go"]) (os : List Order) (d : Disk) :
    createScript c.pickle fuel kw os d = (.error .typeError, d) := by
  have : constraints kw = .error .typeError := by
    obtain ⟨name, h1, h2⟩ := h
    refine if_neg ?_
    rw [List.all_eq_true]
    intro h
    exact h2 (List.contains_iff_mem.1 (h name h1))
  unfold createScript
  rw [this]
  rfl

/-- what writing one design does -/
theorem create_eq (o : Order) (v : Saved) (d : Disk) :
    (createInputFile c.pickle o.file v d).2.dirs = d.dirs ∧
    (∀ f, f ≠ o.path → (createInputFile c.pickle o.file v d).2.files f = d.files f) ∧
    ((createInputFile c.pickle o.file v d).1 = .ok () → ∃ t, c.pickle v = (t, none) ∧
      (createInputFile c.pickle o.file v d).2.files o.path = some t) := by
  unfold createInputFile
  rw [dumpTo_eq]
  split
  · refine ⟨rfl, fun f hf => if_neg hf, ?_⟩
    intro h
    refine ⟨(c.pickle v).1, ?_, if_pos rfl⟩
    cases hq : (c.pickle v).2 with
    | none => exact Prod.ext rfl hq
    | some e => rw [hq] at h; cases h
  · exact ⟨rfl, fun _ _ => rfl, by intro h; cases h⟩

/-- C145: what the script leaves on the disk, however it ends: no directory is made and no file changed but those of the
designs.  If it returns, every design is in its file.  If it raises, the first designs, up to some design, are in their
files; that design raised the exception, when it was made or when it was written; and the files of later designs are as
before.  (The files have different names.) -/
theorem C145_files (hn : (os.map Order.path).Nodup) (r : Except PyErr Unit) (d' : Disk)
    (h : createFiles c.pickle fuel gc os d = (r, d')) :
    d'.dirs = d.dirs ∧ (∀ f, f ∉ os.map Order.path → d'.files f = d.files f) ∧
    (r = .ok () → ∀ o ∈ os, Written c fuel gc o d') ∧
    ∀ e, r = .error e → ∃ pre o post, os = pre ++ o :: post ∧ (∀ o ∈ pre, Written c fuel gc o d') ∧
      (∀ o ∈ post, d'.files o.path = d.files o.path) ∧
      (designInit fuel gc o.routine = .error e ∧ d'.files o.path = d.files o.path ∨
        ∃ cand, designInit fuel gc o.routine = .ok cand ∧ ∀ d0 : Disk, d0.dirs = d.dirs →
          (createInputFile c.pickle o.file ⟨o.problem, o.routine, cand⟩ d0).1 = .error e) := by
  induction os generalizing d with
  | nil =>
    cases h
    exact ⟨rfl, fun _ _ => rfl, fun _ o ho => (by simp at ho), by intro e he; cases he⟩
  | cons o os ih =>
    rw [List.map_cons, List.nodup_cons] at hn
    unfold createFiles at h
    cases hi : designInit fuel gc o.routine with
    | error e =>
      rw [hi] at h
      cases h
      refine ⟨rfl, fun _ _ => rfl, (by intro h; cases h), ?_⟩
      rintro e' he
      cases he
      exact ⟨[], o, os, rfl, by simp, fun _ _ => rfl, .inl ⟨hi, rfl⟩⟩
    | ok cand =>
      rw [hi] at h
      obtain ⟨c1, c2, c3⟩ := create_eq (c := c) o ⟨o.problem, o.routine, cand⟩ d
      have hsame : ∀ d0 : Disk, d0.dirs = d.dirs → (createInputFile c.pickle o.file ⟨o.problem, o.routine, cand⟩ d0).1 =
          (createInputFile c.pickle o.file ⟨o.problem, o.routine, cand⟩ d).1 := by
        intro d0 h0
        unfold createInputFile
        rw [dumpTo_eq, dumpTo_eq, h0]
        split <;> rfl
      rcases hq : createInputFile c.pickle o.file ⟨o.problem, o.routine, cand⟩ d with ⟨e | u, d1⟩
      · rw [St.lift_ok rfl, St.bind_error hq] at h
        cases h
        rw [hq] at c1 c2 hsame
        refine ⟨c1, fun f hf => c2 f (fun e => hf (by rw [e]; simp)), (by intro h; cases h), ?_⟩
        rintro e' he
        cases he
        refine ⟨[], o, os, rfl, by simp, fun o' ho' => c2 _ ?_, .inr ⟨cand, hi, hsame⟩⟩
        intro e'
        exact hn.1 (e' ▸ List.mem_map_of_mem ho')
      · rw [St.lift_ok rfl, St.bind_ok hq] at h
        rw [hq] at c1 c2 c3
        obtain ⟨t, t1, t2⟩ := c3 rfl
        obtain ⟨i1, i2, i3, i4⟩ := ih (d := d1) hn.2 h
        have hw : Written c fuel gc o d' := ⟨cand, t, hi, t1, (i2 _ hn.1).trans t2⟩
        refine ⟨i1.trans c1, ?_, ?_, ?_⟩
        · intro f hf
          rw [List.map_cons, List.mem_cons, not_or] at hf
          exact (i2 f hf.2).trans (c2 f hf.1)
        · intro hr o' ho'
          rcases List.mem_cons.1 ho' with rfl | ho'
          · exact hw
          · exact i3 hr o' ho'
        · intro e he
          obtain ⟨pre, o', post, k1, k2, k3, k4⟩ := i4 e he
          have hne : ∀ q ∈ os, q.path ≠ o.path := fun q hq e' => hn.1 (e' ▸ List.mem_map_of_mem hq)
          refine ⟨o :: pre, o', post, by rw [k1]; rfl, ?_, ?_, ?_⟩
          · intro q hq
            rcases List.mem_cons.1 hq with rfl | hq
            · exact hw
            · exact k2 q hq
          · intro q hq
            exact (k3 q hq).trans (c2 _ (hne q (by rw [k1]; simp [hq])))
          · rcases k4 with ⟨a1, a2⟩ | ⟨cand', a1, a2⟩
            · exact .inl ⟨a1, a2.trans (c2 _ (hne o' (by rw [k1]; simp)))⟩
            · exact .inr ⟨cand', a1, fun d0 h0 => a2 d0 (h0.trans c1.symm)⟩

theorem good_of (hg : d.Good) (os : List Order) : (createFiles c.pickle fuel gc os d).2.Good := by
  induction os generalizing d with
  | nil => exact hg
  | cons o os ih =>
    unfold createFiles
    cases hi : designInit fuel gc o.routine with
    | error e => exact hg
    | ok cand =>
      have h1 : (createInputFile c.pickle o.file ⟨o.problem, o.routine, cand⟩ d).2.Good :=
        C111_good (c := c) hg (.create o.file ⟨o.problem, o.routine, cand⟩)
      rcases hq : createInputFile c.pickle o.file ⟨o.problem, o.routine, cand⟩ d with ⟨e | u, d1⟩
      · rw [St.lift_ok rfl, St.bind_error hq]
        rw [hq] at h1
        exact h1
      · rw [St.lift_ok rfl, St.bind_ok hq]
        rw [hq] at h1
        exact ih h1

/-- C145: after the script returned, and whatever else was done with files since, the script that designs from a file does
with the file of each design what finding, sizing and exporting that design does, provided that the decoder undoes the encoder
on it. -/
theorem C145_then (hg : d.Good) (hn : (os.map Order.path).Nodup) (hr : (createScript c.pickle fuel kw os d).1 = .ok ())
    (o : Order) (ho : o ∈ os) (ops : List (Files.Op Json Saved)) (hops : ∀ op ∈ ops, op.writes ≠ some o.path) (d' : Disk)
    (hd' : d' = ops.foldl (Files.perform c) (createScript c.pickle fuel kw os d).2) (out : File) :
    ∃ gc cand t, constraints kw = .ok gc ∧ designInit fuel gc o.routine = .ok cand ∧
      c.pickle ⟨o.problem, o.routine, cand⟩ = (t, none) ∧ (c.unpickle t = .ok ⟨o.problem, o.routine, cand⟩ →
        designFromInput c.unpickle c.json o.path out d' = designToFile c.json out ⟨o.problem, o.routine, cand⟩ d') := by
  unfold createScript at hr hd'
  cases hk : constraints kw with
  | error e => rw [hk] at hr; cases hr
  | ok gc =>
    rw [hk, St.lift_ok rfl] at hr hd'
    rcases hq : createFiles c.pickle fuel gc os d with ⟨r, d1⟩
    rw [hq] at hr hd'
    change r = _ at hr
    obtain ⟨-, -, h3, -⟩ := C145_files hn r d1 hq
    obtain ⟨cand, t, a1, a2, a3⟩ := h3 hr o ho
    have hgood : d1.Good := by
      have := good_of (c := c) (fuel := fuel) (gc := gc) hg os
      rw [hq] at this
      exact this
    have hf := (C111_untouched (c := c) hgood ops o.path hops).1
    refine ⟨gc, cand, t, rfl, a1, a2, fun hcod => ?_⟩
    rw [script_eq, (load_eq _ _ _).2, (load_eq _ _ _).1, hd', hf, a3]
    dsimp only
    rw [hcod]

/-- the constraints of the script for near-square fields, which has not kept up with `GeometricConstraints` -/
example (c : Codec Json Saved) (os : List Order) :
    createScript c.pickle 0 [("B_max_x", 5), ("unconstrained", 1)] os exDisk = (.error .typeError, exDisk) :=
  C145_unknown ⟨"unconstrained", by simp [PyDict.keys], by decide⟩ os exDisk

/-- constraints that do for several routines -/
def exKeywords : PyDict String ℝ :=
  [("length", 40), ("width", 30), ("B", 5), ("B_min", 4), ("B_max_x", 6), ("B_max_y", 8)]

def exConstraints : Constraints ℝ := ⟨some 40, some 30, some 5, some 4, some 6, some 8⟩

theorem exKeywords_ok : constraints exKeywords = .ok exConstraints := by
  obtain ⟨gc, h1, h2⟩ := (C145_keywords (kw := exKeywords) (by simp [exKeywords, PyDict.keys])).1
    (by simp [exKeywords, PyDict.keys])
  rw [h1]
  obtain ⟨a, b, c, d, e, f⟩ := gc
  simp only [exKeywords] at h2
  rw [show a = some 40 from (h2 40).1.2 (by simp), show b = some 30 from (h2 30).2.1.2 (by simp),
    show c = some 5 from (h2 5).2.2.1.2 (by simp), show d = some 4 from (h2 4).2.2.2.1.2 (by simp),
    show e = some 6 from (h2 6).2.2.2.2.1.2 (by simp), show f = some 8 from (h2 8).2.2.2.2.2.2 (by simp)]
  rfl

/-- a codec that does for the designs made from these constraints: only the routine is written -/
def exSaver (p : Problem) : Codec Json Saved where
  json _ := ("", none)
  unjson _ := .error .valueError
  pickle i := (i.routine, none)
  unpickle t := do
    let cand ← designInit 0 exConstraints t
    return ⟨p, t, cand⟩

theorem exSaver_ok (p : Problem) (n : String) (v : Saved) (d : Disk) (h : d.dirs = exDisk.dirs) :
    createInputFile (exSaver p).pickle (["out"], n) v d = (.ok (), d.put (["out"], n ++ ".obj") v.routine) := by
  unfold createInputFile
  rw [dumpTo_eq, h, if_pos (by simp [exDisk])]
  rfl

/-- C145 applies: two designs are written, and each is designed from its file as from the object -/
example (p : Problem) (out : File) : ∃ d', createScript (exSaver p).pickle 0 exKeywords
      [⟨(["out"], "a"), p, "near-square"⟩, ⟨(["out"], "b"), p, "rectangle"⟩] exDisk = (.ok (), d') ∧
    d'.files ([], "notes") = some "hello" ∧ d'.files (["out"], "b.obj") = some "rectangle" ∧
    ∃ cand, designInit 0 exConstraints "rectangle" = .ok cand ∧
      designFromInput (exSaver p).unpickle (exSaver p).json (["out"], "b.obj") out d' =
        designToFile (exSaver p).json out ⟨p, "rectangle", cand⟩ d' := by
  have hav := C77_available (K := ℝ) 0 exConstraints (X := 40) (Y := 30) (B := 5) (Bmin := 4) (BX := 6) (BY := 8)
    (by norm_num) (by norm_num) (by norm_num) (by norm_num) (by norm_num) (by norm_num) rfl
  obtain ⟨n, d1, -, -, h1⟩ := hav.1 rfl
  obtain ⟨⟨d2, -, h2⟩, -⟩ := hav.2 rfl rfl rfl
  have hrun : (createScript (exSaver p).pickle 0 exKeywords
      [⟨(["out"], "a"), p, "near-square"⟩, ⟨(["out"], "b"), p, "rectangle"⟩] exDisk).1 = .ok () := by
    unfold createScript
    rw [exKeywords_ok, St.lift_ok rfl]
    unfold createFiles
    rw [St.lift_ok h1, St.bind_ok (exSaver_ok p _ _ _ (by rfl))]
    unfold createFiles
    rw [St.lift_ok h2, St.bind_ok (exSaver_ok p _ _ _ (by rfl))]
    rfl
  have hpath : ([⟨(["out"], "a"), p, "near-square"⟩, ⟨(["out"], "b"), p, "rectangle"⟩].map Order.path).Nodup := by
    simp [Order.path]
  obtain ⟨gc, cand, t, k1, k2, k3, k4⟩ := C145_then exDisk_good hpath hrun ⟨(["out"], "b"), p, "rectangle"⟩ (by simp) []
    (by simp) _ rfl out
  rw [exKeywords_ok] at k1
  obtain rfl := Except.ok.inj k1
  have h5 : createFiles (exSaver p).pickle 0 exConstraints
      [⟨(["out"], "a"), p, "near-square"⟩, ⟨(["out"], "b"), p, "rectangle"⟩] exDisk = Prod.mk (.ok ())
      (createScript (exSaver p).pickle 0 exKeywords
      [⟨(["out"], "a"), p, "near-square"⟩, ⟨(["out"], "b"), p, "rectangle"⟩] exDisk).2 := by
    rw [← hrun, Prod.mk.eta]
    unfold createScript
    rw [exKeywords_ok, St.lift_ok rfl]
  obtain ⟨-, f2, f3, -⟩ := C145_files (c := exSaver p) hpath _ _ h5
  obtain ⟨cand', t', w1, w2, w3⟩ := f3 rfl ⟨(["out"], "b"), p, "rectangle"⟩ (by simp)
  refine ⟨_, Prod.ext hrun rfl, ?_, ?_, cand, k2, k4 ?_⟩
  · rw [f2 _ (by simp [Order.path])]
    rfl
  · refine Eq.trans w3 ?_
    cases w2
    rfl
  · cases k3
    show (do let cand ← designInit 0 exConstraints "rectangle"; return _ : Py Saved) = _
    dsimp only at k2
    rw [k2]
    rfl

/-- C145 applies: the second design cannot be made; the first is in its file, the third is not -/
example (p : Problem) : ∃ d', createFiles (exSaver p).pickle 0 exConstraints
      [⟨(["out"], "a"), p, "near-square"⟩, ⟨(["out"], "b"), p, "hexagon"⟩, ⟨(["out"], "c"), p, "rectangle"⟩] exDisk =
      (.error .valueError, d') ∧ d'.files (["out"], "a.obj") = some "near-square" ∧ d'.files (["out"], "c.obj") = none := by
  have hav := C77_available (K := ℝ) 0 exConstraints (X := 40) (Y := 30) (B := 5) (Bmin := 4) (BX := 6) (BY := 8)
    (by norm_num) (by norm_num) (by norm_num) (by norm_num) (by norm_num) (by norm_num) rfl
  obtain ⟨n, d1, -, -, h1⟩ := hav.1 rfl
  have h2 := (C77_unknown 0 exConstraints "hexagon" (by decide)).1.2 (by simp [exConstraints])
  unfold createFiles
  rw [St.lift_ok h1, St.bind_ok (exSaver_ok p _ _ _ (by rfl))]
  unfold createFiles
  rw [h2]
  refine ⟨_, rfl, by simp [Disk.put], by simp [Disk.put, exDisk]⟩

end

end Ghedt.Creation
