import Verif.Props.Report
import Verif.Model.Files

/-!
# Files (C111)
-/

set_option linter.unusedSectionVars false

namespace Ghedt.Files

/-- A disk as it can be: the working directory is there, what a directory or a file is in is a directory, and nothing is
both. -/
structure Disk.Good (d : Disk) : Prop where
  root : d.dirs [] = true
  above : ∀ p n, d.dirs (p ++ [n]) = true → d.dirs p = true
  inside : ∀ p n t, d.files (p, n) = some t → d.dirs p = true
  apart : ∀ p n t, d.files (p, n) = some t → d.dirs (p ++ [n]) = false

/-- The encoders and decoders of the two formats. -/
structure Codec (J O : Type) where
  json : Encoder J
  unjson : String → Py J
  pickle : Encoder O
  unpickle : String → Py O

variable {J O : Type} {c : Codec J O} {d : Disk}

/-- The file functions. -/
inductive Op (J O : Type)
  | dump (f : File) (v : J)
  | load (f : File)
  | create (f : File) (v : O)
  | read (f : File)
  | directory (p : List String)

/-- A call, whether it returns or raises. -/
def perform (c : Codec J O) (d : Disk) : Op J O → Disk
  | .dump f v => (jsDump c.json f v d).2
  | .load f => (jsLoad c.unjson f d).2
  | .create f v => (createInputFile c.pickle f v d).2
  | .read f => (readInputFile c.unpickle f d).2
  | .directory p => (createIfNot p d).2

/-- The file a call writes. -/
def Op.writes : Op J O → Option File
  | .dump f _ => some (f.1, f.2 ++ ".json")
  | .create f _ => some (f.1, f.2 ++ ".obj")
  | _ => none

/-- with these contents in the file, and else the same -/
def Disk.put (d : Disk) (f : File) (t : String) : Disk :=
  { d with files := fun g => if g = f then some t else d.files g }

theorem dumpTo_eq {V : Type} (enc : Encoder V) (f : File) (v : V) (d : Disk) :
    dumpTo enc f v d = if d.dirs f.1 && !d.dirs (f.1 ++ [f.2]) then
      ((match (enc v).2 with | none => .ok () | some e => .error e), d.put f (enc v).1) else (.error .osError, d) := by
  unfold dumpTo
  by_cases h : (d.dirs f.1 && !d.dirs (f.1 ++ [f.2])) = true
  · have h1 : openWrite f d = (.ok (), d.put f "") := by
      unfold openWrite
      rw [if_pos h]
      rfl
    have h2 : append f (enc v).1 (d.put f "") = (.ok (), d.put f (enc v).1) := by
      unfold append Disk.put
      simp only [if_true, Option.map_some]
      congr 2
      funext g
      by_cases hg : g = f
      · simp [hg]
      · simp [hg]
    rw [St.bind_ok h1, St.bind_ok h2, if_pos h]
    cases (enc v).2 <;> rfl
  · have h1 : openWrite f d = (.error .osError, d) := by
      unfold openWrite
      rw [if_neg h]
    rw [St.bind_error h1, if_neg h]

theorem load_eq {V : Type} (dec : String → Py V) (f : File) (d : Disk) :
    jsLoad dec f d = ((match d.files f with | some t => dec t | none => .error .osError), d) ∧
    readInputFile dec f d = jsLoad dec f d := by
  refine ⟨?_, rfl⟩
  unfold jsLoad
  cases h : d.files f with
  | none =>
    have h1 : readAll f d = (.error .osError, d) := by simp only [readAll, h]
    rw [St.bind_error h1]
  | some t =>
    have h1 : readAll f d = (.ok t, d) := by simp only [readAll, h]
    rw [St.bind_ok h1]
    rfl

theorem isFile_append (d : Disk) (p : List String) (n : String) : d.isFile (p ++ [n]) = (d.files (p, n)).isSome := by
  simp [Disk.isFile]

theorem Disk.Good.up (h : d.Good) {p q : List String} (hq : d.dirs (p ++ q) = true) : d.dirs p = true := by
  induction q using List.reverseRecOn with
  | nil => simpa using hq
  | append_singleton q n ih =>
    rw [← List.append_assoc] at hq
    exact ih (h.above _ _ hq)

theorem makeInside_ok (names : List String) : ∀ (pre : List String) (d : Disk), d.dirs pre = true →
    (∀ q, q <+: names → q ≠ [] → d.isFile (pre ++ q) = false) →
    makeInside pre names d =
      (.ok (), { d with dirs := fun r => d.dirs r || decide (pre <+: r ∧ r <+: pre ++ names) }) := by
  induction names with
  | nil =>
    intro pre d h _
    unfold makeInside
    rw [St.pure_apply]
    congr 1
    obtain ⟨ds, fs⟩ := d
    congr 1
    funext r
    dsimp only at h ⊢
    by_cases hr : ds r = true
    · rw [hr]; rfl
    · have : ¬ (pre <+: r ∧ r <+: pre ++ []) := by
        rw [List.append_nil]
        rintro ⟨h1, h2⟩
        have : pre = r := h1.eq_of_length_le h2.length_le
        subst this
        exact hr h
      simp only [this, decide_false, Bool.or_false]
  | cons n ns ih =>
    intro pre d h hf
    have hfn : d.isFile (pre ++ [n]) = false := hf [n] (by simp) (by simp)
    have hsplit : ∀ r : List String, (pre <+: r ∧ r <+: pre ++ n :: ns) ↔
        (r = pre ∨ pre ++ [n] <+: r ∧ r <+: pre ++ [n] ++ ns) := by
      intro r
      constructor
      · rintro ⟨⟨q, rfl⟩, h2⟩
        have h3 := (List.prefix_append_right_inj pre).1 h2
        cases q with
        | nil => left; simp
        | cons m q =>
          right
          obtain ⟨rfl, h4⟩ := List.cons_prefix_cons.1 h3
          refine ⟨⟨q, by simp⟩, ?_⟩
          rw [show pre ++ m :: q = pre ++ [m] ++ q by simp]
          exact (List.prefix_append_right_inj _).2 h4
      · rintro (rfl | ⟨h1, h2⟩)
        · exact ⟨List.prefix_rfl, List.prefix_append _ _⟩
        · exact ⟨(List.prefix_append _ _).trans h1, by simpa using h2⟩
    have hcont : ∀ d1 : Disk, d1.dirs (pre ++ [n]) = true → d1.files = d.files →
        (∀ r, d1.dirs r = true ↔ d.dirs r = true ∨ r = pre ++ [n]) →
        makeInside (pre ++ [n]) ns d1 =
          (.ok (), { d with dirs := fun r => d.dirs r || decide (pre <+: r ∧ r <+: pre ++ n :: ns) }) := by
      intro d1 e1 e2 e3
      rw [ih (pre ++ [n]) d1 e1 (by
        intro q hq hne
        have := hf (n :: q) (List.cons_prefix_cons.2 ⟨rfl, hq⟩) (by simp)
        unfold Disk.isFile at this ⊢
        rw [e2]
        simpa using this)]
      congr 1
      obtain ⟨ds, fs⟩ := d
      obtain ⟨ds1, fs1⟩ := d1
      dsimp only at *
      subst e2
      congr 1
      funext r
      rw [Bool.eq_iff_iff]
      simp only [Bool.or_eq_true, decide_eq_true_eq, hsplit, e3]
      constructor
      · rintro ((h1 | rfl) | h1)
        · exact .inl h1
        · exact .inr (.inr ⟨List.prefix_rfl, List.prefix_append _ _⟩)
        · exact .inr (.inr h1)
      · rintro (h1 | rfl | h1)
        · exact .inl (.inl h1)
        · exact .inl (.inl h)
        · exact .inr h1
    unfold makeInside
    by_cases hd : d.dirs (pre ++ [n]) = true
    · have h1 : mkdir (pre ++ [n]) d = (.ok (), d) := by
        unfold mkdir
        rw [if_pos hd]
      rw [St.bind_ok h1]
      exact hcont d hd rfl (fun r => ⟨.inl, by rintro (h | rfl); exacts [h, hd]⟩)
    · have h1 : mkdir (pre ++ [n]) d =
          (.ok (), { d with dirs := fun q => decide (q = pre ++ [n]) || d.dirs q }) := by
        unfold mkdir
        rw [if_neg hd, if_neg (by simp [hfn])]
      rw [St.bind_ok h1]
      exact hcont _ (by simp) rfl (fun r => by simp [or_comm])

theorem makeInside_blocked (h : d.Good) (names : List String) : ∀ (pre q : List String), q <+: names → q ≠ [] →
    d.isFile (pre ++ q) = true → makeInside pre names d = (.error .osError, d) := by
  induction names with
  | nil =>
    intro pre q hq hne
    exact absurd (List.prefix_nil.1 hq) hne
  | cons n ns ih =>
    intro pre q hq hne hfile
    cases q with
    | nil => exact absurd rfl hne
    | cons m q =>
      obtain ⟨rfl, hq'⟩ := List.cons_prefix_cons.1 hq
      unfold makeInside
      cases q using List.reverseRecOn with
      | nil =>
        have h1 : mkdir (pre ++ [m]) d = (.error .osError, d) := by
          have hd : d.dirs (pre ++ [m]) = false := by
            rw [isFile_append, Option.isSome_iff_exists] at hfile
            obtain ⟨t, ht⟩ := hfile
            exact h.apart _ _ _ ht
          unfold mkdir
          rw [if_neg (by simp [hd]), if_pos hfile]
        rw [St.bind_error h1]
      | append_singleton q l =>
        have hd : d.dirs (pre ++ [m]) = true := by
          rw [show pre ++ m :: (q ++ [l]) = (pre ++ m :: q) ++ [l] by simp, isFile_append, Option.isSome_iff_exists] at hfile
          obtain ⟨t, ht⟩ := hfile
          have := h.inside _ _ _ ht
          rw [show pre ++ m :: q = (pre ++ [m]) ++ q by simp] at this
          exact h.up this
        have h1 : mkdir (pre ++ [m]) d = (.ok (), d) := by
          unfold mkdir
          rw [if_pos hd]
        rw [St.bind_ok h1]
        exact ih (pre ++ [m]) (q ++ [l]) hq' (by simp) (by simpa using hfile)

theorem put_good (h : d.Good) {f : File} (hf : d.dirs f.1 = true) (hn : d.dirs (f.1 ++ [f.2]) = false) (t : String) :
    (d.put f t).Good := by
  refine ⟨h.root, h.above, fun p n t' ht => ?_, fun p n t' ht => ?_⟩
  · by_cases e : (p, n) = f
    · subst e
      exact hf
    · rw [show (d.put f t).files (p, n) = d.files (p, n) from if_neg e] at ht
      exact h.inside _ _ _ ht
  · by_cases e : (p, n) = f
    · subst e
      exact hn
    · rw [show (d.put f t).files (p, n) = d.files (p, n) from if_neg e] at ht
      exact h.apart _ _ _ ht

theorem isFile_iff (d : Disk) (p : List String) :
    d.isFile p = true ↔ ∃ q n t, p = q ++ [n] ∧ d.files (q, n) = some t := by
  cases p using List.reverseRecOn with
  | nil => simp [Disk.isFile]
  | append_singleton q n =>
    rw [isFile_append, Option.isSome_iff_exists]
    constructor
    · rintro ⟨t, ht⟩
      exact ⟨q, n, t, rfl, ht⟩
    · rintro ⟨q', n', t, e, ht⟩
      obtain ⟨rfl, e2⟩ := List.append_inj' e rfl
      obtain rfl : n = n' := by simpa using e2
      exact ⟨t, ht⟩

theorem createIfNot_eq (h : d.Good) (p : List String) :
    ((d.exists p = true ∧ createIfNot p d = (.ok (), d)) ∨
     (d.exists p = false ∧ (∃ q n t, q ++ [n] <+: p ∧ d.files (q, n) = some t) ∧
      createIfNot p d = (.error .osError, d)) ∨
     (d.exists p = false ∧ (∀ q n, q ++ [n] <+: p → d.files (q, n) = none) ∧
      createIfNot p d = (.ok (), { d with dirs := fun r => d.dirs r || decide (r <+: p) }))) := by
  unfold createIfNot
  rw [St.get_bind]
  by_cases he : d.exists p = true
  · left
    rw [if_pos he]
    exact ⟨he, rfl⟩
  · right
    have he' : d.exists p = false := by simpa using he
    rw [if_neg he]
    by_cases hb : ∃ q n t, q ++ [n] <+: p ∧ d.files (q, n) = some t
    · left
      obtain ⟨q, n, t, hq, ht⟩ := hb
      refine ⟨he', ⟨q, n, t, hq, ht⟩, ?_⟩
      exact makeInside_blocked h p [] (q ++ [n]) hq (by simp) (by simp [isFile_append, ht])
    · right
      have hb' : ∀ q n, q ++ [n] <+: p → d.files (q, n) = none := by
        intro q n hq
        by_contra hne
        obtain ⟨t, ht⟩ := Option.ne_none_iff_exists'.1 hne
        exact hb ⟨q, n, t, hq, ht⟩
      refine ⟨he', hb', ?_⟩
      have := makeInside_ok p [] d h.root (by
        intro q hq hne
        cases q using List.reverseRecOn with
        | nil => exact absurd rfl hne
        | append_singleton q n =>
          rw [List.nil_append, isFile_append, hb' q n hq]
          rfl)
      simpa [makedirs] using this

/-- C111: whatever is called, returning or raising, the disk stays one. -/
theorem C111_good (h : d.Good) (op : Op J O) : (perform c d op).Good := by
  have hdump : ∀ {V : Type} (enc : Encoder V) (f : File) (v : V), (dumpTo enc f v d).2.Good := by
    intro V enc f v
    rw [dumpTo_eq]
    split
    · rename_i hc
      simp only [Bool.and_eq_true, Bool.not_eq_true'] at hc
      exact put_good h hc.1 hc.2 _
    · exact h
  cases op with
  | dump f v => exact hdump _ _ _
  | create f v => exact hdump _ _ _
  | load f =>
    show (jsLoad c.unjson f d).2.Good
    rw [(load_eq _ _ _).1]
    exact h
  | read f =>
    show (readInputFile c.unpickle f d).2.Good
    rw [(load_eq _ _ _).2, (load_eq _ _ _).1]
    exact h
  | directory p =>
    show (createIfNot p d).2.Good
    rcases createIfNot_eq h p with ⟨-, e⟩ | ⟨-, -, e⟩ | ⟨-, hb, e⟩
    · rw [e]; exact h
    · rw [e]; exact h
    · rw [e]
      refine ⟨by simp [h.root], fun q n hq => ?_, fun q n t ht => ?_, fun q n t ht => ?_⟩
      · simp only [Bool.or_eq_true, decide_eq_true_eq] at hq ⊢
        exact hq.imp (h.above q n) fun hq => (List.prefix_append _ _).trans hq
      · simp only [Bool.or_eq_true, decide_eq_true_eq]
        exact .inl (h.inside q n t ht)
      · simp only [Bool.or_eq_false_iff, decide_eq_false_iff_not]
        refine ⟨h.apart q n t ht, fun hq => ?_⟩
        have := hb q n hq
        rw [ht] at this
        cases this

/-- C111: in any history of calls, a file that none of them writes keeps its contents (or stays absent), and directories
stay. -/
theorem C111_untouched (h : d.Good) (ops : List (Op J O)) (f : File) (hf : ∀ op ∈ ops, op.writes ≠ some f) :
    (ops.foldl (perform c) d).files f = d.files f ∧
    ∀ p, d.dirs p = true → (ops.foldl (perform c) d).dirs p = true := by
  induction ops generalizing d with
  | nil => exact ⟨rfl, fun _ h => h⟩
  | cons op ops ih =>
    obtain ⟨i1, i2⟩ := ih (d := perform c d op) (C111_good h op) fun o ho => hf o (by simp [ho])
    have hop := hf op (by simp)
    have hdump : ∀ {V : Type} (enc : Encoder V) (g : File) (v : V), some g ≠ some f →
        (dumpTo enc g v d).2.files f = d.files f ∧ (dumpTo enc g v d).2.dirs = d.dirs := by
      intro V enc g v hg
      rw [dumpTo_eq]
      split
      · exact ⟨if_neg fun e => hg (by rw [e]), rfl⟩
      · exact ⟨rfl, rfl⟩
    have hone : (perform c d op).files f = d.files f ∧ ∀ p, d.dirs p = true → (perform c d op).dirs p = true := by
      cases op with
      | dump g v =>
        obtain ⟨a, b⟩ := hdump c.json _ v hop
        exact ⟨a, fun p hp => by rw [← b] at hp; exact hp⟩
      | create g v =>
        obtain ⟨a, b⟩ := hdump c.pickle _ v hop
        exact ⟨a, fun p hp => by rw [← b] at hp; exact hp⟩
      | load g =>
        show (jsLoad c.unjson g d).2.files f = _ ∧ ∀ p, _ → (jsLoad c.unjson g d).2.dirs p = true
        rw [(load_eq _ _ _).1]
        exact ⟨rfl, fun _ h => h⟩
      | read g =>
        show (readInputFile c.unpickle g d).2.files f = _ ∧ ∀ p, _ → (readInputFile c.unpickle g d).2.dirs p = true
        rw [(load_eq _ _ _).2, (load_eq _ _ _).1]
        exact ⟨rfl, fun _ h => h⟩
      | directory q =>
        show (createIfNot q d).2.files f = _ ∧ ∀ p, _ → (createIfNot q d).2.dirs p = true
        rcases createIfNot_eq h q with ⟨-, e⟩ | ⟨-, -, e⟩ | ⟨-, hb, e⟩
        · rw [e]; exact ⟨rfl, fun _ h => h⟩
        · rw [e]; exact ⟨rfl, fun _ h => h⟩
        · rw [e]
          exact ⟨rfl, fun p hp => by simp [hp]⟩
    exact ⟨i1.trans hone.1, fun p hp => i2 p (hone.2 p hp)⟩

theorem dumpTo_ok {V : Type} {enc : Encoder V} {f : File} {v : V} {t : String} (hf : d.dirs f.1 = true)
    (hn : d.dirs (f.1 ++ [f.2]) = false) (he : enc v = (t, none)) : dumpTo enc f v d = (.ok (), d.put f t) := by
  rw [dumpTo_eq, if_pos (by simp [hf, hn]), he]

theorem name_ne (f : File) (e : String) (he : e.length ≠ 0) : f ≠ (f.1, f.2 ++ e) := by
  intro h
  have := congrArg (fun q : File => q.2.length) h
  simp [String.length_append] at this
  exact he (by simp [this])

/-- C111: `js_dump(name, v)` into a directory that exists writes `name.json`, whatever was in it, and after any history
of calls none of which writes `name.json`, `js_load(name + '.json')` returns `v` again, provided that the decoder undoes
the encoder on `v`. -/
theorem C111_json (h : d.Good) (f : File) (v : J) (t : String) (hf : d.dirs f.1 = true)
    (hn : d.dirs (f.1 ++ [f.2 ++ ".json"]) = false) (he : c.json v = (t, none)) (hd : c.unjson t = .ok v)
    (ops : List (Op J O)) (hops : ∀ op ∈ ops, op.writes ≠ some (f.1, f.2 ++ ".json")) :
    (jsDump c.json f v d).1 = .ok () ∧
    (jsLoad c.unjson (f.1, f.2 ++ ".json") (ops.foldl (perform c) (jsDump c.json f v d).2)).1 = .ok v := by
  have h1 : jsDump c.json f v d = (.ok (), d.put (f.1, f.2 ++ ".json") t) := dumpTo_ok hf hn he
  rw [h1]
  refine ⟨rfl, ?_⟩
  rw [(load_eq _ _ _).1, (C111_untouched (put_good h (f := (f.1, f.2 ++ ".json")) hf hn t) ops _ hops).1]
  simp [Disk.put, hd]

/-- C111: the same for `create_input_file` and `read_input_file`, with `.obj`. -/
theorem C111_pickle (h : d.Good) (f : File) (v : O) (t : String) (hf : d.dirs f.1 = true)
    (hn : d.dirs (f.1 ++ [f.2 ++ ".obj"]) = false) (he : c.pickle v = (t, none)) (hd : c.unpickle t = .ok v)
    (ops : List (Op J O)) (hops : ∀ op ∈ ops, op.writes ≠ some (f.1, f.2 ++ ".obj")) :
    (createInputFile c.pickle f v d).1 = .ok () ∧
    (readInputFile c.unpickle (f.1, f.2 ++ ".obj") (ops.foldl (perform c) (createInputFile c.pickle f v d).2)).1 =
      .ok v := by
  have h1 : createInputFile c.pickle f v d = (.ok (), d.put (f.1, f.2 ++ ".obj") t) := dumpTo_ok hf hn he
  rw [h1]
  refine ⟨rfl, ?_⟩
  rw [(load_eq _ _ _).2, (load_eq _ _ _).1,
    (C111_untouched (put_good h (f := (f.1, f.2 ++ ".obj")) hf hn t) ops _ hops).1]
  simp [Disk.put, hd]

/-- C111: but the name that was given for writing does not do for reading: if there is no file `name` and no call writes
one, reading `name` raises OSError, also right after `name` was written. -/
theorem C111_extension (h : d.Good) (f : File) (v : J) (o : O) (hf : d.files f = none) (ops : List (Op J O))
    (hops : ∀ op ∈ ops, op.writes ≠ some f) :
    (jsLoad c.unjson f (ops.foldl (perform c) (jsDump c.json f v d).2)).1 = .error .osError ∧
    (readInputFile c.unpickle f (ops.foldl (perform c) (createInputFile c.pickle f o d).2)).1 = .error .osError := by
  have h1 := (C111_untouched (c := c) h (.dump f v :: ops) f (by
    intro op hop
    rcases List.mem_cons.1 hop with rfl | hop
    · exact fun e => name_ne f ".json" (by decide +kernel) (Option.some.inj e).symm
    · exact hops op hop)).1
  have h2 := (C111_untouched (c := c) h (.create f o :: ops) f (by
    intro op hop
    rcases List.mem_cons.1 hop with rfl | hop
    · exact fun e => name_ne f ".obj" (by decide +kernel) (Option.some.inj e).symm
    · exact hops op hop)).1
  rw [List.foldl_cons, hf] at h1 h2
  rw [(load_eq _ _ _).1, (load_eq _ _ _).2, (load_eq _ _ _).1]
  constructor
  · rw [show (jsDump c.json f v d).2 = perform c d (.dump f v) from rfl, h1]
  · rw [show (createInputFile c.pickle f o d).2 = perform c d (.create f o) from rfl, h2]

/-- C111: without the directory, or with a directory of that name, writing raises OSError and changes nothing. -/
theorem C111_no_directory (f : File) (v : J) (o : O) :
    (d.dirs f.1 = false ∨ d.dirs (f.1 ++ [f.2 ++ ".json"]) = true → jsDump c.json f v d = (.error .osError, d)) ∧
    (d.dirs f.1 = false ∨ d.dirs (f.1 ++ [f.2 ++ ".obj"]) = true →
      createInputFile c.pickle f o d = (.error .osError, d)) := by
  constructor
  · intro h
    unfold jsDump
    rw [dumpTo_eq, if_neg (by rcases h with h | h <;> simp [h])]
  · intro h
    unfold createInputFile
    rw [dumpTo_eq, if_neg (by rcases h with h | h <;> simp [h])]

/-- C111: if the encoder raises, the call raises the same, and what the file held before is gone: it holds the part that
was written. -/
theorem C111_destroyed (f : File) (v : J) (t : String) (e : PyErr) (hf : d.dirs f.1 = true)
    (hn : d.dirs (f.1 ++ [f.2 ++ ".json"]) = false) (he : c.json v = (t, some e)) :
    (jsDump c.json f v d).1 = .error e ∧ (jsDump c.json f v d).2.files (f.1, f.2 ++ ".json") = some t ∧
    (jsLoad c.unjson (f.1, f.2 ++ ".json") (jsDump c.json f v d).2).1 = c.unjson t := by
  have h1 : jsDump c.json f v d = (.error e, d.put (f.1, f.2 ++ ".json") t) := by
    unfold jsDump
    rw [dumpTo_eq, if_pos (by simp [hf, hn]), he]
  rw [h1, (load_eq _ _ _).1]
  simp [Disk.put]

/-- C111: `create_if_not`.  If there is something at the path, a directory or a file, it does nothing.  If there is
nothing there, it raises OSError and changes nothing when a file is on the way, and else makes the directories of the
path and no other, leaving every file as it is. -/
theorem C111_directory (h : d.Good) (p : List String) :
    (d.dirs p = true ∨ (∃ q n t, p = q ++ [n] ∧ d.files (q, n) = some t) → createIfNot p d = (.ok (), d)) ∧
    (∀ q n t, q ++ [n] <+: p → q ++ [n] ≠ p → d.files (q, n) = some t → createIfNot p d = (.error .osError, d)) ∧
    (d.dirs p = false → (∀ q n, q ++ [n] <+: p → d.files (q, n) = none) →
      (createIfNot p d).1 = .ok () ∧ (createIfNot p d).2.files = d.files ∧
      ∀ r, (createIfNot p d).2.dirs r = true ↔ d.dirs r = true ∨ r <+: p) := by
  have hex : d.exists p = true ↔ d.dirs p = true ∨ (∃ q n t, p = q ++ [n] ∧ d.files (q, n) = some t) := by
    unfold Disk.exists
    rw [Bool.or_eq_true, isFile_iff]
  refine ⟨fun hp => ?_, fun q n t hq hne ht => ?_, fun hp hb => ?_⟩
  · rcases createIfNot_eq h p with ⟨-, e⟩ | ⟨he, -, -⟩ | ⟨he, -, -⟩
    · exact e
    · rw [hex.2 hp] at he; cases he
    · rw [hex.2 hp] at he; cases he
  · rcases createIfNot_eq h p with ⟨he, -⟩ | ⟨-, -, e⟩ | ⟨-, hb, -⟩
    · exfalso
      obtain ⟨r, rfl⟩ := hq
      have hr : r ≠ [] := by rintro rfl; simp at hne
      have hdir : d.dirs (q ++ [n]) = true := by
        rcases hex.1 he with h1 | ⟨q', n', t', e, ht'⟩
        · exact h.up h1
        · have h1 := h.inside _ _ _ ht'
          obtain ⟨r', l, rfl⟩ := List.eq_nil_or_concat' r |>.resolve_left hr
          rw [← List.append_assoc] at e
          obtain ⟨e1, -⟩ := List.append_inj' e rfl
          rw [← e1] at h1
          exact h.up h1
      rw [h.apart _ _ _ ht] at hdir
      cases hdir
    · exact e
    · rw [hb q n hq] at ht; cases ht
  · rcases createIfNot_eq h p with ⟨he, -⟩ | ⟨-, ⟨q, n, t, hq, ht⟩, -⟩ | ⟨-, -, e⟩
    · exfalso
      rcases hex.1 he with h1 | ⟨q, n, t, e, ht⟩
      · rw [hp] at h1; cases h1
      · rw [hb q n (by rw [e])] at ht; cases ht
    · rw [hb q n hq] at ht; cases ht
    · rw [e]
      refine ⟨rfl, rfl, fun r => ?_⟩
      simp

/-- C111: so, unless a file is in the way, after `create_if_not(directory)` a file can be written in that directory. -/
theorem C111_write (h : d.Good) (f : File) (v : J) (t : String)
    (hb : ∀ q n, q ++ [n] <+: f.1 → d.files (q, n) = none) (hn : d.dirs (f.1 ++ [f.2 ++ ".json"]) = false)
    (he : c.json v = (t, none)) (hd : c.unjson t = .ok v) :
    (createIfNot f.1 d).1 = .ok () ∧ (jsDump c.json f v (createIfNot f.1 d).2).1 = .ok () ∧
    (jsLoad c.unjson (f.1, f.2 ++ ".json") (jsDump c.json f v (createIfNot f.1 d).2).2).1 = .ok v := by
  have hg : (createIfNot f.1 d).2.Good := C111_good (c := c) h (.directory f.1)
  obtain ⟨a1, -, a3⟩ := C111_directory h f.1
  have hr : (createIfNot f.1 d).1 = .ok () ∧ (createIfNot f.1 d).2.dirs f.1 = true ∧
      (createIfNot f.1 d).2.dirs (f.1 ++ [f.2 ++ ".json"]) = false := by
    by_cases hp : d.dirs f.1 = true
    · rw [a1 (.inl hp)]
      exact ⟨rfl, hp, hn⟩
    · obtain ⟨b1, -, b3⟩ := a3 (by simpa using hp) hb
      refine ⟨b1, (b3 _).2 (.inr List.prefix_rfl), ?_⟩
      rw [Bool.eq_false_iff]
      intro h1
      rcases (b3 _).1 h1 with h2 | h2
      · rw [hn] at h2; cases h2
      · have := h2.length_le
        simp at this
  obtain ⟨b1, b2⟩ := C111_json (c := c) hg f v t hr.2.1 hr.2.2 he hd [] (by simp)
  exact ⟨hr.1, b1, b2⟩

/-- What stands under a key of a JSON object. -/
def Json.get (k : String) : Json → Option Json
  | .obj l => (l.find? (fun q : String × Json => q.1 == k)).map Prod.snd
  | _ => none

/-- C111: the export changes the exchanger just as reading out its data does, also if it raises.  If it raises before it
writes, the disk is as before; else it can be read back, from `name.json`, after
any history of calls that does not write that file, and what is read has the length, the number of boreholes and, in
order, the points under their keys. -/
theorem C111_export {c : Codec Json O} (h : d.Good) (f : File) (sel : List (ℝ × ℝ)) (env : Whole.Env)
    (st : Whole.State) :
    (oakRidgeExport c.json f sel env (st, d)).2.1 = (Report.oakRidge sel env st).2 ∧
    (∀ e, (Report.oakRidge sel env st).1 = .error e → (oakRidgeExport c.json f sel env (st, d)).1 = .error e ∧
      (oakRidgeExport c.json f sel env (st, d)).2.2 = d) ∧
    (∀ x t, (Report.oakRidge sel env st).1 = .ok x → d.dirs f.1 = true →
      d.dirs (f.1 ++ [f.2 ++ ".json"]) = false → c.json (exportJson x) = (t, none) →
      c.unjson t = .ok (exportJson x) → ∀ ops : List (Op Json O),
      (∀ op ∈ ops, op.writes ≠ some (f.1, f.2 ++ ".json")) →
      (oakRidgeExport c.json f sel env (st, d)).1 = .ok () ∧
      ∃ j, (jsLoad c.unjson (f.1, f.2 ++ ".json")
          (ops.foldl (perform c) (oakRidgeExport c.json f sel env (st, d)).2.2)).1 = .ok j ∧
        j.get "borehole_length" = some (.num x.boreholeLength) ∧
        j.get "number_of_boreholes" = some (.int x.numberOfBoreholes) ∧
        j.get "g_function_pairs" =
          some (.arr (x.pairs.map fun q => .obj [("ln_tts", .num q.1), ("g_value", .num q.2)])) ∧
        ∃ u, j.get "single_u_tube" = some u ∧ u.get "r_b" = some (.num x.tube.rb) ∧
          u.get "r_in" = some (.num x.tube.rIn) ∧ u.get "r_out" = some (.num x.tube.rOut) ∧
          u.get "s" = some (.num x.tube.s) ∧
          u.get "pos" = some (.arr (x.tube.pos.map fun q => .arr [.num q.1, .num q.2])) ∧
          u.get "m_flow_borehole" = some (.num x.tube.mFlow) ∧ u.get "k_g" = some (.num x.tube.kGrout) ∧
          u.get "k_s" = some (.num x.tube.kSoil) ∧ u.get "k_p" = some (.num x.tube.kPipe)) := by
  refine ⟨?_, ?_, ?_⟩
  · unfold oakRidgeExport
    rcases Report.oakRidge sel env st with ⟨_ | _, _⟩ <;> rfl
  · intro e he
    unfold oakRidgeExport
    dsimp only
    rcases hr : Report.oakRidge sel env st with ⟨r, s'⟩
    rw [hr] at he
    obtain rfl : r = .error e := he
    exact ⟨rfl, rfl⟩
  · intro x t hx hf hn he hd ops hops
    obtain ⟨a1, a2⟩ := C111_json h f (exportJson x) t hf hn he hd ops hops
    have hfile : (oakRidgeExport c.json f sel env (st, d)).1 = (jsDump c.json f (exportJson x) d).1 ∧
        (oakRidgeExport c.json f sel env (st, d)).2.2 = (jsDump c.json f (exportJson x) d).2 := by
      unfold oakRidgeExport
      dsimp only
      rcases hr : Report.oakRidge sel env st with ⟨r, s'⟩
      rw [hr] at hx
      obtain rfl : r = .ok x := hx
      exact ⟨rfl, rfl⟩
    refine ⟨hfile.1.trans a1, exportJson x, by rw [hfile.2]; exact a2, ?_⟩
    refine ⟨rfl, rfl, rfl, _, rfl, rfl, rfl, rfl, rfl, rfl, rfl, rfl, rfl, rfl⟩

/-- the export of data that could be collected: the text of its JSON value is written, and read back as long as no call
writes that file -/
theorem export_written {c : Codec Json O} (h : d.Good) (f : File) (sel : List (ℝ × ℝ)) (env : Whole.Env) (st : Whole.State)
    {x : Report.Exported} (hx : (Report.oakRidge sel env st).1 = .ok x) (hf : d.dirs f.1 = true)
    (hn : d.dirs (f.1 ++ [f.2 ++ ".json"]) = false) :
    (oakRidgeExport c.json f sel env (st, d)).1 = (match (c.json (exportJson x)).2 with
      | none => .ok ()
      | some e => .error e) ∧
    ∀ ops : List (Op Json O), (∀ op ∈ ops, op.writes ≠ some (f.1, f.2 ++ ".json")) →
      (jsLoad c.unjson (f.1, f.2 ++ ".json") (ops.foldl (perform c) (oakRidgeExport c.json f sel env (st, d)).2.2)).1 =
        c.unjson (c.json (exportJson x)).1 := by
  have h1 : jsDump c.json f (exportJson x) d = ((match (c.json (exportJson x)).2 with
      | none => .ok ()
      | some e => .error e), d.put (f.1, f.2 ++ ".json") (c.json (exportJson x)).1) := by
    unfold jsDump
    rw [dumpTo_eq, if_pos (by simp [hf, hn])]
  have hfile : (oakRidgeExport c.json f sel env (st, d)).1 = (jsDump c.json f (exportJson x) d).1 ∧
      (oakRidgeExport c.json f sel env (st, d)).2.2 = (jsDump c.json f (exportJson x) d).2 := by
    unfold oakRidgeExport
    dsimp only
    rcases hr : Report.oakRidge sel env st with ⟨r, s'⟩
    rw [hr] at hx
    obtain rfl : r = .ok x := hx
    exact ⟨rfl, rfl⟩
  rw [hfile.1, hfile.2, h1]
  refine ⟨rfl, fun ops hops => ?_⟩
  rw [(load_eq _ _ _).1, (C111_untouched (put_good h (f := (f.1, f.2 ++ ".json")) hf hn _) ops _ hops).1]
  simp [Disk.put]

open Ghedt.Report Ghedt.Bhe Ghedt.Radial Ghedt.GHE Ghedt.Whole Real in
/-- C111: what `find_design` leaves (every routine but bi-zoned), exported and read back: the value written has the maximum
height as its length and the number of boreholes of the selected field.  The export returns unless the encoder raises; and
what is read back later is what the decoder makes of the text that the encoder made of that value. -/
theorem C111_design {c : Codec Json O} (h : d.Good) (f : File) {p : WholeSearch.Problem} (routine : String)
    (hz : routine ≠ "bi-zoned") (cand : Design.Candidates ℝ) (c' : WholeSearch.State) (k : ℤ) (sel : List (ℝ × ℝ))
    (hfd : WholeSearch.findDesign p routine cand {} = (.ok (some (k, sel)), c')) (bhe : Exchanger) (s : UTube)
    (hu : WholeSearch.Usable p sel p.maxHeight bhe s) (hs : WholeSearch.Seam s)
    (hlong : 1 / 10 ^ 12 + 120 * 29 ≤ charTime s * exp (-(85 / 10)))
    (hf : d.dirs f.1 = true) (hn : d.dirs (f.1 ++ [f.2 ++ ".json"]) = false) :
    ∃ y j, c'.held = some y ∧ j.get "borehole_length" = some (.num p.maxHeight) ∧
      j.get "number_of_boreholes" = some (.int sel.length) ∧
      (∃ pairs : List (ℝ × ℝ), j.get "g_function_pairs" =
          some (.arr (pairs.map fun q => .obj [("ln_tts", .num q.1), ("g_value", .num q.2)])) ∧
        (pairs.map Prod.fst).Pairwise (· < ·) ∧ 56 ≤ pairs.length ∧ pairs.length ≤ 85) ∧
      (oakRidgeExport c.json f sel y.env (y.state, d)).1 = (match (c.json j).2 with | none => .ok () | some e => .error e) ∧
      ∀ ops : List (Op Json O), (∀ op ∈ ops, op.writes ≠ some (f.1, f.2 ++ ".json")) →
        (jsLoad c.unjson (f.1, f.2 ++ ".json")
          (ops.foldl (perform c) (oakRidgeExport c.json f sel y.env (y.state, d)).2.2)).1 = c.unjson (c.json j).1 := by
  obtain ⟨y, hy, -, e⟩ := C98_design routine hz cand c' k sel hfd bhe s hu hs
  obtain ⟨x, -, -, -, -, x1, -, -, x2, x3, -, -, -, x4, x5, x6⟩ := e hlong
  obtain ⟨b1, b2⟩ := export_written (c := c) h f sel y.env y.state x1 hf hn
  refine ⟨y, exportJson x, hy, ?_, ?_, ⟨x.pairs, rfl, x4, x5, x6⟩, b1, b2⟩
  · rw [← x2]; rfl
  · rw [← x3]; rfl

/-! ## A disk -/

/-- the working directory with one file `notes` and a directory `out` in it -/
def exDisk : Disk where
  dirs p := p == [] || p == ["out"]
  files f := if f = ([], "notes") then some "hello" else none

theorem exDisk_good : exDisk.Good where
  root := rfl
  above p n h := by
    simp only [exDisk, Bool.or_eq_true, beq_iff_eq] at h ⊢
    rcases h with h | h
    · simp at h
    · left
      cases p with
      | nil => rfl
      | cons a q => simp at h
  inside p n t h := by
    simp only [exDisk] at h
    split at h
    · rename_i e
      cases e
      rfl
    · cases h
  apart p n t h := by
    simp only [exDisk] at h
    split at h
    · rename_i e
      cases e
      rfl
    · cases h

/-- a codec: true and false, written as such; an object is a text starting with a mark, and the empty text cannot be
pickled -/
def exCodec : Codec Bool String where
  json b := (if b then "true" else "false", none)
  unjson t := if t = "true" then .ok true else if t = "false" then .ok false else .error .valueError
  pickle o := if o = "" then ("!", some .typeError) else ("!" ++ o, none)
  unpickle t := if t = "!a" then .ok "a" else .error .valueError

/-- written, much else done, some of it in vain, and read -/
example : (jsLoad exCodec.unjson (["out"], "x.json") ([Op.create (["out"], "x") "a", .dump (["no"], "x") false,
      .directory ["notes", "deep"], .directory ["new", "deep"], .dump (["new", "deep"], "x") false,
      .dump (["out"], "x.json") false].foldl (perform exCodec) (jsDump exCodec.json (["out"], "x") true exDisk).2)).1 =
    .ok true :=
  (C111_json (c := exCodec) exDisk_good (["out"], "x") true "true" (by decide) (by decide +kernel) (by decide)
    (by decide +kernel) _ (by simp [Op.writes])).2

example : (jsLoad exCodec.unjson (["out"], "x") (jsDump exCodec.json (["out"], "x") true exDisk).2).1 =
    .error .osError :=
  (C111_extension (c := exCodec) exDisk_good (["out"], "x") true "a" (by decide +kernel) [] (by simp)).1

example : (createIfNot ["notes"] exDisk).1 = .ok () ∧ (createIfNot ["notes"] exDisk).2.dirs ["notes"] = false ∧
    (createIfNot ["notes", "deep"] exDisk).1 = .error .osError ∧
    (createIfNot ["new", "deep"] exDisk).1 = .ok () ∧ (createIfNot ["new", "deep"] exDisk).2.dirs ["new"] = true := by
  obtain ⟨a1, -, -⟩ := C111_directory exDisk_good ["notes"]
  obtain ⟨-, b2, -⟩ := C111_directory exDisk_good ["notes", "deep"]
  obtain ⟨-, -, c3⟩ := C111_directory exDisk_good ["new", "deep"]
  have a := a1 (.inr ⟨[], "notes", "hello", rfl, by decide +kernel⟩)
  have b := b2 [] "notes" "hello" ⟨["deep"], rfl⟩ (by decide +kernel) (by decide +kernel)
  obtain ⟨c1, -, c2⟩ := c3 (by decide +kernel) (by
    intro q n hq
    show (if (q, n) = ([], "notes") then some "hello" else none) = none
    rw [if_neg]
    rintro e
    cases e
    revert hq
    decide +kernel)
  rw [a, b]
  exact ⟨rfl, by decide +kernel, rfl, c1, (c2 _).2 (.inr ⟨["deep"], rfl⟩)⟩

open Ghedt.Report Ghedt.Bhe Ghedt.Radial Ghedt.GHE Ghedt.Whole Real in
/-- C111 applies to the design of the search example, whatever the encoder. -/
example (c : Codec Json O) : ∃ n c' y j, WholeSearch.findDesign WholeSearch.exProblem "rectangle"
      (.flat [WholeSearch.exRow 1, WholeSearch.exRow n]) {} = (.ok (some (1, WholeSearch.exRow n)), c') ∧
    c'.held = some y ∧ j.get "borehole_length" = some (.num 100) ∧ j.get "number_of_boreholes" = some (.int n) ∧
    (jsLoad c.unjson (["out"], "x.json")
      (oakRidgeExport c.json (["out"], "x") (WholeSearch.exRow n) y.env (y.state, exDisk)).2.2).1 =
        c.unjson (c.json j).1 := by
  obtain ⟨n, hn⟩ := WholeSearch.exFind
  rcases hd : WholeSearch.findDesign WholeSearch.exProblem "rectangle"
    (.flat [WholeSearch.exRow 1, WholeSearch.exRow n]) {} with ⟨r, c'⟩
  rw [hd] at hn
  change r = _ at hn
  subst hn
  have h0 : n ≠ 0 := by
    rintro rfl
    obtain ⟨k, f, x, -, -, hr, -, hx, -⟩ := WholeSearch.C93_returned "rectangle" (by decide) _ c' _ hd
    cases hr
    rw [show WholeSearch.exRow 0 = [] from rfl,
      (WholeSearch.C95_refused (p := WholeSearch.exProblem) (f := [])).1 rfl] at hx
    cases hx
  obtain ⟨s, hu, hct⟩ := WholeSearch.exUsable (WholeSearch.exRow n) (WholeSearch.exRow_ne h0) 100 (by tauto)
    (WholeSearch.exRow_spacing n)
  have hlong : (6000 : ℝ) ≤ charTime s * exp (-(85 / 10)) := by
    rw [hct]
    have := WholeSearch.exp_bounds.1
    generalize exp (-(85 / 10 : ℝ)) = z at *
    nlinarith
  obtain ⟨y, j, h1, h2, h3, -, -, h4⟩ := C111_design (c := c) exDisk_good (["out"], "x") "rectangle" (by decide) _ c' 1 _ hd _
    s hu (WholeSearch.exSeam s 100 (.inr rfl) hct) (by linarith) (by decide +kernel) (by decide +kernel)
  exact ⟨n, c', y, j, hd, h1, h2, by rw [h3]; simp [WholeSearch.exRow], h4 [] (by simp)⟩

/-- saved, other files written, and read back -/
example : (createInputFile exCodec.pickle (["out"], "x") "a" exDisk).1 = .ok () ∧
    (readInputFile exCodec.unpickle (["out"], "x.obj") ([Op.dump (["out"], "x") true, .create (["out"], "y") "",
      .directory ["new"]].foldl (perform exCodec) (createInputFile exCodec.pickle (["out"], "x") "a" exDisk).2)).1 =
      .ok "a" :=
  C111_pickle (c := exCodec) exDisk_good (["out"], "x") "a" "!a" (by decide) (by decide +kernel) (by decide)
    (by decide +kernel) _ (by simp [Op.writes])

/-- an encoder that gives up after two characters -/
example : (jsDump (fun _ : Bool => ("tr", some .typeError)) (["out"], "x") true exDisk).1 = .error .typeError ∧
    (jsLoad exCodec.unjson (["out"], "x.json")
      (jsDump (fun _ : Bool => ("tr", some .typeError)) (["out"], "x") true exDisk).2).1 = .error .valueError := by
  obtain ⟨h1, -, h2⟩ := C111_destroyed (d := exDisk) (c := { exCodec with json := fun _ => ("tr", some .typeError) })
    (["out"], "x") true "tr" .typeError (by decide) (by decide +kernel) rfl
  exact ⟨h1, h2.trans (by decide +kernel)⟩

/-- two new directories, and a file in the inner one -/
example : (createIfNot ["new", "deep"] exDisk).1 = .ok () ∧
    (jsLoad exCodec.unjson (["new", "deep"], "x.json")
      (jsDump exCodec.json (["new", "deep"], "x") false (createIfNot ["new", "deep"] exDisk).2).2).1 = .ok false := by
  obtain ⟨h1, -, h2⟩ := C111_write (c := exCodec) exDisk_good (["new", "deep"], "x") false "false" (by
    intro q n hq
    show (if (q, n) = ([], "notes") then some "hello" else none) = none
    rw [if_neg]
    rintro e
    cases e
    revert hq
    decide +kernel) (by decide +kernel) (by decide +kernel) (by decide +kernel)
  exact ⟨h1, h2⟩

/-- when the export raises before writing, the disk is as it was -/
example (c : Codec Json O) (sel : List (ℝ × ℝ)) (env : Whole.Env) (st : Whole.State) (e : PyErr)
    (h : (Report.oakRidge sel env st).1 = .error e) :
    (oakRidgeExport c.json (["out"], "x") sel env (st, exDisk)).1 = .error e ∧
      (oakRidgeExport c.json (["out"], "x") sel env (st, exDisk)).2.2 = exDisk :=
  (C111_export exDisk_good (["out"], "x") sel env st).2.1 e h

end Ghedt.Files
