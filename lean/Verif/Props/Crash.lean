import Verif.Props.Plots
import Verif.Model.Crash

/-!
# Killed while writing (C125)
-/

set_option linter.unusedSectionVars false

namespace Ghedt.Crash
open Ghedt.Files Ghedt.Plots

theorem bind_ok {α β : Type} {m : Cr α} {f : α → Cr β} {d d' : Disk} {a : α} (h : (m d).1 = (.ok a, d')) :
    (m >>= f) d = ((f a d').1, (m d).2 ∪ (f a d').2) := by
  show (match (m d).1 with
    | (.ok a, d') => ((f a d').1, (m d).2 ∪ (f a d').2)
    | (.error e, d') => ((.error e, d'), (m d).2)) = _
  rw [h]

theorem bind_error {α β : Type} {m : Cr α} {f : α → Cr β} {d d' : Disk} {e : PyErr} (h : (m d).1 = (.error e, d')) :
    (m >>= f) d = ((.error e, d'), (m d).2) := by
  show (match (m d).1 with
    | (.ok a, d') => ((f a d').1, (m d).2 ∪ (f a d').2)
    | (.error e, d') => ((.error e, d'), (m d).2)) = _
  rw [h]

/-- not killed, the same as before -/
def Same {α : Type} (m : Cr α) (m' : St Disk α) : Prop := ∀ d, (m d).1 = m' d

theorem Same.atomic {α : Type} (m : St Disk α) : Same (atomic m) m := fun _ => rfl

theorem Same.pure {α : Type} (a : α) : Same (Pure.pure a) (Pure.pure a) := fun _ => rfl

theorem Same.append (f : File) (t : String) : Same (append f t) (Files.append f t) := fun _ => rfl

theorem Same.bind {α β : Type} {m : Cr α} {m' : St Disk α} {f : α → Cr β} {f' : α → St Disk β} (hm : Same m m')
    (hf : ∀ a, Same (f a) (f' a)) : Same (m >>= f) (m' >>= f') := by
  intro d
  rcases h : m' d with ⟨x | a, d'⟩
  · rw [bind_error (by rw [hm d, h]), St.bind_error h]
  · rw [bind_ok (by rw [hm d, h]), St.bind_ok h]
    exact hf a d'

theorem Same.dumpTo {V : Type} (enc : Encoder V) (f : File) (v : V) : Same (dumpTo enc f v) (Files.dumpTo enc f v) := by
  unfold Crash.dumpTo Files.dumpTo
  refine .bind (.atomic _) fun _ => .bind (.append _ _) fun _ => ?_
  cases (enc v).2 with
  | none => exact .pure _
  | some e => exact .atomic _

theorem Same.makeInside (names : List String) : ∀ pre, Same (makeInside pre names) (Files.makeInside pre names) := by
  induction names with
  | nil => intro pre; exact .pure _
  | cons n names ih => intro pre; exact .bind (.atomic _) fun _ => ih _

theorem Same.createIfNot (p : List String) : Same (createIfNot p) (Files.createIfNot p) := by
  unfold Crash.createIfNot Files.createIfNot
  refine .bind (.atomic _) fun d => ?_
  split
  · exact .pure _
  · exact .makeInside _ _

variable {K : Type} [Field K] [LinearOrder K]

theorem Same.domainLoop (render : Fig K → String) (folder : List String) (l : List (List (K × K) × ℕ)) :
    Same (domainLoop render folder l) (Plots.domainLoop render folder l) := by
  induction l with
  | nil => exact .pure _
  | cons q l ih =>
    refine .bind ?_ fun _ => ih
    unfold Crash.domainStep Plots.domainStep
    exact .bind (.atomic _) fun _ => .bind (.atomic _) fun _ => .dumpTo _ _ _

theorem Same.visualizeDomain (render : Fig K → String) (domain : List (List (K × K))) (folder : List String) :
    Same (visualizeDomain render domain folder) (Plots.visualizeDomain render domain folder) :=
  .bind (.createIfNot _) fun _ => .domainLoop _ _ _

variable {J O : Type} {c : Codec J O} {d d' : Disk}

/-- A call, which may be killed. -/
def callOf (c : Codec J O) : Op J O → Cr Unit
  | .dump f v => jsDump c.json f v
  | .load f => do let _ ← jsLoad c.unjson f
  | .create f v => createInputFile c.pickle f v
  | .read f => do let _ ← readInputFile c.unpickle f
  | .directory p => createIfNot p

theorem Same.callOf (c : Codec J O) (op : Op J O) (d : Disk) : (callOf c op d).1.2 = perform c d op := by
  cases op with
  | dump f v => exact congrArg Prod.snd (Same.dumpTo _ _ _ d)
  | create f v => exact congrArg Prod.snd (Same.dumpTo _ _ _ d)
  | directory p => exact congrArg Prod.snd (Same.createIfNot p d)
  | load f =>
    have h1 : Same (Crash.callOf c (.load f)) (do let _ ← Files.jsLoad c.unjson f) :=
      .bind (.bind (.atomic _) fun _ => .atomic _) fun _ => .pure _
    rw [h1 d]
    show _ = (Files.jsLoad c.unjson f d).2
    rcases h : Files.jsLoad c.unjson f d with ⟨e | a, d1⟩
    · rw [St.bind_error h]
    · rw [St.bind_ok h]
      rfl
  | read f =>
    have h1 : Same (Crash.callOf c (.read f)) (do let _ ← Files.readInputFile c.unpickle f) :=
      .bind (.bind (.atomic _) fun _ => .atomic _) fun _ => .pure _
    rw [h1 d]
    show _ = (Files.readInputFile c.unpickle f d).2
    rcases h : Files.readInputFile c.unpickle f d with ⟨e | a, d1⟩
    · rw [St.bind_error h]
    · rw [St.bind_ok h]
      rfl

theorem append_put (f : File) (t s : String) (d : Disk) : (Files.append f s (d.put f t)).2 = d.put f (t ++ s) := by
  unfold Files.append Disk.put
  simp only [if_true, Option.map_some]
  congr 1
  funext g
  by_cases hg : g = f
  · simp [hg]
  · simp [hg]

theorem put_put (d : Disk) (f : File) (t s : String) : (d.put f t).put f s = d.put f s := by
  unfold Disk.put
  congr 1
  funext g
  dsimp only
  by_cases hg : g = f
  · simp [hg]
  · simp [hg]

/-- what a dump leaves if it is killed: the disk as it was, or, if the file can be opened, a beginning of the text -/
theorem dumpTo_left {V : Type} (enc : Encoder V) (f : File) (v : V) (d d' : Disk) :
    d' ∈ (dumpTo enc f v d).2 ↔ d' = d ∨ (d.dirs f.1 = true ∧ d.dirs (f.1 ++ [f.2]) = false ∧
      ∃ a b, (enc v).1 = a ++ b ∧ d' = d.put f a) := by
  unfold Crash.dumpTo
  by_cases h : (d.dirs f.1 && !d.dirs (f.1 ++ [f.2])) = true
  · have h' : d.dirs f.1 = true ∧ d.dirs (f.1 ++ [f.2]) = false := by simpa using h
    have e1 : openWrite f d = (.ok (), d.put f "") := by
      unfold openWrite
      rw [if_pos h]
      rfl
    have e2 : (Crash.append f (enc v).1 (d.put f "")).1 = (.ok (), d.put f (enc v).1) := by
      have := append_put f "" (enc v).1 d
      rw [String.empty_append] at this
      exact Prod.ext rfl this
    rw [bind_ok (a := ()) (d' := d.put f "") e1, bind_ok e2]
    have e3 : ∀ x, x ∈ (Crash.append f (enc v).1 (d.put f "")).2 ↔ ∃ a b, (enc v).1 = a ++ b ∧ x = d.put f a := by
      intro x
      show (∃ a b, (enc v).1 = a ++ b ∧ x = (Files.append f a (d.put f "")).2) ↔ _
      simp only [append_put, String.empty_append]
    have e4 : ∀ x, x ∈ ((match (enc v).2 with
        | none => (Pure.pure () : Cr Unit)
        | some e => Crash.lift (.error e)) (d.put f (enc v).1)).2 → x = d.put f (enc v).1 := by
      intro x hx
      cases h2 : (enc v).2 with
      | none => rw [h2] at hx; exact hx
      | some e =>
        rw [h2] at hx
        rcases hx with hx | hx
        · exact hx
        · exact hx
    have e5 : ∀ x, x ∈ (Crash.atomic (openWrite f) d).2 ↔ x = d ∨ x = d.put f "" := by
      intro x
      show x = d ∨ x = (openWrite f d).2 ↔ _
      rw [e1]
    simp only [Set.mem_union, e3, e5]
    constructor
    · rintro ((rfl | rfl) | h1 | h1)
      · exact .inl rfl
      · exact .inr ⟨h'.1, h'.2, "", _, (String.empty_append).symm, rfl⟩
      · exact .inr ⟨h'.1, h'.2, h1⟩
      · exact .inr ⟨h'.1, h'.2, _, "", (String.append_empty).symm, e4 _ h1⟩
    · rintro (rfl | ⟨-, -, h1⟩)
      · exact .inl (.inl rfl)
      · exact .inr (.inl h1)
  · have h' : ¬ (d.dirs f.1 = true ∧ d.dirs (f.1 ++ [f.2]) = false) := by simpa using h
    have e1 : openWrite f d = (.error .osError, d) := by
      unfold openWrite
      rw [if_neg h]
    rw [bind_error (e := .osError) (d' := d) e1]
    have e5 : ∀ x, x ∈ (Crash.atomic (openWrite f) d).2 ↔ x = d := by
      intro x
      show x = d ∨ x = (openWrite f d).2 ↔ _
      rw [e1, or_self]
    rw [e5]
    constructor
    · exact .inl
    · rintro (h1 | ⟨h1, h2, -⟩)
      · exact h1
      · exact absurd ⟨h1, h2⟩ h'

theorem makeInside_left (names : List String) : ∀ (pre : List String) (d d' : Disk),
    d' ∈ (makeInside pre names d).2 → ∃ q, q <+: names ∧ d' = (Files.makeInside pre q d).2 := by
  induction names with
  | nil =>
    intro pre d d' h
    exact ⟨[], List.nil_prefix, h⟩
  | cons n names ih =>
    intro pre d d' h
    unfold Crash.makeInside at h
    rcases hm : mkdir (pre ++ [n]) d with ⟨e | a, d1⟩
    · rw [bind_error (d' := d1) (e := e) hm] at h
      rcases h with h | h
      · exact ⟨[], List.nil_prefix, h⟩
      · refine ⟨[n], by simp, ?_⟩
        rw [show d' = _ from h]
        unfold Files.makeInside
        rw [St.bind_error hm, hm]
    · rw [bind_ok (d' := d1) (a := a) hm] at h
      rcases h with (h | h) | h
      · exact ⟨[], List.nil_prefix, h⟩
      · refine ⟨[n], by simp, ?_⟩
        rw [show d' = _ from h]
        unfold Files.makeInside
        rw [St.bind_ok hm, hm]
        rfl
      · obtain ⟨q, hq, e⟩ := ih _ _ _ h
        refine ⟨n :: q, List.cons_prefix_cons.2 ⟨rfl, hq⟩, ?_⟩
        rw [e]
        conv_rhs => unfold Files.makeInside
        rw [St.bind_ok hm]

theorem isFile_prefix (d : Disk) {p q : List String} (hb : ∀ q n, q ++ [n] <+: p → d.files (q, n) = none) (hq : q <+: p)
    (hne : q ≠ []) : d.isFile q = false := by
  cases q using List.reverseRecOn with
  | nil => exact absurd rfl hne
  | append_singleton q n =>
    rw [isFile_append, hb q n hq]
    rfl

/-- what `create_if_not` leaves if it is killed: the directories of some beginning of the path, if no file is on the way -/
theorem createIfNot_left (h : d.Good) (p : List String) (hd : d' ∈ (createIfNot p d).2) :
    d' = d ∨ (d.exists p = false ∧ (∀ q n, q ++ [n] <+: p → d.files (q, n) = none) ∧
      ∃ q, q <+: p ∧ d' = { d with dirs := fun r => d.dirs r || decide (r <+: q) }) := by
  unfold Crash.createIfNot at hd
  rw [bind_ok (a := d) (d' := d) (d := d) rfl] at hd
  rcases hd with (hd | hd) | hd
  · exact .inl hd
  · exact .inl hd
  · by_cases he : d.exists p = true
    · rw [if_pos he] at hd
      exact .inl hd
    · rw [if_neg he] at hd
      obtain ⟨q, hq, e⟩ := makeInside_left _ _ _ _ hd
      by_cases hb : ∃ q n t, q ++ [n] <+: p ∧ d.files (q, n) = some t
      · left
        obtain ⟨q', n, t, hq', ht⟩ := hb
        rw [e]
        by_cases hqq : q' ++ [n] <+: q
        · rw [makeInside_blocked h q [] (q' ++ [n]) hqq (by simp) (by simp [isFile_append, ht])]
        · have hlt : q <+: q' := by
            rcases List.prefix_or_prefix_of_prefix hq hq' with h1 | h1
            · rcases List.prefix_concat_iff.1 h1 with h2 | h2
              · exact absurd (h2 ▸ List.prefix_rfl) hqq
              · exact h2
            · exact absurd h1 hqq
          have hup : ∀ r, r <+: q → d.dirs r = true := by
            rintro r hr
            obtain ⟨s, hs⟩ := hr.trans hlt
            exact h.up (q := s) (by rw [hs]; exact h.inside _ _ _ ht)
          have hfile : ∀ r, r <+: q → r ≠ [] → d.isFile ([] ++ r) = false := by
            intro r hr _
            rw [Bool.eq_false_iff]
            intro hf
            obtain ⟨a, b, t, e, ht⟩ := (isFile_iff _ _).1 hf
            have h1 := h.apart _ _ _ ht
            rw [← e] at h1
            have h2 := hup r hr
            rw [List.nil_append] at h1
            rw [h1] at h2
            cases h2
          rw [makeInside_ok q [] d h.root hfile]
          obtain ⟨ds, fs⟩ := d
          dsimp only
          congr 1
          funext r
          rw [Bool.eq_iff_iff]
          simp only [Bool.or_eq_true, decide_eq_true_eq, List.nil_append]
          exact ⟨fun h1 => h1.elim id fun h1 => hup r h1.2, .inl⟩
      · right
        have hb' : ∀ q n, q ++ [n] <+: p → d.files (q, n) = none := by
          intro q n hq
          by_contra hne
          obtain ⟨t, ht⟩ := Option.ne_none_iff_exists'.1 hne
          exact hb ⟨q, n, t, hq, ht⟩
        refine ⟨by simpa using he, hb', q, hq, ?_⟩
        rw [e, makeInside_ok q [] d h.root fun r hr hne => isFile_prefix d hb' (by simpa using hr.trans hq) (by simpa using hne)]
        simp

theorem more_good (h : d.Good) {p q : List String} (hb : ∀ q n, q ++ [n] <+: p → d.files (q, n) = none) (hq : q <+: p) :
    ({ d with dirs := fun r => d.dirs r || decide (r <+: q) } : Disk).Good := by
  refine ⟨by simp [h.root], fun q' n hq' => ?_, fun q' n t ht => ?_, fun q' n t ht => ?_⟩
  · simp only [Bool.or_eq_true, decide_eq_true_eq] at hq' ⊢
    exact hq'.imp (h.above q' n) fun hq' => (List.prefix_append _ _).trans hq'
  · simp only [Bool.or_eq_true, decide_eq_true_eq]
    exact .inl (h.inside q' n t ht)
  · simp only [Bool.or_eq_false_iff, decide_eq_false_iff_not]
    refine ⟨h.apart q' n t ht, fun hq' => ?_⟩
    have := hb q' n (hq'.trans hq)
    rw [ht] at this
    cases this

/-- C125: a call that is not killed does what C111 and C112 say. -/
theorem C125_finished (c : Codec J O) (op : Op J O) (render : Fig K → String) (domain : List (List (K × K)))
    (folder : List String) (d : Disk) :
    (callOf c op d).1.2 = perform c d op ∧
    (visualizeDomain render domain folder d).1 = Plots.visualizeDomain render domain folder d :=
  ⟨Same.callOf c op d, Same.visualizeDomain render domain folder d⟩

/-- C125: `js_dump(name, v)`, killed at any point, leaves the disk as it was or, if the file can be opened, `name.json` with
some beginning of the text, and each of these is possible: so the old contents can be lost and the new ones not there. -/
theorem C125_dump (enc : Encoder J) (f : File) (v : J) (d d' : Disk) :
    d' ∈ (jsDump enc f v d).2 ↔ d' = d ∨
      (d.dirs f.1 = true ∧ d.dirs (f.1 ++ [f.2 ++ ".json"]) = false ∧
        ∃ a b, (enc v).1 = a ++ b ∧ d' = d.put (f.1, f.2 ++ ".json") a) :=
  dumpTo_left _ _ _ _ _

/-- C125: the same for `create_input_file`. -/
theorem C125_create (enc : Encoder O) (f : File) (v : O) (d d' : Disk) :
    d' ∈ (createInputFile enc f v d).2 ↔ d' = d ∨
      (d.dirs f.1 = true ∧ d.dirs (f.1 ++ [f.2 ++ ".obj"]) = false ∧
        ∃ a b, (enc v).1 = a ++ b ∧ d' = d.put (f.1, f.2 ++ ".obj") a) :=
  dumpTo_left _ _ _ _ _

/-- C125: what is read after `js_dump` was killed: what would have been read before, or the new value, or an exception, but
never another value, provided that the decoder does not accept a text that stops too early. -/
theorem C125_reading (enc : Encoder J) (dec : String → Py J) (f : File) (v : J) (hd : dec (enc v).1 = .ok v)
    (hp : ∀ a b, (enc v).1 = a ++ b → b ≠ "" → ∃ e, dec a = .error e) (h : d' ∈ (jsDump enc f v d).2) :
    (Files.jsLoad dec (f.1, f.2 ++ ".json") d').1 = (Files.jsLoad dec (f.1, f.2 ++ ".json") d).1 ∨
    (Files.jsLoad dec (f.1, f.2 ++ ".json") d').1 = .ok v ∨
    ∃ e, (Files.jsLoad dec (f.1, f.2 ++ ".json") d').1 = .error e := by
  rcases (C125_dump enc f v d d').1 h with rfl | ⟨-, -, a, b, e, rfl⟩
  · exact .inl rfl
  · right
    rw [(load_eq _ _ _).1]
    have : (d.put (f.1, f.2 ++ ".json") a).files (f.1, f.2 ++ ".json") = some a := if_pos rfl
    simp only [this]
    by_cases hb : b = ""
    · left
      rw [hb, String.append_empty] at e
      rw [← e, hd]
    · right
      exact hp a b e hb

/-- C125: after a kill during `js_dump` a new call of it for the same name does just what it would have done before. -/
theorem C125_again (enc : Encoder J) (f : File) (v w : J) (h : d' ∈ (jsDump enc f w d).2) :
    Files.jsDump enc f v d' = Files.jsDump enc f v d := by
  rcases (C125_dump enc f w d d').1 h with rfl | ⟨h1, h2, a, b, e, rfl⟩
  · rfl
  · unfold Files.jsDump
    rw [dumpTo_eq, dumpTo_eq, put_put]
    have : (d.put (f.1, f.2 ++ ".json") a).dirs = d.dirs := rfl
    rw [this]
    split
    · rfl
    · rename_i h3
      exact absurd (by simpa using ⟨h1, h2⟩) h3

/-- C125: `create_if_not(path)`, killed at any point, has made the directories of some beginning of the path, and nothing
else; called again, it does just what it would have done before. -/
theorem C125_directory (h : d.Good) (p : List String) (hk : d' ∈ (createIfNot p d).2) :
    d'.Good ∧ d'.files = d.files ∧
    (∃ q, q <+: p ∧ ∀ r, d'.dirs r = true ↔ d.dirs r = true ∨ r <+: q) ∧
    Files.createIfNot p d' = Files.createIfNot p d := by
  rcases createIfNot_left h p hk with rfl | ⟨he, hb, q, hq, rfl⟩
  · refine ⟨h, rfl, ⟨[], List.nil_prefix, fun r => ⟨.inl, ?_⟩⟩, rfl⟩
    rintro (h1 | h1)
    · exact h1
    · rw [List.prefix_nil.1 h1]
      exact h.root
  · have hg := more_good h hb hq
    refine ⟨hg, rfl, ⟨q, hq, fun r => by simp⟩, ?_⟩
    have he1 : d.dirs p = false ∧ d.isFile p = false := by simpa [Disk.exists] using he
    have e0 : Files.createIfNot p d = (.ok (), { d with dirs := fun r => d.dirs r || decide (r <+: p) }) := by
      rcases createIfNot_eq h p with ⟨e, -⟩ | ⟨-, ⟨a, n, t, h1, h2⟩, -⟩ | ⟨-, -, e⟩
      · rw [he] at e; cases e
      · rw [hb a n h1] at h2; cases h2
      · exact e
    rw [e0]
    rcases createIfNot_eq hg p with ⟨e, e1⟩ | ⟨-, ⟨a, n, t, h1, h2⟩, -⟩ | ⟨-, -, e1⟩
    · rw [e1]
      have hqp : q = p := by
        have h1 : (d.dirs p || decide (p <+: q)) = true ∨ d.isFile p = true := by
          simpa [Disk.exists, Disk.isFile] using e
        rw [he1.1, he1.2] at h1
        have h2 : p <+: q := by simpa using h1
        exact hq.eq_of_length_le h2.length_le
      rw [hqp]
    · have h3 : d.files (a, n) = some t := h2
      rw [hb a n h1] at h3
      cases h3
    · rw [e1]
      congr 1
      obtain ⟨ds, fs⟩ := d
      dsimp only
      congr 1
      funext r
      rw [Bool.eq_iff_iff]
      simp only [Bool.or_eq_true, decide_eq_true_eq]
      constructor
      · rintro ((h1 | h1) | h1)
        · exact .inl h1
        · exact .inr (h1.trans hq)
        · exact .inr h1
      · rintro (h1 | h1)
        · exact .inl (.inl h1)
        · exact .inr h1

/-- a computation that only reads -/
def Only {α : Type} (m : Cr α) : Prop := ∀ d, (m d).1.2 = d ∧ ∀ d' ∈ (m d).2, d' = d

theorem Only.atomic {α : Type} (m : St Disk α) (h : ∀ d, (m d).2 = d) : Only (atomic m) := by
  refine fun d => ⟨h d, fun d' hd => ?_⟩
  rcases hd with hd | hd
  · exact hd
  · rw [h d] at hd
    exact hd

theorem Only.pure {α : Type} (a : α) : Only (Pure.pure a) := fun _ => ⟨rfl, fun _ h => h⟩

theorem Only.bind {α β : Type} {m : Cr α} {f : α → Cr β} (hm : Only m) (hf : ∀ a, Only (f a)) : Only (m >>= f) := by
  intro d
  obtain ⟨h1, h2⟩ := hm d
  rcases h : (m d).1 with ⟨e | a, d1⟩
  · rw [bind_error h]
    rw [h] at h1
    exact ⟨h1, h2⟩
  · rw [bind_ok h]
    rw [h] at h1
    have h1 : d1 = d := h1
    rw [h1]
    refine ⟨(hf a d).1, fun d' hd => ?_⟩
    rcases hd with hd | hd
    · exact h2 d' hd
    · exact (hf a d).2 d' hd

/-- killed or not, a call leaves a disk, the files it does not write and the directories -/
theorem call_keeps (h : d.Good) (op : Op J O) (hd : d' = perform c d op ∨ d' ∈ (callOf c op d).2) :
    d'.Good ∧ (∀ f, op.writes ≠ some f → d'.files f = d.files f) ∧ ∀ p, d.dirs p = true → d'.dirs p = true := by
  rcases hd with rfl | hd
  · refine ⟨C111_good h op, fun f hf => ?_, fun p hp => ?_⟩
    · exact (C111_untouched (c := c) h [op] f (by simpa using hf)).1
    · have := (C111_untouched (c := c) h [op] ([], "") · |>.2 p hp)
      cases op with
      | dump f v => simp only [perform, Files.jsDump, dumpTo_eq]; split <;> exact hp
      | create f v => simp only [perform, Files.createInputFile, dumpTo_eq]; split <;> exact hp
      | load f => simpa [Op.writes] using this
      | read f => simpa [Op.writes] using this
      | directory q => simpa [Op.writes] using this
  · have hput : ∀ {V : Type} (enc : Encoder V) (f : File) (v : V), d' ∈ (dumpTo enc f v d).2 →
        d'.Good ∧ (∀ g, some f ≠ some g → d'.files g = d.files g) ∧ ∀ p, d.dirs p = true → d'.dirs p = true := by
      intro V enc f v hv
      rcases (dumpTo_left enc f v d d').1 hv with rfl | ⟨h1, h2, a, b, -, rfl⟩
      · exact ⟨h, fun _ _ => rfl, fun _ hp => hp⟩
      · exact ⟨put_good h h1 h2 _, fun g hg => if_neg fun e => hg (by rw [e]), fun _ hp => hp⟩
    have hread : ∀ {V : Type} (f : File) (dec : String → Py V),
        d' ∈ (((do let t ← Crash.atomic (readAll f); Crash.lift (dec t)) >>= fun _ => Pure.pure () : Cr Unit) d).2 →
          d' = d := by
      intro V f dec hv
      exact (Only.bind (Only.bind (.atomic _ fun d => by unfold readAll; split <;> rfl) fun t => .atomic _ fun d => rfl)
        fun _ => .pure _) d |>.2 d' hv
    cases op with
    | dump f v => exact hput _ _ _ hd
    | create f v => exact hput _ _ _ hd
    | load f =>
      obtain rfl : d' = d := hread f c.unjson hd
      exact ⟨h, fun _ _ => rfl, fun _ hp => hp⟩
    | read f =>
      obtain rfl : d' = d := hread f c.unpickle hd
      exact ⟨h, fun _ _ => rfl, fun _ hp => hp⟩
    | directory p =>
      obtain ⟨h1, h2, ⟨q, -, h3⟩, -⟩ := C125_directory h p hd
      exact ⟨h1, fun _ _ => by rw [h2], fun r hr => (h3 r).2 (.inl hr)⟩

/-- A history of calls, each of which may have been killed. -/
inductive History (c : Codec J O) : Disk → List (Op J O) → Disk → Prop
  | nil (d : Disk) : History c d [] d
  | finished {d d' : Disk} (op : Op J O) (ops : List (Op J O)) : History c (perform c d op) ops d' →
      History c d (op :: ops) d'
  | killed {d d' : Disk} (op : Op J O) (ops : List (Op J O)) (k : Disk) : k ∈ (callOf c op d).2 → History c k ops d' →
      History c d (op :: ops) d'

/-- C125: in any history of calls, any of them killed at any point, the disk stays one, a file that none of them writes
keeps its contents (or stays absent), and directories stay. -/
theorem C125_history (h : d.Good) (ops : List (Op J O)) (hh : History c d ops d') :
    d'.Good ∧ (∀ f, (∀ op ∈ ops, op.writes ≠ some f) → d'.files f = d.files f) ∧
      ∀ p, d.dirs p = true → d'.dirs p = true := by
  induction hh with
  | nil d => exact ⟨h, fun _ _ => rfl, fun _ hp => hp⟩
  | finished op ops _ ih =>
    obtain ⟨h1, h2, h3⟩ := call_keeps h op (.inl rfl)
    obtain ⟨i1, i2, i3⟩ := ih h1
    exact ⟨i1, fun f hf => (i2 f fun op' ho => hf op' (by simp [ho])).trans (h2 f (hf op (by simp))),
      fun p hp => i3 p (h3 p hp)⟩
  | killed op ops k hk _ ih =>
    obtain ⟨h1, h2, h3⟩ := call_keeps h op (.inr hk)
    obtain ⟨i1, i2, i3⟩ := ih h1
    exact ⟨i1, fun f hf => (i2 f fun op' ho => hf op' (by simp [ho])).trans (h2 f (hf op (by simp))),
      fun p hp => i3 p (h3 p hp)⟩

/-- C125: so what `js_dump` wrote, not killed, is read again after any such history that does not write the file. -/
theorem C125_kept (h : d.Good) (f : File) (v : J) (t : String) (hf : d.dirs f.1 = true)
    (hn : d.dirs (f.1 ++ [f.2 ++ ".json"]) = false) (he : c.json v = (t, none)) (hd : c.unjson t = .ok v)
    (ops : List (Op J O)) (hops : ∀ op ∈ ops, op.writes ≠ some (f.1, f.2 ++ ".json"))
    (hh : History c (Files.jsDump c.json f v d).2 ops d') :
    (Files.jsLoad c.unjson (f.1, f.2 ++ ".json") d').1 = .ok v := by
  obtain ⟨-, h2, -⟩ := C125_history (C111_good (c := c) h (.dump f v)) ops hh
  rw [(load_eq _ _ _).1, h2 _ hops]
  have := (C111_json (c := c) h f v t hf hn he hd [] (by simp)).2
  rw [(load_eq _ _ _).1] at this
  exact this

theorem step_eq (render : Fig K → String) (folder : List String) (l : List (K × K)) (k : ℕ) (d : Disk) :
    Plots.domainStep render folder (l, k) d = if l = [] then (.error .valueError, d) else
      Files.dumpTo (fun f => (render f, none)) (pictureFile folder k) (fieldPicture l) d := by
  unfold Plots.domainStep
  by_cases hl : l = []
  · subst hl
    have e1 : (St.lift (unzip2 (([] : List (K × K)), k).1) : St Disk _) d = (.error .valueError, d) := rfl
    rw [if_pos rfl, St.bind_error e1]
  · have e1 : (St.lift (unzip2 (l, k).1) : St Disk _) d = (.ok l.unzip, d) := by
      rw [show unzip2 (l, k).1 = .ok l.unzip from if_neg hl]
      rfl
    have e2 : (St.lift (scatter l.unzip.1 l.unzip.2 "") : St Disk _) d = (.ok (.points l ""), d) := by
      rw [scatter_unzip]
      rfl
    rw [if_neg hl, St.bind_ok e1]
    dsimp only
    rw [St.bind_ok e2]
    rfl

theorem step_left (render : Fig K → String) (folder : List String) (l : List (K × K)) (k : ℕ)
    (h : d' ∈ (domainStep render folder (l, k) d).2) :
    d' = d ∨ (l ≠ [] ∧ d.dirs folder = true ∧ d.dirs (folder ++ [(pictureFile folder k).2]) = false ∧
      ∃ a b, render (fieldPicture l) = a ++ b ∧ d' = d.put (pictureFile folder k) a) := by
  unfold Crash.domainStep at h
  by_cases hl : l = []
  · subst hl
    rw [bind_error (d' := d) (e := .valueError) rfl] at h
    left
    rcases h with h | h <;> exact h
  · have e1 : (Crash.lift (unzip2 (l, k).1) d).1 = (.ok l.unzip, d) := by
      rw [show unzip2 (l, k).1 = .ok l.unzip from if_neg hl]
      rfl
    have e2 : (Crash.lift (scatter l.unzip.1 l.unzip.2 "") d).1 = (.ok (.points l ""), d) := by
      rw [scatter_unzip]
      rfl
    rw [bind_ok e1] at h
    rcases h with h | h
    · left
      rcases h with h | h <;> exact h
    · dsimp only at h
      rw [bind_ok e2] at h
      rcases h with h | h
      · left
        rcases h with h | h <;> exact h
      · rcases (dumpTo_left _ _ _ _ _).1 h with h | h
        · exact .inl h
        · exact .inr ⟨hl, h⟩

/-- the loop, killed: the pictures of some fields are drawn, that of the next one is begun at most -/
theorem loop_left (render : Fig K → String) (folder : List String) (fields : List (List (K × K))) :
    ∀ (n : ℕ) (d : Disk), d' ∈ (domainLoop render folder (fields.zipIdx n) d).2 →
      d'.dirs = d.dirs ∧ (d.dirs folder = false → d' = d) ∧
      ∃ k, k ≤ fields.length ∧
        (∀ i f, i < k → fields[i]? = some f → f ≠ [] ∧ d'.files (pictureFile folder (n + i)) = some (render (fieldPicture f))) ∧
        (d'.files (pictureFile folder (n + k)) = d.files (pictureFile folder (n + k)) ∨
          ∃ f a b, fields[k]? = some f ∧ f ≠ [] ∧ render (fieldPicture f) = a ++ b ∧
            d'.files (pictureFile folder (n + k)) = some a) ∧
        ∀ g, (∀ i ≤ k, g ≠ pictureFile folder (n + i)) → d'.files g = d.files g := by
  induction fields with
  | nil =>
    intro n d h
    obtain rfl : d' = d := h
    exact ⟨rfl, fun _ => rfl, 0, le_rfl, by simp, .inl rfl, fun _ _ => rfl⟩
  | cons l fields ih =>
    intro n d h
    rw [List.zipIdx_cons] at h
    unfold Crash.domainLoop at h
    have hstep : d' ∈ (domainStep render folder (l, n) d).2 → d'.dirs = d.dirs ∧ (d.dirs folder = false → d' = d) ∧
        ∃ k, k ≤ (l :: fields).length ∧
        (∀ i f, i < k → (l :: fields)[i]? = some f →
          f ≠ [] ∧ d'.files (pictureFile folder (n + i)) = some (render (fieldPicture f))) ∧
        (d'.files (pictureFile folder (n + k)) = d.files (pictureFile folder (n + k)) ∨
          ∃ f a b, (l :: fields)[k]? = some f ∧ f ≠ [] ∧ render (fieldPicture f) = a ++ b ∧
            d'.files (pictureFile folder (n + k)) = some a) ∧
        ∀ g, (∀ i ≤ k, g ≠ pictureFile folder (n + i)) → d'.files g = d.files g := by
      intro h
      rcases step_left render folder l n h with rfl | ⟨hl, h1, h2, a, b, e, rfl⟩
      · exact ⟨rfl, fun _ => rfl, 0, by simp, by simp, .inl rfl, fun _ _ => rfl⟩
      · refine ⟨rfl, fun h3 => (by rw [h1] at h3; cases h3), 0, by simp, by simp, .inr ⟨l, a, b, rfl, hl, e, if_pos rfl⟩,
          fun g hg => if_neg (hg 0 le_rfl)⟩
    have hs : (domainStep render folder (l, n) d).1 = Plots.domainStep render folder (l, n) d := by
      unfold Crash.domainStep Plots.domainStep
      exact (Same.bind (.atomic _) fun _ => .bind (.atomic _) fun _ => .dumpTo _ _ _) d
    rcases hm : Plots.domainStep render folder (l, n) d with ⟨e | a, d1⟩
    · rw [bind_error (hs.trans hm)] at h
      exact hstep h
    · rw [bind_ok (hs.trans hm)] at h
      rcases h with h | h
      · exact hstep h
      · obtain ⟨i1, i0, k, i2, i3, i4, i5⟩ := ih (n + 1) d1 h
        rw [step_eq] at hm
        split at hm
        · cases hm
        · rename_i hl
          rw [dumpTo_eq] at hm
          split at hm
          · rename_i hc
            obtain rfl : d.put (pictureFile folder n) (render (fieldPicture l)) = d1 := (Prod.mk.inj hm).2
            have hc1 : d.dirs folder = true := by
              rw [Bool.and_eq_true] at hc
              exact hc.1
            refine ⟨i1, fun h3 => (by rw [hc1] at h3; cases h3), k + 1, by simpa using i2, fun i f hi hf => ?_, ?_, fun g hg => ?_⟩
            · cases i with
              | zero =>
                obtain rfl : l = f := by simpa using hf
                refine ⟨hl, ?_⟩
                rw [Nat.add_zero, i5 _ fun i _ he => by have := pictureFile_inj he; omega]
                exact if_pos rfl
              | succ i =>
                rw [show n + (i + 1) = n + 1 + i by omega]
                exact i3 i f (by omega) (by simpa using hf)
            · rw [show n + (k + 1) = n + 1 + k by omega]
              rcases i4 with i4 | i4
              · left
                rw [i4]
                exact if_neg fun he => by have := pictureFile_inj he; omega
              · right
                simpa using i4
            · rw [i5 g fun i hi => by
                have := hg (i + 1) (by omega)
                rwa [show n + (i + 1) = n + 1 + i by omega] at this]
              exact if_neg (hg 0 (by omega))
          · cases hm

theorem loop_again (render : Fig K → String) (folder : List String) (fields : List (List (K × K))) :
    ∀ (n : ℕ) (d : Disk), d' ∈ (domainLoop render folder (fields.zipIdx n) d).2 →
      Plots.domainLoop render folder (fields.zipIdx n) d' = Plots.domainLoop render folder (fields.zipIdx n) d := by
  induction fields with
  | nil =>
    intro n d h
    obtain rfl : d' = d := h
    rfl
  | cons l fields ih =>
    intro n d h
    rw [List.zipIdx_cons] at h ⊢
    unfold Crash.domainLoop at h
    unfold Plots.domainLoop
    have hstep : d' ∈ (domainStep render folder (l, n) d).2 →
        Plots.domainStep render folder (l, n) d' = Plots.domainStep render folder (l, n) d := by
      intro h
      rcases step_left render folder l n h with rfl | ⟨hl, h1, h2, a, b, e, rfl⟩
      · rfl
      · rw [step_eq, step_eq, if_neg hl, if_neg hl, dumpTo_eq, dumpTo_eq, put_put]
        have : (d.put (pictureFile folder n) a).dirs = d.dirs := rfl
        rw [this]
        have hc : (d.dirs (pictureFile folder n).1 && !d.dirs ((pictureFile folder n).1 ++ [(pictureFile folder n).2])) = true := by
          simpa using ⟨h1, h2⟩
        rw [if_pos hc, if_pos hc]
    have hs : (domainStep render folder (l, n) d).1 = Plots.domainStep render folder (l, n) d := by
      unfold Crash.domainStep Plots.domainStep
      exact (Same.bind (.atomic _) fun _ => .bind (.atomic _) fun _ => .dumpTo _ _ _) d
    have hcongr : ∀ d1 : Disk, Plots.domainStep render folder (l, n) d1 = Plots.domainStep render folder (l, n) d →
        (Plots.domainStep render folder (l, n) >>= fun _ => Plots.domainLoop render folder (fields.zipIdx (n + 1))) d1 =
        (Plots.domainStep render folder (l, n) >>= fun _ => Plots.domainLoop render folder (fields.zipIdx (n + 1))) d := by
      intro d1 he
      rcases hm : Plots.domainStep render folder (l, n) d with ⟨e | a, d2⟩
      · rw [St.bind_error hm, St.bind_error (he.trans hm)]
      · rw [St.bind_ok hm, St.bind_ok (he.trans hm)]
    rcases hm : Plots.domainStep render folder (l, n) d with ⟨e | a, d1⟩
    · rw [bind_error (hs.trans hm)] at h
      exact hcongr _ (hstep h)
    · rw [bind_ok (hs.trans hm)] at h
      rcases h with h | h
      · exact hcongr _ (hstep h)
      · have e1 := ih (n + 1) d1 h
        obtain ⟨i1, -, k, -, -, -, i5⟩ := loop_left render folder fields (n + 1) d1 h
        rw [St.bind_ok hm, ← e1]
        have : Plots.domainStep render folder (l, n) d' = (.ok (), d') := by
          rw [step_eq] at hm ⊢
          split at hm
          · cases hm
          · rename_i hl
            rw [if_neg hl]
            rw [dumpTo_eq] at hm ⊢
            split at hm
            · rename_i hc
              obtain rfl : d.put (pictureFile folder n) (render (fieldPicture l)) = d1 := (Prod.mk.inj hm).2
              have hdirs : d'.dirs = d.dirs := i1
              rw [hdirs, if_pos hc]
              congr 1
              have hf : d'.files (pictureFile folder n) = some (render (fieldPicture l)) := by
                rw [i5 _ fun i _ he => by have := pictureFile_inj he; omega]
                exact if_pos rfl
              obtain ⟨ds, fs⟩ := d'
              unfold Disk.put
              congr 1
              funext g
              by_cases hg : g = pictureFile folder n
              · rw [if_pos hg, hg]
                exact hf.symm
              · rw [if_neg hg]
            · cases hm
        rw [St.bind_ok this]

/-- C125: `visualize_domain(domain, folder)`, killed at any point: for some `k` the first `k` pictures are complete, that of
field `k` is as it was before, or a beginning of the new one, and nothing else has changed but that directories of the path
may have been made.  Called again, it does just what it would have done before. -/
theorem C125_domain (h : d.Good) (render : Fig K → String) (domain : List (List (K × K))) (folder : List String)
    (hk : d' ∈ (visualizeDomain render domain folder d).2) :
    (∀ r, d.dirs r = true → d'.dirs r = true) ∧ (∀ r, d'.dirs r = true → d.dirs r = true ∨ r <+: folder) ∧
    (∃ k, k ≤ domain.length ∧
      (∀ i f, i < k → domain[i]? = some f → f ≠ [] ∧ d'.files (pictureFile folder i) = some (render (fieldPicture f))) ∧
      (d'.files (pictureFile folder k) = d.files (pictureFile folder k) ∨
        ∃ f a b, domain[k]? = some f ∧ f ≠ [] ∧ render (fieldPicture f) = a ++ b ∧
          d'.files (pictureFile folder k) = some a) ∧
      ∀ g, (∀ i ≤ k, g ≠ pictureFile folder i) → d'.files g = d.files g) ∧
    Plots.visualizeDomain render domain folder d' = Plots.visualizeDomain render domain folder d := by
  unfold Crash.visualizeDomain at hk
  have hs : (createIfNot folder d).1 = Files.createIfNot folder d := Same.createIfNot folder d
  have hfirst : d' ∈ (createIfNot folder d).2 →
      (∀ r, d.dirs r = true → d'.dirs r = true) ∧ (∀ r, d'.dirs r = true → d.dirs r = true ∨ r <+: folder) ∧
      (∃ k, k ≤ domain.length ∧
        (∀ i f, i < k → domain[i]? = some f → f ≠ [] ∧ d'.files (pictureFile folder i) = some (render (fieldPicture f))) ∧
        (d'.files (pictureFile folder k) = d.files (pictureFile folder k) ∨
          ∃ f a b, domain[k]? = some f ∧ f ≠ [] ∧ render (fieldPicture f) = a ++ b ∧
            d'.files (pictureFile folder k) = some a) ∧
        ∀ g, (∀ i ≤ k, g ≠ pictureFile folder i) → d'.files g = d.files g) ∧
      Plots.visualizeDomain render domain folder d' = Plots.visualizeDomain render domain folder d := by
    intro hk
    obtain ⟨-, h2, ⟨q, hq, h3⟩, h4⟩ := C125_directory h folder hk
    refine ⟨fun r hr => (h3 r).2 (.inl hr), fun r hr => ((h3 r).1 hr).imp id fun h => h.trans hq,
      ⟨0, by simp, by simp, .inl (by rw [h2]), fun g _ => by rw [h2]⟩, ?_⟩
    unfold Plots.visualizeDomain
    rcases hm : Files.createIfNot folder d with ⟨e | a, d2⟩
    · rw [St.bind_error hm, St.bind_error (h4.trans hm)]
    · rw [St.bind_ok hm, St.bind_ok (h4.trans hm)]
  rcases hm : Files.createIfNot folder d with ⟨e | a, d1⟩
  · rw [bind_error (hs.trans hm)] at hk
    exact hfirst hk
  · rw [bind_ok (hs.trans hm)] at hk
    rcases hk with hk | hk
    · exact hfirst hk
    · obtain ⟨i1, i0, k, i2, i3, i4, i5⟩ := loop_left render folder domain 0 d1 hk
      have i6 := loop_again render folder domain 0 d1 hk
      have hd1 : d1.files = d.files ∧ (∀ r, d.dirs r = true → d1.dirs r = true) ∧
          (∀ r, d1.dirs r = true → d.dirs r = true ∨ r <+: folder) ∧ Files.createIfNot folder d' = (.ok (), d') := by
        have hex : ∀ x : Disk, x.exists folder = true → Files.createIfNot folder x = (.ok (), x) := by
          intro x hx
          unfold Files.createIfNot
          rw [St.get_bind, if_pos hx]
          rfl
        rcases createIfNot_eq h folder with ⟨he, e⟩ | ⟨-, -, e⟩ | ⟨-, -, e⟩
        · obtain rfl : d = d1 := by rw [e] at hm; exact (Prod.mk.inj hm).2
          refine ⟨rfl, fun _ hr => hr, fun _ hr => .inl hr, hex _ ?_⟩
          by_cases hf : d.dirs folder = true
          · unfold Disk.exists
            rw [i1, hf]
            rfl
          · rw [i0 (by simpa using hf)]
            exact he
        · rw [e] at hm; cases hm
        · obtain rfl : _ = d1 := (Prod.mk.inj (e.symm.trans hm)).2
          refine ⟨rfl, fun r hr => by simp [hr], fun r hr => by simpa using hr, hex _ ?_⟩
          unfold Disk.exists
          rw [i1]
          simp
      obtain ⟨f1, f2, f3, f4⟩ := hd1
      simp only [Nat.zero_add, f1] at i3 i4 i5
      refine ⟨fun r hr => by rw [i1]; exact f2 r hr, fun r hr => f3 r (by rwa [i1] at hr), ⟨k, i2, i3, i4, i5⟩, ?_⟩
      unfold Plots.visualizeDomain
      rw [St.bind_ok hm, St.bind_ok f4]
      exact i6

theorem mem_makeInside (names : List String) : ∀ (pre : List String) (d : Disk) (q : List String), q <+: names →
    (Files.makeInside pre q d).2 ∈ (makeInside pre names d).2 := by
  induction names with
  | nil =>
    intro pre d q hq
    rw [List.prefix_nil.1 hq]
    exact Set.mem_singleton _
  | cons n names ih =>
    intro pre d q hq
    unfold Crash.makeInside
    rcases List.prefix_cons_iff.1 hq with rfl | ⟨q', rfl, hq'⟩
    · have h0 : d ∈ (Crash.atomic (mkdir (pre ++ [n])) d).2 := .inl rfl
      show d ∈ _
      rcases hm : mkdir (pre ++ [n]) d with ⟨e | a, d1⟩
      · rw [bind_error (d' := d1) (e := e) hm]
        exact h0
      · rw [bind_ok (d' := d1) (a := a) hm]
        exact .inl h0
    · unfold Files.makeInside
      rcases hm : mkdir (pre ++ [n]) d with ⟨e | a, d1⟩
      · rw [bind_error (d' := d1) (e := e) hm, St.bind_error hm]
        right
        show d1 = (mkdir (pre ++ [n]) d).2
        rw [hm]
      · rw [bind_ok (d' := d1) (a := a) hm, St.bind_ok hm]
        exact .inr (ih _ _ _ hq')

theorem mem_createIfNot (h : d.Good) {p q : List String} (hn : d.exists p = false)
    (hb : ∀ q n, q ++ [n] <+: p → d.files (q, n) = none) (hq : q <+: p) :
    { d with dirs := fun r => d.dirs r || decide (r <+: q) } ∈ (createIfNot p d).2 := by
  have h1 := mem_makeInside p [] d q hq
  rw [makeInside_ok q [] d h.root fun r hr hne =>
    isFile_prefix d hb (by simpa using hr.trans hq) (by simpa using hne)] at h1
  simp only [List.nil_append, List.nil_prefix, and_true] at h1
  unfold Crash.createIfNot
  rw [bind_ok (a := d) (d' := d) (d := d) rfl, if_neg (by rw [hn]; simp)]
  right
  convert h1 using 6
  simp

theorem mem_step (render : Fig K → String) (folder : List String) (l : List (K × K)) (k : ℕ) (hl : l ≠ [])
    (h1 : d.dirs folder = true) (h2 : d.dirs (folder ++ [(pictureFile folder k).2]) = false) (a b : String)
    (e : render (fieldPicture l) = a ++ b) :
    d.put (pictureFile folder k) a ∈ (domainStep render folder (l, k) d).2 := by
  unfold Crash.domainStep
  have e1 : (Crash.lift (unzip2 (l, k).1) d).1 = (.ok l.unzip, d) := by
    rw [show unzip2 (l, k).1 = .ok l.unzip from if_neg hl]
    rfl
  have e2 : (Crash.lift (scatter l.unzip.1 l.unzip.2 "") d).1 = (.ok (.points l ""), d) := by
    rw [scatter_unzip]
    rfl
  rw [bind_ok e1]
  right
  dsimp only
  rw [bind_ok e2]
  right
  exact (dumpTo_left _ _ _ _ _).2 (.inr ⟨h1, h2, a, b, e, rfl⟩)

theorem Same.domainStep (render : Fig K → String) (folder : List String) (q : List (K × K) × ℕ) :
    Same (domainStep render folder q) (Plots.domainStep render folder q) := by
  unfold Crash.domainStep Plots.domainStep
  exact .bind (.atomic _) fun _ => .bind (.atomic _) fun _ => .dumpTo _ _ _

theorem mem_loop (render : Fig K → String) (folder : List String) (q : List (K × K) × ℕ) (l2 : List (List (K × K) × ℕ))
    (l1 : List (List (K × K) × ℕ)) : ∀ (d d1 : Disk), Plots.domainLoop render folder l1 d = (.ok (), d1) →
      d' ∈ (domainStep render folder q d1).2 → d' ∈ (domainLoop render folder (l1 ++ q :: l2) d).2 := by
  induction l1 with
  | nil =>
    intro d d1 h hs
    obtain rfl : d = d1 := (Prod.mk.inj h).2
    rw [List.nil_append]
    unfold Crash.domainLoop
    rcases hm : (domainStep render folder q d).1 with ⟨e | a, d2⟩
    · rw [bind_error hm]
      exact hs
    · rw [bind_ok hm]
      exact .inl hs
  | cons p l1 ih =>
    intro d d1 h hs
    rw [List.cons_append]
    unfold Crash.domainLoop
    unfold Plots.domainLoop at h
    rcases hm : Plots.domainStep render folder p d with ⟨e | a, d2⟩
    · rw [St.bind_error hm] at h
      cases h
    · rw [St.bind_ok hm] at h
      rw [bind_ok ((Same.domainStep render folder p d).trans hm)]
      exact .inr (ih _ _ h hs)

/-- C125: and these are possible.  If nothing is there and no file is in the way, `create_if_not(path)` can be killed when
the directories of any beginning of the path have been made.  If `visualize_domain` can draw the fields before field `i`,
and then the file for field `i`, which is not empty, can be opened, it can be killed when any beginning of that picture has
been written. -/
theorem C125_possible (h : d.Good) (render : Fig K → String) (domain : List (List (K × K))) (folder : List String) :
    (∀ p q, d.exists p = false → (∀ q n, q ++ [n] <+: p → d.files (q, n) = none) → q <+: p →
      ∃ d' ∈ (createIfNot p d).2, d'.files = d.files ∧ ∀ r, d'.dirs r = true ↔ d.dirs r = true ∨ r <+: q) ∧
    (∀ i f d1 a b, domain[i]? = some f → f ≠ [] →
      Plots.visualizeDomain render (domain.take i) folder d = (.ok (), d1) → d1.dirs folder = true →
      d1.dirs (folder ++ [(pictureFile folder i).2]) = false → render (fieldPicture f) = a ++ b →
      d1.put (pictureFile folder i) a ∈ (visualizeDomain render domain folder d).2) := by
  refine ⟨fun p q hn hb hq => ⟨_, mem_createIfNot h hn hb hq, rfl, fun r => by simp⟩, ?_⟩
  intro i f d1 a b hf hne hv hd1 hd2 e
  unfold Plots.visualizeDomain at hv
  unfold Crash.visualizeDomain
  rcases hm : Files.createIfNot folder d with ⟨e | u, d2⟩
  · rw [St.bind_error hm] at hv
    cases hv
  · rw [St.bind_ok hm] at hv
    rw [bind_ok ((Same.createIfNot folder d).trans hm)]
    right
    have hi : i < domain.length := (List.getElem?_eq_some_iff.1 hf).1
    have hsplit : domain.zipIdx = (domain.take i).zipIdx ++ (f, i) :: domain.zipIdx.drop (i + 1) := by
      conv_lhs => rw [← List.take_append_drop i domain.zipIdx]
      have h0 : domain.zipIdx.take i = (domain.take i).zipIdx := by
        conv_lhs => rw [← List.take_append_drop i domain, List.zipIdx_append]
        rw [List.take_left' (by simp; omega)]
      rw [h0]
      congr 1
      rw [List.drop_eq_getElem_cons (by simpa using hi)]
      congr 1
      rw [List.getElem_zipIdx, (List.getElem?_eq_some_iff.1 hf).2, Nat.zero_add]
    rw [hsplit]
    exact mem_loop render folder (f, i) _ _ _ _ hv (mem_step render folder f i hne hd1 hd2 a b e)

/-- C125: `oak_ridge_export`, killed at any point, leaves the disk as it was, or, if it does not raise before it writes and
the file can be opened, `name.json` with a beginning of its text, and each of these is possible. -/
theorem C125_export (enc : Encoder Json) (f : File) (sel : List (ℝ × ℝ)) (env : Whole.Env) (st : Whole.State) (d d' : Disk) :
    d' ∈ exportLeft enc f sel env st d ↔ d' = d ∨ ∃ x a b, (Report.oakRidge sel env st).1 = .ok x ∧ d.dirs f.1 = true ∧
      d.dirs (f.1 ++ [f.2 ++ ".json"]) = false ∧ (enc (exportJson x)).1 = a ++ b ∧
      d' = d.put (f.1, f.2 ++ ".json") a := by
  unfold exportLeft
  split
  · rename_i hx
    rw [hx]
    refine ⟨.inl, ?_⟩
    rintro (h | ⟨x, -, -, h, -⟩)
    · exact h
    · cases h
  · rename_i x t hx
    rw [hx]
    constructor
    · rintro (h | h)
      · exact .inl h
      · rcases (C125_dump _ _ _ _ _).1 h with h | ⟨h1, h2, a, b, h3, h4⟩
        · exact .inl h
        · exact .inr ⟨x, a, b, rfl, h1, h2, h3, h4⟩
    · rintro (h | ⟨y, a, b, h0, h1, h2, h3, h4⟩)
      · exact .inl h
      · obtain rfl : x = y := Except.ok.inj h0
        exact .inr ((C125_dump _ _ _ _ _).2 (.inr ⟨h1, h2, a, b, h3, h4⟩))

/-! ### examples -/

/-- killed between two directories -/
example : ∃ d' ∈ (createIfNot ["new", "deep"] exDisk).2, d'.files = exDisk.files ∧
    ∀ r, d'.dirs r = true ↔ exDisk.dirs r = true ∨ r <+: ["new"] := by
  refine (C125_possible (K := ℚ) exDisk_good (fun _ => "") [] []).1 _ _ (by decide +kernel) (fun q n hq => ?_) (by simp)
  have : (q, n) ≠ ([], "notes") := by
    rintro h
    obtain ⟨rfl, rfl⟩ := Prod.mk.inj h
    revert hq
    decide +kernel
  exact if_neg this

/-- the first picture is there, the second one is begun -/
example : ∃ d' ∈ (visualizeDomain (K := ℚ) (fun _ => "PNG") [[(0, 0)], [(0, 0), (5, 0)]] ["out"] exDisk).2,
    d'.files (["out"], "000.png") = some "PNG" ∧ d'.files (["out"], "001.png") = some "P" := by
  refine ⟨_, (C125_possible (K := ℚ) exDisk_good (fun _ => "PNG") [[(0, 0)], [(0, 0), (5, 0)]] ["out"]).2 1 _
    (Plots.visualizeDomain (K := ℚ) (fun _ => "PNG") [[(0, 0)]] ["out"] exDisk).2 "P" "NG" rfl (by simp)
    (Prod.ext ?_ rfl) ?_ ?_ (by decide +kernel), ?_, ?_⟩ <;> decide +kernel

/-- a dump over an old file, killed: the old contents are gone, and half of the new ones are there -/
example : (exDisk.put ([], "notes") "tr").files ([], "notes") = some "tr" ∧ exDisk.files ([], "notes") = some "hello" ∧
    exDisk.put ([], "notes") "tr" ∈ (dumpTo exCodec.json ([], "notes") true exDisk).2 :=
  ⟨by decide +kernel, by decide +kernel, (dumpTo_left _ _ _ _ _).2 (.inr ⟨by decide, by decide +kernel, "tr", "ue", by decide +kernel, rfl⟩)⟩

/-- the decoder of the example does not accept a text that stops too early -/
theorem exCodec_early (a b : String) (h : (exCodec.json true).1 = a ++ b) (hb : b ≠ "") :
    ∃ e, exCodec.unjson a = .error e := by
  have hl : a.length < 4 := by
    have h1 := congrArg String.length h
    rw [String.length_append, show (exCodec.json true).1.length = 4 by decide +kernel] at h1
    have : b.length ≠ 0 := by simpa using hb
    omega
  refine ⟨.valueError, ?_⟩
  show (if a = "true" then Except.ok true else if a = "false" then .ok false else .error PyErr.valueError) = _
  rw [if_neg (by rintro rfl; exact absurd hl (by decide +kernel)), if_neg (by rintro rfl; exact absurd hl (by decide +kernel))]

example (h : d' ∈ (jsDump exCodec.json (["out"], "x") true exDisk).2) :
    (Files.jsLoad exCodec.unjson (["out"], "x.json") d').1 = .ok true ∨
    ∃ e, (Files.jsLoad exCodec.unjson (["out"], "x.json") d').1 = .error e := by
  rcases C125_reading exCodec.json exCodec.unjson (["out"], "x") true (by decide +kernel) exCodec_early h with h1 | h1
  · right
    exact ⟨.osError, h1.trans (by decide +kernel)⟩
  · exact h1

/-- written, then another dump killed half way, directories half made, and read -/
example : ∃ d', History exCodec (Files.jsDump exCodec.json (["out"], "x") true exDisk).2
      [.dump (["out"], "y") false, .directory ["new", "deep"], .create (["out"], "x") ""] d' ∧
    d'.files (["out"], "y.json") = some "fa" ∧ (Files.jsLoad exCodec.unjson (["out"], "x.json") d').1 = .ok true := by
  have hh : History exCodec (Files.jsDump exCodec.json (["out"], "x") true exDisk).2
      [.dump (["out"], "y") false, .directory ["new", "deep"], .create (["out"], "x") ""]
      (perform exCodec (perform exCodec ((Files.jsDump exCodec.json (["out"], "x") true exDisk).2.put (["out"], "y.json") "fa")
        (.directory ["new", "deep"])) (.create (["out"], "x") "")) := by
    refine .killed _ _ _ ((C125_dump _ _ _ _ _).2 (.inr ⟨?_, ?_, "fa", "lse", by decide +kernel, rfl⟩)) (.finished _ _ (.finished _ _ (.nil _)))
    · decide +kernel
    · decide +kernel
  refine ⟨_, hh, ?_, C125_kept exDisk_good (["out"], "x") true "true" (by decide) (by decide +kernel) (by decide)
    (by decide +kernel) _ (by simp [Op.writes]) hh⟩
  decide +kernel

/-- a dump killed half way, then the same dump again: as if nothing had happened -/
example : Files.jsDump exCodec.json (["out"], "x") false (exDisk.put (["out"], "x.json") "tr") =
    Files.jsDump exCodec.json (["out"], "x") false exDisk :=
  C125_again exCodec.json (["out"], "x") false true
    ((C125_dump _ _ _ _ _).2 (.inr ⟨by decide +kernel, by decide +kernel, "tr", "ue", by decide +kernel, rfl⟩))

/-- pictures interrupted in the second of two, then drawn again: as if nothing had happened -/
example : ∃ d' ∈ (visualizeDomain (K := ℚ) (fun _ => "PNG") [[(0, 0)], [(0, 0), (5, 0)]] ["out"] exDisk).2,
    d'.files (["out"], "001.png") = some "P" ∧
    Plots.visualizeDomain (K := ℚ) (fun _ => "PNG") [[(0, 0)], [(0, 0), (5, 0)]] ["out"] d' =
      Plots.visualizeDomain (fun _ => "PNG") [[(0, 0)], [(0, 0), (5, 0)]] ["out"] exDisk := by
  have h := (C125_possible (K := ℚ) exDisk_good (fun _ => "PNG") [[(0, 0)], [(0, 0), (5, 0)]] ["out"]).2 1 _
    (Plots.visualizeDomain (K := ℚ) (fun _ => "PNG") [[(0, 0)]] ["out"] exDisk).2 "P" "NG" rfl (by simp)
    (Prod.ext (by decide +kernel) rfl) (by decide +kernel) (by decide +kernel) (by decide +kernel)
  exact ⟨_, h, by decide +kernel, (C125_domain exDisk_good _ _ _ h).2.2.2⟩

end Ghedt.Crash
