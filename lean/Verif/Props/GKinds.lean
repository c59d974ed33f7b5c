import Verif.Lemmas.GKinds
import Verif.Props.GFunction

/-!
# C108 — which interpolation a request for a g-function uses

A request may name the kind of interpolation.  The kind of the first request that is not refused
decides for the rest of the object's life.
-/

set_option linter.unusedSectionVars false

namespace Ghedt.GF

variable {K : Type} [Field K] [LinearOrder K] [IsStrictOrderedRing K]

/-- Specification: the interpolation that `n ≥ 2` curves are given when `kind` is asked for: the one
named, reduced to what the curves suffice for; `none` if no such kind is known. -/
def kindUsed (n : ℕ) (kind : String) : Option String :=
  if kind = "default" then some (if 5 ≤ n then "cubic" else if 3 ≤ n then "quadratic" else "linear")
  else if kind = "linear" then some "linear"
  else if kind = "quadratic" then some (if 3 ≤ n then "quadratic" else "linear")
  else if kind = "cubic" then
    some (if 4 ≤ n then "cubic" else if 3 ≤ n then "quadratic" else "linear")
  else if kind = "lagrange" then some "lagrange"
  else none

/-- The requests `(B/H, kind)` made on a fresh object, in order, answered or not. -/
def tableAfterAll (spl : String → List K → List K → K → K) (db : DB K) (hist : List (K × String)) :
    Table K :=
  hist.foldl (fun t r => (request spl db r.1 r.2 t).2) {}

theorem kindUsed_fits {n : ℕ} {kind k : String} (h : kindUsed n kind = some k) : Fits n k := by
  unfold kindUsed at h
  unfold Fits
  split_ifs at h <;> simp only [Option.some.injEq, reduceCtorEq] at h <;> subst h <;> simp <;> omega

/-- a request with a known kind on two or more curves, whatever else is stored: the table is built
if there is none, then read -/
theorem requestK_run {spl : String → List K → List K → K → K} {db : DB K} {lo hi q : K}
    (h2 : 2 ≤ db.g.length) (hr : Range db lo hi) (hq : q ≠ 0) {kind k : String}
    (hk : kindUsed db.g.length kind = some k) (t : Table K) :
    request spl db q kind t =
      if t.g.isNone = true then
        (buildTable db k (extFlag lo hi (db.B / q)) >>= fun _ => St.get >>= fun t =>
          St.lift (readTable spl db (snap lo hi (db.B / q)) (extFlag lo hi (db.B / q)) t)) t
      else
        (readTable spl db (snap lo hi (db.B / q)) (extFlag lo hi (db.B / q)) t, t) := by
  have hlen : (PyDict.keys db.g).length = db.g.length := by simp [PyDict.keys]
  have hB : (1 / q) * db.B = db.B / q := by ring
  unfold request
  rw [St.lift_ok (pyDiv_ok hq)]
  simp only [hB]
  rw [St.lift_ok hr.max, St.lift_ok hr.min]
  simp only [hlen]
  rw [if_neg (by simp; omega), if_neg (by omega)]
  obtain ⟨m, hm, hred⟩ : ∃ m, curvesNeeded (if kind = "default" then
      (if 5 ≤ db.g.length then "cubic" else if 3 ≤ db.g.length then "quadratic" else "linear")
      else kind) = .ok m ∧ (if m > db.g.length then kindFor db.g.length else
      .ok (if kind = "default" then
      (if 5 ≤ db.g.length then "cubic" else if 3 ≤ db.g.length then "quadratic" else "linear")
      else kind)) = .ok k := by
    generalize db.g.length = n at hk h2
    unfold kindUsed at hk
    by_cases c0 : kind = "default"
    · rw [if_pos c0] at hk ⊢
      cases hk
      split_ifs with c1 c2
      · exact ⟨4, rfl, by rw [if_neg (by omega)]⟩
      · exact ⟨3, rfl, by rw [if_neg (by omega)]⟩
      · exact ⟨2, rfl, by rw [if_neg (by omega)]⟩
    · rw [if_neg c0] at hk ⊢
      by_cases c1 : kind = "linear"
      · rw [if_pos c1] at hk; subst c1; cases hk
        exact ⟨2, rfl, by rw [if_neg (by omega)]⟩
      rw [if_neg c1] at hk
      by_cases c2 : kind = "quadratic"
      · rw [if_pos c2] at hk; subst c2; cases hk
        refine ⟨3, rfl, ?_⟩
        by_cases c : 3 ≤ n
        · rw [if_neg (by omega), if_pos c]
        · obtain rfl : n = 2 := by omega
          rfl
      rw [if_neg c2] at hk
      by_cases c3 : kind = "cubic"
      · rw [if_pos c3] at hk; subst c3; cases hk
        refine ⟨4, rfl, ?_⟩
        by_cases c : 4 ≤ n
        · rw [if_neg (by omega), if_pos c]
        · obtain rfl | rfl : n = 2 ∨ n = 3 := by omega
          · rfl
          · rfl
      rw [if_neg c3] at hk
      by_cases c4 : kind = "lagrange"
      · rw [if_pos c4] at hk; subst c4; cases hk
        exact ⟨2, rfl, by rw [if_neg (by omega)]⟩
      · rw [if_neg c4] at hk; cases hk
  rw [St.lift_ok hm, St.lift_ok hred, St.get_bind]
  by_cases ht : t.g.isNone = true
  · rw [if_pos ht, if_pos ht]
    rfl
  · rw [if_neg ht, if_neg ht]
    rfl

/-- a request with a known kind on a database of two or more curves -/
theorem requestK_eq {spl : String → List K → List K → K → K} {db : DB K} {lo hi q : K}
    (hv : Valid db) (hr : Range db lo hi) (hq : q ≠ 0) {kind k : String}
    (hk : kindUsed db.g.length kind = some k) (t : Table K) :
    request spl db q kind t =
      if t.g.isNone = true then
        (readTable spl db (snap lo hi (db.B / q)) (extFlag lo hi (db.B / q))
          (tableK db k (extFlag lo hi (db.B / q))), tableK db k (extFlag lo hi (db.B / q)))
      else
        (readTable spl db (snap lo hi (db.B / q)) (extFlag lo hi (db.B / q)) t, t) := by
  rw [requestK_run hv.two hr hq hk]
  split_ifs
  · rw [St.bind_ok (buildTableK_ok hv (kindUsed_fits hk) _ t), St.get_bind]
    rfl
  · rfl

/-- C108: a kind that is not known is refused with `KeyError`, and the request leaves no trace. -/
theorem C108_unknown (spl : String → List K → List K → K → K) (db : DB K) (h2 : 2 ≤ db.g.length) (q : K)
    (hq : q ≠ 0) (kind : String) (hk : kindUsed db.g.length kind = none) (t : Table K) :
    request spl db q kind t = (.error .keyError, t) := by
  have hlen : (PyDict.keys db.g).length = db.g.length := by simp [PyDict.keys]
  have hne : PyDict.keys db.g ≠ [] := by
    intro e; rw [e] at hlen; simp at hlen; omega
  obtain ⟨hi, hhi⟩ := pyMax_ok_of_ne_nil hne
  obtain ⟨lo, hlo⟩ := pyMin_ok_of_ne_nil hne
  unfold request
  rw [St.lift_ok (pyDiv_ok hq)]
  dsimp only
  rw [St.lift_ok hhi, St.lift_ok hlo]
  unfold kindUsed at hk
  split_ifs at hk with c0 c1 c2 c3 c4
  simp only [hlen]
  rw [if_neg (by simp; omega), if_neg (by omega), if_neg c0]
  have : curvesNeeded kind = .error .keyError := by
    unfold curvesNeeded; rw [if_neg c1, if_neg c2, if_neg c3, if_neg c4]
  rw [St.lift_error this]

/-- C108: with a single stored curve a request that names a kind is refused with `ValueError`,
whatever the kind and even at the stored height; the request leaves no trace. -/
theorem C108_single (spl : String → List K → List K → K → K) (db : DB K) (h : K) (c : List K)
    (hg : db.g = [(h, c)]) (q : K) (hq : q ≠ 0) (kind : String) (hk : kind ≠ "default")
    (t : Table K) : request spl db q kind t = (.error .valueError, t) := by
  have hkeys : PyDict.keys db.g = [h] := by rw [hg]; rfl
  unfold request
  rw [St.lift_ok (pyDiv_ok hq), hkeys]
  dsimp only
  rw [St.lift_ok (show pyMax [h] = .ok h from rfl), St.lift_ok (show pyMin [h] = .ok h from rfl),
    if_neg (by simp [hk]), if_pos (by simp)]
  rfl

/-- C108: on a fresh object a request with a known kind is answered by that interpolation (reduced
to what the curves suffice for) through the stored curves, radii and burial depths, everywhere but
in the gap just below the smallest height; there only `lagrange` answers. -/
theorem C108_first (spl : String → List K → List K → K → K) (db : DB K) (hv : Valid db)
    (lo hi : K) (hr : Range db lo hi) (hsep : lo + 1 / 1000 ≤ hi) (q : K) (hq : q ≠ 0)
    (kind k : String) (hk : kindUsed db.g.length kind = some k) :
    (k = "lagrange" ∨ db.B / q ≤ lo - 1 / 1000 ∨ lo - 1 / 1000000 < db.B / q →
      ∃ a, (request spl db q kind {}).1 = .ok a ∧ a.g.length = db.logTime.length ∧
        (∀ i < db.logTime.length,
          a.g[i]? = some (spl k (db.g.map Prod.fst) (db.g.map fun e => e.2.getD i 0) a.Heq)) ∧
        a.rb = spl k (db.g.map Prod.fst) (db.rb.map Prod.snd) a.Heq ∧
        a.D = some (spl k (db.g.map Prod.fst) (db.D.map Prod.snd) a.Heq) ∧
        |a.Heq - db.B / q| < 1 / 1000000 ∧
        (a.warned = true ↔ db.B / q ≤ lo - 1 / 1000 ∨ hi + 1 / 1000000 ≤ db.B / q)) ∧
    (k ≠ "lagrange" → lo - 1 / 1000 < db.B / q → db.B / q ≤ lo - 1 / 1000000 →
      (request spl db q kind {}).1 = .error .valueError) := by
  have p : (0 : K) < 1 / 1000000 := by norm_num
  have p' : (1 : K) / 1000000 < 1 / 1000 := by norm_num
  have hle : lo ≤ hi := by linarith
  rw [requestK_eq hv hr hq hk, if_pos (by simp)]
  dsimp only
  constructor
  · intro hc
    have hread : k = "lagrange" ∨ extFlag lo hi (db.B / q) = true ∨
        lo ≤ snap lo hi (db.B / q) ∧ snap lo hi (db.B / q) ≤ hi := by
      rcases hc with h | h | h
      · exact .inl h
      · exact .inr (.inl ((extFlag_eq hsep).2 (.inl h)))
      · by_cases h2 : db.B / q < hi + 1 / 1000000
        · exact .inr (.inr (snap_mem hle h h2))
        · exact .inr (.inl ((extFlag_eq hsep).2 (.inr (not_lt.1 h2))))
    refine ⟨_, readTableK_ok hr hread, by simp [answerK], ?_, rfl, rfl, ?_, extFlag_eq hsep⟩
    · intro i hi
      simp [answerK, hi, column, PyDict.keys, PyDict.values, Function.comp_def]
    · show |snap lo hi (db.B / q) - db.B / q| < _
      unfold snap
      dsimp only
      by_cases c1 : |db.B / q - hi| < 1 / 1000000
      · rw [if_pos c1, if_neg, abs_sub_comm]
        · exact c1
        · rw [not_lt, abs_of_nonneg (by linarith)]; linarith
      · rw [if_neg c1]
        by_cases c2 : |db.B / q - lo| < 1 / 1000000
        · rw [if_pos c2, abs_sub_comm]; exact c2
        · rw [if_neg c2, sub_self, abs_zero]; exact p
  · intro hl h1 h2
    have hext : extFlag lo hi (db.B / q) = false := by
      rw [← Bool.not_eq_true, extFlag_eq hsep]
      rintro (h | h) <;> linarith
    rw [hext, snap_below hle h2]
    exact readTableK_error hr hl (.inl (by linarith))

theorem request_zero (spl : String → List K → List K → K → K) (db : DB K) (r : K × String)
    (t : Table K) (h : r.1 = 0) : (request spl db r.1 r.2 t).2 = t := by
  unfold request
  rw [h, St.lift_error (show pyDiv (1 : K) 0 = .error .zeroDivisionError by simp [pyDiv])]

theorem tableAfterAll_refused {spl : String → List K → List K → K → K} {db : DB K} (hv : Valid db)
    (pre : List (K × String)) (hpre : ∀ r ∈ pre, r.1 = 0 ∨ kindUsed db.g.length r.2 = none) :
    tableAfterAll spl db pre = {} := by
  unfold tableAfterAll
  induction pre with
  | nil => rfl
  | cons r pre ih =>
    have hx : (request spl db r.1 r.2 ({} : Table K)).2 = {} := by
      by_cases h0 : r.1 = 0
      · exact request_zero spl db r _ h0
      · rcases hpre r (by simp) with h | h
        · exact absurd h h0
        · rw [C108_unknown spl db hv.two _ h0 _ h]
    rw [List.foldl_cons, hx]
    exact ih fun x hx => hpre x (by simp [hx])

theorem exists_first_bad {α : Type} (p : α → Prop) (l : List α) (h : ¬ ∀ r ∈ l, p r) :
    ∃ pre x rest, l = pre ++ x :: rest ∧ (∀ r ∈ pre, p r) ∧ ¬ p x := by
  induction l with
  | nil => exact absurd (by simp) h
  | cons a l ih =>
    by_cases ha : p a
    · obtain ⟨pre, x, rest, rfl, h1, h2⟩ := ih fun hl => h (by
        intro r hr
        rcases List.mem_cons.1 hr with rfl | hr
        · exact ha
        · exact hl r hr)
      refine ⟨a :: pre, x, rest, rfl, ?_, h2⟩
      intro r hr
      rcases List.mem_cons.1 hr with rfl | hr
      · exact ha
      · exact h1 r hr
    · exact ⟨[], a, l, rfl, by simp, ha⟩

/-- The table is settled by the first request that is not refused: requests at `B/H = 0` or with an
unknown kind come before it without effect, and no later request changes it. -/
theorem tableAfterAll_eq {spl : String → List K → List K → K → K} {db : DB K} {lo hi : K}
    (hv : Valid db) (hr : Range db lo hi) (pre : List (K × String))
    (hpre : ∀ r ∈ pre, r.1 = 0 ∨ kindUsed db.g.length r.2 = none) (f : K) (hf : f ≠ 0)
    (kf k : String) (hk : kindUsed db.g.length kf = some k) (rest : List (K × String)) :
    tableAfterAll spl db (pre ++ (f, kf) :: rest) = tableK db k (extFlag lo hi (db.B / f)) := by
  have h1 := tableAfterAll_refused (spl := spl) hv pre hpre
  unfold tableAfterAll at h1 ⊢
  rw [List.foldl_append]
  rw [h1, List.foldl_cons, requestK_eq hv hr hf hk, if_pos (by simp)]
  dsimp only
  induction rest with
  | nil => rfl
  | cons r rest ih =>
    rw [List.foldl_cons]
    have hx : ∀ t : Table K, t.g.isNone ≠ true → (request spl db r.1 r.2 t).2 = t := by
      intro t ht
      by_cases h0 : r.1 = 0
      · exact request_zero spl db r _ h0
      · cases hkr : kindUsed db.g.length r.2 with
        | none => rw [C108_unknown spl db hv.two _ h0 _ hkr]
        | some kr => rw [requestK_eq hv hr h0 hkr, if_neg ht]
    rw [hx _ (by simp [tableK])]
    exact ih

/-- C108: the kind of the first request that was not refused decides for good.  After it, and
whatever else was asked before or since, the kind named by a request no longer matters (as long as it
is a known one): inside the stored range the answer is that of a fresh object asked with the *first*
kind.  Beyond the range it is that too if the first kind was `lagrange` or the first request was
itself beyond the range; otherwise the request is refused with `ValueError`. -/
theorem C108_later (spl : String → List K → List K → K → K) (db : DB K) (hv : Valid db)
    (lo hi : K) (hr : Range db lo hi) (hsep : lo + 1 / 1000 ≤ hi) (pre : List (K × String))
    (hpre : ∀ r ∈ pre, r.1 = 0 ∨ kindUsed db.g.length r.2 = none) (f : K) (hf : f ≠ 0)
    (kf k : String) (hk : kindUsed db.g.length kf = some k) (rest : List (K × String)) (q : K)
    (hq : q ≠ 0) (kind : String) (hkind : kindUsed db.g.length kind ≠ none) :
    (k = "lagrange" ∨ (lo - 1 / 1000000 < db.B / q ∧ db.B / q < hi + 1 / 1000000) ∨
      ((db.B / f ≤ lo - 1 / 1000 ∨ hi + 1 / 1000000 ≤ db.B / f) ∧
        (db.B / q ≤ lo - 1 / 1000 ∨ hi + 1 / 1000000 ≤ db.B / q)) →
      (request spl db q kind (tableAfterAll spl db (pre ++ (f, kf) :: rest))).1 =
        (request spl db q kf {}).1) ∧
    (k ≠ "lagrange" → lo - 1 / 1000 < db.B / f → db.B / f < hi + 1 / 1000000 →
      (db.B / q ≤ lo - 1 / 1000000 ∨ hi + 1 / 1000000 ≤ db.B / q) →
      (request spl db q kind (tableAfterAll spl db (pre ++ (f, kf) :: rest))).1 =
        .error .valueError) := by
  have p : (0 : K) < 1 / 1000000 := by norm_num
  have hle : lo ≤ hi := by
    have : (0 : K) < 1 / 1000 := by norm_num
    linarith
  obtain ⟨k', hk'⟩ := Option.ne_none_iff_exists'.1 hkind
  rw [tableAfterAll_eq hv hr pre hpre f hf kf k hk rest, requestK_eq hv hr hq hk',
    if_neg (by simp [tableK]), requestK_eq hv hr hq hk, if_pos (by simp)]
  dsimp only
  constructor
  · rintro (h | ⟨h1, h2⟩ | ⟨h1, h2⟩)
    · rw [readTableK_ok hr (.inl h), readTableK_ok hr (.inl h)]
    · have := snap_mem hle h1 h2
      rw [readTableK_ok hr (.inr (.inr this)), readTableK_ok hr (.inr (.inr this))]
    · rw [(extFlag_eq hsep).2 h1, (extFlag_eq hsep).2 h2]
  · intro hl h1 h2 h3
    have hext : extFlag lo hi (db.B / f) = false := by
      rw [← Bool.not_eq_true, extFlag_eq hsep]
      rintro (h | h) <;> linarith
    rw [hext]
    refine readTableK_error hr hl ?_
    rcases h3 with h | h
    · rw [snap_below hle h]; left; linarith
    · rw [snap_above hle h]; right; linarith

theorem answerK_stored {spl : String → List K → List K → K → K} (hs : Reproduces spl) {db : DB K}
    (hv : Valid db) {k : String} {h r d : K} {c : List K} (hg : (h, c) ∈ db.g) (hr : (h, r) ∈ db.rb)
    (hd : (h, d) ∈ db.D) (w : Bool) : answerK spl db k h w = ⟨c, r, some d, h, w⟩ := by
  obtain ⟨j, hj, e⟩ := List.getElem_of_mem hg
  have ej : db.g[j]? = some (h, c) := by rw [List.getElem?_eq_getElem hj, e]
  have ek : (PyDict.keys db.g)[j]? = some h := by
    unfold PyDict.keys; rw [List.getElem?_map, ej]; rfl
  have hc := hv.len _ hg
  simp only at hc
  unfold answerK
  congr 1
  · apply List.ext_getElem
    · simp [hc]
    · intro i h1 h2
      simp only [List.getElem_map, List.getElem_range]
      exact hs _ _ _ hv.nodup (by simp [column, PyDict.keys, PyDict.values]) j _ _ ek
        (getElem?_column db j i ej h2)
  · refine hs _ _ _ hv.nodup ?_ j _ _ ek (getElem?_values hv.rb hv.nodup ej hr)
    rw [← hv.rb]; simp [PyDict.keys, PyDict.values]
  · congr 1
    refine hs _ _ _ hv.nodup ?_ j _ _ ek (getElem?_values hv.D hv.nodup ej hd)
    rw [← hv.D]; simp [PyDict.keys, PyDict.values]

/-- C108: a request for a stored height with any known kind returns the stored curve, radius and
burial depth, on a fresh object and after any requests of any kinds, as long as the interpolation
formulas pass through their nodes. -/
theorem C108_stored (spl : String → List K → List K → K → K) (hs : Reproduces spl) (db : DB K)
    (hv : Valid db) (hB : db.B ≠ 0) (hist : List (K × String))
    (hsep : ∀ a ∈ PyDict.keys db.g, ∀ b ∈ PyDict.keys db.g, a ≠ b → 1 / 1000000 ≤ |a - b|)
    (h r d : K) (c : List K) (hg : (h, c) ∈ db.g) (hr : (h, r) ∈ db.rb) (hd : (h, d) ∈ db.D)
    (h0 : h ≠ 0) (kind : String) (hkind : kindUsed db.g.length kind ≠ none) :
    (request spl db (db.B / h) kind (tableAfterAll spl db hist)).1 =
      .ok ⟨c, r, some d, h, false⟩ := by
  have hne : PyDict.keys db.g ≠ [] := by
    intro e
    have : (PyDict.keys db.g).length = db.g.length := by simp [PyDict.keys]
    rw [e] at this
    have := hv.two
    simp at *; omega
  have hmem : h ∈ PyDict.keys db.g := List.mem_map.2 ⟨_, hg, rfl⟩
  obtain ⟨hi, hhi⟩ := pyMax_ok_of_ne_nil hne
  obtain ⟨lo, hlo⟩ := pyMin_ok_of_ne_nil hne
  obtain ⟨m1, m2⟩ := pyMax_eq_ok hhi
  obtain ⟨m3, m4⟩ := pyMin_eq_ok hlo
  have hrng : Range db lo hi := ⟨m3, m1, fun x hx => ⟨m4 x hx, m2 x hx⟩⟩
  have hq : db.B / h ≠ 0 := div_ne_zero hB h0
  have e : db.B / (db.B / h) = h := by field_simp
  have hsn : snap lo hi h = h := snap_stored (hsep h hmem lo m3) (hsep h hmem hi m1)
    ((eq_or_ne lo hi).imp_right fun hn => hsep hi m1 lo m3 hn.symm)
  have hin : lo ≤ h ∧ h ≤ hi := hrng.bounds h hmem
  have hext : extFlag lo hi h = false := by unfold extFlag; rw [hsn, if_pos hin]
  obtain ⟨k, hk⟩ := Option.ne_none_iff_exists'.1 hkind
  have hfin : ∀ k' ext, readTable spl db h false (tableK db k' ext) =
      .ok ⟨c, r, some d, h, false⟩ := by
    intro k' ext
    rw [readTableK_ok hrng (.inr (.inr hin)), answerK_stored hs hv hg hr hd]
  rw [requestK_eq hv hrng hq hk, e, hsn, hext]
  have hcases : tableAfterAll spl db hist = {} ∨
      ∃ k' ext, tableAfterAll spl db hist = tableK db k' ext := by
    by_cases hall : ∀ r ∈ hist, r.1 = 0 ∨ kindUsed db.g.length r.2 = none
    · left
      have := tableAfterAll_refused (spl := spl) hv hist hall
      exact this
    · right
      obtain ⟨pre, x, rest, rfl, hp, hx⟩ := exists_first_bad
        (fun r : K × String => r.1 = 0 ∨ kindUsed db.g.length r.2 = none) hist hall
      obtain ⟨kx, hkx⟩ := Option.ne_none_iff_exists'.1 (not_or.1 hx).2
      exact ⟨kx, _, tableAfterAll_eq hv hrng pre hp x.1 (not_or.1 hx).1 x.2 kx hkx rest⟩
  rcases hcases with h | ⟨k', ext, h⟩
  · rw [h, if_pos (by simp)]; exact hfin _ _
  · rw [h, if_neg (by simp [tableK])]; exact hfin _ _

/-- a three-curve database -/
def exDB3 : DB ℚ where
  B := 5
  rb := [(50, 1 / 10), (75, 1 / 10), (100, 1 / 10)]
  D := [(50, 2), (75, 2), (100, 2)]
  g := [(50, [1, 2]), (75, [2, 3]), (100, [4, 5])]
  logTime := [-2, 0]
  locations := [(0, 0), (0, 5), (5, 5)]

theorem exDB3_valid : Valid exDB3 where
  two := by decide
  nodup := by decide +kernel
  len := by decide +kernel
  rb := by decide +kernel
  D := by decide +kernel

theorem exDB3_range : Range exDB3 50 100 where
  lo_mem := by decide +kernel
  hi_mem := by decide +kernel
  bounds := by decide +kernel

/-- stand-in for the formulas: the number tells which one was used -/
def tagSpl (kind : String) (_ _ : List ℚ) (_ : ℚ) : ℚ :=
  if kind = "linear" then 1 else if kind = "quadratic" then 2 else if kind = "cubic" then 3 else 4

/-- three curves: `cubic` is reduced to `quadratic`; after `linear`, `cubic` gives the linear answer -/
example : (request tagSpl exDB3 (5 / 60) "cubic" {}).1 = .ok ⟨[2, 2], 2, some 2, 60, false⟩ ∧
    (request tagSpl exDB3 (5 / 60) "cubic"
      (tableAfterAll tagSpl exDB3 [(1, "spline"), (0, "cubic"), (5 / 70, "linear")])).1 =
      .ok ⟨[1, 1], 1, some 1, 60, false⟩ ∧
    (request tagSpl exDB3 (5 / 200) "lagrange"
      (tableAfterAll tagSpl exDB3 [(5 / 70, "linear")])).1 = .error .valueError ∧
    (request tagSpl exDB3 (5 / 200) "linear"
      (tableAfterAll tagSpl exDB3 [(5 / 70, "lagrange")])).1 = .ok ⟨[4, 4], 4, some 4, 200, true⟩ ∧
    (request tagSpl exDB3 (5 / 60) "spline" {}).1 = .error .keyError := by
  decide +kernel

example : (request tagSpl exDB3 (5 / 60) "cubic"
    (tableAfterAll tagSpl exDB3 ([(1, "spline"), (0, "cubic")] ++ (5 / 70, "linear") ::
      [(1, "lagrange")]))).1 = (request tagSpl exDB3 (5 / 60) "linear" {}).1 :=
  (C108_later tagSpl exDB3 exDB3_valid 50 100 exDB3_range (by norm_num) _ (by decide +kernel)
    (5 / 70) (by norm_num) "linear" "linear" (by decide +kernel) _ (5 / 60) (by norm_num) "cubic"
    (by decide +kernel)).1 (.inr (.inl ⟨by norm_num [exDB3], by norm_num [exDB3]⟩))

example : (request lagrangeSpl exDB3 (exDB3.B / 75) "cubic"
    (tableAfterAll lagrangeSpl exDB3 [(1, "spline"), (0, "cubic"), (1, "linear")])).1 =
    .ok ⟨[2, 3], 1 / 10, some 2, 75, false⟩ :=
  C108_stored lagrangeSpl lagrangeSpl_reproduces exDB3 exDB3_valid (by decide +kernel) _
    (by decide +kernel) 75 (1 / 10) 2 [2, 3] (by decide +kernel) (by decide +kernel)
    (by decide +kernel) (by decide +kernel) "cubic" (by decide +kernel)

/-! ### The theorems applied to `exDB` and `exDB3` -/

example := C108_single tagSpl { exDB with g := [(50, [1, 2, 3])] } 50 [1, 2, 3] rfl (5 / 75) (by norm_num) "linear"
  (by decide) {}
example := C108_first tagSpl exDB3 exDB3_valid 50 100 exDB3_range (by norm_num) (5 / 60) (by norm_num) "lagrange" "lagrange"
  (by decide)
example := C108_first tagSpl exDB3 exDB3_valid 50 100 exDB3_range (by norm_num) (5 / 60) (by norm_num) "cubic" "quadratic"
  (by decide)

end Ghedt.GF
