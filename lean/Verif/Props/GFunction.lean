import Verif.Lemmas.GFunction
import Mathlib.LinearAlgebra.Lagrange
import Mathlib.Analysis.SpecialFunctions.Log.Basic

/-!
# Properties of `gfunction.py` (C47–C51, C80, C81)

A database (`DB`) stores g-function curves keyed by height.  A request is a `B/H` ratio `q`; it stands
for the height `db.B / q`.  `tableAfter spl db hist` is the interpolation table after the requests
`hist` were made, in order, on a fresh object.
-/

set_option linter.unusedSectionVars false

namespace Ghedt.GF

variable {K : Type} [Field K] [LinearOrder K] [IsStrictOrderedRing K]

/-- What is assumed of the interpolation formulas: they pass through their nodes. -/
def Reproduces (spl : String → List K → List K → K → K) : Prop :=
  ∀ (kind : String) (x y : List K), x.Nodup → x.length = y.length →
    ∀ (i : ℕ) (a b : K), x[i]? = some a → y[i]? = some b → spl kind x y a = b

/-- Lagrange's formula passes through its nodes: the assumption is met by a polynomial of the
degree the code uses, for every kind. -/
noncomputable def lagrangeSpl (_kind : String) (x y : List K) (h : K) : K :=
  (Lagrange.interpolate (Finset.range x.length) (fun i => x.getD i 0) (fun i => y.getD i 0)).eval h

theorem lagrangeSpl_reproduces : Reproduces (lagrangeSpl (K := K)) := by
  intro kind x y hx hl i a b ha hb
  have hi : i < x.length := by
    by_contra h
    rw [List.getElem?_eq_none (by omega)] at ha; cases ha
  unfold lagrangeSpl
  have hinj : Set.InjOn (fun i => x.getD i 0) (Finset.range x.length : Set ℕ) := by
    intro p hp q hq hpq
    simp only [Finset.coe_range, Set.mem_Iio] at hp hq
    simp only [List.getD_eq_getElem?_getD, List.getElem?_eq_getElem hp,
      List.getElem?_eq_getElem hq, Option.getD_some] at hpq
    exact (List.Nodup.getElem_inj_iff hx).1 hpq
  have := Lagrange.eval_interpolate_at_node (s := Finset.range x.length)
    (v := fun i => x.getD i 0) (r := fun i => y.getD i 0) hinj (Finset.mem_range.2 hi)
  simp only [List.getD_eq_getElem?_getD, ha, hb, Option.getD_some] at this ⊢
  exact this

/-! ## C47 — stored curves -/

/-- C47: with exactly one stored curve (positive height) every nonzero request is answered by that
curve, whatever height it stands for: the `ValueError` of the guard is never raised. -/
theorem C47_single (spl : String → List K → List K → K → K) (db : DB K) (h : K) (c : List K)
    (r d q : K) (hg : db.g = [(h, c)]) (hh : 0 < h) (hrb : PyDict.find? db.rb h = some r)
    (hD : PyDict.find? db.D h = some d) (hq : q ≠ 0) (t : Table K) :
    ∃ Heq w, request spl db q "default" t = (.ok ⟨c, r, some d, Heq, w⟩, t) := by
  have hkeys : PyDict.keys db.g = [h] := by rw [hg]; rfl
  have hmax : pyMax [h] = .ok h := rfl
  have hmin : pyMin [h] = .ok h := rfl
  unfold request
  rw [St.lift_ok (pyDiv_ok hq), hkeys]
  simp only
  rw [St.lift_ok hmax, St.lift_ok hmin]
  generalize hH : (if |(if |1 / q * db.B - h| < 1 / 1000000 then h else 1 / q * db.B) - h| <
    1 / 1000000 then h else if |1 / q * db.B - h| < 1 / 1000000 then h else 1 / q * db.B) = H
  rw [if_pos (by simp), St.lift_ok (show pyGet [h] 0 = .ok h from rfl),
    St.lift_ok (pyDiv_ok hh.ne')]
  rw [if_pos]
  · have e1 : PyDict.get db.g h = .ok c := by rw [hg]; simp [PyDict.get, PyDict.find?]
    have e2 : PyDict.get db.rb h = .ok r := by unfold PyDict.get; rw [hrb]
    have e3 : PyDict.get db.D h = .ok d := by unfold PyDict.get; rw [hD]
    rw [St.lift_ok e1, St.lift_ok e2, St.lift_ok e3]
    exact ⟨_, _, rfl⟩
  · by_cases hc : (H - h) / h < 1 / 1000
    · exact .inl hc
    · right
      rw [not_lt, div_le_div_iff₀ (by norm_num) hh] at hc
      linarith

theorem getElem?_column (db : DB K) (j i : ℕ) {e : K × List K} (he : db.g[j]? = some e)
    (hi : i < e.2.length) : (column db i)[j]? = some e.2[i] := by
  unfold column PyDict.values
  rw [List.getElem?_map, List.getElem?_map, he]
  simp [hi]

/-- index of a key in a dictionary with the same keys -/
theorem getElem?_values {β γ : Type} {d : PyDict K β} {d' : PyDict K γ}
    (hk : PyDict.keys d' = PyDict.keys d) (hn : (PyDict.keys d).Nodup) {j : ℕ} {k : K} {v : β}
    {v' : γ} (h1 : d[j]? = some (k, v)) (h2 : (k, v') ∈ d') :
    (PyDict.values d')[j]? = some v' := by
  obtain ⟨j', hj', e⟩ := List.getElem_of_mem h2
  have hj : j < d.length := by
    by_contra h
    rw [List.getElem?_eq_none (by omega)] at h1; cases h1
  have e1 : (PyDict.keys d)[j]? = some k := by unfold PyDict.keys; rw [List.getElem?_map, h1]; rfl
  have e2 : (PyDict.keys d)[j']? = some k := by
    rw [← hk]; unfold PyDict.keys
    rw [List.getElem?_map, List.getElem?_eq_getElem hj', e]; rfl
  have hl : j' < (PyDict.keys d).length := by
    by_contra h
    rw [List.getElem?_eq_none (by omega)] at e2; cases e2
  have hjj : j' = j := by
    rw [← e1] at e2
    exact (List.getElem?_inj hl hn).1 e2
  subst hjj
  unfold PyDict.values
  rw [List.getElem?_map, List.getElem?_eq_getElem hj', e]; rfl

theorem answerAt_stored {spl : String → List K → List K → K → K} (hs : Reproduces spl) {db : DB K}
    (hv : Valid db) {h r d : K} {c : List K} (hg : (h, c) ∈ db.g) (hr : (h, r) ∈ db.rb)
    (hd : (h, d) ∈ db.D) (w : Bool) : answerAt spl db h w = ⟨c, r, some d, h, w⟩ := by
  obtain ⟨j, hj, e⟩ := List.getElem_of_mem hg
  have ej : db.g[j]? = some (h, c) := by rw [List.getElem?_eq_getElem hj, e]
  have ek : (PyDict.keys db.g)[j]? = some h := by
    unfold PyDict.keys; rw [List.getElem?_map, ej]; rfl
  have hlen : (PyDict.keys db.g).length = db.g.length := by simp [PyDict.keys]
  have hc := hv.len _ hg
  simp only at hc
  unfold answerAt
  congr 1
  · apply List.ext_getElem
    · simp [hc]
    · intro i h1 h2
      simp only [List.getElem_map, List.getElem_range]
      exact hs _ _ _ hv.nodup (by simp [column, PyDict.keys, PyDict.values]) j _ _ ek
        (getElem?_column db j i ej h2)
  · refine hs _ _ _ hv.nodup ?_ j _ _ ek (getElem?_values hv.rb hv.nodup ej hr)
    rw [← hv.rb]; simp [PyDict.keys, PyDict.values]
  · congr 1
    refine hs _ _ _ hv.nodup ?_ j _ _ ek (getElem?_values hv.D hv.nodup ej hd)
    rw [← hv.D]; simp [PyDict.keys, PyDict.values]

theorem snap_stored {lo hi h : K} (hlo : h ≠ lo → 1 / 1000000 ≤ |h - lo|)
    (hhi : h ≠ hi → 1 / 1000000 ≤ |h - hi|) (hle : lo = hi ∨ 1 / 1000000 ≤ |hi - lo|) :
    snap lo hi h = h := by
  unfold snap
  dsimp only
  by_cases h1 : h = hi
  · subst h1
    rw [if_pos (show |h - h| < 1 / 1000000 by rw [sub_self, abs_zero]; norm_num)]
    rcases hle with e | e
    · subst e; simp
    · rw [if_neg (not_lt.2 e)]
  · rw [if_neg (not_lt.2 (hhi h1))]
    by_cases h2 : h = lo
    · subst h2; simp
    · rw [if_neg (not_lt.2 (hlo h2))]

/-- C47: a request for a stored height returns the stored curve, radius and burial depth, without the
extrapolation warning, after any history of nonzero requests, whatever the interpolation formulas, as
long as they pass through their nodes.  (Stored heights at least `1e-6` apart; closer ones are
identified by the code.) -/
theorem C47_stored (spl : String → List K → List K → K → K) (hs : Reproduces spl) (db : DB K)
    (hv : Valid db) (hB : db.B ≠ 0) (hist : List K) (hh : ∀ r ∈ hist, r ≠ 0)
    (hsep : ∀ a ∈ PyDict.keys db.g, ∀ b ∈ PyDict.keys db.g, a ≠ b → 1 / 1000000 ≤ |a - b|)
    (h r d : K) (c : List K) (hg : (h, c) ∈ db.g) (hr : (h, r) ∈ db.rb) (hd : (h, d) ∈ db.D)
    (h0 : h ≠ 0) :
    (request spl db (db.B / h) "default" (tableAfter spl db hist)).1 =
      .ok ⟨c, r, some d, h, false⟩ := by
  have hne : PyDict.keys db.g ≠ [] := by
    intro e
    have : (PyDict.keys db.g).length = db.g.length := by simp [PyDict.keys]
    rw [e] at this
    have := hv.two
    simp at *; omega
  have hmem : h ∈ PyDict.keys db.g := List.mem_map.2 ⟨_, hg, rfl⟩
  obtain ⟨hi, hhi⟩ := pyMax_ok_of_ne_nil hne
  obtain ⟨lo, hlo⟩ := pyMin_ok_of_ne_nil hne
  obtain ⟨m1, m2⟩ := pyMax_eq_ok hhi
  obtain ⟨m3, m4⟩ := pyMin_eq_ok hlo
  have hrng : Range db lo hi := ⟨m3, m1, fun x hx => ⟨m4 x hx, m2 x hx⟩⟩
  have hq : db.B / h ≠ 0 := div_ne_zero hB h0
  have e : db.B / (db.B / h) = h := by field_simp
  have hsn : snap lo hi h = h := snap_stored (hsep h hmem lo m3) (hsep h hmem hi m1)
    ((eq_or_ne lo hi).imp_right fun hn => hsep hi m1 lo m3 hn.symm)
  have hin : lo ≤ h ∧ h ≤ hi := hrng.bounds h hmem
  have hext : extFlag lo hi h = false := by unfold extFlag; rw [hsn, if_pos hin]
  rw [request_eq hv hrng hq, e, hsn, hext]
  have hfin : ∀ ext, readTable spl db h false (tableOf db ext) = .ok ⟨c, r, some d, h, false⟩ := by
    intro ext
    rw [readTable_ok hrng (.inr hin), answerAt_stored hs hv hg hr hd]
  cases hist with
  | nil => rw [if_pos (by simp [tableAfter])]; exact hfin _
  | cons q hist =>
    rw [tableAfter_eq hv hrng q hist (hh q (by simp)) fun r hr => hh r (by simp [hr]),
      if_neg (by simp [tableOf])]
    exact hfin _

/-! ## C48, C80 — history -/

/-- C48: a request whose height is inside the stored range (with the code's tolerance of `1e-6`) is
answered without warning, and its answer does not depend on the requests made before. -/
theorem C48_in_range (spl : String → List K → List K → K → K) (db : DB K) (hv : Valid db)
    (lo hi : K) (hr : Range db lo hi) (hist : List K) (hh : ∀ r ∈ hist, r ≠ 0) (q : K) (hq : q ≠ 0)
    (h1 : lo - 1 / 1000000 < db.B / q) (h2 : db.B / q < hi + 1 / 1000000) :
    (request spl db q "default" (tableAfter spl db hist)).1 =
      (request spl db q "default" {}).1 ∧
    ∃ a, (request spl db q "default" {}).1 = .ok a ∧ a.warned = false ∧ lo ≤ a.Heq ∧ a.Heq ≤ hi ∧
      |a.Heq - db.B / q| < 2 / 1000000 ∧ (lo ≤ db.B / q - 1 / 1000000 →
        db.B / q + 1 / 1000000 ≤ hi → a.Heq = db.B / q) := by
  have hle : lo ≤ hi := (hr.bounds lo hr.lo_mem).2
  have hin := snap_mem hle h1 h2
  have hext : extFlag lo hi (db.B / q) = false := by unfold extFlag; rw [if_pos hin]
  have hempty : (request spl db q "default" {}).1 =
      .ok (answerAt spl db (snap lo hi (db.B / q)) false) := by
    rw [request_eq hv hr hq, if_pos (by simp), hext]
    exact readTable_ok hr (.inr hin)
  refine ⟨?_, _, hempty, rfl, hin.1, hin.2, ?_, ?_⟩
  · rw [hempty]
    cases hist with
    | nil => exact hempty
    | cons r hist =>
      rw [tableAfter_eq hv hr r hist (hh r (by simp)) fun x hx => hh x (by simp [hx]),
        request_eq hv hr hq, if_neg (by simp [tableOf]), hext]
      exact readTable_ok hr (.inr hin)
  · show |snap lo hi (db.B / q) - db.B / q| < _
    have p : (0 : K) < 1 / 1000000 := by norm_num
    unfold snap
    dsimp only
    by_cases c1 : |db.B / q - hi| < 1 / 1000000
    · rw [if_pos c1]
      rw [abs_lt] at c1
      by_cases c2 : |hi - lo| < 1 / 1000000
      · rw [if_pos c2]
        rw [abs_lt] at c2
        rw [abs_lt]
        constructor <;> linarith
      · rw [if_neg c2, abs_lt]
        constructor <;> linarith
    · rw [if_neg c1]
      by_cases c2 : |db.B / q - lo| < 1 / 1000000
      · rw [if_pos c2]
        rw [abs_lt] at c2
        rw [abs_lt]
        constructor <;> linarith
      · rw [if_neg c2, sub_self, abs_zero]; linarith
  · intro h3 h4
    show snap lo hi (db.B / q) = db.B / q
    have p : (0 : K) < 1 / 1000000 := by norm_num
    unfold snap
    dsimp only
    have e1 : ¬ |db.B / q - hi| < 1 / 1000000 := by
      rw [not_lt, abs_of_nonpos (by linarith)]; linarith
    rw [if_neg e1, if_neg]
    rw [not_lt, abs_of_nonneg (by linarith)]; linarith

/-- C48: a request beyond the stored range is answered (by extrapolation, with a warning) when no
request was made before. -/
theorem C48_out_of_range_first (spl : String → List K → List K → K → K) (db : DB K) (hv : Valid db)
    (lo hi : K) (hr : Range db lo hi) (hsep : lo + 1 / 1000 ≤ hi) (q : K) (hq : q ≠ 0)
    (hout : db.B / q ≤ lo - 1 / 1000 ∨ hi + 1 / 1000000 ≤ db.B / q) :
    ∃ a, (request spl db q "default" {}).1 = .ok a ∧ a.warned = true ∧ a.Heq = db.B / q := by
  have hext : extFlag lo hi (db.B / q) = true := (extFlag_eq hsep).2 hout
  have hle : lo ≤ hi := (hr.bounds lo hr.lo_mem).2
  rw [request_eq hv hr hq, if_pos (by simp), hext]
  refine ⟨_, readTable_ok hr (.inl rfl), rfl, ?_⟩
  rcases hout with h | h
  · exact snap_below hle (by
      have : (1 : K) / 1000000 ≤ 1 / 1000 := by norm_num
      linarith)
  · exact snap_above hle h

/-- C48: the same request raises `ValueError` once the first request made was inside the range, and
is answered as on a fresh object once the first request made was itself beyond the range. -/
theorem C48_out_of_range_later (spl : String → List K → List K → K → K) (db : DB K) (hv : Valid db)
    (lo hi : K) (hr : Range db lo hi) (hsep : lo + 1 / 1000 ≤ hi) (f : K) (hist : List K)
    (hf : f ≠ 0) (hh : ∀ r ∈ hist, r ≠ 0) (q : K) (hq : q ≠ 0)
    (hout : db.B / q ≤ lo - 1 / 1000 ∨ hi + 1 / 1000000 ≤ db.B / q) :
    (lo - 1 / 1000 < db.B / f → db.B / f < hi + 1 / 1000000 →
      (request spl db q "default" (tableAfter spl db (f :: hist))).1 = .error .valueError) ∧
    (db.B / f ≤ lo - 1 / 1000 ∨ hi + 1 / 1000000 ≤ db.B / f →
      (request spl db q "default" (tableAfter spl db (f :: hist))).1 =
        (request spl db q "default" {}).1) := by
  have hle : lo ≤ hi := (hr.bounds lo hr.lo_mem).2
  have p : (0 : K) < 1 / 1000000 := by norm_num
  have p' : (1 : K) / 1000000 ≤ 1 / 1000 := by norm_num
  have hsn : snap lo hi (db.B / q) = db.B / q := by
    rcases hout with h | h
    · exact snap_below hle (by linarith)
    · exact snap_above hle h
  rw [tableAfter_eq hv hr f hist hf hh, request_eq hv hr hq, if_neg (by simp [tableOf]),
    request_eq hv hr hq, if_pos (by simp)]
  constructor
  · intro h1 h2
    have hext : extFlag lo hi (db.B / f) = false := by
      by_contra h
      rw [Bool.not_eq_false, extFlag_eq hsep] at h
      rcases h with h | h <;> linarith
    rw [hext, hsn]
    exact readTable_error hr (by
      rcases hout with h | h
      · left; linarith
      · right; linarith)
  · intro h
    have h1 : extFlag lo hi (db.B / f) = true := (extFlag_eq hsep).2 h
    have h2 : extFlag lo hi (db.B / q) = true := (extFlag_eq hsep).2 hout
    rw [h1, h2]

/-- C80: a request that stands for a height just below the smallest stored one (by more than `1e-6`
but less than `1e-3`) is not extrapolated: on a fresh object it raises `ValueError`. -/
theorem C80_gap (spl : String → List K → List K → K → K) (db : DB K) (hv : Valid db)
    (lo hi : K) (hr : Range db lo hi) (q : K) (hq : q ≠ 0)
    (h1 : lo - 1 / 1000 < db.B / q) (h2 : db.B / q ≤ lo - 1 / 1000000) :
    (request spl db q "default" {}).1 = .error .valueError := by
  have hle : lo ≤ hi := (hr.bounds lo hr.lo_mem).2
  have p : (0 : K) < 1 / 1000000 := by norm_num
  have hsn := snap_below hle h2
  have hext : extFlag lo hi (db.B / q) = false := by
    unfold extFlag
    rw [hsn, if_neg (by intro h; linarith [h.1]), abs_of_nonneg (by linarith), if_pos (by linarith)]
  rw [request_eq hv hr hq, if_pos (by simp), hext, hsn]
  exact readTable_error hr (.inl (by linarith))

/-- a two-curve database -/
def exDB : DB ℚ where
  B := 5
  rb := [(50, 1 / 10), (100, 2 / 10)]
  D := [(50, 2), (100, 4)]
  g := [(50, [1, 2, 3]), (100, [3, 4, 7])]
  logTime := [-2, 0, 2]
  locations := [(0, 0), (0, 5), (5, 5)]

theorem exDB_valid : Valid exDB where
  two := by decide
  nodup := by decide +kernel
  len := by decide +kernel
  rb := by decide +kernel
  D := by decide +kernel

theorem exDB_range : Range exDB 50 100 where
  lo_mem := by decide +kernel
  hi_mem := by decide +kernel
  bounds := by decide +kernel

/-- linear interpolation between two nodes -/
def exSpl (_ : String) (x y : List ℚ) (h : ℚ) : ℚ :=
  match x, y with
  | [a, b], [u, v] => u + (v - u) / (b - a) * (h - a)
  | _, _ => 0

/-- height 75 is interpolated, height 200 extrapolated on a fresh object, and rejected afterwards -/
example : (request exSpl exDB (5 / 75) "default" {}).1 =
      .ok ⟨[2, 3, 5], 3 / 20, some 3, 75, false⟩ ∧
    (request exSpl exDB (5 / 200) "default" {}).1 = .ok ⟨[7, 8, 15], 2 / 5, some 8, 200, true⟩ ∧
    (request exSpl exDB (5 / 200) "default" (tableAfter exSpl exDB [5 / 75])).1 =
      .error .valueError ∧
    (request exSpl exDB (5 / (50 - 1 / 2000)) "default" {}).1 = .error .valueError := by
  decide +kernel

example : (request lagrangeSpl exDB (exDB.B / 100) "default"
    (tableAfter lagrangeSpl exDB [1, 2, 1 / 20])).1 = .ok ⟨[3, 4, 7], 2 / 10, some 4, 100, false⟩ :=
  C47_stored lagrangeSpl lagrangeSpl_reproduces exDB exDB_valid (by decide +kernel) _
    (by decide +kernel) (by decide +kernel) 100 (2 / 10) 4 [3, 4, 7] (by decide +kernel)
    (by decide +kernel) (by decide +kernel) (by decide +kernel)

example : (request exSpl exDB (5 / 200) "default" (tableAfter exSpl exDB [5 / 75, 1, 2])).1 =
    .error .valueError :=
  (C48_out_of_range_later exSpl exDB exDB_valid 50 100 exDB_range (by norm_num) (5 / 75) [1, 2]
    (by norm_num) (by decide +kernel) (5 / 200) (by norm_num) (by right; norm_num [exDB])).1
    (by norm_num [exDB]) (by norm_num [exDB])

example : ∃ Heq w, request exSpl { exDB with g := [(50, [1, 2, 3])] } (5 / 10000) "default" {} =
    (.ok ⟨[1, 2, 3], 1 / 10, some 2, Heq, w⟩, {}) :=
  C47_single exSpl _ 50 [1, 2, 3] (1 / 10) 2 _ rfl (by norm_num) (by decide +kernel)
    (by decide +kernel) (by norm_num) _

/-! ## C49 — borehole radius correction -/

/-- C49: for positive radii the correction keeps the length, subtracts the same amount
`log(rb*/rb)` from every value, is the identity for equal radii, composes, and gives strictly
smaller values for a strictly larger radius. -/
theorem C49_radius (g : List ℝ) (r1 r2 r3 : ℝ) (h1 : 0 < r1) (h2 : 0 < r2) (h3 : 0 < r3) :
    ∃ a b, radiusCorrection Real.log g r1 r2 = .ok a ∧ a.length = g.length ∧
      (∀ (i : ℕ) (x y : ℝ), g[i]? = some x → a[i]? = some y → x - y = Real.log r2 - Real.log r1 ∧
        (r1 < r2 → y < x) ∧ (r2 < r1 → x < y)) ∧
      radiusCorrection Real.log g r1 r1 = .ok g ∧
      radiusCorrection Real.log a r2 r3 = .ok b ∧ radiusCorrection Real.log g r1 r3 = .ok b := by
  have key : ∀ (l : List ℝ) (r s : ℝ), 0 < r → 0 < s → radiusCorrection Real.log l r s =
      .ok (l.map fun v => v - (Real.log s - Real.log r)) := by
    intro l r s hr hs
    unfold radiusCorrection
    apply mapM_ok
    intro v _
    rw [pyDiv_ok hr.ne', Except.ok_bind, Real.log_div hs.ne' hr.ne']
    rfl
  refine ⟨_, _, key g r1 r2 h1 h2, by simp, ?_, ?_, key _ r2 r3 h2 h3, ?_⟩
  · intro i x y hx hy
    rw [List.getElem?_map, hx] at hy
    simp only [Option.map_some, Option.some.injEq] at hy
    subst hy
    refine ⟨by ring, fun h => ?_, fun h => ?_⟩
    · have := Real.log_lt_log h1 h; linarith
    · have := Real.log_lt_log h2 h; linarith
  · rw [key g r1 r1 h1 h1]; simp
  · rw [key g r1 r3 h1 h3, List.map_map]
    congr 1
    apply List.map_congr_left
    intro v _
    simp only [Function.comp]
    ring

/-- C49: an unknown current radius (zero) raises `ZeroDivisionError` (unless there is nothing to
correct). -/
theorem C49_zero_radius (g : List ℝ) (r : ℝ) (hg : g ≠ []) :
    radiusCorrection Real.log g 0 r = .error .zeroDivisionError := by
  cases g with
  | nil => exact absurd rfl hg
  | cons v g => unfold radiusCorrection; rw [List.mapM_cons, pyDiv_zero]; rfl

/-! ## C50 — scaling the field -/

/-- C50: `correct_coordinates(B)` multiplies every coordinate by `B/self.B`; distances between
boreholes scale by that ratio, so boreholes `self.B` apart end up `B` apart; with `B = self.B` nothing
changes; with `self.B = 0` it raises. -/
theorem C50_scaling (db : DB K) (B : K) :
    (db.B = 0 → correctCoordinates db B = .error .zeroDivisionError) ∧
    (db.B ≠ 0 → ∃ l, correctCoordinates db B = .ok l ∧
      l = db.locations.map (fun p => (p.1 * (B / db.B), p.2 * (B / db.B))) ∧
      (B = db.B → l = db.locations) ∧
      ∀ (i j : ℕ) (p q p' q' : K × K), db.locations[i]? = some p → db.locations[j]? = some q →
        l[i]? = some p' → l[j]? = some q' →
        (p'.1 - q'.1) ^ 2 + (p'.2 - q'.2) ^ 2 =
          (B / db.B) ^ 2 * ((p.1 - q.1) ^ 2 + (p.2 - q.2) ^ 2) ∧
        ((p.1 - q.1) ^ 2 + (p.2 - q.2) ^ 2 = db.B ^ 2 →
          (p'.1 - q'.1) ^ 2 + (p'.2 - q'.2) ^ 2 = B ^ 2)) := by
  constructor
  · intro h
    unfold correctCoordinates
    rw [h, pyDiv_zero]; rfl
  · intro h
    have hl : correctCoordinates db B =
        .ok (db.locations.map fun p => (p.1 * (B / db.B), p.2 * (B / db.B))) := by
      unfold correctCoordinates
      rw [pyDiv_ok h, Except.ok_bind]
      rw [Except.pure_eq]
      congr 1
      apply List.map_congr_left
      rintro ⟨x, y⟩ _
      simp only
      split_ifs with h1 h2
      · rw [h1.1, h1.2]; simp
      · rw [h2]; simp
      · rfl
    refine ⟨_, hl, rfl, ?_, ?_⟩
    · rintro rfl
      rw [div_self h]; simp
    · intro i j p q p' q' hp hq hp' hq'
      rw [List.getElem?_map, hp] at hp'
      rw [List.getElem?_map, hq] at hq'
      simp only [Option.map_some, Option.some.injEq] at hp' hq'
      subst hp' hq'
      have e : ((p.1 * (B / db.B)) - q.1 * (B / db.B)) ^ 2 +
          (p.2 * (B / db.B) - q.2 * (B / db.B)) ^ 2 =
          (B / db.B) ^ 2 * ((p.1 - q.1) ^ 2 + (p.2 - q.2) ^ 2) := by ring
      refine ⟨e, fun hd => ?_⟩
      simp only
      rw [e, hd, ← mul_pow, div_mul_cancel₀ _ h]

example : correctCoordinates exDB 10 = .ok [(0, 0), (0, 10), (10, 10)] := by decide +kernel

/-! ## C51 — importing a database -/

/-- A parsed database entry: spacing, height, radius, burial depth if given, curve. -/
structure Row (K : Type) where
  B : K
  h : K
  r : K
  D : Option K
  curve : List K

/-- The entry `e` (fields of the key, curve) reads as `row`: the first three fields are numbers; the
burial depth is the fourth field if there is one and it is a number. -/
structure Reads (toFloat : String → Py K) (e : List String × List K) (row : Row K) : Prop where
  fields : ∃ f0 f1 f2 rest, e.1 = f0 :: f1 :: f2 :: rest ∧ toFloat f0 = .ok row.B ∧
    toFloat f1 = .ok row.h ∧ toFloat f2 = .ok row.r ∧
    row.D = rest.head?.bind fun s => (toFloat s).toOption
  curve : row.curve = e.2

theorem importEntry_ok {toFloat : String → Py K} {e : List String × List K} {row : Row K}
    (h : Reads toFloat e row) (t : Tmp K) : importEntry toFloat t e = .ok
      ⟨PyDict.set t.g row.h row.curve, PyDict.set t.rb row.h row.r,
        match row.D with | some d => PyDict.set t.D row.h d | none => t.D⟩ := by
  obtain ⟨⟨f0, f1, f2, rest, he, h0, h1, h2, hd⟩, hc⟩ := h
  unfold importEntry
  have e1 : pyGet e.1 1 = .ok f1 := by rw [he]; rfl
  have e2 : pyGet e.1 2 = .ok f2 := by rw [he]; rfl
  rw [e1, Except.ok_bind, h1, Except.ok_bind, e2, Except.ok_bind, h2, Except.ok_bind, hc,
    Except.pure_eq]
  congr 2
  rw [hd, he]
  cases rest with
  | nil => rfl
  | cons f3 rest =>
    have e3 : pyGet (f0 :: f1 :: f2 :: f3 :: rest) 3 = .ok f3 := by
      exact pyGet_ok (l := f0 :: f1 :: f2 :: f3 :: rest) (i := 3) (by simp)
    rw [e3, Except.ok_bind]
    simp only [List.head?_cons, Option.bind_some]
    cases toFloat f3 <;> rfl

theorem keys_set {β : Type} (d : PyDict K β) (k : K) (v : β) :
    PyDict.keys (PyDict.set d k v) =
      if k ∈ PyDict.keys d then PyDict.keys d else PyDict.keys d ++ [k] := by
  induction d with
  | nil => simp [PyDict.set, PyDict.keys]
  | cons e d ih =>
    obtain ⟨a, b⟩ := e
    unfold PyDict.set
    by_cases h : a = k
    · subst h; simp [PyDict.keys]
    · rw [if_neg h]
      have hc : ∀ (a : K) (b : β) (d : PyDict K β), PyDict.keys ((a, b) :: d) = a :: PyDict.keys d :=
        fun _ _ _ => rfl
      rw [hc, hc, ih]
      by_cases h2 : k ∈ PyDict.keys d
      · rw [if_pos h2, if_pos (by simp [h2])]
      · rw [if_neg h2, if_neg (by simp only [List.mem_cons, not_or]; exact ⟨Ne.symm h, h2⟩)]
        rfl

theorem find?_set {β : Type} (d : PyDict K β) (k k' : K) (v : β) :
    PyDict.find? (PyDict.set d k v) k' = if k = k' then some v else PyDict.find? d k' := by
  by_cases h : k = k'
  · subst h; rw [if_pos rfl, PyDict.find?_set_self]
  · rw [if_neg h, PyDict.find?_set_of_ne (Ne.symm h)]

theorem mem_keys_of_find? {β : Type} (d : PyDict K β) (k : K) :
    k ∈ PyDict.keys d ↔ (PyDict.find? d k).isSome = true := by
  induction d with
  | nil => simp [PyDict.keys, PyDict.find?]
  | cons e d ih =>
    obtain ⟨a, b⟩ := e
    simp only [PyDict.keys, List.map_cons, List.mem_cons, PyDict.find?] at ih ⊢
    by_cases h : a = k
    · simp [h]
    · rw [if_neg h, ← ih]
      constructor
      · rintro (h2 | h2)
        · exact absurd h2.symm h
        · exact h2
      · exact .inr

/-- what the three temporary dictionaries hold after the rows `rows` -/
structure TmpInv (rows : List (Row K)) (t : Tmp K) : Prop where
  nodup : (PyDict.keys t.g).Nodup
  g : ∀ k, PyDict.find? t.g k = ((rows.filter (·.h = k)).getLast?).map (·.curve)
  rb : ∀ k, PyDict.find? t.rb k = ((rows.filter (·.h = k)).getLast?).map (·.r)
  D : ∀ k, PyDict.find? t.D k = ((rows.filter (·.h = k)).filterMap (·.D)).getLast?

theorem tmpInv_step {rows : List (Row K)} {t : Tmp K} (h : TmpInv rows t) (row : Row K) :
    TmpInv (rows ++ [row]) ⟨PyDict.set t.g row.h row.curve, PyDict.set t.rb row.h row.r,
        match row.D with | some d => PyDict.set t.D row.h d | none => t.D⟩ where
  nodup := by
    simp only
    rw [keys_set]
    split_ifs with hk
    · exact h.nodup
    · rw [List.nodup_append]
      exact ⟨h.nodup, by simp, by simp; intro a ha e; exact hk (e ▸ ha)⟩
  g k := by
    simp only
    rw [find?_set, List.filter_append]
    by_cases hk : row.h = k
    · simp [hk]
    · simp [hk, h.g]
  rb k := by
    simp only
    rw [find?_set, List.filter_append]
    by_cases hk : row.h = k
    · simp [hk]
    · simp [hk, h.rb]
  D k := by
    simp only
    rw [List.filter_append, List.filterMap_append]
    cases hd : row.D with
    | none =>
      simp only
      rw [h.D]
      by_cases hk : row.h = k <;> simp [hk, hd]
    | some d =>
      simp only
      rw [find?_set]
      by_cases hk : row.h = k
      · simp [hk, hd]
      · simp [hk, h.D]

theorem import_fold {toFloat : String → Py K} :
    ∀ (es : List (List String × List K)) (rows : List (Row K)), List.Forall₂ (Reads toFloat) es rows →
    ∀ (done : List (Row K)) (t : Tmp K), TmpInv done t →
    ∃ t', es.foldlM (importEntry toFloat) t = .ok t' ∧ TmpInv (done ++ rows) t' := by
  intro es rows h
  induction h with
  | nil => intro done t ht; exact ⟨t, rfl, by simpa using ht⟩
  | cons h1 h2 ih =>
    intro done t ht
    obtain ⟨t', e, inv⟩ := ih _ _ (tmpInv_step ht _)
    refine ⟨t', ?_, by simpa using inv⟩
    rw [List.foldlM_cons, importEntry_ok h1, Except.ok_bind]
    exact e

theorem collect_ok {β : Type} (d : PyDict K β) (keys : List K)
    (h : ∀ k ∈ keys, (PyDict.find? d k).isSome = true) :
    ∃ d', keys.mapM (fun k => do let v ← PyDict.get d k; return (k, v) : K → Py (K × β)) = .ok d' ∧
      PyDict.keys d' = keys ∧ ∀ k ∈ keys, PyDict.find? d' k = PyDict.find? d k := by
  induction keys with
  | nil => exact ⟨[], rfl, rfl, by simp⟩
  | cons a keys ih =>
    obtain ⟨d', e, e2, e3⟩ := ih fun k hk => h k (by simp [hk])
    obtain ⟨v, hv⟩ := Option.isSome_iff_exists.1 (h a (by simp))
    refine ⟨(a, v) :: d', ?_, ?_, ?_⟩
    · rw [List.mapM_cons]
      have : PyDict.get d a = .ok v := by unfold PyDict.get; rw [hv]
      rw [this, e]; rfl
    · simp only [PyDict.keys, List.map_cons] at e2 ⊢; rw [e2]
    · intro k hk
      simp only [PyDict.find?]
      by_cases hak : a = k
      · subst hak; rw [if_pos rfl, hv]
      · rw [if_neg hak]
        exact e3 k ((List.mem_cons.1 hk).resolve_left (Ne.symm hak))

theorem find?_const (l : List K) (k : K) (hk : k ∈ l) :
    PyDict.find? (l.map fun k => (k, (2 : K))) k = some 2 := by
  induction l with
  | nil => cases hk
  | cons a l ih =>
    simp only [List.map_cons, PyDict.find?]
    by_cases hak : a = k
    · rw [if_pos hak]
    · rw [if_neg hak]
      exact ih ((List.mem_cons.1 hk).resolve_left (Ne.symm hak))

theorem collect_error {β : Type} (d : PyDict K β) (keys : List K)
    (h : ∃ k ∈ keys, PyDict.find? d k = none) :
    ∃ e, keys.mapM (fun k => do let v ← PyDict.get d k; return (k, v) : K → Py (K × β)) =
      .error e := by
  induction keys with
  | nil => obtain ⟨k, hk, -⟩ := h; cases hk
  | cons a keys ih =>
    rw [List.mapM_cons]
    by_cases ha : PyDict.find? d a = none
    · refine ⟨.keyError, ?_⟩
      have : PyDict.get d a = .error .keyError := by unfold PyDict.get; rw [ha]
      rw [this]; rfl
    · obtain ⟨v, hv⟩ := Option.ne_none_iff_exists'.1 ha
      obtain ⟨k, hk, hn⟩ := h
      have hk' : k ∈ keys := (List.mem_cons.1 hk).resolve_left (by rintro rfl; exact ha hn)
      obtain ⟨e, he⟩ := ih ⟨k, hk', hn⟩
      refine ⟨e, ?_⟩
      have : PyDict.get d a = .ok v := by unfold PyDict.get; rw [hv]
      rw [this, he]; rfl

section floor
variable [FloorRing K]

theorem truncInt_le_iff (a b : K) (h : truncInt b < truncInt a) : b < a := by
  by_contra hab
  rw [not_lt] at hab
  have : truncInt a ≤ truncInt b := by
    unfold truncInt
    split_ifs with h1 h2 h2
    · exact Int.floor_le_floor hab
    · exact absurd (h1.trans hab) h2
    · have : ⌈a⌉ ≤ 0 := Int.ceil_le.2 (by push_cast; exact (not_le.1 h1).le)
      exact this.trans (Int.floor_nonneg.2 h2)
    · exact Int.ceil_le_ceil hab
  omega

/-- C51: for every nonempty database whose keys read as rows, the import succeeds; spacing, times and
locations are those given; the heights are exactly the heights of the rows, each once, ordered by
their integer part; each height carries the curve and the radius of the last row with this height; if
every height is given a burial depth by some row, it carries the last one given, otherwise every
height gets burial depth 2. -/
theorem C51_import (toFloat : String → Py K) (raw : RawDB K) (first : Row K) (rest : List (Row K))
    (hrows : List.Forall₂ (Reads toFloat) raw.g (first :: rest)) :
    ∃ db, importDB toFloat raw = .ok db ∧ db.B = first.B ∧ db.logTime = raw.logTime ∧
      db.locations = raw.locations ∧
      (∀ k, k ∈ PyDict.keys db.g ↔ ∃ row ∈ first :: rest, row.h = k) ∧
      (PyDict.keys db.g).Nodup ∧
      (PyDict.keys db.g).Pairwise (fun a b => truncInt a ≤ truncInt b) ∧
      PyDict.keys db.rb = PyDict.keys db.g ∧ PyDict.keys db.D = PyDict.keys db.g ∧
      (∀ k, PyDict.find? db.g k =
        (((first :: rest).filter (·.h = k)).getLast?).map (·.curve)) ∧
      (∀ k, PyDict.find? db.rb k = (((first :: rest).filter (·.h = k)).getLast?).map (·.r)) ∧
      ((∀ row ∈ first :: rest, ∃ row' ∈ first :: rest, row'.h = row.h ∧ row'.D.isSome = true) →
        ∀ k, PyDict.find? db.D k = (((first :: rest).filter (·.h = k)).filterMap (·.D)).getLast?) ∧
      ((∃ row ∈ first :: rest, ∀ row' ∈ first :: rest, row'.h = row.h → row'.D = none) →
        ∀ k ∈ PyDict.keys db.g, PyDict.find? db.D k = some 2) := by
  obtain ⟨t, ht, inv⟩ := import_fold raw.g (first :: rest) hrows [] {}
    ⟨by simp [PyDict.keys], by simp [PyDict.find?], by simp [PyDict.find?], by simp [PyDict.find?]⟩
  rw [List.nil_append] at inv
  have hB : ∃ f0 fs, pyGet (PyDict.keys raw.g) 0 = .ok (f0 :: fs) ∧ toFloat f0 = .ok first.B := by
    obtain ⟨e, es, h1, -, he⟩ := List.forall₂_cons_right_iff.1 hrows
    obtain ⟨⟨f0, f1, f2, rs, hf, h0, -⟩, -⟩ := h1
    refine ⟨f0, f1 :: f2 :: rs, ?_, h0⟩
    rw [he, ← hf]; rfl
  generalize hall : first :: rest = rows at *
  set keys := (PyDict.keys t.g).insertionSort fun a b => truncInt a ≤ truncInt b with hkeys
  have hperm : keys.Perm (PyDict.keys t.g) := List.perm_insertionSort _ _
  have hsome : ∀ k, k ∈ keys ↔ ∃ row ∈ rows, row.h = k := by
    intro k
    rw [hperm.mem_iff, mem_keys_of_find?, inv.g, Option.isSome_map, List.getLast?_isSome, Ne,
      List.filter_eq_nil_iff]
    simp
  have hg1 : ∀ k ∈ keys, (PyDict.find? t.g k).isSome = true := by
    intro k hk
    rw [hperm.mem_iff, mem_keys_of_find?] at hk
    exact hk
  have hr1 : ∀ k ∈ keys, (PyDict.find? t.rb k).isSome = true := by
    intro k hk
    have := hg1 k hk
    rw [inv.g, Option.isSome_map] at this
    rw [inv.rb, Option.isSome_map]; exact this
  obtain ⟨dg, eg, kg, fg⟩ := collect_ok t.g keys hg1
  obtain ⟨dr, er, kr, fr⟩ := collect_ok t.rb keys hr1
  obtain ⟨f0, fs, hf, hf0⟩ := hB
  have hrun : ∃ ds, importDB toFloat raw = .ok ⟨first.B, dr, ds, dg, raw.logTime, raw.locations⟩ ∧
      PyDict.keys ds = keys ∧
      ((∀ k ∈ keys, (PyDict.find? t.D k).isSome = true) →
        ∀ k ∈ keys, PyDict.find? ds k = PyDict.find? t.D k) ∧
      ((∃ k ∈ keys, PyDict.find? t.D k = none) → ∀ k ∈ keys, PyDict.find? ds k = some 2) := by
    unfold importDB
    rw [ht, Except.ok_bind, hf, Except.ok_bind, show pyGet (f0 :: fs) 0 = .ok f0 from rfl, Except.ok_bind,
      hf0, Except.ok_bind]
    simp only
    rw [← hkeys, eg, Except.ok_bind, er, Except.ok_bind]
    by_cases hD : ∀ k ∈ keys, (PyDict.find? t.D k).isSome = true
    · obtain ⟨dd, ed, kd, fd⟩ := collect_ok t.D keys hD
      rw [ed]
      refine ⟨_, rfl, kd, fun _ => fd, ?_⟩
      rintro ⟨k, hk, hn⟩
      have := hD k hk
      rw [hn] at this; cases this
    · have hD' : ∃ k ∈ keys, PyDict.find? t.D k = none := by
        push Not at hD
        obtain ⟨k, hk, hn⟩ := hD
        exact ⟨k, hk, by simpa using hn⟩
      obtain ⟨e, he⟩ := collect_error t.D keys hD'
      rw [he]
      refine ⟨_, rfl, by simp [PyDict.keys, Function.comp_def], fun h => absurd h hD, fun _ k hk => ?_⟩
      exact find?_const keys k hk
  obtain ⟨ds, hok, kds, hd1, hd2⟩ := hrun
  have hfind : ∀ {β : Type} (d d' : PyDict K β) (k : K), PyDict.keys d = keys →
      (∀ k ∈ keys, PyDict.find? d k = PyDict.find? d' k) →
      (k ∉ keys → PyDict.find? d' k = none) → PyDict.find? d k = PyDict.find? d' k := by
    intro β d d' k hk h1 h2
    by_cases hm : k ∈ keys
    · exact h1 k hm
    · rw [h2 hm]
      have : ¬ (PyDict.find? d k).isSome = true := by rw [← mem_keys_of_find?, hk]; exact hm
      simpa using this
  have hnil : ∀ k, k ∉ keys → rows.filter (·.h = k) = [] := by
    intro k hk
    rw [hsome] at hk
    rw [List.filter_eq_nil_iff]
    intro row hrow
    simp only [decide_eq_true_eq]
    intro h; exact hk ⟨row, hrow, h⟩
  refine ⟨_, hok, rfl, rfl, rfl, ?_, ?_, ?_, ?_, ?_, ?_, ?_, ?_, ?_⟩
  · intro k; rw [kg]; exact hsome k
  · rw [kg]; exact hperm.nodup_iff.2 inv.nodup
  · rw [kg]
    have : Std.Total fun a b : K => truncInt a ≤ truncInt b := ⟨fun a b => le_total _ _⟩
    have : IsTrans K fun a b => truncInt a ≤ truncInt b := ⟨fun a b c => le_trans⟩
    exact List.pairwise_insertionSort _ _
  · rw [kr, kg]
  · rw [kds, kg]
  · intro k
    rw [← inv.g]
    exact hfind dg t.g k kg fg fun hk => by rw [inv.g, hnil k hk]; rfl
  · intro k
    rw [← inv.rb]
    exact hfind dr t.rb k kr fr fun hk => by rw [inv.rb, hnil k hk]; rfl
  · intro hall k
    rw [← inv.D]
    refine hfind ds t.D k kds (hd1 ?_) fun hk => by rw [inv.D, hnil k hk]; rfl
    intro k hk
    obtain ⟨row, hrow, rfl⟩ := (hsome k).1 hk
    obtain ⟨row', hrow', he, hs⟩ := hall row hrow
    rw [inv.D, List.getLast?_isSome]
    obtain ⟨d, hd⟩ := Option.isSome_iff_exists.1 hs
    exact List.ne_nil_of_mem (List.mem_filterMap.2 ⟨row', List.mem_filter.2 ⟨hrow', by simpa using he⟩,
      hd⟩)
  · rintro ⟨row, hrow, hn⟩ k hk
    rw [kg] at hk
    refine hd2 ⟨row.h, (hsome _).2 ⟨row, hrow, rfl⟩, ?_⟩ k hk
    rw [inv.D]
    have : (rows.filter (·.h = row.h)).filterMap (·.D) = [] := by
      rw [List.filterMap_eq_nil_iff]
      intro r hr
      obtain ⟨h1, h2⟩ := List.mem_filter.1 hr
      exact hn r h1 (by simpa using h2)
    rw [this]; rfl

/-- "1", "2", ... as numbers, anything else is no number -/
def exFloat (s : String) : Py ℚ :=
  if s = "5" then .ok 5 else if s = "100" then .ok 100 else if s = "50" then .ok 50
  else if s = "0.1" then .ok (1 / 10) else if s = "0.2" then .ok (1 / 5)
  else if s = "3" then .ok 3 else .error .valueError

/-- two rows for height 100, one of them without burial depth; the last one counts -/
example : importDB exFloat ⟨[(["5", "100", "0.1", "3"], [1, 2]), (["5", "50", "0.1", "3"], [3, 4]),
      (["5", "100", "0.2"], [5, 6])], [], []⟩ =
    .ok ⟨5, [(50, 1 / 10), (100, 1 / 5)], [(50, 3), (100, 3)], [(50, [3, 4]), (100, [5, 6])], [], []⟩ :=
  by decide +kernel

example : List.Forall₂ (Reads exFloat) [(["5", "100", "0.1", "3"], [1, 2]), (["5", "50", "0.1", "x"],
      [3, 4])] [⟨5, 100, 1 / 10, some 3, [1, 2]⟩, ⟨5, 50, 1 / 10, none, [3, 4]⟩] := by
  refine .cons ⟨⟨_, _, _, _, rfl, by decide +kernel, by decide +kernel, by decide +kernel,
    by decide +kernel⟩, rfl⟩ (.cons ⟨⟨_, _, _, _, rfl, by decide +kernel, by decide +kernel,
    by decide +kernel, by decide +kernel⟩, rfl⟩ .nil)

/-! ## C81 — live g-functions cover the height range -/

theorem live_fold (fmt : K → String) (gf : K → K → K → Py (List K))
    (B : K) (Hs rbs Ds : List K) (hfmt : ∀ x ∈ Hs, ∀ y ∈ Hs, fmt x = fmt y → x = y) (cs : List (List K))
    (h1 : rbs.length = Hs.length) (h2 : Ds.length = Hs.length) (h3 : cs.length = Hs.length) (hn : Hs.Nodup)
    (hc : ∀ (i : ℕ) (a r d : K) (c : List K), Hs[i]? = some a → rbs[i]? = some r → Ds[i]? = some d →
      cs[i]? = some c → gf a r d = .ok c) :
    (pyRange 0 Hs.length).foldlM (fun (d : PyDict (List String) (List K)) (i : ℤ) => do
      let H ← pyGet Hs i
      let rb ← pyGet rbs i
      let D ← pyGet Ds i
      let curve ← gf H rb D
      return PyDict.set d [fmt B, fmt H, fmt rb, fmt D] curve) [] =
    .ok ((List.range Hs.length).map fun i => ([fmt B, fmt (Hs.getD i 0), fmt (rbs.getD i 0),
      fmt (Ds.getD i 0)], cs.getD i [])) := by
  have key := foldlM_pyRange_inv (f := fun (d : PyDict (List String) (List K)) (i : ℤ) => do
      let H ← pyGet Hs i
      let rb ← pyGet rbs i
      let D ← pyGet Ds i
      let curve ← gf H rb D
      return PyDict.set d [fmt B, fmt H, fmt rb, fmt D] curve)
    (fun k s => s = (List.range k.toNat).map fun i => ([fmt B, fmt (Hs.getD i 0), fmt (rbs.getD i 0),
      fmt (Ds.getD i 0)], cs.getD i [])) (a := 0) (b := Hs.length) (s := []) (by omega) ?_ rfl
  · obtain ⟨s, hs, e⟩ := key
    rw [hs, e]; simp
  · intro i s hi hi' he
    obtain ⟨k, rfl⟩ := Int.eq_ofNat_of_zero_le hi
    have hk : k < Hs.length := by exact_mod_cast hi'
    have e1 : Hs[k]? = some Hs[k] := List.getElem?_eq_getElem hk
    have e2 : rbs[k]? = some (rbs[k]'(by omega)) := List.getElem?_eq_getElem (by omega)
    have e3 : Ds[k]? = some (Ds[k]'(by omega)) := List.getElem?_eq_getElem (by omega)
    have e4 : cs[k]? = some (cs[k]'(by omega)) := List.getElem?_eq_getElem (by omega)
    rw [pyGet_ok hk, Except.ok_bind, pyGet_ok (by omega), Except.ok_bind, pyGet_ok (by omega),
      Except.ok_bind, hc k _ _ _ _ e1 e2 e3 e4, Except.ok_bind]
    refine ⟨_, rfl, ?_⟩
    rw [PyDict.keys_set_of_not_mem]
    · rw [he]
      have : ((k : ℤ) + 1).toNat = k + 1 := by omega
      rw [this, List.range_succ, List.map_append]
      simp [List.getD_eq_getElem?_getD, e1, e2, e3, e4]
    · rw [he]
      intro hm
      simp only [PyDict.keys, List.map_map, List.mem_map, List.mem_range, Function.comp,
        Int.toNat_natCast] at hm
      obtain ⟨j, hj, hh⟩ := hm
      simp only [List.cons.injEq] at hh
      have hj' : Hs.getD j 0 = Hs[j]'(by omega) := by
        rw [List.getD_eq_getElem?_getD, List.getElem?_eq_getElem (by omega), Option.getD_some]
      rw [hj'] at hh
      have := hfmt _ (List.getElem_mem _) _ (List.getElem_mem _) hh.2.1
      have := (List.Nodup.getElem_inj_iff hn).1 this
      omega

/-- C81: `compute_live_g_function` for distinct heights: every height carries the curve computed for
it, its radius and its burial depth, and the database is complete. -/
theorem C81_live (fmt : K → String) (toFloat : String → Py K) (gf : K → K → K → Py (List K)) (B : K)
    (Hs rbs Ds : List K) (hround : ∀ x ∈ B :: (Hs ++ rbs ++ Ds), toFloat (fmt x) = .ok x) (cs : List (List K)) (logTime : List K) (locations : List (K × K))
    (hne : 2 ≤ Hs.length) (h1 : rbs.length = Hs.length) (h2 : Ds.length = Hs.length)
    (h3 : cs.length = Hs.length) (hn : Hs.Nodup)
    (hc : ∀ (i : ℕ) (a r d : K) (c : List K), Hs[i]? = some a → rbs[i]? = some r → Ds[i]? = some d →
      cs[i]? = some c → gf a r d = .ok c) (hlen : ∀ c ∈ cs, c.length = logTime.length) :
    ∃ db, computeLive fmt toFloat gf B Hs rbs Ds logTime locations = .ok db ∧ db.B = B ∧
      db.logTime = logTime ∧ db.locations = locations ∧ Valid db ∧
      (∀ k, k ∈ PyDict.keys db.g ↔ k ∈ Hs) ∧
      ∀ (i : ℕ) (a r d : K) (c : List K), Hs[i]? = some a → rbs[i]? = some r → Ds[i]? = some d →
        cs[i]? = some c → (a, c) ∈ db.g ∧ (a, r) ∈ db.rb ∧ (a, d) ∈ db.D := by
  have hfmt : ∀ x ∈ Hs, ∀ y ∈ Hs, fmt x = fmt y → x = y := by
    intro x hx y hy hxy
    have := hround x (by simp [hx])
    rw [hxy, hround y (by simp [hy])] at this
    cases this; rfl
  let row : ℕ → Row K := fun i => ⟨B, Hs.getD i 0, rbs.getD i 0, some (Ds.getD i 0), cs.getD i []⟩
  have hrow : ∀ i, (row i).h = Hs.getD i 0 := fun _ => rfl
  obtain ⟨m, hm⟩ : ∃ m, Hs.length = m + 1 := ⟨Hs.length - 1, by omega⟩
  have hrows : List.Forall₂ (Reads toFloat) ((List.range Hs.length).map fun i =>
      ([fmt B, fmt (Hs.getD i 0), fmt (rbs.getD i 0), fmt (Ds.getD i 0)], cs.getD i []))
      ((List.range Hs.length).map row) := by
    rw [List.forall₂_map_left_iff, List.forall₂_map_right_iff, List.forall₂_same]
    intro i hi
    have hi := List.mem_range.1 hi
    have mem : ∀ l : List K, l.length = Hs.length → l.getD i 0 ∈ l := by
      intro l hl
      rw [List.getD_eq_getElem?_getD, List.getElem?_eq_getElem (by omega), Option.getD_some]
      exact List.getElem_mem _
    have r1 := hround (Hs.getD i 0) (by have := mem Hs rfl; simp only [List.mem_cons, List.mem_append]; tauto)
    have r2 := hround (rbs.getD i 0) (by have := mem rbs h1; simp only [List.mem_cons, List.mem_append]; tauto)
    have r3 := hround (Ds.getD i 0) (by have := mem Ds h2; simp only [List.mem_cons, List.mem_append]; tauto)
    exact ⟨⟨_, _, _, _, rfl, hround _ (by simp), r1, r2, by
      show some (Ds.getD i 0) = (toFloat (fmt (Ds.getD i 0))).toOption
      rw [r3]; rfl⟩, rfl⟩
  have hcons : (List.range Hs.length).map row = row 0 :: (List.range' 1 m).map row := by
    rw [hm, List.range_eq_range', List.range'_succ]; rfl
  have hmemrow : ∀ r, r ∈ row 0 :: (List.range' 1 m).map row ↔ ∃ i < Hs.length, row i = r := by
    intro r
    rw [← hcons]; simp
  have hget : ∀ (i : ℕ), i < Hs.length → Hs[i]? = some (Hs.getD i 0) := by
    intro i hi
    simp [List.getD_eq_getElem?_getD, hi]
  have hinj : ∀ i j : ℕ, i < Hs.length → j < Hs.length → Hs.getD i 0 = Hs.getD j 0 → i = j := by
    intro i j hi hj h
    simp only [List.getD_eq_getElem?_getD, List.getElem?_eq_getElem hi, List.getElem?_eq_getElem hj,
      Option.getD_some] at h
    exact (List.Nodup.getElem_inj_iff hn).1 h
  have hfilter : ∀ i < Hs.length, (row 0 :: (List.range' 1 m).map row).filter
      (·.h = Hs.getD i 0) = [row i] := by
    intro i hi
    rw [← hcons, List.filter_map]
    have : (List.range Hs.length).filter ((fun r : Row K => decide (r.h = Hs.getD i 0)) ∘ row) =
        (List.range Hs.length).filter (fun j => decide (j = i)) := by
      apply List.filter_congr
      intro j hj
      simp only [Function.comp, decide_eq_decide, hrow]
      exact ⟨fun h => hinj j i (List.mem_range.1 hj) hi h, fun h => by rw [h]⟩
    rw [this]
    have : (List.range Hs.length).filter (fun j => decide (j = i)) = [i] := by
      have hnd : ((List.range Hs.length).filter (fun j => decide (j = i))).Nodup :=
        List.nodup_range.filter _
      rw [← List.perm_singleton]
      exact (List.perm_ext_iff_of_nodup hnd (by simp)).2 (by
        intro j
        simp only [List.mem_filter, List.mem_range, decide_eq_true_eq, List.mem_singleton]
        exact ⟨fun h => h.2, fun h => ⟨h ▸ hi, h⟩⟩)
    rw [this]; rfl
  obtain ⟨db, hok, hB, hlt, hloc, hkeys, hnd, -, krb, kD, fg, frb, fD, -⟩ :=
    C51_import toFloat ⟨_, locations, logTime⟩ (row 0) ((List.range' 1 m).map row) (by
      rw [← hcons]; exact hrows)
  have hkeys' : ∀ k, k ∈ PyDict.keys db.g ↔ k ∈ Hs := by
    intro k
    rw [hkeys]
    constructor
    · rintro ⟨r, hr, rfl⟩
      obtain ⟨i, hi, rfl⟩ := (hmemrow r).1 hr
      rw [hrow]
      exact List.mem_of_getElem? (hget i hi)
    · intro hk
      obtain ⟨i, hi, e⟩ := List.getElem_of_mem hk
      refine ⟨row i, (hmemrow _).2 ⟨i, hi, rfl⟩, ?_⟩
      rw [hrow, List.getD_eq_getElem?_getD, List.getElem?_eq_getElem hi, e]; rfl
  have hstored : ∀ i < Hs.length, PyDict.find? db.g (Hs.getD i 0) = some (cs.getD i []) ∧
      PyDict.find? db.rb (Hs.getD i 0) = some (rbs.getD i 0) ∧
      PyDict.find? db.D (Hs.getD i 0) = some (Ds.getD i 0) := by
    intro i hi
    refine ⟨?_, ?_, ?_⟩
    · rw [fg, hfilter i hi]; rfl
    · rw [frb, hfilter i hi]; rfl
    · rw [fD _, hfilter i hi]
      · rfl
      · intro r hr
        obtain ⟨j, hj, rfl⟩ := (hmemrow r).1 hr
        exact ⟨row j, hr, rfl, rfl⟩
  refine ⟨db, ?_, hB, hlt, hloc, ⟨?_, hnd, ?_, krb, kD⟩, hkeys', ?_⟩
  · unfold computeLive
    rw [live_fold fmt gf B Hs rbs Ds hfmt cs h1 h2 h3 hn hc, Except.ok_bind]
    exact hok
  · have hperm : (PyDict.keys db.g).Perm Hs := (List.perm_ext_iff_of_nodup hnd hn).2 hkeys'
    have := hperm.length_eq
    simp only [PyDict.keys, List.length_map] at this
    omega
  · intro e he
    have hk : e.1 ∈ Hs := (hkeys' _).1 (List.mem_map.2 ⟨e, he, rfl⟩)
    obtain ⟨i, hi, ei⟩ := List.getElem_of_mem hk
    have e1 : Hs.getD i 0 = e.1 := by
      rw [List.getD_eq_getElem?_getD, List.getElem?_eq_getElem hi, ei]; rfl
    have := (hstored i hi).1
    rw [e1] at this
    have hm2 : (e.1, cs.getD i []) ∈ db.g := PyDict.mem_of_find? this
    have : e.2 = cs.getD i [] := by
      have hp : e = (e.1, cs.getD i []) := List.inj_on_of_nodup_map hnd he hm2 rfl
      rw [hp]
    rw [this, hlt]
    apply hlen
    rw [List.getD_eq_getElem?_getD, List.getElem?_eq_getElem (by omega)]
    exact List.getElem_mem _
  · intro i a r d c ha hr hd hcc
    have hi : i < Hs.length := by
      by_contra h
      rw [List.getElem?_eq_none (by omega)] at ha; cases ha
    have := hstored i hi
    simp only [List.getD_eq_getElem?_getD, ha, hr, hd, hcc, Option.getD_some] at this
    exact ⟨PyDict.mem_of_find? this.1, PyDict.mem_of_find? this.2.1, PyDict.mem_of_find? this.2.2⟩

/-- C81: after `compute_g_functions` for `0 < min_Height < max_Height` every request `B/H` with `H`
between the two bounds is answered without extrapolation, after any history of nonzero requests; at
the minimum, average and maximum height the answer is exactly the curve computed there (bounds at
least `2e-6` apart), with the radius and burial depth of the borehole. -/
theorem C81_cover (fmt : K → String) (toFloat : String → Py K) (gf : K → K → K → List K) (old : DB K)
    (B minH maxH rb D : K) (hround : ∀ x ∈ [B, minH, (minH + maxH) / 2, maxH, rb, D], toFloat (fmt x) = .ok x)
    (hB : B ≠ 0) (h0 : 0 < minH) (hsep : minH + 2 / 1000000 ≤ maxH)
    (hlen : ∀ a ∈ [minH, (minH + maxH) / 2, maxH], (gf a rb D).length = old.logTime.length) :
    ∃ db, computeGFunctions fmt toFloat (fun a r d => .ok (gf a r d)) B minH maxH rb D old = .ok db ∧
      db.logTime = old.logTime ∧ db.locations = old.locations ∧
      ∀ (spl : String → List K → List K → K → K) (hist : List K), (∀ r ∈ hist, r ≠ 0) →
        (∀ H, minH ≤ H → H ≤ maxH → ∃ a,
          (request spl db (B / H) "default" (tableAfter spl db hist)).1 = .ok a ∧
          a.warned = false ∧ |a.Heq - H| < 2 / 1000000) ∧
        (Reproduces spl → ∀ H ∈ [minH, (minH + maxH) / 2, maxH],
          (request spl db (B / H) "default" (tableAfter spl db hist)).1 =
            .ok ⟨gf H rb D, rb, some D, H, false⟩) := by
  have p : (0 : K) < 2 / 1000000 := by norm_num
  have hlt : minH < maxH := by linarith
  have hnd : [minH, (minH + maxH) / 2, maxH].Nodup := by
    simp only [List.nodup_cons, List.mem_cons, List.not_mem_nil, or_false, not_or,
      List.nodup_nil, and_true, not_false_eq_true]
    exact ⟨⟨by intro h; linarith, hlt.ne⟩, by intro h; linarith⟩
  obtain ⟨db, hok, hdB, hlt', hloc, hv, hkeys, hst⟩ := C81_live fmt toFloat
    (fun a r d => .ok (gf a r d)) B [minH, (minH + maxH) / 2, maxH] [rb, rb, rb] [D, D, D] (by
      intro x hx
      apply hround
      simp only [List.cons_append, List.nil_append, List.mem_cons, List.not_mem_nil, or_false] at hx ⊢
      tauto)
    [gf minH rb D, gf ((minH + maxH) / 2) rb D, gf maxH rb D] old.logTime old.locations (by simp) rfl
    rfl rfl hnd (by
      intro i a r d c h1 h2 h3 h4
      match i with
      | 0 => simp at h1 h2 h3 h4; subst h1 h2 h3 h4; rfl
      | 1 => simp at h1 h2 h3 h4; subst h1 h2 h3 h4; rfl
      | 2 => simp at h1 h2 h3 h4; subst h1 h2 h3 h4; rfl
      | k + 3 => simp at h1) (by
      intro c hc
      simp only [List.mem_cons, List.not_mem_nil, or_false] at hc
      rcases hc with rfl | rfl | rfl <;> exact hlen _ (by simp))
  have hmem : ∀ H ∈ [minH, (minH + maxH) / 2, maxH], (H, gf H rb D) ∈ db.g ∧ (H, rb) ∈ db.rb ∧
      (H, D) ∈ db.D := by
    intro H hH
    simp only [List.mem_cons, List.not_mem_nil, or_false] at hH
    rcases hH with rfl | rfl | rfl
    · exact hst 0 _ _ _ _ rfl rfl rfl rfl
    · exact hst 1 _ _ _ _ rfl rfl rfl rfl
    · exact hst 2 _ _ _ _ rfl rfl rfl rfl
  have hrng : Range db minH maxH := by
    refine ⟨(hkeys _).2 (by simp), (hkeys _).2 (by simp), ?_⟩
    intro h hh
    have := (hkeys h).1 hh
    simp only [List.mem_cons, List.not_mem_nil, or_false] at this
    rcases this with rfl | rfl | rfl <;> constructor <;> linarith
  refine ⟨db, hok, hlt', hloc, ?_⟩
  intro spl hist hh
  constructor
  · intro H h1 h2
    have hH : H ≠ 0 := by linarith
    have e : db.B / (B / H) = H := by rw [hdB]; field_simp
    have hq : B / H ≠ 0 := div_ne_zero hB hH
    obtain ⟨h3, a, h4, h5, h6, h7, h8, -⟩ := C48_in_range spl db hv minH maxH hrng hist hh (B / H) hq
      (by rw [e]; linarith) (by rw [e]; linarith)
    exact ⟨a, h3.trans h4, h5, by rw [e] at h8; exact h8⟩
  · intro hs H hH
    obtain ⟨m1, m2, m3⟩ := hmem H hH
    have hpos : H ≠ 0 := by
      simp only [List.mem_cons, List.not_mem_nil, or_false] at hH
      rcases hH with rfl | rfl | rfl <;> linarith
    have := C47_stored spl hs db hv (by rw [hdB]; exact hB) hist hh ?_ H rb D _ m1 m2 m3 hpos
    · rw [hdB] at this; exact this
    · intro a ha b hb hab
      have ha := (hkeys a).1 ha
      have hb := (hkeys b).1 hb
      simp only [List.mem_cons, List.not_mem_nil, or_false] at ha hb
      rw [le_abs]
      rcases ha with rfl | rfl | rfl <;> rcases hb with rfl | rfl | rfl
      · exact absurd rfl hab
      · right; linarith
      · right; linarith
      · left; linarith
      · exact absurd rfl hab
      · right; linarith
      · left; linarith
      · left; linarith
      · exact absurd rfl hab

/-- the round-trip assumption on number formatting can be met, for any list of numbers -/
theorem roundTrip_exists {α : Type} (l : List α) :
    ∃ (fmt : α → String) (toFloat : String → Py α), ∀ x ∈ l, toFloat (fmt x) = .ok x := by
  classical
  let name : ℕ → String := fun n => String.ofList (List.replicate n 'x')
  have hinj : Function.Injective name := by
    intro a b h
    have := congrArg List.length (String.ofList_injective h)
    simpa only [List.length_replicate] using this
  refine ⟨fun x => name (l.idxOf x), fun s => match l[Function.invFun name s]? with
    | some x => .ok x
    | none => .error .valueError, fun x hx => ?_⟩
  dsimp only
  rw [Function.leftInverse_invFun hinj, List.getElem?_eq_getElem (List.idxOf_lt_length_of_mem hx), List.getElem_idxOf]

end floor

/-! ### The theorems applied to `exDB` -/

example := C48_in_range exSpl exDB exDB_valid 50 100 exDB_range [1, 2, 1 / 20] (by norm_num) (5 / 75) (by norm_num)
  (by norm_num [exDB]) (by norm_num [exDB])
example := C48_out_of_range_first exSpl exDB exDB_valid 50 100 exDB_range (by norm_num) (5 / 200) (by norm_num)
  (Or.inr (by norm_num [exDB]))
example := C80_gap exSpl exDB exDB_valid 50 100 exDB_range (5 / (50 - 1 / 10000)) (by norm_num) (by norm_num [exDB])
  (by norm_num [exDB])
example := C49_radius [1, 2, 3] (1 / 10) (3 / 20) (1 / 5) (by norm_num) (by norm_num) (by norm_num)
example := C49_zero_radius [1, 2, 3] (1 / 10) (by simp)
/-- texts that identify their numbers: 5, 50, 75, 100, 1/10, 2 -/
def exFmt (x : ℚ) : String :=
  if x = 5 then "5" else if x = 100 then "100" else if x = 50 then "50" else if x = 75 then "75" else
  if x = 1 / 10 then "0.1" else "2"
def exFloat2 (s : String) : Py ℚ :=
  if s = "5" then .ok 5 else if s = "100" then .ok 100 else if s = "50" then .ok 50 else if s = "75" then .ok 75 else
  if s = "0.1" then .ok (1 / 10) else if s = "2" then .ok 2 else .error .valueError
example := C81_cover exFmt exFloat2 (fun H _ _ => [H, 2 * H, 3 * H]) exDB 5 50 100 (1 / 10) 2 (by decide +kernel)
  (by norm_num) (by norm_num) (by norm_num) (fun _ _ => rfl)

end Ghedt.GF
