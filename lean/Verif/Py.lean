import Mathlib.Algebra.Order.Field.Basic
import Mathlib.Algebra.Order.Floor.Ring
import Mathlib.Data.Rat.Floor
import Mathlib.Data.List.Nodup
import Mathlib.Tactic.Linarith
import Mathlib.Tactic.Ring
import Mathlib.Tactic.FieldSimp
import Mathlib.Tactic.Positivity
import Mathlib.Tactic.NormNum
import Mathlib.Tactic.Push

/-!
# The fragment of Python the model relies on

Exceptions are values of `PyErr`, a function that may raise lives in `Py = Except PyErr`.
Nothing here is specific to GHEDT.
-/

namespace Ghedt

/-- Exception classes.  `outOfFuel` is *not* a Python exception: it is the distinguished outcome
"the fuel given to the model of a `while` loop ran out", used to state termination. -/
inductive PyErr
  | valueError | assertionError | indexError | keyError | zeroDivisionError | typeError
  | attributeError | unboundLocalError | osError | notImplementedError | outOfFuel
  deriving DecidableEq, Repr

/-- Outcome of a Python call: a value or an exception. -/
abbrev Py (α : Type) := Except PyErr α

/-- `range(a, b)`. -/
def pyRange (a b : ℤ) : List ℤ := (List.range (b - a).toNat).map fun k : ℕ => a + (k : ℤ)

/-- `assert p`. -/
def pyAssert (p : Prop) [Decidable p] : Py Unit :=
  if p then .ok () else .error .assertionError

/-- `a / b` on floats or ints: raises `ZeroDivisionError` when `b == 0`. -/
def pyDiv {K : Type} [Field K] [DecidableEq K] (a b : K) : Py K :=
  if b = 0 then .error .zeroDivisionError else .ok (a / b)

/-- `l[i]` for a non-negative or negative integer `i`: Python counts negative indices from the
end, and raises `IndexError` outside `-len ≤ i < len`. -/
def pyGet {α : Type} (l : List α) (i : ℤ) : Py α :=
  let j := if i < 0 then i + l.length else i
  if j < 0 then .error .indexError
  else match l[j.toNat]? with
    | some a => .ok a
    | none => .error .indexError

/-- Clamp a slice bound the way Python does for a list of length `n` (step 1):
negative bounds count from the end, everything is clamped to `0..n`. -/
def pyClamp (n : ℕ) (i : ℤ) : ℕ :=
  let j := if i < 0 then i + n else i
  min j.toNat n

/-- `l[a:b]`. -/
def pySlice {α : Type} (l : List α) (a b : ℤ) : List α :=
  (l.take (pyClamp l.length b)).drop (pyClamp l.length a)

/-- `l[a:b] = v` (slice assignment with step 1; the list may change length).  If the stop bound
lies before the start bound, Python inserts at the start bound. -/
def pySliceAssign {α : Type} (l : List α) (a b : ℤ) (v : List α) : List α :=
  let s := pyClamp l.length a
  let e := max s (pyClamp l.length b)
  l.take s ++ v ++ l.drop e

/-- `max(l)`: `ValueError` on an empty sequence, else the largest element. -/
def pyMax {K : Type} [LinearOrder K] : List K → Py K
  | [] => .error .valueError
  | a :: l => .ok (l.foldl max a)

/-- `min(l)`. -/
def pyMin {K : Type} [LinearOrder K] : List K → Py K
  | [] => .error .valueError
  | a :: l => .ok (l.foldl min a)

/-- Insertion-ordered dictionary, as Python's `dict`. -/
abbrev PyDict (α β : Type) := List (α × β)

namespace PyDict
variable {α β : Type} [DecidableEq α]

/-- `d[k] = v`: overwrite in place if the key exists, else append. -/
def set : PyDict α β → α → β → PyDict α β
  | [], k, v => [(k, v)]
  | (k', v') :: d, k, v => if k' = k then (k, v) :: d else (k', v') :: set d k v

/-- `d.get(k)`. -/
def find? : PyDict α β → α → Option β
  | [], _ => none
  | (k', v') :: d, k => if k' = k then some v' else find? d k

/-- `d[k]`: `KeyError` if absent. -/
def get (d : PyDict α β) (k : α) : Py β :=
  match find? d k with
  | some v => .ok v
  | none => .error .keyError

/-- `list(d.keys())`. -/
def keys (d : PyDict α β) : List α := d.map Prod.fst
/-- `list(d.values())`. -/
def values (d : PyDict α β) : List β := d.map Prod.snd

end PyDict

/-! ### Basic facts -/

@[simp] theorem mem_pyRange {a b i : ℤ} : i ∈ pyRange a b ↔ a ≤ i ∧ i < b := by
  unfold pyRange
  simp only [List.mem_map, List.mem_range]
  constructor
  · rintro ⟨k, hk, rfl⟩; omega
  · rintro ⟨h1, h2⟩; exact ⟨(i - a).toNat, by omega, by omega⟩

@[simp] theorem length_pyRange (a b : ℤ) : (pyRange a b).length = (b - a).toNat := by
  simp [pyRange]

theorem nodup_pyRange (a b : ℤ) : (pyRange a b).Nodup := by
  unfold pyRange
  refine List.Nodup.map ?_ List.nodup_range
  intro x y h; simpa using h

theorem pyRange_pairwise (a b : ℤ) : (pyRange a b).Pairwise (· < ·) := by
  unfold pyRange
  rw [List.pairwise_map]
  refine List.Pairwise.imp ?_ List.pairwise_lt_range
  intro x y h; omega

theorem pyRange_empty {a b : ℤ} (h : b ≤ a) : pyRange a b = [] := by
  have : (b - a).toNat = 0 := by omega
  simp [pyRange, this]

theorem pyRange_cons {a b : ℤ} (h : a < b) : pyRange a b = a :: pyRange (a + 1) b := by
  unfold pyRange
  obtain ⟨n, hn⟩ : ∃ n : ℕ, (b - a).toNat = n + 1 := ⟨(b - a).toNat - 1, by omega⟩
  have h2 : (b - (a + 1)).toNat = n := by omega
  rw [hn, h2, List.range_succ_eq_map]
  simp only [List.map_cons, List.map_map]
  congr 1
  · simp
  · apply List.map_congr_left; intro k _; simp; ring

theorem pyRange_succ {a b : ℤ} (h : a ≤ b) : pyRange a (b + 1) = pyRange a b ++ [b] := by
  unfold pyRange
  have h2 : (b + 1 - a).toNat = (b - a).toNat + 1 := by omega
  rw [h2, List.range_succ]
  simp; omega

theorem getElem?_pyRange {a b : ℤ} {k : ℕ} (h : (k : ℤ) < b - a) :
    (pyRange a b)[k]? = some (a + k) := by
  unfold pyRange
  rw [List.getElem?_map, List.getElem?_range (by omega)]
  rfl

@[simp] theorem pyAssert_true {p : Prop} [Decidable p] (h : p) : pyAssert p = .ok () := by
  simp [pyAssert, h]

theorem pyAssert_false {p : Prop} [Decidable p] (h : ¬ p) :
    pyAssert p = .error .assertionError := by
  simp [pyAssert, h]

theorem pyDiv_ok {K : Type} [Field K] [DecidableEq K] {a b : K} (h : b ≠ 0) :
    pyDiv a b = .ok (a / b) := by simp [pyDiv, h]

@[simp] theorem pyDiv_zero {K : Type} [Field K] [DecidableEq K] {a : K} :
    pyDiv a 0 = .error .zeroDivisionError := by simp [pyDiv]

@[simp] theorem Except.ok_bind {ε α β : Type} (a : α) (f : α → Except ε β) :
    (Except.ok a >>= f) = f a := rfl

@[simp] theorem Except.error_bind {ε α β : Type} (e : ε) (f : α → Except ε β) :
    ((Except.error e : Except ε α) >>= f) = Except.error e := rfl

@[simp] theorem Except.pure_eq {ε α : Type} (a : α) : (pure a : Except ε α) = Except.ok a := rfl

theorem bind_eq_ok {α β : Type} {x : Py α} {f : α → Py β} {b : β} :
    (x >>= f) = .ok b ↔ ∃ a, x = .ok a ∧ f a = .ok b := by
  cases x <;> simp

theorem pyGet_ok {α : Type} {l : List α} {i : ℕ} (h : i < l.length) :
    pyGet l (i : ℤ) = .ok l[i] := by
  have h1 : ¬ (i : ℤ) < 0 := by omega
  simp [pyGet, h, h1]

theorem pyGet_nonneg {α : Type} (l : List α) {i : ℤ} (h0 : 0 ≤ i) (h : i.toNat < l.length) :
    pyGet l i = .ok l[i.toNat] := by
  have h1 : ¬ i < 0 := by omega
  simp [pyGet, h, h1]

theorem pyGet_oob {α : Type} (l : List α) {i : ℤ} (h : (l.length : ℤ) ≤ i) :
    pyGet l i = .error .indexError := by
  have h1 : ¬ i < 0 := by omega
  have h2 : l[i.toNat]? = none := by simp; omega
  simp [pyGet, h1, h2]

theorem pyGet_neg_one {α : Type} {l : List α} (h : l ≠ []) :
    pyGet l (-1) = .ok (l.getLast h) := by
  have hl : 0 < l.length := List.length_pos_iff.mpr h
  have h1 : ¬ ((-1 : ℤ) + l.length < 0) := by omega
  have h2 : ((-1 : ℤ) + l.length).toNat = l.length - 1 := by omega
  simp only [pyGet, show (-1 : ℤ) < 0 by omega, if_true, h1, if_false, h2]
  rw [List.getElem?_eq_getElem (by omega), List.getLast_eq_getElem]

end Ghedt
