import Verif.Model.Nan
import Verif.Lemmas.SearchRoutines

set_option linter.unusedSectionVars false

namespace Ghedt
open Utilities
variable {K : Type} [Field K] [LinearOrder K]

theorem numMax_fold (l : List (Num K)) (a : K) :
    l.foldl (fun m x => if Num.gt x m then x else m) (some a) = some ((l.filterMap id).foldl max a) := by
  induction l generalizing a with
  | nil => rfl
  | cons x l ih =>
    cases x with
    | none => exact ih a
    | some x =>
      have e : (if Num.gt (some x) (some a) then some x else some a) = some (max a x) := by
        simp only [Num.gt, decide_eq_true_eq]
        by_cases h : a < x
        · rw [if_pos h, max_eq_right h.le]
        · rw [if_neg h, max_eq_left (not_lt.1 h)]
      rw [List.foldl_cons, e, ih]
      rfl

theorem numMin_fold (l : List (Num K)) (a : K) :
    l.foldl (fun m x => if Num.gt m x then x else m) (some a) = some ((l.filterMap id).foldl min a) := by
  induction l generalizing a with
  | nil => rfl
  | cons x l ih =>
    cases x with
    | none => exact ih a
    | some x =>
      have e : (if Num.gt (some a) (some x) then some x else some a) = some (min a x) := by
        simp only [Num.gt, decide_eq_true_eq]
        by_cases h : x < a
        · rw [if_pos h, min_eq_right h.le]
        · rw [if_neg h, min_eq_left (not_lt.1 h)]
      rw [List.foldl_cons, e, ih]
      rfl

/-- a list that does not begin with `nan`: `max` goes over the numbers -/
theorem maxNumber_cons (a : K) (l : List (Num K)) : maxNumber (some a :: l) = pyMax ((some a :: l).filterMap id) := by
  unfold maxNumber numMax
  dsimp only
  rw [numMax_fold]
  rfl

theorem minNumber_cons (a : K) (l : List (Num K)) : minNumber (some a :: l) = pyMin ((some a :: l).filterMap id) := by
  unfold minNumber numMin
  dsimp only
  rw [numMin_fold]
  rfl

theorem num_fold_nan (l : List (Num K)) :
    l.foldl (fun m x => if Num.gt x m then x else m) none = none ∧
      l.foldl (fun m x => if Num.gt m x then x else m) none = none := by
  induction l with
  | nil => exact ⟨rfl, rfl⟩
  | cons x l ih => cases x <;> exact ih

theorem maxNumber_nan (l : List (Num K)) : maxNumber (none :: l) = .error .valueError := by
  unfold maxNumber numMax
  dsimp only
  rw [(num_fold_nan l).1]
  rfl

theorem minNumber_nan (l : List (Num K)) : minNumber (none :: l) = .error .valueError := by
  unfold minNumber numMin
  dsimp only
  rw [(num_fold_nan l).2]
  rfl

theorem mem_filterMap_id {l : List (Num K)} {x : K} : x ∈ l.filterMap id ↔ some x ∈ l := by
  rw [List.mem_filterMap]
  constructor
  · rintro ⟨a, ha, rfl⟩; exact ha
  · exact fun h => ⟨_, h, rfl⟩

theorem maxNumber_eq_ok {l : List (Num K)} {m : K} (h : maxNumber l = .ok m) :
    some m ∈ l ∧ ∀ x, some x ∈ l → x ≤ m := by
  cases l with
  | nil => exact absurd h (by simp [maxNumber, numMax])
  | cons a l =>
    cases a with
    | none => rw [maxNumber_nan] at h; cases h
    | some a =>
      rw [maxNumber_cons] at h
      obtain ⟨h1, h2⟩ := pyMax_eq_ok h
      exact ⟨mem_filterMap_id.1 h1, fun x hx => h2 x (mem_filterMap_id.2 hx)⟩

theorem minNumber_eq_ok {l : List (Num K)} {m : K} (h : minNumber l = .ok m) :
    some m ∈ l ∧ ∀ x, some x ∈ l → m ≤ x := by
  cases l with
  | nil => exact absurd h (by simp [minNumber, numMin])
  | cons a l =>
    cases a with
    | none => rw [minNumber_nan] at h; cases h
    | some a =>
      rw [minNumber_cons] at h
      obtain ⟨h1, h2⟩ := pyMin_eq_ok h
      exact ⟨mem_filterMap_id.1 h1, fun x hx => h2 x (mem_filterMap_id.2 hx)⟩

theorem extremes_ok {l : List (Num K)} {a : K} (h : l.head? = some (some a)) :
    (∃ m, maxNumber l = .ok m) ∧ ∃ m, minNumber l = .ok m := by
  obtain ⟨l', rfl⟩ : ∃ l', l = some a :: l' := by
    cases l with
    | nil => cases h
    | cons x l' => rw [List.head?_cons] at h; cases h; exact ⟨l', rfl⟩
  rw [maxNumber_cons, minNumber_cons]
  exact ⟨⟨_, rfl⟩, ⟨_, rfl⟩⟩

theorem filterMap_map_some (l : List K) : (l.map some).filterMap id = l := by
  induction l with
  | nil => rfl
  | cons a l ih => exact congrArg (a :: ·) ih

/-- without `nan` they are `max` and `min` -/
theorem maxNumber_some (l : List K) : maxNumber (l.map some) = pyMax l := by
  cases l with
  | nil => rfl
  | cons a l => rw [List.map_cons, maxNumber_cons, ← List.map_cons, filterMap_map_some]

theorem minNumber_some (l : List K) : minNumber (l.map some) = pyMin l := by
  cases l with
  | nil => rfl
  | cons a l => rw [List.map_cons, minNumber_cons, ← List.map_cons, filterMap_map_some]

/-- only `ValueError` is raised -/
theorem maxNumber_cases (l : List (Num K)) : (∃ m, maxNumber l = .ok m) ∨ maxNumber l = .error .valueError := by
  cases l with
  | nil => exact .inr rfl
  | cons a l =>
    cases a with
    | none => exact .inr (maxNumber_nan l)
    | some a => exact .inl (extremes_ok rfl).1

theorem minNumber_of_max {l : List (Num K)} {m : K} (h : maxNumber l = .ok m) : ∃ m', minNumber l = .ok m' := by
  cases l with
  | nil => cases h
  | cons a l =>
    cases a with
    | none => rw [maxNumber_nan] at h; cases h
    | some a => exact (extremes_ok rfl).2

end Ghedt
