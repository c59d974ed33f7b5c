import Verif.Lemmas.Moved
import Verif.Lemmas.Alike

/-!
# Land turned by a right angle

The candidates of a rectangle or bi-rectangle design whose sides are exchanged are those of the design, mirrored at the diagonal.
-/

namespace Ghedt.Moved
open Ghedt.Coordinates Ghedt.Domains Ghedt.Design

/-- mirrored at the diagonal -/
abbrev turn (f : Fld) : Fld := f.map fun c => (c.2, c.1)

theorem turn_turn (f : Fld) : turn (turn f) = f := by
  unfold turn
  rw [List.map_map]
  exact List.map_id f

theorem maybeTranspose_not (t : Bool) (f : Fld) : maybeTranspose (!t) f = turn (maybeTranspose t f) := by
  cases t
  · rfl
  · exact (turn_turn f).symm

theorem line_not (t : Bool) (l : List ℤ) (g : ℤ → Py Fld) :
    (l.mapM fun i => do let r ← g i; pure (maybeTranspose (!t) r)) =
      (l.mapM fun i => do let r ← g i; pure (maybeTranspose t r)).map (List.map turn) := by
  have := mapM_moved (f := fun i => do let r ← g i; pure (maybeTranspose t r))
    (f' := fun i => do let r ← g i; pure (maybeTranspose (!t) r)) id turn (by
      intro i
      cases h : g i with
      | error e => simp only [id, h]; rfl
      | ok r =>
        simp only [id, h, Except.ok_bind]
        show Except.ok _ = Except.ok _
        rw [maybeTranspose_not]) l
  rw [List.map_id] at this
  exact this

theorem rectangularStep_not (l1 l2 : ℝ) (t : Bool) (Nmin : ℤ) (s : RectState ℝ) (N : ℤ) :
    rectangularStep l1 l2 (!t) Nmin { s with domain := s.domain.map turn } N =
      (rectangularStep l1 l2 t Nmin s N).map fun s => { s with domain := s.domain.map turn } := by
  unfold rectangularStep
  cases pyDiv l1 ((N - 1 : ℤ) : ℝ) with
  | error e => rfl
  | ok B =>
    simp only [Except.ok_bind]
    cases pyDiv l2 B with
    | error e => rfl
    | ok q =>
      simp only [Except.ok_bind, line_not]
      by_cases h0 : s.iter = 0
      · rw [if_pos h0, if_pos h0]
        cases (pyRange 1 Nmin).mapM fun i : ℤ => do let r ← rectangle i 1 B B; pure (maybeTranspose t r) with
        | error e => rfl
        | ok line =>
          simp only [Except.map, Except.ok_bind]
          cases (pyRange 1 ⌊q + 1⌋).mapM fun j : ℤ => do let r ← rectangle Nmin j B B; pure (maybeTranspose t r) with
          | error e => rfl
          | ok rows =>
            simp only [Except.ok_bind, Except.pure_eq]
            by_cases h1 : s.n2Old = ⌊q + 1⌋
            · rw [if_pos h1, if_pos h1]; simp
            · rw [if_neg h1, if_neg h1]
              cases rectangle N ⌊q + 1⌋ B B with
              | error e => rfl
              | ok r => simp [maybeTranspose_not]
      · rw [if_neg h0, if_neg h0]
        simp only [Except.ok_bind, Except.pure_eq]
        by_cases h1 : s.n2Old = ⌊q + 1⌋
        · rw [if_pos h1, if_pos h1]; rfl
        · rw [if_neg h1, if_neg h1]
          cases rectangle N ⌊q + 1⌋ B B with
          | error e => rfl
          | ok r => simp [maybeTranspose_not, Except.map]

theorem rectangularFold_not (l1 l2 : ℝ) (t : Bool) (Nmin : ℤ) (l : List ℤ) :
    l.foldlM (rectangularStep l1 l2 (!t) Nmin) ⟨0, 1, []⟩ =
      (l.foldlM (rectangularStep l1 l2 t Nmin) ⟨0, 1, []⟩).map fun s => { s with domain := s.domain.map turn } :=
  Alike.foldlM_map (fun s : RectState ℝ => { s with domain := s.domain.map turn })
    (fun s N => rectangularStep_not l1 l2 t Nmin s N) l ⟨0, 1, []⟩

/-- The candidates for the turned land. -/
theorem rectangular_turned {X Y : ℝ} (h : X ≠ Y) (Bmin Bmax : ℝ) :
    rectangular Y X Bmin Bmax = (rectangular X Y Bmin Bmax).map (List.map turn) := by
  have key : ∀ (t : Bool) (l1 l2 : ℝ), ((do
      let a ← pyDiv l1 Bmin
      let b ← pyDiv l1 Bmax
      let s ← (pyRange ⌈b + 1⌉ (⌊a + 1⌋ + 1)).foldlM (rectangularStep l1 l2 (!t) ⌈b + 1⌉) ⟨0, 1, []⟩
      return s.domain) : Py (List Fld)) = ((do
      let a ← pyDiv l1 Bmin
      let b ← pyDiv l1 Bmax
      let s ← (pyRange ⌈b + 1⌉ (⌊a + 1⌋ + 1)).foldlM (rectangularStep l1 l2 t ⌈b + 1⌉) ⟨0, 1, []⟩
      return s.domain) : Py (List Fld)).map (List.map turn) := by
    intro t l1 l2
    cases pyDiv l1 Bmin with
    | error e => rfl
    | ok a =>
      cases pyDiv l1 Bmax with
      | error e => rfl
      | ok b =>
        simp only [Except.ok_bind, rectangularFold_not]
        cases (pyRange ⌈b + 1⌉ (⌊a + 1⌋ + 1)).foldlM (rectangularStep l1 l2 t ⌈b + 1⌉) ⟨0, 1, []⟩ <;> rfl
  unfold rectangular
  rcases lt_or_gt_of_ne h with h | h
  · rw [if_pos (show Y ≥ X from h.le), if_neg (show ¬ X ≥ Y from not_le.mpr h)]
    exact key true Y X
  · rw [if_pos (show X ≥ Y from le_of_lt h), if_neg (show ¬ Y ≥ X from not_le.mpr h)]
    exact key false X Y

theorem biRectangularStep_not (l1 l2 B2 : ℝ) (t : Bool) (s : ℕ × List Fld) (N : ℤ) :
    biRectangularStep l1 l2 B2 (!t) (Prod.map id (List.map turn) s) N =
      (biRectangularStep l1 l2 B2 t s N).map (Prod.map id (List.map turn)) := by
  unfold biRectangularStep
  cases pyDiv l2 B2 with
  | error e => rfl
  | ok q =>
    simp only [Except.ok_bind]
    cases pyDiv l2 ((⌈q + 1⌉ - 1 : ℤ) : ℝ) with
    | error e => rfl
    | ok b2 =>
      simp only [Except.ok_bind]
      cases pyDiv l1 ((N - 1 : ℤ) : ℝ) with
      | error e => rfl
      | ok b1 =>
        simp only [Except.ok_bind, line_not, Prod.map_fst, id]
        by_cases h0 : s.1 = 0
        · rw [if_pos h0, if_pos h0]
          cases (pyRange 1 N).mapM fun i : ℤ => do let r ← rectangle i 1 b1 b2; pure (maybeTranspose t r) with
          | error e => rfl
          | ok line =>
            simp only [Except.map, Except.ok_bind]
            cases (pyRange 1 ⌈q + 1⌉).mapM fun j : ℤ => do let r ← rectangle N j b1 b2; pure (maybeTranspose t r) with
            | error e => rfl
            | ok rows =>
              simp only [Except.ok_bind, Except.pure_eq]
              cases rectangle N ⌈q + 1⌉ b1 b2 with
              | error e => rfl
              | ok r => simp [maybeTranspose_not]
        · rw [if_neg h0, if_neg h0]
          simp only [Except.ok_bind, Except.pure_eq]
          cases rectangle N ⌈q + 1⌉ b1 b2 with
          | error e => rfl
          | ok r => simp [maybeTranspose_not, Except.map]

theorem biRectangularFold_not (l1 l2 B2 : ℝ) (t : Bool) (l : List ℤ) :
    l.foldlM (biRectangularStep l1 l2 B2 (!t)) (0, []) =
      (l.foldlM (biRectangularStep l1 l2 B2 t) (0, [])).map (Prod.map id (List.map turn)) :=
  Alike.foldlM_map (Prod.map id (List.map turn)) (fun s N => biRectangularStep_not l1 l2 B2 t s N) l (0, [])

theorem biRectangular_not (X Y Bmin BX BY : ℝ) (t : Bool) :
    biRectangular X Y Bmin BX BY (!t) = (biRectangular X Y Bmin BX BY t).map (List.map turn) := by
  unfold biRectangular
  generalize (if X ≥ Y then (X, Y, BX, BY) else (Y, X, BY, BX)) = c
  obtain ⟨l1, l2, B1, B2⟩ := c
  simp only
  cases pyDiv l1 Bmin with
  | error e => rfl
  | ok a =>
    cases pyDiv l1 B1 with
    | error e => rfl
    | ok b =>
      simp only [Except.ok_bind, biRectangularFold_not]
      cases (pyRange ⌈b + 1⌉ (⌊a + 1⌋ + 1)).foldlM (biRectangularStep l1 l2 B2 t) (0, []) <;> rfl

/-- The nested candidates for the turned land. -/
theorem biRectangleNested_turned {X Y : ℝ} (h : X ≠ Y) (Bmin BX BY : ℝ) :
    biRectangleNested Y X Bmin BY BX = (biRectangleNested X Y Bmin BX BY).map (List.map (List.map turn)) := by
  have key : ∀ (t : Bool) (l1 l2 B1 B2 : ℝ), ((do
      let a ← pyDiv l2 Bmin
      let b ← pyDiv l2 B2
      (pyRange ⌈b + 1⌉ (⌊a + 1⌋ + 1)).mapM fun n2 : ℤ => do
        let b2 ← pyDiv l2 ((n2 - 1 : ℤ) : ℝ)
        biRectangular l1 l2 Bmin B1 b2 (!t)) : Py (List (List Fld))) = ((do
      let a ← pyDiv l2 Bmin
      let b ← pyDiv l2 B2
      (pyRange ⌈b + 1⌉ (⌊a + 1⌋ + 1)).mapM fun n2 : ℤ => do
        let b2 ← pyDiv l2 ((n2 - 1 : ℤ) : ℝ)
        biRectangular l1 l2 Bmin B1 b2 t) : Py (List (List Fld))).map (List.map (List.map turn)) := by
    intro t l1 l2 B1 B2
    cases pyDiv l2 Bmin with
    | error e => rfl
    | ok a =>
      cases pyDiv l2 B2 with
      | error e => rfl
      | ok b =>
        simp only [Except.ok_bind]
        have := mapM_moved (f := fun n2 : ℤ => do
            let b2 ← pyDiv l2 ((n2 - 1 : ℤ) : ℝ)
            biRectangular l1 l2 Bmin B1 b2 t) (f' := fun n2 : ℤ => do
            let b2 ← pyDiv l2 ((n2 - 1 : ℤ) : ℝ)
            biRectangular l1 l2 Bmin B1 b2 (!t)) id (List.map turn) (by
              intro i
              simp only [id]
              cases pyDiv l2 ((i - 1 : ℤ) : ℝ) with
              | error e => rfl
              | ok b2 => exact biRectangular_not _ _ _ _ _ _) (pyRange ⌈b + 1⌉ (⌊a + 1⌋ + 1))
        rw [List.map_id] at this
        exact this
  unfold biRectangleNested
  rcases lt_or_gt_of_ne h with h | h
  · rw [if_pos (show Y ≥ X from h.le), if_neg (show ¬ X ≥ Y from not_le.mpr h)]
    exact key true Y X BY BX
  · rw [if_pos (show X ≥ Y from le_of_lt h), if_neg (show ¬ Y ≥ X from not_le.mpr h)]
    exact key false X Y BX BY

theorem designInit_rectangle (fuel : ℕ) (gc : Constraints ℝ) (h : gc.length ≠ gc.width) :
    designInit fuel { gc with length := gc.width, width := gc.length } "rectangle" =
      (designInit fuel gc "rectangle").map (candidates turn) := by
  obtain ⟨l, w, B, Bm, BX, BY⟩ := gc
  rcases l with _ | X
  · rcases w with _ | Y
    · exact absurd rfl h
    · rfl
  · rcases w with _ | Y
    · rfl
    · rcases Bm with _ | Bm
      · rfl
      · rcases BX with _ | BX
        · rfl
        · have hne : X ≠ Y := fun e => h (by rw [e])
          show (rectangular Y X Bm BX >>= fun d => Except.ok (Candidates.flat d)) =
            (rectangular X Y Bm BX >>= fun d => Except.ok (Candidates.flat d)).map _
          rw [rectangular_turned hne]
          cases rectangular X Y Bm BX <;> rfl

theorem designInit_biRectangle (fuel : ℕ) (gc : Constraints ℝ) (h : gc.length ≠ gc.width) :
    designInit fuel { gc with length := gc.width, width := gc.length, BmaxX := gc.BmaxY, BmaxY := gc.BmaxX } "bi-rectangle" =
      (designInit fuel gc "bi-rectangle").map (candidates turn) := by
  obtain ⟨l, w, B, Bm, BX, BY⟩ := gc
  rcases l with _ | X
  · rcases w with _ | Y
    · exact absurd rfl h
    · rfl
  · rcases w with _ | Y
    · rfl
    · rcases Bm with _ | Bm
      · rfl
      · rcases BX with _ | BX
        · rcases BY with _ | BY <;> rfl
        · rcases BY with _ | BY
          · rfl
          · have hne : X ≠ Y := fun e => h (by rw [e])
            show (biRectangleNested Y X Bm BY BX >>= fun d => Except.ok (Candidates.nested d)) =
              (biRectangleNested X Y Bm BX BY >>= fun d => Except.ok (Candidates.nested d)).map _
            rw [biRectangleNested_turned hne]
            cases biRectangleNested X Y Bm BX BY <;> rfl

end Ghedt.Moved
