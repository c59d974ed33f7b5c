import Verif.Props.Coordinates
import Verif.Props.Domains

/-!
# Which fields the candidate generators return, one by one

The theorems of `Props/Domains.lean` say that every field lies in the land, has an allowed spacing and is larger than the
one before.  Here the lists themselves are spelled out, so that a field left out, repeated or laid out differently would
show.  A field is described by its number of boreholes and its spacing along the longer and the shorter side.
-/

set_option linter.unusedSectionVars false

namespace Ghedt.Domains
open Coordinates Spec

variable {K : Type} [Field K] [LinearOrder K] [IsStrictOrderedRing K]

/-! ## C05 — `zoned_rectangle` -/

/-- C05, guard: whatever the counts, positive or not, `ValueError` is raised exactly when there are too many interior
rows or columns. -/
theorem C05_zonedRectangle_valueError (Nx Ny Nix Niy : ℤ) (Bx By : K) :
    zonedRectangle Nx Ny Bx By Nix Niy = .error .valueError ↔ (Nix > Nx - 2 ∨ Niy > Ny - 2) := by
  have hassert : ∀ (p : Prop) [Decidable p], pyAssert p = .ok () ∨ pyAssert p = .error .assertionError := by
    intro p _
    unfold pyAssert
    split
    · exact Or.inl rfl
    · exact Or.inr rfl
  have hrect : ∀ (a b : ℤ) (x y : K) (o : K × K), rectangle a b x y o ≠ .error .valueError := by
    intro a b x y o h
    unfold rectangle at h
    dsimp only at h
    rcases hassert ((((pyRange 0 a).flatMap fun i : ℤ =>
      (pyRange 0 b).map fun j : ℤ => (o.1 + (i : K) * x, o.2 + (j : K) * y)).length : ℤ) = a * b) with e | e <;>
      rw [e] at h <;> cases h
  have hopen : openRectangle Nx Ny Bx By ≠ .error .valueError := by
    intro h
    unfold openRectangle at h
    split at h
    · dsimp only at h
      generalize hl : ((pyRange 0 Nx).map fun i : ℤ => ((i : K) * Bx, (0 : K)))
        ++ ((pyRange 1 (Ny - 1)).flatMap fun j : ℤ =>
              [((0 : K), (j : K) * By), (((Nx - 1 : ℤ) : K) * Bx, (j : K) * By)])
        ++ ((pyRange 0 Nx).map fun i : ℤ => ((i : K) * Bx, ((Ny - 1 : ℤ) : K) * By)) = l at h
      rcases hassert ((l.length : ℤ) = Ny * 2 + (Nx - 2) * 2) with e | e <;> rw [e] at h <;> cases h
    · dsimp only at h
      cases hr : rectangle Nx Ny Bx By with
      | error e =>
        rw [hr] at h
        have : e = .valueError := by simpa using h
        exact hrect _ _ _ _ _ (this ▸ hr)
      | ok l =>
        rw [hr, Except.ok_bind] at h
        rcases hassert ((l.length : ℤ) = Nx * Ny) with e | e <;> rw [e] at h <;> cases h
  have hdiv : ∀ a b : K, pyDiv a b ≠ .error .valueError := by
    intro a b h
    unfold pyDiv at h
    split at h <;> cases h
  constructor
  · intro h
    by_contra hc
    rw [not_or] at hc
    unfold zonedRectangle at h
    rw [if_neg hc.1, if_neg hc.2] at h
    cases ho : openRectangle Nx Ny Bx By with
    | error e =>
      rw [ho] at h
      have : e = .valueError := by simpa using h
      exact hopen (this ▸ ho)
    | ok o =>
      rw [ho] at h
      cases h1 : pyDiv (((Nx - 1 : ℤ) : K) * Bx) ((Nix + 1 : ℤ) : K) with
      | error e =>
        rw [h1] at h
        have : e = .valueError := by simpa using h
        exact hdiv _ _ (this ▸ h1)
      | ok b1 =>
        rw [h1] at h
        cases h2 : pyDiv (((Ny - 1 : ℤ) : K) * By) ((Niy + 1 : ℤ) : K) with
        | error e =>
          rw [h2] at h
          have : e = .valueError := by simpa using h
          exact hdiv _ _ (this ▸ h2)
        | ok b2 =>
          rw [h2] at h
          cases h3 : rectangle Nix Niy b1 b2 (b1, b2) with
          | error e =>
            simp only [Except.ok_bind, Except.pure_eq, h3] at h
            have : e = .valueError := by simpa using h
            exact hrect _ _ _ _ _ (this ▸ h3)
          | ok l =>
            simp only [Except.ok_bind, Except.pure_eq, h3] at h
            cases h
  · intro h
    unfold zonedRectangle
    by_cases h1 : Nix > Nx - 2
    · rw [if_pos h1]; rfl
    · rw [if_neg h1, if_pos (by omega)]; rfl

/-- C05, content: the boreholes are exactly the outline of the outer grid and, inside it, `Nix × Niy` points that divide
each side of the land into `Nix + 1` and `Niy + 1` equal parts. -/
theorem C05_zonedRectangle_points {Nx Ny Nix Niy : ℤ} (hix : 1 ≤ Nix) (hiy : 1 ≤ Niy)
    (h1 : Nix ≤ Nx - 2) (h2 : Niy ≤ Ny - 2) {Bx By : K} (hBx : 0 < Bx) (hBy : 0 < By) :
    ∃ f, zonedRectangle Nx Ny Bx By Nix Niy = .ok f ∧ f.Nodup ∧
      (f.length : ℤ) = 2 * Nx + 2 * Ny - 4 + Nix * Niy ∧
      ∀ p, p ∈ f ↔ (OnOutline Nx Ny Bx By p ∨ ∃ i j : ℤ, (1 ≤ i ∧ i ≤ Nix) ∧ (1 ≤ j ∧ j ≤ Niy) ∧
        p = ((i : K) * (((Nx : K) - 1) * Bx / ((Nix : K) + 1)), (j : K) * (((Ny : K) - 1) * By / ((Niy : K) + 1)))) := by
  obtain ⟨outer, inner, hz, ho, l1, l2, _, _, hnd⟩ := C05_zonedRectangle_content hix hiy h1 h2 hBx hBy
  refine ⟨outer ++ inner, hz, hnd, by rw [List.length_append]; push_cast; omega, ?_⟩
  obtain ⟨outer', ho', _, hmem, _⟩ := C02_openRectangle_outline (by omega : 2 < Nx) (by omega : 2 < Ny) Bx By
  rw [ho] at ho'
  cases ho'
  have e1 : ((Nix + 1 : ℤ) : K) ≠ 0 := by exact_mod_cast (by omega : Nix + 1 ≠ 0)
  have e2 : ((Niy + 1 : ℤ) : K) ≠ 0 := by exact_mod_cast (by omega : Niy + 1 ≠ 0)
  have hin : inner = lattice Nix Niy (((Nx - 1 : ℤ) : K) * Bx / ((Nix + 1 : ℤ) : K))
      (((Ny - 1 : ℤ) : K) * By / ((Niy + 1 : ℤ) : K))
      (((Nx - 1 : ℤ) : K) * Bx / ((Nix + 1 : ℤ) : K), ((Ny - 1 : ℤ) : K) * By / ((Niy + 1 : ℤ) : K)) := by
    unfold zonedRectangle at hz
    rw [if_neg (by omega), if_neg (by omega), ho, pyDiv_ok e1, pyDiv_ok e2] at hz
    simp only [Except.ok_bind, Except.pure_eq] at hz
    rw [rectangle_ok (by omega) (by omega)] at hz
    simpa using hz.symm
  intro p
  rw [List.mem_append, hmem p, hin, mem_lattice]
  refine or_congr Iff.rfl ⟨?_, ?_⟩
  · rintro ⟨i, j, ⟨a, b⟩, ⟨c, d⟩, rfl⟩
    refine ⟨i + 1, j + 1, ⟨by omega, by omega⟩, ⟨by omega, by omega⟩, ?_⟩
    push_cast
    ext <;> ring
  · rintro ⟨i, j, ⟨a, b⟩, ⟨c, d⟩, rfl⟩
    refine ⟨i - 1, j - 1, ⟨by omega, by omega⟩, ⟨by omega, by omega⟩, ?_⟩
    push_cast
    ext <;> ring

/-- an interior of one row and two columns in a 4 × 3 outline -/
example : zonedRectangle 4 3 (6 : ℚ) 5 2 1 = .ok
    [(0, 0), (6, 0), (12, 0), (18, 0), (0, 5), (18, 5), (0, 10), (6, 10), (12, 10), (18, 10), (6, 5), (12, 5)] := by
  decide +kernel
/-- a negative interior count is not caught by the guard -/
example : zonedRectangle 4 3 (6 : ℚ) 5 (-1) 1 = .error .zeroDivisionError := by decide +kernel

section floor
variable [FloorRing K]

/-- The domain consists of exactly these fields, in this order: number of boreholes along the longer and the shorter side,
spacing along the longer and the shorter side. -/
def FieldsAre (transpose : Bool) (shapes : List (ℤ × ℤ × K × K)) (d : List (List (K × K))) : Prop :=
  List.Forall₂ (fun s f => GridAlong transpose s.1 s.2.1 s.2.2.1 s.2.2.2 f) shapes d

/-- The whole numbers from `a` to `b` (none if `b < a`). -/
def fromTo (a b : ℤ) : List ℤ := (List.range (b + 1 - a).toNat).map fun k : ℕ => a + (k : ℤ)

theorem fromTo_eq (a b : ℤ) : fromTo a b = pyRange a (b + 1) := rfl

/-! ## C11 — `rectangular` -/

/-- The fields `rectangular` should return for at least `N0` and at most `N1` boreholes along the longer side `L1`: a line
growing from one borehole, rows added to it, and then, for each number of boreholes along the longer side, the largest
number of rows that fits with equal spacing — unless it is the number of rows of the field before. -/
def rectangularShapes (L1 L2 : K) (N0 N1 : ℤ) : List (ℤ × ℤ × K × K) :=
  let B : ℤ → K := fun N => L1 / ((N : K) - 1)
  let rows : ℤ → ℤ := fun N => ⌊L2 / B N⌋ + 1
  (fromTo 1 (N0 - 1)).map (fun i => (i, 1, B N0, B N0))
    ++ (fromTo 1 (rows N0 - 1)).map (fun j => (N0, j, B N0, B N0))
    ++ ((fromTo N0 N1).filter fun N => decide (rows N ≠ if N = N0 then 1 else rows (N - 1))).map
        fun N => (N, rows N, B N, B N)

theorem filter_fromTo_succ (p : ℤ → Bool) {a b : ℤ} (h : a ≤ b) :
    (fromTo a b).filter p = (fromTo a (b - 1)).filter p ++ if p b then [b] else [] := by
  rw [fromTo_eq, fromTo_eq, pyRange_succ h, List.filter_append, sub_add_cancel]
  congr 1
  by_cases h : p b <;> simp [h]

theorem rows_eq (L1 L2 : K) (N : ℤ) : rows L1 L2 N = ⌊L2 / (L1 / ((N : K) - 1))⌋ + 1 := by
  unfold rows
  push_cast
  rw [Int.floor_add_one]

/-- the field of the given shape -/
def shapeField (t : Bool) (s : ℤ × ℤ × K × K) : List (K × K) :=
  maybeTranspose t (lattice s.1 s.2.1 s.2.2.1 s.2.2.2 (0, 0))

theorem fieldsAre_map {t : Bool} {shapes : List (ℤ × ℤ × K × K)}
    (h : ∀ s ∈ shapes, 1 ≤ s.1 ∧ 1 ≤ s.2.1 ∧ 0 < s.2.2.1 ∧ 0 < s.2.2.2) :
    FieldsAre t shapes (shapes.map (shapeField t)) := by
  unfold FieldsAre
  rw [List.forall₂_map_right_iff, List.forall₂_same]
  intro s hs
  obtain ⟨a, b, c, d⟩ := h s hs
  exact ogrid_lattice t a b c d

theorem rectangularStep_shapes {L1 L2 : K} (h1 : 0 < L1) (h2 : 0 < L2) (t : Bool) {N0 N : ℤ} (hN0 : 2 ≤ N0)
    (hN : N0 ≤ N) {s : RectState K}
    (hs : if N = N0 then s = ⟨0, 1, []⟩ else
      s = ⟨1, rows L1 L2 (N - 1), (rectangularShapes L1 L2 N0 (N - 1)).map (shapeField t)⟩) :
    rectangularStep L1 L2 t N0 s N =
      .ok ⟨1, rows L1 L2 N, (rectangularShapes L1 L2 N0 N).map (shapeField t)⟩ := by
  have hN2 : 2 ≤ N := by omega
  set B : K := L1 / ((N - 1 : ℤ) : K) with hBdef
  have hB : 0 < B := div_pos h1 (cast_pred_pos hN2)
  have e1 : pyDiv L1 ((N - 1 : ℤ) : K) = .ok B := pyDiv_ok (cast_pred_pos hN2).ne'
  have e2 : pyDiv L2 B = .ok (L2 / B) := pyDiv_ok hB.ne'
  have hn2 : ⌊L2 / B + 1⌋ = rows L1 L2 N := rfl
  have hr1 : 1 ≤ rows L1 L2 N := one_le_rows h1 h2 hN2
  have hBc : L1 / ((N : K) - 1) = B := by rw [hBdef]; push_cast; rfl
  have m1 : (pyRange 1 N0).mapM (fun i : ℤ => do
      let r ← rectangle i 1 B B
      pure (maybeTranspose t r)) = .ok ((pyRange 1 N0).map fun i : ℤ =>
        maybeTranspose t (lattice i 1 B B (0, 0))) := by
    apply mapM_ok
    intro i hi
    rw [mem_pyRange] at hi
    rw [rectangle_ok (by omega) (by omega)]; rfl
  have m2 : (pyRange 1 (rows L1 L2 N)).mapM (fun j : ℤ => do
      let r ← rectangle N0 j B B
      pure (maybeTranspose t r)) = .ok ((pyRange 1 (rows L1 L2 N)).map fun j : ℤ =>
        maybeTranspose t (lattice N0 j B B (0, 0))) := by
    apply mapM_ok
    intro i hi
    rw [mem_pyRange] at hi
    rw [rectangle_ok (by omega) (by omega)]; rfl
  have m3 : rectangle N (rows L1 L2 N) B B = .ok (lattice N (rows L1 L2 N) B B (0, 0)) :=
    rectangle_ok (by omega) (by omega) _ _ _
  unfold rectangularStep
  rw [e1, Except.ok_bind, e2, Except.ok_bind, hn2]
  dsimp only
  have hsh : rectangularShapes L1 L2 N0 N =
      (if N = N0 then (fromTo 1 (N0 - 1)).map (fun i => (i, 1, B, B))
        ++ (fromTo 1 (rows L1 L2 N - 1)).map (fun j => (N0, j, B, B)) else rectangularShapes L1 L2 N0 (N - 1))
      ++ if (if N = N0 then 1 else rows L1 L2 (N - 1)) = rows L1 L2 N then [] else [(N, rows L1 L2 N, B, B)] := by
    unfold rectangularShapes
    dsimp only
    rw [filter_fromTo_succ _ hN]
    simp only [← rows_eq, List.map_append, ← List.append_assoc]
    by_cases hc : N = N0
    · subst hc
      rw [show fromTo N (N - 1) = [] by rw [fromTo_eq]; exact pyRange_empty (by omega)]
      simp only [if_true, List.filter_nil, List.map_nil, List.append_nil, hBc]
      congr 1
      by_cases h : rows L1 L2 N = 1
      · simp [h]
      · simp [h, Ne.symm h, hBc]
    · simp only [if_neg hc]
      congr 1
      by_cases h : rows L1 L2 N = rows L1 L2 (N - 1)
      · simp [h]
      · simp [h, Ne.symm h, hBc]
  rw [hsh]
  by_cases hc : N = N0
  · rw [if_pos hc] at hs
    subst hs
    subst hc
    rw [if_pos rfl, m1, Except.ok_bind, m2, Except.ok_bind, Except.pure_eq, Except.ok_bind]
    simp only [if_true]
    by_cases h : (1 : ℤ) = rows L1 L2 N
    · rw [if_pos h, if_pos h, ← h]
      simp [fromTo_eq, shapeField, Function.comp_def]
    · rw [if_neg h, if_neg h, m3, Except.ok_bind]
      simp [fromTo_eq, shapeField, Function.comp_def]
  · rw [if_neg hc] at hs
    subst hs
    rw [if_neg (by simp), Except.pure_eq, Except.ok_bind]
    simp only [if_neg hc]
    by_cases h : rows L1 L2 (N - 1) = rows L1 L2 N
    · rw [if_pos h, if_pos h, ← h]
      simp
    · rw [if_neg h, if_neg h, m3, Except.ok_bind]
      simp [shapeField]

/-- C11, content: with `L1 ≥ L2` the two sides of the land, the fields are exactly the line growing from one borehole, the
rows added to it, and one field for each admissible number of boreholes along the longer side that changes the number of
rows; without an admissible number there are none. -/
theorem C11_rectangular_fields {X Y Bmin Bmax : K} (hX : 0 < X) (hY : 0 < Y) (hBmin : 0 < Bmin) (hBmax : 0 < Bmax)
    {L1 L2 : K} (hL1 : L1 = max X Y) (hL2 : L2 = min X Y) :
    ∃ d, rectangular X Y Bmin Bmax = .ok d ∧
      FieldsAre (decide (X < Y))
        (if ⌈L1 / Bmax⌉ ≤ ⌊L1 / Bmin⌋ then rectangularShapes L1 L2 (⌈L1 / Bmax⌉ + 1) (⌊L1 / Bmin⌋ + 1) else []) d := by
  have key : ∀ (L1 L2 : K) (t : Bool), 0 < L1 → 0 < L2 →
      ∃ d, (do
        let a ← pyDiv L1 Bmin
        let b ← pyDiv L1 Bmax
        let s ← (pyRange ⌈b + 1⌉ (⌊a + 1⌋ + 1)).foldlM
          (rectangularStep L1 L2 t ⌈b + 1⌉) ⟨0, 1, []⟩
        return s.domain : Py _) = .ok d ∧
        FieldsAre t
          (if ⌈L1 / Bmax⌉ ≤ ⌊L1 / Bmin⌋ then rectangularShapes L1 L2 (⌈L1 / Bmax⌉ + 1) (⌊L1 / Bmin⌋ + 1) else []) d := by
    intro L1 L2 t h1 h2
    rw [pyDiv_ok hBmin.ne', Except.ok_bind, pyDiv_ok hBmax.ne', Except.ok_bind]
    have hN0 : 2 ≤ ⌈L1 / Bmax + 1⌉ := two_le_ceil (div_pos h1 hBmax)
    rw [Int.ceil_add_one] at hN0
    rw [Int.ceil_add_one, Int.floor_add_one]
    set N0 := ⌈L1 / Bmax⌉ + 1 with hN0d
    set N1 := ⌊L1 / Bmin⌋ + 1 with hN1d
    by_cases hle : ⌈L1 / Bmax⌉ ≤ ⌊L1 / Bmin⌋
    · rw [if_pos hle]
      obtain ⟨s, hs, hP⟩ := foldlM_pyRange_inv
        (fun N s => if N = N0 then s = ⟨0, 1, []⟩ else
          s = ⟨1, rows L1 L2 (N - 1), (rectangularShapes L1 L2 N0 (N - 1)).map (shapeField t)⟩)
        (f := rectangularStep L1 L2 t N0)
        (by omega : N0 ≤ N1 + 1)
        (by
          intro N s hN hN' hP
          refine ⟨_, rectangularStep_shapes h1 h2 t hN0 hN hP, ?_⟩
          rw [if_neg (by omega), add_sub_cancel_right])
        (s := ⟨0, 1, []⟩) (by simp)
      rw [if_neg (by omega), add_sub_cancel_right] at hP
      rw [hs, hP]
      refine ⟨_, rfl, fieldsAre_map ?_⟩
      have hpos : ∀ N : ℤ, N0 ≤ N → 0 < L1 / ((N : K) - 1) := by
        intro N hN
        have := div_pos h1 (cast_pred_pos (K := K) (by omega : 2 ≤ N))
        push_cast at this
        exact this
      intro q hq
      unfold rectangularShapes at hq
      simp only [List.mem_append, List.mem_map, List.mem_filter, fromTo_eq, mem_pyRange] at hq
      rcases hq with (⟨i, hi, rfl⟩ | ⟨j, hj, rfl⟩) | ⟨N, ⟨hN, _⟩, rfl⟩
      · exact ⟨by simp only; omega, le_rfl, hpos _ le_rfl, hpos _ le_rfl⟩
      · exact ⟨by simp only; omega, by simp only; omega, hpos _ le_rfl, hpos _ le_rfl⟩
      · refine ⟨by simp only; omega, ?_, hpos _ (by omega), hpos _ (by omega)⟩
        have := one_le_rows h1 h2 (by omega : 2 ≤ N)
        rwa [rows_eq] at this
    · rw [if_neg hle, pyRange_empty (by omega)]
      exact ⟨[], rfl, List.Forall₂.nil⟩
  unfold rectangular
  subst hL1 hL2
  by_cases hc : X ≥ Y
  · have := key X Y false hX hY
    rw [max_eq_left hc, min_eq_right hc, decide_eq_false (not_lt.mpr hc)]
    simpa only [hc, if_true] using this
  · have := key Y X true hY hX
    have hc' : X < Y := not_le.mp hc
    rw [max_eq_right hc'.le, min_eq_left hc'.le, decide_eq_true hc']
    simpa only [hc, if_false] using this

/-- a 30 m × 20 m land with 5 to 10 m between boreholes: four, five, six or seven boreholes along the longer side, and
the five-borehole field is left out because it has as many rows as the one with four -/
example : (rectangularShapes (30 : ℚ) 20 4 7).map (fun s => (s.1, s.2.1, s.2.2.1)) =
    [(1, 1, 10), (2, 1, 10), (3, 1, 10), (4, 1, 10), (4, 2, 10), (4, 3, 10), (6, 4, 6), (7, 5, 5)] := by decide +kernel

/-! ## C12, C13 — `bi_rectangular` and `bi_rectangle_nested` -/

/-- The fields `bi_rectangular` should return for at least `N0` and at most `N1` boreholes along the longer side and `n2`
along the shorter one: a line growing from one borehole, rows added to it, and then one field of `n2` full rows for each
number of boreholes along the longer side. -/
def biRectangularShapes (L1 L2 : K) (N0 N1 n2 : ℤ) : List (ℤ × ℤ × K × K) :=
  let b1 : ℤ → K := fun N => L1 / ((N : K) - 1)
  let b2 : K := L2 / ((n2 : K) - 1)
  (fromTo 1 (N0 - 1)).map (fun i => (i, 1, b1 N0, b2))
    ++ (fromTo 1 (n2 - 1)).map (fun j => (N0, j, b1 N0, b2))
    ++ (fromTo N0 N1).map fun N => (N, n2, b1 N, b2)

theorem biFields_shapes (L1 L2 : K) (t : Bool) (N0 N1 n2 : ℤ) :
    biFields (fun n => L1 / ((n - 1 : ℤ) : K)) (L2 / ((n2 - 1 : ℤ) : K)) t N0 (N1 + 1) n2 =
      (biRectangularShapes L1 L2 N0 N1 n2).map (shapeField t) := by
  unfold biFields biRectangularShapes
  simp [fromTo_eq, shapeField, Function.comp_def]

theorem fieldsAre_biFields {L1 L2 : K} (h1 : 0 < L1) (h2 : 0 < L2) (t : Bool) {N0 N1 n2 : ℤ} (hN0 : 2 ≤ N0)
    (hn2 : 2 ≤ n2) :
    FieldsAre t (biRectangularShapes L1 L2 N0 N1 n2)
      (biFields (fun n => L1 / ((n - 1 : ℤ) : K)) (L2 / ((n2 - 1 : ℤ) : K)) t N0 (N1 + 1) n2) := by
  rw [biFields_shapes]
  apply fieldsAre_map
  have hpos : ∀ {L : K} {N : ℤ}, 0 < L → 2 ≤ N → 0 < L / ((N : K) - 1) := by
    intro L N hL hN
    have := div_pos hL (cast_pred_pos (K := K) hN)
    push_cast at this
    exact this
  intro q hq
  unfold biRectangularShapes at hq
  simp only [List.mem_append, List.mem_map, fromTo_eq, mem_pyRange] at hq
  rcases hq with (⟨i, hi, rfl⟩ | ⟨j, hj, rfl⟩) | ⟨N, hN, rfl⟩
  · exact ⟨by simp only; omega, le_rfl, hpos h1 hN0, hpos h2 hn2⟩
  · exact ⟨by simp only; omega, by simp only; omega, hpos h1 hN0, hpos h2 hn2⟩
  · exact ⟨by simp only; omega, by simp only; omega, hpos h1 (by omega), hpos h2 hn2⟩

/-- C12, content: the fields are exactly the line growing from one borehole, the rows added to it, and one field for each
admissible number of boreholes along the longer side, all with the smallest admissible number along the shorter side. -/
theorem C12_biRectangular_fields {X Y Bmin BX BY : K} (hX : 0 < X) (hY : 0 < Y) (hBmin : 0 < Bmin)
    (hBX : 0 < BX) (hBY : 0 < BY) (t : Bool) {L1 L2 B1 B2 : K}
    (hL : (Y ≤ X ∧ L1 = X ∧ L2 = Y ∧ B1 = BX ∧ B2 = BY) ∨
          (X < Y ∧ L1 = Y ∧ L2 = X ∧ B1 = BY ∧ B2 = BX)) :
    ∃ d, biRectangular X Y Bmin BX BY t = .ok d ∧
      FieldsAre t (if ⌈L1 / B1⌉ ≤ ⌊L1 / Bmin⌋ then
        biRectangularShapes L1 L2 (⌈L1 / B1⌉ + 1) (⌊L1 / Bmin⌋ + 1) (⌈L2 / B2⌉ + 1) else []) d := by
  have key : ∀ L1 L2 B1 B2 : K, 0 < L1 → 0 < L2 → L2 ≤ L1 → 0 < B1 → 0 < B2 →
    ∃ d, biRectangular L1 L2 Bmin B1 B2 t = .ok d ∧
      FieldsAre t (if ⌈L1 / B1⌉ ≤ ⌊L1 / Bmin⌋ then
        biRectangularShapes L1 L2 (⌈L1 / B1⌉ + 1) (⌊L1 / Bmin⌋ + 1) (⌈L2 / B2⌉ + 1) else []) d := by
    intro L1 L2 B1 B2 h1 h2 h12 hB1 hB2
    refine ⟨_, biRectangular_ordered h1 h2 h12 hBmin hB1 hB2 t, ?_⟩
    have hn1 : 2 ≤ ⌈L1 / B1 + 1⌉ := two_le_ceil (div_pos h1 hB1)
    have hn2 : 2 ≤ ⌈L2 / B2 + 1⌉ := two_le_ceil (div_pos h2 hB2)
    simp only [Int.ceil_add_one, Int.floor_add_one] at hn1 hn2 ⊢
    by_cases hle : ⌈L1 / B1⌉ ≤ ⌊L1 / Bmin⌋
    · rw [if_pos hle, if_pos (by omega)]
      exact fieldsAre_biFields h1 h2 t hn1 hn2
    · rw [if_neg hle, if_neg (by omega)]
      exact List.Forall₂.nil
  rcases hL with ⟨h, rfl, rfl, rfl, rfl⟩ | ⟨h, rfl, rfl, rfl, rfl⟩
  · exact key _ _ _ _ hX hY h hBX hBY
  · rw [biRectangular_swap h]
    exact key _ _ _ _ hY hX h.le hBY hBX

/-- C13, content: for each admissible number `n` of boreholes along the shorter side, in increasing order, the result has
one domain: the fields of `bi_rectangular` (C12) ending in `n` full rows. -/
theorem C13_nested_fields {X Y Bmin BX BY : K} (hX : 0 < X) (hY : 0 < Y) (hBmin : 0 < Bmin)
    (hBX : 0 < BX) (hBY : 0 < BY) {L1 L2 B1 B2 : K}
    (hL : (Y ≤ X ∧ L1 = X ∧ L2 = Y ∧ B1 = BX ∧ B2 = BY) ∨
          (X < Y ∧ L1 = Y ∧ L2 = X ∧ B1 = BY ∧ B2 = BX)) :
    ∃ nested, biRectangleNested X Y Bmin BX BY = .ok nested ∧
      List.Forall₂ (fun n d => FieldsAre (decide (X < Y)) (if ⌈L1 / B1⌉ ≤ ⌊L1 / Bmin⌋ then
        biRectangularShapes L1 L2 (⌈L1 / B1⌉ + 1) (⌊L1 / Bmin⌋ + 1) n else []) d)
        (fromTo (⌈L2 / B2⌉ + 1) (⌊L2 / Bmin⌋ + 1)) nested := by
  have key : ∀ (t : Bool) (L1 L2 B1 B2 : K), 0 < L1 → 0 < L2 → L2 ≤ L1 → 0 < B1 → 0 < B2 →
    ∃ nested, (pyRange ⌈L2 / B2 + 1⌉ (⌊L2 / Bmin + 1⌋ + 1)).mapM (fun n2 : ℤ => do
        let b2 ← pyDiv L2 ((n2 - 1 : ℤ) : K)
        biRectangular L1 L2 Bmin B1 b2 t) = .ok nested ∧
      List.Forall₂ (fun n d => FieldsAre t (if ⌈L1 / B1⌉ ≤ ⌊L1 / Bmin⌋ then
        biRectangularShapes L1 L2 (⌈L1 / B1⌉ + 1) (⌊L1 / Bmin⌋ + 1) n else []) d)
        (fromTo (⌈L2 / B2⌉ + 1) (⌊L2 / Bmin⌋ + 1)) nested := by
    intro t L1 L2 B1 B2 h1 h2 h12 hB1 hB2
    have hN : 2 ≤ ⌈L2 / B2 + 1⌉ := two_le_ceil (div_pos h2 hB2)
    have hn1 : 2 ≤ ⌈L1 / B1 + 1⌉ := two_le_ceil (div_pos h1 hB1)
    set dom : ℤ → List (List (K × K)) := fun n2 =>
      if ⌈L1 / B1 + 1⌉ ≤ ⌊L1 / Bmin + 1⌋ then
        biFields (fun n => L1 / ((n - 1 : ℤ) : K)) (L2 / ((n2 - 1 : ℤ) : K)) t
          ⌈L1 / B1 + 1⌉ (⌊L1 / Bmin + 1⌋ + 1) n2 else [] with hdom
    have hm : (pyRange ⌈L2 / B2 + 1⌉ (⌊L2 / Bmin + 1⌋ + 1)).mapM (fun n2 : ℤ => do
        let b2 ← pyDiv L2 ((n2 - 1 : ℤ) : K)
        biRectangular L1 L2 Bmin B1 b2 t) =
        .ok ((pyRange ⌈L2 / B2 + 1⌉ (⌊L2 / Bmin + 1⌋ + 1)).map dom) := by
      apply mapM_ok
      intro n2 hn2
      rw [mem_pyRange] at hn2
      have h2n : 2 ≤ n2 := by omega
      have hb2 : 0 < L2 / ((n2 - 1 : ℤ) : K) := div_pos h2 (cast_pred_pos h2n)
      rw [pyDiv_ok (cast_pred_pos h2n).ne', Except.ok_bind,
        biRectangular_ordered h1 h2 h12 hBmin hB1 hb2 t, ceil_self h2 h2n]
    refine ⟨_, hm, ?_⟩
    rw [fromTo_eq]
    simp only [Int.ceil_add_one, Int.floor_add_one] at hN hn1 hdom ⊢
    rw [List.forall₂_map_right_iff, List.forall₂_same]
    intro n hn
    rw [mem_pyRange] at hn
    rw [hdom]
    dsimp only
    by_cases hle : ⌈L1 / B1⌉ ≤ ⌊L1 / Bmin⌋
    · rw [if_pos hle, if_pos (by omega)]
      exact fieldsAre_biFields h1 h2 t hn1 (by omega)
    · rw [if_neg hle, if_neg (by omega)]
      exact List.Forall₂.nil
  unfold biRectangleNested
  rcases hL with ⟨h, rfl, rfl, rfl, rfl⟩ | ⟨h, rfl, rfl, rfl, rfl⟩
  · rw [if_pos h, decide_eq_false (not_lt.mpr h)]
    dsimp only
    rw [pyDiv_ok hBmin.ne', Except.ok_bind, pyDiv_ok hBY.ne', Except.ok_bind]
    exact key false _ _ _ _ hX hY h hBX hBY
  · rw [if_neg (not_le.mpr h), decide_eq_true h]
    dsimp only
    rw [pyDiv_ok hBmin.ne', Except.ok_bind, pyDiv_ok hBX.ne', Except.ok_bind]
    exact key true _ _ _ _ hY hX h.le hBY hBX

/-- the domain with three rows on a 30 m × 20 m land -/
example : (biRectangularShapes (30 : ℚ) 20 4 7 3).map (fun s => (s.1, s.2.1, s.2.2.1, s.2.2.2)) =
    [(1, 1, 10, 10), (2, 1, 10, 10), (3, 1, 10, 10), (4, 1, 10, 10), (4, 2, 10, 10), (4, 3, 10, 10),
      (5, 3, 15 / 2, 10), (6, 3, 6, 10), (7, 3, 5, 10)] := by decide +kernel

end floor

/-! ## C14, C16 — the zoned domains -/

/-- The field is an outline of `n1 × n2` boreholes with spacings `b1`, `b2` around an interior of `x × y` boreholes that
divides each side into `x + 1` and `y + 1` equal parts; no two boreholes coincide. -/
def IsZoned (n1 n2 : ℤ) (b1 b2 : K) (x y : ℤ) (f : List (K × K)) : Prop :=
  f.Nodup ∧ (f.length : ℤ) = 2 * n1 + 2 * n2 - 4 + x * y ∧
    ∀ p, p ∈ f ↔ (OnOutline n1 n2 b1 b2 p ∨ ∃ i j : ℤ, (1 ≤ i ∧ i ≤ x) ∧ (1 ≤ j ∧ j ≤ y) ∧
      p = ((i : K) * (((n1 : K) - 1) * b1 / ((x : K) + 1)), (j : K) * (((n2 : K) - 1) * b2 / ((y : K) + 1))))

/-- C14, content: with `n1 × n2` boreholes along the longer side `L1` and the shorter side `L2`, the first field has one
interior borehole, the last one a full interior, and each field adds to the interior of the one before the column or row
that `InteriorStep` names.  Which one it is depends on the counts only, not on the lengths.  Every field but the first has
its axes swapped if `transpose` is given. -/
theorem C14_zoned_domain_interiors {X Y : K} (hX : 0 < X) (hY : 0 < Y) {nx ny : ℤ} (hnx : 3 ≤ nx)
    (hny : 3 ≤ ny) (t : Bool) {n1 n2 : ℤ} {L1 L2 : K}
    (hn : (Y ≤ X ∧ n1 = nx ∧ n2 = ny ∧ L1 = X ∧ L2 = Y) ∨
      (X < Y ∧ n1 = ny ∧ n2 = nx ∧ L1 = Y ∧ L2 = X)) :
    ∃ (z : List (K × K)) (fields : List (List (K × K))) (path : List (ℤ × ℤ)),
      (∀ fuel : ℕ, nx + ny ≤ fuel → zonedRectangleDomain fuel X Y nx ny t =
        .ok (z :: fields.map fun f => if t then f.map Prod.swap else f)) ∧
      ((1, 1) :: path).getLast? = some (n1 - 2, n2 - 2) ∧
      ((1, 1) :: path).IsChain (InteriorStep n1 n2) ∧
      List.Forall₂ (fun q f => IsZoned n1 n2 (L1 / ((n1 : K) - 1)) (L2 / ((n2 : K) - 1)) q.1 q.2 f)
        ((1, 1) :: path) (z :: fields) := by
  have hsel : (L1, L2, n1, n2) = (if X ≥ Y then (X, Y, nx, ny) else (Y, X, ny, nx)) := by
    rcases hn with ⟨h, rfl, rfl, rfl, rfl⟩ | ⟨h, rfl, rfl, rfl, rfl⟩
    · rw [if_pos h]
    · rw [if_neg (not_le.mpr h)]
  have hL : 0 < L1 ∧ 0 < L2 ∧ 3 ≤ n1 ∧ 3 ≤ n2 := by
    rcases hn with ⟨_, rfl, rfl, rfl, rfl⟩ | ⟨_, rfl, rfl, rfl, rfl⟩
    · exact ⟨hX, hY, hnx, hny⟩
    · exact ⟨hY, hX, hny, hnx⟩
  obtain ⟨hL1, hL2, hn1, hn2⟩ := hL
  obtain ⟨path, z, fields, hp, hi, hl, hz, hF, hrun⟩ := zonedRectangleDomain_path hX hY t hsel hn1 hn2
  have hb1 : 0 < L1 / ((n1 : K) - 1) := by
    have : (3 : K) ≤ n1 := by exact_mod_cast hn1
    exact div_pos hL1 (by linarith)
  have hb2 : 0 < L2 / ((n2 : K) - 1) := by
    have : (3 : K) ≤ n2 := by exact_mod_cast hn2
    exact div_pos hL2 (by linarith)
  have hbd := unitPath_bounds hp
  push_cast at hz hF
  have one : ∀ {q : ℤ × ℤ} {f : List (K × K)}, q ∈ (1, 1) :: path →
      zonedRectangle n1 n2 (L1 / ((n1 : K) - 1)) (L2 / ((n2 : K) - 1)) q.1 q.2 = .ok f →
      IsZoned n1 n2 (L1 / ((n1 : K) - 1)) (L2 / ((n2 : K) - 1)) q.1 q.2 f := by
    intro q f hq hf
    obtain ⟨a, b, c, d⟩ := hbd q hq
    obtain ⟨f', hf', h1, h2, h3⟩ := C05_zonedRectangle_points a b c d hb1 hb2
    rw [hf] at hf'
    cases hf'
    exact ⟨h1, h2, h3⟩
  refine ⟨z, fields, path, ?_, hp.2.1, hi, List.Forall₂.cons (one List.mem_cons_self hz) ?_⟩
  · intro fuel hf
    rw [hrun fuel (by rcases hn with ⟨_, rfl, rfl, _⟩ | ⟨_, rfl, rfl, _⟩ <;> omega)]
    rfl
  · have hmem : ∀ q ∈ path, q ∈ (1, 1) :: path := fun q hq => List.mem_cons_of_mem _ hq
    generalize hR : (1, 1) :: path = R at one hmem
    clear hp hi hl hrun hbd hR
    induction hF with
    | nil => exact List.Forall₂.nil
    | cons h _ ih =>
      exact List.Forall₂.cons (one (hmem _ List.mem_cons_self) h)
        (ih fun q hq => hmem q (List.mem_cons_of_mem _ hq))

/-- inside an outline of 5 × 4 boreholes the interior grows from 1 × 1 over 2 × 1 and 3 × 1 to 3 × 2 -/
example : ([(1, 1), (2, 1), (3, 1), (3, 2)] : List (ℤ × ℤ)).IsChain (InteriorStep 5 4) := by
  simp [InteriorStep]; norm_num

section floor
variable [FloorRing K]

/-- The start-up shapes in front of the first zoned domain, with at least `N1` and `N2` boreholes along the sides: `k`-th
shapes are lines of `1, …, N1` boreholes, then an L whose leg grows to `N2`, then a U whose second leg grows to `N2`, then
the row closing the U. -/
def StartupShapes (N1 N2 : ℤ) (b1 b2 : K) (transpose : Bool) (l : List (List (K × K))) : Prop :=
  ∃ lines ls us cs, l = lines ++ ls ++ us ++ cs ∧
    List.Forall₂ (fun n f => ∀ p, p ∈ f ↔ OnLattice n 1 b1 b2 (0, 0) (if transpose then p.swap else p))
      (fromTo 1 N1) lines ∧
    List.Forall₂ (fun n f => ∀ p, p ∈ f ↔ OnL N1 n b1 b2 (if transpose then p.swap else p)) (fromTo 2 N2) ls ∧
    List.Forall₂ (fun n f => ∀ p, p ∈ f ↔ OnLopU N1 N2 n b1 b2 (if transpose then p.swap else p)) (fromTo 2 N2) us ∧
    List.Forall₂ (fun n f => ∀ p, p ∈ f ↔ OnC N1 N2 n b1 b2 (if transpose then p.swap else p)) (fromTo 1 (N1 - 2)) cs

theorem mem_maybeTranspose (t : Bool) (f : List (K × K)) (p : K × K) :
    p ∈ maybeTranspose t f ↔ (if t then p.swap else p) ∈ f := by
  cases t
  · simp [maybeTranspose]
  · simp only [maybeTranspose, transposeCoordinates, if_true, List.mem_map]
    constructor
    · rintro ⟨q, hq, rfl⟩
      exact hq
    · intro h
      exact ⟨p.swap, h, rfl⟩

theorem startupShapes_fields {N1 N2 : ℤ} (h1 : 2 ≤ N1) (h2 : 2 ≤ N2) (bx bY : K) (t : Bool) :
    StartupShapes N1 N2 bx bY t (startupFields N1 N2 bx bY t) := by
  refine ⟨_, _, _, _, rfl, ?_, ?_, ?_, ?_⟩
  · rw [fromTo_eq, List.forall₂_map_right_iff, List.forall₂_same]
    intro n hn p
    rw [mem_maybeTranspose, mem_lattice]
  · rw [fromTo_eq, List.forall₂_map_right_iff, List.forall₂_same]
    intro n hn p
    rw [mem_pyRange] at hn
    obtain ⟨r, hr, _, hm, _⟩ := C03_lShape (K := K) (by omega : 1 ≤ N1) (by omega : 1 ≤ n) bx bY
    rw [lShape_def, if_pos (by omega)] at hr
    cases hr
    rw [mem_maybeTranspose]
    exact hm _
  · rw [fromTo_eq, List.forall₂_map_right_iff, List.forall₂_same]
    intro n hn p
    rw [mem_pyRange] at hn
    obtain ⟨r, hr, _, hm, _⟩ := C03_lopU (K := K) (by omega : 1 ≤ N1) (by omega : 1 ≤ N2) (by omega : 1 ≤ n) bx bY
    rw [lopU_def, if_pos (by omega)] at hr
    cases hr
    rw [mem_maybeTranspose]
    exact hm _
  · rw [fromTo_eq, show N1 - 2 + 1 = N1 - 1 by ring, List.forall₂_map_right_iff, List.forall₂_same]
    intro n hn p
    rw [mem_pyRange] at hn
    obtain ⟨r, hr, _, hm, _⟩ := C03_cShape (K := K) (by omega : 1 ≤ N1) (by omega : 1 ≤ N2) (by omega : 0 ≤ n) bx bY
    rw [cShape_def, if_pos (by omega)] at hr
    cases hr
    rw [mem_maybeTranspose]
    exact hm _

/-- C16, content: the pairs of counts are raised alternately, starting with that of the longer side, until one reaches its
largest value; the shapes in front of the first domain are a growing line, L, U and closing row.  These shapes divide
`length_x` by the smallest count of the longer side and `length_y` by that of the shorter side whichever side is which
(the reason for C18). -/
theorem C16_zonedNested_contents {X Y Bmin BX BY : K} (hX : 0 < X) (hY : 0 < Y) (hBmin : 0 < Bmin)
    (hBX : 0 < BX) (hBY : 0 < BY) (hX' : BX < X) (hY' : BY < Y) {L1 L2 : K} {N1 M1 N2 M2 : ℤ}
    (hS : Sides X Y Bmin BX BY L1 L2 N1 M1 N2 M2) (h1 : N1 ≤ M1) (h2 : N2 ≤ M2) {fuel : ℕ}
    (hfuel : M1 + M2 ≤ fuel) :
    ∃ (startup z0 : List (List (K × K))) (zs : List (List (List (K × K)))) (walk : List (ℤ × ℤ)),
      biRectangleZonedNested fuel X Y Bmin BX BY = .ok ((startup ++ z0) :: zs) ∧
      walk.head? = some (N1, N2) ∧ walk.getLast? = some (M1, M2) ∧
      (∀ (k : ℕ) p q, walk[k]? = some p → walk[k + 1]? = some q → AlternatingStep M1 M2 k p q) ∧
      List.Forall₂ (fun q z => zonedRectangleDomain fuel L1 L2 q.1 q.2 (decide (X < Y)) = .ok z) walk (z0 :: zs) ∧
      StartupShapes N1 N2 (X / ((N1 : K) - 1)) (Y / ((N2 : K) - 1)) (decide (X < Y)) startup := by
  obtain ⟨st, z0, zs, w, a, b, alt, c, d, e⟩ := zonedNested_full hX hY hBmin hBX hBY hX' hY' hS h1 h2 hfuel
  have hN : 2 ≤ N1 ∧ 2 ≤ N2 := by
    rcases hS.orient with ⟨_, _, _, rfl, rfl⟩ | ⟨_, _, _, rfl, rfl⟩
    · exact ⟨two_le_ceil (div_pos hX hBX), two_le_ceil (div_pos hY hBY)⟩
    · exact ⟨two_le_ceil (div_pos hY hBY), two_le_ceil (div_pos hX hBX)⟩
  refine ⟨st, z0, zs, w, a, b.1, b.2.1, alt, d, ?_⟩
  have := startupShapes_fields hN.1 hN.2 (X / ((N1 - 1 : ℤ) : K)) (Y / ((N2 - 1 : ℤ) : K)) (decide (X < Y))
  rw [← e] at this
  push_cast at this
  exact this

/-- a 40 m × 30 m land with 5 to 10 m between boreholes: 5 to 9 along the longer side and 4 to 7 along the shorter -/
example : Sides (40 : ℚ) 30 5 10 10 40 30 5 9 4 7 :=
  ⟨Or.inl (by decide +kernel), by decide +kernel, by decide +kernel⟩

end floor

/-! ### The theorems applied to concrete land: 20 m by 30 m, 40 m by 30 m -/

example := C11_rectangular_fields (X := (20 : ℚ)) (Y := 30) (Bmin := 5) (Bmax := 10) (by norm_num) (by norm_num)
  (by norm_num) (by norm_num) rfl rfl
example := C12_biRectangular_fields (X := (20 : ℚ)) (Y := 30) (Bmin := 5) (BX := 10) (BY := 12) (by norm_num) (by norm_num)
  (by norm_num) (by norm_num) (by norm_num) true (Or.inr ⟨by norm_num, rfl, rfl, rfl, rfl⟩)
example := C13_nested_fields (X := (20 : ℚ)) (Y := 30) (Bmin := 5) (BX := 10) (BY := 12) (by norm_num) (by norm_num)
  (by norm_num) (by norm_num) (by norm_num) (Or.inr ⟨by norm_num, rfl, rfl, rfl, rfl⟩)
example := C16_zonedNested_contents (X := (40 : ℚ)) (Y := 30) (Bmin := 5) (BX := 10) (BY := 10) (by norm_num) (by norm_num)
  (by norm_num) (by norm_num) (by norm_num) (by norm_num) (by norm_num) (L1 := 40) (L2 := 30) (N1 := 5) (M1 := 9)
  (N2 := 4) (M2 := 7) ⟨Or.inl (by decide +kernel), by decide +kernel, by decide +kernel⟩ (by norm_num) (by norm_num)
  (fuel := 16) (by norm_num)

end Ghedt.Domains
