import Verif.Lemmas.Utilities
import Verif.Lemmas.Shapes

/-!
# Properties of `utilities.py` (C25–C29)
-/

set_option linter.unusedSectionVars false

namespace Ghedt.Utilities

variable {K : Type} [Field K] [LinearOrder K] [IsStrictOrderedRing K]

/-! ## C25 — `polygonal_area` -/

/-- C25: the area is always defined and nonnegative. -/
theorem C25_area_nonneg (corners : List (K × K)) :
    ∃ A, polygonalArea corners = .ok A ∧ 0 ≤ A :=
  ⟨_, polygonalArea_eq _, by positivity⟩

/-- C25: starting the corner list at another corner does not change the area. -/
theorem C25_area_rotate (a : K × K) (l : List (K × K)) :
    polygonalArea (l ++ [a]) = polygonalArea (a :: l) := by
  rw [polygonalArea_eq, polygonalArea_eq, closed_rotate]

/-- C25, any rotation. -/
theorem C25_area_rotate_any (l m : List (K × K)) :
    polygonalArea (l ++ m) = polygonalArea (m ++ l) := by
  induction l generalizing m with
  | nil => simp
  | cons a l ih =>
    rw [List.cons_append, ← C25_area_rotate, List.append_assoc, ih (m ++ [a])]
    simp

/-- C25: going round the other way does not change the area. -/
theorem C25_area_reverse (l : List (K × K)) : polygonalArea l.reverse = polygonalArea l := by
  rw [polygonalArea_eq, polygonalArea_eq, closed_reverse, abs_neg]

/-- C25: translation invariance. -/
theorem C25_area_translate (t : K × K) (l : List (K × K)) :
    polygonalArea (l.map fun p => (p.1 + t.1, p.2 + t.2)) = polygonalArea l := by
  rw [polygonalArea_eq, polygonalArea_eq]
  cases l with
  | nil => rfl
  | cons a l =>
    have := chain_translate t a (l ++ [a]) a (by
      rw [← List.cons_append, List.getLast?_append]; rfl)
    simp only [List.map_cons, closed, List.map_append, List.map_nil, List.cons_append] at this ⊢
    rw [this]
    simp

/-- C25: scaling all coordinates by `k` scales the area by `k²`. -/
theorem C25_area_scale (k : K) (l : List (K × K)) {A : K} (hA : polygonalArea l = .ok A) :
    polygonalArea (l.map fun p => (k * p.1, k * p.2)) = .ok (k ^ 2 * A) := by
  rw [polygonalArea_eq] at hA ⊢
  cases hA
  congr 1
  have : closed (l.map fun p => (k * p.1, k * p.2)) = k ^ 2 * closed l := by
    cases l with
    | nil => simp [closed]
    | cons a l =>
      have := chain_scale k (a :: l ++ [a])
      simpa [closed] using this
  rw [this, abs_mul, abs_of_nonneg (sq_nonneg k)]; ring

/-- C25: a rectangle perimeter has the area of the rectangle, wherever its origin is. -/
theorem C25_area_rectangle {lx ly : K} (hx : 0 ≤ lx) (hy : 0 ≤ ly) (o : K × K) :
    polygonalArea (makeRectanglePerimeter lx ly o) = .ok (lx * ly) := by
  rw [polygonalArea_eq]
  congr 1
  have : closed (makeRectanglePerimeter lx ly o) = 2 * (lx * ly) := by
    simp only [makeRectanglePerimeter, closed, List.cons_append, List.nil_append, chain]; ring
  rw [this, abs_of_nonneg (by positivity)]; ring

/-- C25: the area of a triangle is half the absolute determinant of its edge vectors, and cutting a
quadrilateral `a b c d` along `a c` adds signed areas: with both triangles oriented alike the areas
add up. -/
theorem C25_area_triangle (a b c : K × K) :
    polygonalArea [a, b, c] =
      .ok (|(b.1 - a.1) * (c.2 - a.2) - (c.1 - a.1) * (b.2 - a.2)| / 2) := by
  rw [polygonalArea_eq]
  congr 3
  simp only [closed, List.cons_append, List.nil_append, chain]; ring

theorem C25_area_cut {a b c d : K × K}
    (h1 : 0 ≤ (b.1 - a.1) * (c.2 - a.2) - (c.1 - a.1) * (b.2 - a.2))
    (h2 : 0 ≤ (c.1 - a.1) * (d.2 - a.2) - (d.1 - a.1) * (c.2 - a.2)) {A1 A2 : K}
    (hA1 : polygonalArea [a, b, c] = .ok A1) (hA2 : polygonalArea [a, c, d] = .ok A2) :
    polygonalArea [a, b, c, d] = .ok (A1 + A2) := by
  rw [C25_area_triangle, abs_of_nonneg h1] at hA1
  rw [C25_area_triangle, abs_of_nonneg h2] at hA2
  cases hA1; cases hA2
  rw [polygonalArea_eq]
  congr 1
  have e : closed [a, b, c, d] = ((b.1 - a.1) * (c.2 - a.2) - (c.1 - a.1) * (b.2 - a.2)) +
      ((c.1 - a.1) * (d.2 - a.2) - (d.1 - a.1) * (c.2 - a.2)) := by
    simp only [closed, List.cons_append, List.nil_append, chain]; ring
  rw [e, abs_of_nonneg (add_nonneg h1 h2)]; ring

theorem closed_fan (a : K × K) (l : List (K × K)) :
    closed (a :: l) = ((l.zip l.tail).map fun q =>
      (q.1.1 - a.1) * (q.2.2 - a.2) - (q.2.1 - a.1) * (q.1.2 - a.2)).sum := by
  induction l with
  | nil => simp [closed, chain]
  | cons b l ih =>
    cases l with
    | nil => simp [closed, chain]
    | cons c l =>
      simp only [closed, List.cons_append, chain, List.tail_cons, List.zip_cons_cons, List.map_cons,
        List.sum_cons] at ih ⊢
      linear_combination ih

/-- C25: a polygon with any number of corners that is seen from its first corner going round one way
has the areas of the triangles spanned by that corner and each side. -/
theorem C25_area_fan (a : K × K) (l : List (K × K))
    (h : ∀ q ∈ l.zip l.tail, 0 ≤ (q.1.1 - a.1) * (q.2.2 - a.2) - (q.2.1 - a.1) * (q.1.2 - a.2)) :
    ∃ areas, (l.zip l.tail).mapM (fun q => polygonalArea [a, q.1, q.2]) = .ok areas ∧
      polygonalArea (a :: l) = .ok areas.sum := by
  refine ⟨(l.zip l.tail).map fun q =>
    ((q.1.1 - a.1) * (q.2.2 - a.2) - (q.2.1 - a.1) * (q.1.2 - a.2)) / 2, ?_, ?_⟩
  · apply mapM_ok
    intro q hq
    rw [C25_area_triangle, abs_of_nonneg (h q hq)]
  · have hn : 0 ≤ ((l.zip l.tail).map fun q =>
        (q.1.1 - a.1) * (q.2.2 - a.2) - (q.2.1 - a.1) * (q.1.2 - a.2)).sum := by
      apply List.sum_nonneg
      intro x hx
      obtain ⟨q, hq, rfl⟩ := List.mem_map.mp hx
      exact h q hq
    rw [polygonalArea_eq, closed_fan, abs_of_nonneg hn]
    congr 1
    generalize l.zip l.tail = z
    clear hn
    induction z with
    | nil => simp
    | cons q z ih => simp only [List.map_cons, List.sum_cons, add_div, ih]

/-- a pentagon, seen from its first corner -/
example : ∀ q ∈ [((4 : ℚ), (0 : ℚ)), (5, 3), (2, 5), (-1, 3)].zip [((5 : ℚ), (3 : ℚ)), (2, 5), (-1, 3)],
    0 ≤ (q.1.1 - 0) * (q.2.2 - 0) - (q.2.1 - 0) * (q.1.2 - 0) := by decide +kernel

/-- an L-shaped hexagon of area 3 -/
example : polygonalArea [((0 : ℚ), (0 : ℚ)), (2, 0), (2, 1), (1, 1), (1, 2), (0, 2)] = .ok 3 := by
  decide +kernel

/-! ## C26 — counts, lengths and spacings -/

/-- C26: the three functions invert each other. -/
theorem C26_inverse [FloorRing K] (N : ℤ) {B : K} (hB : B ≠ 0) :
    numberOfBoreholes (lengthOfSide N B) B (fun q => ⌊q⌋) = .ok N ∧
    numberOfBoreholes (lengthOfSide N B) B (fun q => ⌈q⌉) = .ok N ∧
    (N ≠ 1 → spacingAlongLength (lengthOfSide N B) N = .ok B) := by
  have e : lengthOfSide N B / B = ((N - 1 : ℤ) : K) := by
    unfold lengthOfSide; exact mul_div_cancel_right₀ _ hB
  refine ⟨?_, ?_, ?_⟩
  · unfold numberOfBoreholes
    rw [pyDiv_ok hB, Except.ok_bind, e]
    dsimp only
    rw [Int.floor_intCast]; simp
  · unfold numberOfBoreholes
    rw [pyDiv_ok hB, Except.ok_bind, e]
    dsimp only
    rw [Int.ceil_intCast]; simp
  · intro hN
    have h0 : ((N - 1 : ℤ) : K) ≠ 0 := by exact_mod_cast (by omega : N - 1 ≠ 0)
    unfold spacingAlongLength
    rw [pyDiv_ok h0]
    congr 1
    unfold lengthOfSide; exact mul_div_cancel_left₀ _ h0

/-- C26, floor: `N` boreholes at spacing `B` fit in the length and `N+1` do not. -/
theorem C26_floor_fits [FloorRing K] {L B : K} (hB : 0 < B) :
    ∃ N, numberOfBoreholes L B (fun q => ⌊q⌋) = .ok N ∧
      lengthOfSide N B ≤ L ∧ L < lengthOfSide (N + 1) B := by
  unfold numberOfBoreholes
  rw [pyDiv_ok hB.ne', Except.ok_bind]
  refine ⟨_, rfl, ?_, ?_⟩
  · unfold lengthOfSide
    have := Int.floor_le (L / B)
    rw [add_sub_cancel_right]
    calc (⌊L / B⌋ : K) * B ≤ L / B * B := by gcongr
      _ = L := div_mul_cancel₀ _ hB.ne'
  · unfold lengthOfSide
    have := Int.lt_floor_add_one (L / B)
    rw [add_sub_cancel_right]
    push_cast
    calc L = L / B * B := (div_mul_cancel₀ _ hB.ne').symm
      _ < _ := by gcongr

/-- C26, ceil (the default): the resulting spacing never exceeds `B`, and `N` is the smallest count
with that property. -/
theorem C26_ceil_spacing [FloorRing K] {L B : K} (hL : 0 < L) (hB : 0 < B) :
    ∃ N b, numberOfBoreholes L B (fun q => ⌈q⌉) = .ok N ∧ spacingAlongLength L N = .ok b ∧ b ≤ B ∧
      (∀ M b', 2 ≤ M → spacingAlongLength L M = .ok b' → b' ≤ B → N ≤ M) := by
  have hq : 0 < L / B := div_pos hL hB
  have hc : 0 < ⌈L / B⌉ := Int.ceil_pos.2 hq
  have hcK : (0 : K) < (⌈L / B⌉ : K) := by exact_mod_cast hc
  refine ⟨⌈L / B⌉ + 1, L / (⌈L / B⌉ : K), ?_, ?_, ?_, ?_⟩
  · unfold numberOfBoreholes
    rw [pyDiv_ok hB.ne', Except.ok_bind]; rfl
  · unfold spacingAlongLength
    rw [add_sub_cancel_right, pyDiv_ok hcK.ne']
  · rw [div_le_iff₀ hcK]
    have := Int.le_ceil (L / B)
    rw [div_le_iff₀ hB] at this
    linarith
  · intro M b' hM hb' hle
    have hM0 : (0 : K) < ((M - 1 : ℤ) : K) := by exact_mod_cast (by omega : 0 < M - 1)
    unfold spacingAlongLength at hb'
    rw [pyDiv_ok hM0.ne'] at hb'
    cases hb'
    rw [div_le_iff₀ hM0] at hle
    have : ⌈L / B⌉ ≤ M - 1 := by
      rw [Int.ceil_le, div_le_iff₀ hB]; linarith
    omega

example : numberOfBoreholes (21 : ℚ) 5 (fun q => ⌊q⌋) = .ok 5 ∧
    numberOfBoreholes (21 : ℚ) 5 (fun q => ⌈q⌉) = .ok 6 := by decide +kernel

/-! ## C27 — `borehole_spacing` -/

/-- C27: empty field: `IndexError` (never the `ValueError` the code spells out); one borehole: the
borehole radius; otherwise the distance of the first two boreholes, but at least the radius. -/
theorem C27_spacing (r : ℝ) :
    boreholeSpacing r [] = .error .indexError ∧
    (∀ p, boreholeSpacing r [p] = .ok r) ∧
    (∀ p q l, boreholeSpacing r (p :: q :: l) =
      .ok (max r (Real.sqrt ((q.1 - p.1) ^ 2 + (q.2 - p.2) ^ 2)))) ∧
    (∀ c, boreholeSpacing r c ≠ .error .valueError) ∧
    (∀ c B, boreholeSpacing r c = .ok B → r ≤ B) := by
  have h1 : boreholeSpacing r [] = .error .indexError := rfl
  have h2 : ∀ p, boreholeSpacing r [p] = .ok r := fun p => rfl
  have h3 : ∀ p q l, boreholeSpacing r (p :: q :: l) =
      .ok (max r (Real.sqrt ((q.1 - p.1) ^ 2 + (q.2 - p.2) ^ 2))) := by
    intro p q l
    have e1 : pyGet (p :: q :: l) 0 = .ok p := rfl
    have e2 : pyGet (p :: q :: l) 1 = .ok q := rfl
    unfold boreholeSpacing
    rw [e1, Except.ok_bind, if_neg (by simp), if_pos (by simp), e2]; rfl
  refine ⟨h1, h2, h3, ?_, ?_⟩
  · rintro (_ | ⟨p, _ | ⟨q, l⟩⟩)
    · rw [h1]; intro h; cases h
    · rw [h2]; intro h; cases h
    · rw [h3]; intro h; cases h
  · rintro (_ | ⟨p, _ | ⟨q, l⟩⟩) B hB
    · rw [h1] at hB; cases hB
    · rw [h2] at hB; cases hB; exact le_rfl
    · rw [h3] at hB; cases hB; exact le_max_left _ _

/-- C27 on rectangles: the spacing taken is the one along the second axis. -/
theorem C27_spacing_rectangle (r : ℝ) {Nx Ny : ℤ} (hx : 1 ≤ Nx) (hy : 2 ≤ Ny) (Bx By : ℝ) :
    (do let f ← Coordinates.rectangle Nx Ny Bx By; boreholeSpacing r f) =
      .ok (max r |By|) := by
  rw [Coordinates.rectangle_ok (by omega) (by omega), Except.ok_bind]
  have : ∃ l, Coordinates.lattice Nx Ny Bx By ((0 : ℝ), (0 : ℝ)) = (0, 0) :: (0, By) :: l := by
    unfold Coordinates.lattice
    rw [pyRange_cons (by omega : (0 : ℤ) < Nx), List.flatMap_cons,
      pyRange_cons (by omega : (0 : ℤ) < Ny), pyRange_cons (by omega : (0 : ℤ) + 1 < Ny)]
    simp
  obtain ⟨l, hl⟩ := this
  rw [hl, (C27_spacing r).2.2.1]
  simp [Real.sqrt_sq_eq_abs]

/-- C27 on hollow rectangles: the spacing taken is the one along the first axis. -/
theorem C27_spacing_openRectangle (r : ℝ) {Nx Ny : ℤ} (hx : 3 ≤ Nx) (hy : 3 ≤ Ny) (Bx By : ℝ) :
    (do let f ← Coordinates.openRectangle Nx Ny Bx By; boreholeSpacing r f) =
      .ok (max r |Bx|) := by
  rw [Coordinates.openRectangle_hollow (by omega) (by omega), Except.ok_bind]
  have : ∃ l, (Coordinates.openInts Nx Ny).map (Coordinates.toPt Bx By) =
      ((0 : ℝ), (0 : ℝ)) :: (Bx, 0) :: l := by
    unfold Coordinates.openInts
    rw [pyRange_cons (by omega : (0 : ℤ) < Nx), pyRange_cons (by omega : (0 : ℤ) + 1 < Nx)]
    simp [Coordinates.toPt]
  obtain ⟨l, hl⟩ := this
  rw [hl, (C27_spacing r).2.2.1]
  simp [Real.sqrt_sq_eq_abs]

/-- C27 on zoned rectangles (outline first, interior after): again the first axis. -/
theorem C27_spacing_zonedRectangle (r : ℝ) {Nx Ny Nix Niy : ℤ} (hx : 3 ≤ Nx) (hy : 3 ≤ Ny)
    (hix : 0 ≤ Nix) (hiy : 0 ≤ Niy) (hix' : Nix ≤ Nx - 2) (hiy' : Niy ≤ Ny - 2) (Bx By : ℝ) :
    (do let f ← Coordinates.zonedRectangle Nx Ny Bx By Nix Niy; boreholeSpacing r f) =
      .ok (max r |Bx|) := by
  have e1 : ((Nix + 1 : ℤ) : ℝ) ≠ 0 := by exact_mod_cast (by omega : Nix + 1 ≠ 0)
  have e2 : ((Niy + 1 : ℤ) : ℝ) ≠ 0 := by exact_mod_cast (by omega : Niy + 1 ≠ 0)
  unfold Coordinates.zonedRectangle
  rw [if_neg (by omega), if_neg (by omega)]
  simp only [pure_bind]
  rw [Coordinates.openRectangle_hollow (by omega) (by omega), Except.ok_bind, pyDiv_ok e1,
    Except.ok_bind, pyDiv_ok e2, Except.ok_bind, Coordinates.rectangle_ok hix hiy, Except.ok_bind,
    Except.pure_eq, Except.ok_bind]
  have : ∃ l, (Coordinates.openInts Nx Ny).map (Coordinates.toPt Bx By) =
      ((0 : ℝ), (0 : ℝ)) :: (Bx, 0) :: l := by
    unfold Coordinates.openInts
    rw [pyRange_cons (by omega : (0 : ℤ) < Nx), pyRange_cons (by omega : (0 : ℤ) + 1 < Nx)]
    simp [Coordinates.toPt]
  obtain ⟨l, hl⟩ := this
  rw [hl, List.cons_append, List.cons_append, (C27_spacing r).2.2.1]
  simp [Real.sqrt_sq_eq_abs]

example : (1 : ℤ) ≤ 4 ∧ (2 : ℤ) ≤ 5 := by norm_num

/-! ## C28 — `sign` and `check_bracket` -/

/-- C28: `sign` is ±1 on nonzero values and raises `ZeroDivisionError` exactly on zero. -/
theorem C28_sign [FloorRing K] (x : K) :
    (0 < x → sign x = .ok 1) ∧ (x < 0 → sign x = .ok (-1)) ∧
    (sign x = .error .zeroDivisionError ↔ x = 0) := by
  have h1 : 0 < x → sign x = .ok 1 := by
    intro h
    unfold sign
    rw [pyDiv_ok h.ne', Except.ok_bind, abs_of_pos h, div_self h.ne']
    simp
  have h2 : x < 0 → sign x = .ok (-1) := by
    intro h
    unfold sign
    rw [pyDiv_ok h.ne, Except.ok_bind, abs_of_neg h, neg_div_self h.ne]
    have : ¬ (0 : K) ≤ -1 := by norm_num
    rw [if_neg this, show (-1 : K) = ((-1 : ℤ) : K) by push_cast; rfl, Int.ceil_intCast]
    rfl
  refine ⟨h1, h2, ?_, ?_⟩
  · intro h
    rcases lt_trichotomy x 0 with hx | hx | hx
    · rw [h2 hx] at h; cases h
    · exact hx
    · rw [h1 hx] at h; cases h
  · rintro rfl
    simp [sign, pyDiv]

/-- C28: on nonzero values `check_bracket(sign(a), sign(b))` is True iff `a` and `b` have strictly
opposite signs, i.e. iff `a*b < 0`; if either is zero the composition raises. -/
theorem C28_checkBracket [FloorRing K] (a b : K) :
    (a ≠ 0 → b ≠ 0 → (do let sa ← sign a; let sb ← sign b; return checkBracket sa sb) =
      .ok (decide (a * b < 0))) ∧
    (a = 0 ∨ b = 0 → (do let sa ← sign a; let sb ← sign b; return checkBracket sa sb : Py Bool) =
      .error .zeroDivisionError) := by
  constructor
  · intro ha hb
    rcases lt_or_gt_of_ne ha with ha | ha <;> rcases lt_or_gt_of_ne hb with hb | hb
    · rw [(C28_sign a).2.1 ha, (C28_sign b).2.1 hb,
        decide_eq_false (not_lt.2 (mul_pos_of_neg_of_neg ha hb).le)]; rfl
    · rw [(C28_sign a).2.1 ha, (C28_sign b).1 hb, decide_eq_true (mul_neg_of_neg_of_pos ha hb)]; rfl
    · rw [(C28_sign a).1 ha, (C28_sign b).2.1 hb, decide_eq_true (mul_neg_of_pos_of_neg ha hb)]; rfl
    · rw [(C28_sign a).1 ha, (C28_sign b).1 hb, decide_eq_false (not_lt.2 (mul_pos ha hb).le)]; rfl
  · intro h
    by_cases ha : a = 0
    · rw [((C28_sign a).2.2).2 ha]; rfl
    · have hb := h.resolve_left ha
      rcases lt_or_gt_of_ne ha with ha | ha
      · rw [(C28_sign a).2.1 ha, Except.ok_bind, ((C28_sign b).2.2).2 hb]; rfl
      · rw [(C28_sign a).1 ha, Except.ok_bind, ((C28_sign b).2.2).2 hb]; rfl

/-- C28: whatever two integers it is given, zeros included, `check_bracket` is True iff they have
strictly opposite signs. -/
theorem C28_bracket_any (a b : ℤ) : checkBracket a b = true ↔ a * b < 0 := by
  unfold checkBracket
  rw [mul_neg_iff]
  by_cases h1 : a < 0 ∧ 0 < b
  · rw [if_pos h1]; simp [h1]
  · rw [if_neg h1]
    by_cases h2 : b < 0 ∧ 0 < a
    · rw [if_pos h2]; simp [h2]
    · rw [if_neg h2]
      simp only [Bool.false_eq_true, false_iff]
      rintro (⟨h3, h4⟩ | h3)
      · exact h2 ⟨h4, h3⟩
      · exact h1 h3

example : checkBracket (-1) 1 = true ∧ checkBracket 1 0 = false ∧ checkBracket (-1) 0 = false ∧
    checkBracket 0 (-1) = false := by decide

example : sign (-7 / 2 : ℚ) = .ok (-1) ∧ sign (1 / 3 : ℚ) = .ok 1 ∧
    sign (0 : ℚ) = .error .zeroDivisionError := by decide +kernel

/-! ## C29 — `compute_mpe` -/

/-- C29: which inputs raise what, and the value otherwise. -/
theorem C29_mpe (actual predicted : List K) :
    (computeMpe actual predicted = .error .assertionError ↔ actual.length ≠ predicted.length) ∧
    (computeMpe actual predicted = .error .zeroDivisionError ↔
      (actual.length = predicted.length ∧ (actual = [] ∨ (0 : K) ∈ actual))) ∧
    (actual.length = predicted.length → actual ≠ [] → (0 : K) ∉ actual →
      computeMpe actual predicted = .ok (100 / (actual.length : K) *
        ((actual.zip predicted).map fun q => (q.2 - q.1) / q.1).sum)) := by
  have hA : actual.length ≠ predicted.length →
      computeMpe actual predicted = .error .assertionError := by
    intro h
    unfold computeMpe
    rw [pyAssert_false h]; rfl
  have hZ : actual.length = predicted.length → (actual = [] ∨ (0 : K) ∈ actual) →
      computeMpe actual predicted = .error .zeroDivisionError := by
    rintro h (h' | h')
    · subst h'
      unfold computeMpe
      rw [pyAssert_true h]
      simp [pyRange_empty, pyDiv]
    · unfold computeMpe
      rw [pyAssert_true h]
      simp only [Except.ok_bind]
      rw [computeMpe_fold_zero h ⟨0, h', rfl⟩]; rfl
  have hV : actual.length = predicted.length → actual ≠ [] → (0 : K) ∉ actual →
      computeMpe actual predicted = .ok (100 / (actual.length : K) *
        ((actual.zip predicted).map fun q => (q.2 - q.1) / q.1).sum) := by
    intro h hne h0
    have hl : ((actual.length : ℤ) : K) ≠ 0 := by
      have : 0 < actual.length := List.length_pos_iff.2 hne
      exact_mod_cast this.ne'
    unfold computeMpe
    rw [pyAssert_true h]
    simp only [Except.ok_bind]
    rw [computeMpe_fold h (fun a ha h => h0 (h ▸ ha)), Except.ok_bind, pyDiv_ok hl]
    congr 1
    push_cast
    rw [zero_add]; ring
  refine ⟨⟨fun h => ?_, hA⟩, ⟨fun h => ?_, fun h => hZ h.1 h.2⟩, hV⟩
  · intro hl
    by_cases h0 : actual = [] ∨ (0 : K) ∈ actual
    · rw [hZ hl h0] at h; cases h
    · rw [not_or] at h0
      rw [hV hl h0.1 h0.2] at h; cases h
  · by_cases hl : actual.length = predicted.length
    · refine ⟨hl, ?_⟩
      by_contra h0
      rw [not_or] at h0
      rw [hV hl h0.1 h0.2] at h; cases h
    · rw [hA hl] at h; cases h

/-- C29: predictions equal to the actual values give 0. -/
theorem C29_mpe_self {actual : List K} (hne : actual ≠ []) (h0 : (0 : K) ∉ actual) :
    computeMpe actual actual = .ok 0 := by
  rw [(C29_mpe actual actual).2.2 rfl hne h0]
  congr 1
  have : ((actual.zip actual).map fun q => (q.2 - q.1) / q.1).sum = 0 := by
    apply List.sum_eq_zero
    intro x hx
    rw [List.mem_map] at hx
    obtain ⟨⟨a, b⟩, hab, rfl⟩ := hx
    have : a = b := by
      have hz : actual.zip actual = actual.map fun a => (a, a) := by
        rw [List.zip_eq_zipWith, List.zipWith_self]
      rw [hz, List.mem_map] at hab
      obtain ⟨c, _, hc⟩ := hab
      cases hc; rfl
    rw [this]; simp
  rw [this, mul_zero]

/-- C29: scaling both lists by the same nonzero constant does not change the outcome. -/
theorem C29_mpe_scale (actual predicted : List K) {c : K} (hc : c ≠ 0) :
    computeMpe (actual.map fun a => c * a) (predicted.map fun a => c * a) =
      computeMpe actual predicted := by
  have m0 : (0 : K) ∈ (actual.map fun a => c * a) ↔ (0 : K) ∈ actual := by
    rw [List.mem_map]
    constructor
    · rintro ⟨a, ha, h⟩
      rcases mul_eq_zero.1 h with h | h
      · exact absurd h hc
      · exact h ▸ ha
    · intro h; exact ⟨0, h, mul_zero _⟩
  by_cases hl : actual.length = predicted.length
  · by_cases h0 : actual = [] ∨ (0 : K) ∈ actual
    · rw [((C29_mpe actual predicted).2.1).2 ⟨hl, h0⟩, ((C29_mpe _ _).2.1).2 ⟨by simpa using hl, ?_⟩]
      rw [m0]; simpa using h0
    · rw [not_or] at h0
      rw [(C29_mpe actual predicted).2.2 hl h0.1 h0.2,
        (C29_mpe _ _).2.2 (by simpa using hl) (by simpa using h0.1) (by rw [m0]; exact h0.2)]
      congr 2
      · simp
      · rw [List.zip_map, List.map_map]
        congr 1
        apply List.map_congr_left
        intro q hq
        simp only [Function.comp, Prod.map]
        rw [← mul_sub, mul_div_mul_left _ _ hc]
  · rw [((C29_mpe actual predicted).1).2 hl, ((C29_mpe _ _).1).2 (by simpa using hl)]

/-- C29: overprediction of positive values everywhere gives a positive error (and so the sign tells
over- from underprediction). -/
theorem C29_mpe_pos {actual predicted : List K} (hl : actual.length = predicted.length)
    (hne : actual ≠ []) (h : ∀ q ∈ actual.zip predicted, 0 < q.1 ∧ q.1 < q.2) :
    ∃ e, computeMpe actual predicted = .ok e ∧ 0 < e := by
  have hpos : ∀ a ∈ actual, 0 < a := by
    intro a ha
    obtain ⟨k, hk, rfl⟩ := List.getElem_of_mem ha
    have hz : k < (actual.zip predicted).length := by simp; omega
    have := h _ (List.getElem_mem hz)
    rw [List.getElem_zip] at this
    exact this.1
  refine ⟨_, (C29_mpe actual predicted).2.2 hl hne (fun h0 => lt_irrefl _ (hpos 0 h0)), ?_⟩
  have hlen : (0 : K) < (actual.length : K) := by exact_mod_cast List.length_pos_iff.2 hne
  apply mul_pos (by positivity)
  have hz : actual.zip predicted ≠ [] := by
    intro hz
    have := congrArg List.length hz
    simp at this
    rcases this with h | h
    · exact hne h
    · rw [h] at hl; exact hne (List.length_eq_zero_iff.1 hl)
  generalize actual.zip predicted = l at h hz
  cases l with
  | nil => exact absurd rfl hz
  | cons q l =>
    rw [List.map_cons, List.sum_cons]
    have h1 := h q List.mem_cons_self
    have : 0 ≤ (l.map fun q => (q.2 - q.1) / q.1).sum := by
      apply List.sum_nonneg
      intro x hx
      rw [List.mem_map] at hx
      obtain ⟨z, hz, rfl⟩ := hx
      have := h z (List.mem_cons_of_mem _ hz)
      exact div_nonneg (by linarith) this.1.le
    have : 0 < (q.2 - q.1) / q.1 := div_pos (by linarith) h1.1
    linarith

example : computeMpe [(1 : ℚ), 2] [2, 3] = .ok 75 := by decide +kernel
example : computeMpe [(1 : ℚ), 0] [2, 3] = .error .zeroDivisionError := by decide +kernel

/-! ### The theorems applied to concrete cases -/

example := C25_area_scale (3 : ℚ) [(0, 0), (2, 0), (2, 1), (1, 1), (1, 2), (0, 2)] (A := 3) (by decide +kernel)
example := C25_area_rectangle (lx := (20 : ℚ)) (ly := 30) (by norm_num) (by norm_num) (1, 2)
example := C25_area_cut (a := ((0 : ℚ), (0 : ℚ))) (b := (4, 0)) (c := (5, 3)) (d := (2, 5)) (by norm_num) (by norm_num)
  (A1 := 6) (A2 := 19 / 2) (by decide +kernel) (by decide +kernel)
example := C25_area_fan ((0 : ℚ), (0 : ℚ)) [(4, 0), (5, 3), (2, 5), (-1, 3)] (by decide +kernel)
example := C26_inverse (K := ℚ) 7 (B := 5) (by norm_num)
example := C26_floor_fits (L := (21 : ℚ)) (B := 5) (by norm_num)
example := C26_ceil_spacing (L := (21 : ℚ)) (B := 5) (by norm_num) (by norm_num)
example := C27_spacing_rectangle (1 / 10) (Nx := 4) (Ny := 5) (by norm_num) (by norm_num) 6 7
example := C27_spacing_openRectangle (1 / 10) (Nx := 4) (Ny := 5) (by norm_num) (by norm_num) 6 7
example := C27_spacing_zonedRectangle (1 / 10) (Nx := 5) (Ny := 4) (Nix := 2) (Niy := 1) (by norm_num) (by norm_num)
  (by norm_num) (by norm_num) (by norm_num) (by norm_num) 6 7
example := C29_mpe_self (actual := [(1 : ℚ), 2]) (by simp) (by simp)
example := C29_mpe_scale [(1 : ℚ), 2] [2, 3] (c := 4) (by norm_num)
example := C29_mpe_pos (actual := [(1 : ℚ), 2]) (predicted := [2, 3]) rfl (by simp) (by decide +kernel)

end Ghedt.Utilities
