import Verif.Lemmas.BiRectangular
import Verif.Lemmas.ZonedNested

/-!
# Properties of the domain generators in `domains.py` (C07, C09–C18)

`K` is any ordered field with floor (ℚ, ℝ): the lengths and spacings.
-/

set_option linter.unusedSectionVars false

namespace Ghedt.Domains
open Coordinates Spec

variable {K : Type} [Field K] [LinearOrder K] [IsStrictOrderedRing K]

/-! ## C07 — `square_and_near_square` -/

/-- C07, guard: exactly the ill-formed bounds raise `ValueError`. -/
theorem C07_nearSquare_guard (lower upper : ℤ) (B : K) :
    (squareAndNearSquare lower upper B = .error .valueError ↔
      (lower < 1 ∨ upper < 1 ∨ upper < lower)) ∧
    ((∃ d, squareAndNearSquare lower upper B = .ok d) ↔
      (1 ≤ lower ∧ 1 ≤ upper ∧ lower ≤ upper)) := by
  unfold squareAndNearSquare
  by_cases h1 : lower < 1 ∨ upper < 1
  · rw [if_pos h1]
    constructor
    · constructor
      · intro _; omega
      · intro _; rfl
    · constructor
      · rintro ⟨d, h⟩; cases h
      · intro h; omega
  · rw [if_neg h1]
    by_cases h2 : upper < lower
    · rw [if_pos h2]
      constructor
      · constructor
        · intro _; omega
        · intro _; rfl
      · constructor
        · rintro ⟨d, h⟩; cases h
        · intro h; omega
    · rw [if_neg h2]
      have : ∃ d, (do
          let nested ← (pyRange lower (upper + 1)).mapM fun i : ℤ =>
            (pyRange 0 2).mapM fun j : ℤ => rectangle i (i + j) B B
          return nested.flatten : Py (List (List (K × K)))) = .ok d := by
        rw [mapM_ok (g := fun i : ℤ => (pyRange 0 2).map fun j : ℤ =>
          lattice i (i + j) B B (0, 0))]
        · exact ⟨_, rfl⟩
        · intro i hi
          rw [mem_pyRange] at hi
          apply mapM_ok
          intro j hj
          rw [mem_pyRange] at hj
          exact rectangle_ok (by omega) (by omega) _ _ _
      obtain ⟨d, hd⟩ := this
      constructor
      · constructor
        · intro h
          simp only [pure_bind] at h
          erw [hd] at h; cases h
        · intro h; omega
      · constructor
        · intro _; omega
        · intro _; exact ⟨d, hd⟩

/-- C07, content: the domain lists `lower×lower, lower×(lower+1), …, upper×upper, upper×(upper+1)`
and the borehole counts strictly increase. -/
theorem C07_nearSquare_fields {lower upper : ℤ} (h1 : 1 ≤ lower) (h2 : lower ≤ upper) {B : K}
    (hB : 0 < B) :
    ∃ d, squareAndNearSquare lower upper B = .ok d ∧
      (d.length : ℤ) = 2 * (upper - lower + 1) ∧
      (∀ k : ℕ, (k : ℤ) ≤ upper - lower → ∃ f g, d[2 * k]? = some f ∧ d[2 * k + 1]? = some g ∧
        IsGrid (lower + k) (lower + k) B B f ∧ IsGrid (lower + k) (lower + k + 1) B B g) ∧
      SizesStrictlyIncrease d := by
  have hr : pyRange 0 2 = [0, 1] := by decide
  have hd : squareAndNearSquare lower upper B = .ok ((pyRange lower (upper + 1)).flatMap
      fun i : ℤ => [lattice i i B B (0, 0), lattice i (i + 1) B B (0, 0)]) := by
    unfold squareAndNearSquare
    rw [if_neg (by omega), if_neg (by omega)]
    rw [mapM_ok (g := fun i : ℤ => [lattice i i B B (0, 0), lattice i (i + 1) B B (0, 0)])]
    · simp [List.flatMap_def]
    · intro i hi
      rw [mem_pyRange] at hi
      rw [mapM_ok (g := fun j : ℤ => lattice i (i + j) B B (0, 0)), hr]
      · simp
      · intro j hj
        rw [mem_pyRange] at hj
        exact rectangle_ok (by omega) (by omega) _ _ _
  refine ⟨_, hd, ?_, ?_, ?_⟩
  · rw [length_flatMap_const _ _ 2 (by simp), length_pyRange]; push_cast; omega
  · -- look up two consecutive fields
    have key : ∀ (k : ℕ) (a : ℤ), (k : ℤ) ≤ upper - a →
        ((pyRange a (upper + 1)).flatMap fun i : ℤ =>
          [lattice i i B B (0, 0), lattice i (i + 1) B B (0, 0)])[2 * k]? =
            some (lattice (a + k) (a + k) B B (0, 0)) ∧
        ((pyRange a (upper + 1)).flatMap fun i : ℤ =>
          [lattice i i B B (0, 0), lattice i (i + 1) B B (0, 0)])[2 * k + 1]? =
            some (lattice (a + k) (a + k + 1) B B (0, 0)) := by
      intro k
      induction k with
      | zero =>
        intro a ha
        rw [pyRange_cons (by push_cast at ha; omega)]
        simp
      | succ k ih =>
        intro a ha
        push_cast at ha
        rw [pyRange_cons (by omega)]
        have := ih (a + 1) (by omega)
        push_cast
        rw [show a + ((k : ℤ) + 1) = a + 1 + k by ring]
        exact this
    intro k hk
    obtain ⟨e1, e2⟩ := key k lower hk
    exact ⟨_, _, e1, e2, isGrid_lattice (by omega) (by omega) hB hB,
      isGrid_lattice (by omega) (by omega) hB hB⟩
  · unfold SizesStrictlyIncrease
    rw [List.pairwise_flatMap]
    constructor
    · intro i hi
      rw [mem_pyRange] at hi
      rw [List.pairwise_pair]
      rw [length_lattice, length_lattice]
      have : i.toNat < (i + 1).toNat := by omega
      have : 0 < i.toNat := by omega
      nlinarith
    · refine List.Pairwise.imp_of_mem ?_ (pyRange_pairwise _ _)
      intro i j hi hj hij f hf g hg
      rw [mem_pyRange] at hi hj
      have e1 : i.toNat < j.toNat := by omega
      have e2 : (i + 1).toNat = i.toNat + 1 := by omega
      have e3 : (j + 1).toNat = j.toNat + 1 := by omega
      have e4 : 0 < i.toNat := by omega
      simp only [List.mem_cons, List.not_mem_nil, or_false] at hf hg
      rcases hf with rfl | rfl <;> rcases hg with rfl | rfl <;>
        simp only [length_lattice, e2, e3] <;> nlinarith

example : (squareAndNearSquare 1 2 (5 : ℚ)).map (·.map List.length) = .ok [1, 2, 4, 6] := by
  decide +kernel
example : squareAndNearSquare 3 2 (5 : ℚ) = .error .valueError := by decide +kernel

section floor
variable [FloorRing K]

/-! ## C09, C10, C11 — `rectangular` -/

/-- C09: `rectangular` never raises for positive inputs, and every borehole of every field lies in
`[0,length_x] × [0,length_y]`, whichever side is longer. -/
theorem C09_rectangular_in_land {X Y Bmin Bmax : K} (hX : 0 < X) (hY : 0 < Y) (hBmin : 0 < Bmin)
    (hBmax : 0 < Bmax) :
    ∃ d, rectangular X Y Bmin Bmax = .ok d ∧ DomainInLand X Y d := by
  obtain ⟨d, hd, _, _, _, hg⟩ := rectangular_spec hX hY hBmin hBmax
  refine ⟨d, hd, ?_⟩
  intro f hf
  obtain ⟨n1, n2, B, hG, hb, _, e1, e2⟩ := hg f hf
  have hB : 0 ≤ B := hBmin.le.trans hb
  by_cases h : X < Y
  · rw [decide_eq_true h] at hG
    rw [max_eq_right h.le] at e1
    rw [min_eq_left h.le] at e2
    exact isGrid_inLand (by simpa [OGrid] using hG) hB hB e2 e1
  · rw [decide_eq_false h] at hG
    rw [max_eq_left (not_lt.mp h)] at e1
    rw [min_eq_right (not_lt.mp h)] at e2
    exact isGrid_inLand (by simpa [OGrid] using hG) hB hB e1 e2

/-- C10: every field of `rectangular` is a grid with one spacing `B`, `B_min ≤ B ≤ B_max`. -/
theorem C10_rectangular_spacing {X Y Bmin Bmax : K} (hX : 0 < X) (hY : 0 < Y) (hBmin : 0 < Bmin)
    (hBmax : 0 < Bmax) {d : List (List (K × K))} (hd : rectangular X Y Bmin Bmax = .ok d) :
    ∀ f ∈ d, ∃ (nx ny : ℤ) (B : K), IsGrid nx ny B B f ∧ Bmin ≤ B ∧ B ≤ Bmax := by
  obtain ⟨d', hd', _, _, _, hg⟩ := rectangular_spec hX hY hBmin hBmax
  rw [hd'] at hd; cases hd
  intro f hf
  obtain ⟨n1, n2, B, hG, hb, hb', _, _⟩ := hg f hf
  unfold OGrid at hG
  split at hG
  · exact ⟨n2, n1, B, hG, hb, hb'⟩
  · exact ⟨n1, n2, B, hG, hb, hb'⟩

/-- C11: borehole counts strictly increase along the domain; the domain is nonempty exactly when
some whole number of boreholes fits the spacing range along the longer side, and then starts with a
single borehole at the origin. -/
theorem C11_rectangular_sizes {X Y Bmin Bmax : K} (hX : 0 < X) (hY : 0 < Y) (hBmin : 0 < Bmin)
    (hBmax : 0 < Bmax) {d : List (List (K × K))} (hd : rectangular X Y Bmin Bmax = .ok d) :
    SizesStrictlyIncrease d ∧
    (d ≠ [] ↔ ∃ n : ℤ, max X Y / Bmax + 1 ≤ n ∧ n ≤ max X Y / Bmin + 1) ∧
    (d ≠ [] → d.head? = some [(0, 0)]) := by
  obtain ⟨d', hd', h1, h2, h3, _⟩ := rectangular_spec hX hY hBmin hBmax
  rw [hd'] at hd; cases hd
  have hiff : (∃ n : ℤ, max X Y / Bmax + 1 ≤ (n : K) ∧ (n : K) ≤ max X Y / Bmin + 1) ↔
      ⌈max X Y / Bmax + 1⌉ ≤ ⌊max X Y / Bmin + 1⌋ := by
    constructor
    · rintro ⟨n, a, b⟩
      exact (Int.ceil_le.mpr a).trans (Int.le_floor.mpr b)
    · intro h
      exact ⟨_, Int.le_ceil _, le_trans (by exact_mod_cast h) (Int.floor_le _)⟩
  rw [hiff]
  refine ⟨h3, ⟨?_, ?_⟩, ?_⟩
  · intro hne
    by_contra hcon
    exact hne (h2 (not_le.mp hcon))
  · intro hle hnil
    rw [hnil] at h1
    simpa using h1 hle
  · intro hne
    apply h1
    by_contra hcon
    exact hne (h2 (not_le.mp hcon))

/-- a 20 m × 30 m land with spacing between 5 and 10 m: eight fields, both properties non-vacuous -/
example : (rectangular (20 : ℚ) 30 5 10).map (·.map List.length) =
    .ok [1, 2, 3, 4, 8, 12, 24, 35] := by decide +kernel
/-- no whole number of boreholes fits: the domain is empty -/
example : rectangular (20 : ℚ) 10 11 13 = .ok [] := by decide +kernel

/-! ## C12 — `bi_rectangular` -/

/-- The field is a grid whose counts/spacings along the (longer, shorter) side are `(n1,b1)`,
`(n2,b2)`: first axis is the longer side unless `transpose`. -/
def GridAlong (transpose : Bool) (n1 n2 : ℤ) (b1 b2 : K) (f : List (K × K)) : Prop :=
  if transpose then IsGrid n2 n1 b2 b1 f else IsGrid n1 n2 b1 b2 f

/-- C12: for positive inputs `bi_rectangular` never raises; with `L1 ≥ L2` the longer and shorter
side and `B1`, `B2` the maximum spacings given for them, every field is a grid fitting `L1 × L2`
with spacing along the longer side in `[B_min, B1]` and along the shorter at most `B2`; counts
strictly increase, starting from one borehole; `transpose` swaps the axes. -/
theorem C12_biRectangular {X Y Bmin BX BY : K} (hX : 0 < X) (hY : 0 < Y) (hBmin : 0 < Bmin)
    (hBX : 0 < BX) (hBY : 0 < BY) (t : Bool) {L1 L2 B1 B2 : K}
    (hL : (Y ≤ X ∧ L1 = X ∧ L2 = Y ∧ B1 = BX ∧ B2 = BY) ∨
          (X < Y ∧ L1 = Y ∧ L2 = X ∧ B1 = BY ∧ B2 = BX)) :
    ∃ d, biRectangular X Y Bmin BX BY t = .ok d ∧ SizesStrictlyIncrease d ∧
      (d ≠ [] → d.head? = some [(0, 0)]) ∧
      (∀ f ∈ d, ∃ (n1 n2 : ℤ) (b1 b2 : K), GridAlong t n1 n2 b1 b2 f ∧
        Bmin ≤ b1 ∧ b1 ≤ B1 ∧ 0 < b2 ∧ b2 ≤ B2 ∧
        ((n1 : K) - 1) * b1 ≤ L1 ∧ ((n2 : K) - 1) * b2 ≤ L2) := by
  have key : ∀ L1 L2 B1 B2 : K, 0 < L1 → 0 < L2 → L2 ≤ L1 → 0 < B1 → 0 < B2 →
    ∃ d, biRectangular L1 L2 Bmin B1 B2 t = .ok d ∧ SizesStrictlyIncrease d ∧
      (d ≠ [] → d.head? = some [(0, 0)]) ∧
      (∀ f ∈ d, ∃ (n1 n2 : ℤ) (b1 b2 : K), GridAlong t n1 n2 b1 b2 f ∧
        Bmin ≤ b1 ∧ b1 ≤ B1 ∧ 0 < b2 ∧ b2 ≤ B2 ∧
        ((n1 : K) - 1) * b1 ≤ L1 ∧ ((n2 : K) - 1) * b2 ≤ L2) := by
    intro L1 L2 B1 B2 h1 h2 h12 hB1 hB2
    refine ⟨_, biRectangular_ordered h1 h2 h12 hBmin hB1 hB2 t, ?_⟩
    have hn1 : 2 ≤ ⌈L1 / B1 + 1⌉ := two_le_ceil (div_pos h1 hB1)
    have hn2 : 2 ≤ ⌈L2 / B2 + 1⌉ := two_le_ceil (div_pos h2 hB2)
    split
    · rename_i hle
      refine ⟨sizes_biFields _ _ t (by omega) (by omega), fun _ => head_biFields _ _ t hn1, ?_⟩
      intro f hf
      obtain ⟨n1, n2, b1, hG, a1, a2, a3, a4⟩ := biFields_good h1 h2 hBmin hB1 hB2 t f hf hle
      exact ⟨n1, n2, b1, _, hG, a1, a2, div_pos h2 (cast_pred_pos hn2),
        spacing_le h2 hB2 le_rfl, a3, a4⟩
    · exact ⟨List.Pairwise.nil, fun h => absurd rfl h, by simp⟩
  rcases hL with ⟨h, rfl, rfl, rfl, rfl⟩ | ⟨h, rfl, rfl, rfl, rfl⟩
  · exact key _ _ _ _ hX hY h hBX hBY
  · rw [biRectangular_swap h]
    exact key _ _ _ _ hY hX h.le hBY hBX

/-- C12, consequence worth knowing: called with the longer side given as `length_y` and without
`transpose`, the fields are laid out along the wrong axis, e.g. a borehole at x = 30 on a land that
is 20 m wide. -/
theorem C12_biRectangular_wrong_axis :
    ∃ d, biRectangular (20 : ℚ) 30 5 10 10 false = .ok d ∧ ¬ DomainInLand 20 30 d := by
  have h : (biRectangular (20 : ℚ) 30 5 10 10 false).map
      (fun d => d.any fun f => f.any fun p => decide (p.1 > 20)) = .ok true := by decide +kernel
  cases hd : biRectangular (20 : ℚ) 30 5 10 10 false with
  | error e => rw [hd] at h; cases h
  | ok d =>
    rw [hd] at h
    refine ⟨d, rfl, fun hin => ?_⟩
    simp only [Except.map, Except.ok.injEq, List.any_eq_true, decide_eq_true_eq] at h
    obtain ⟨f, hf, p, hp, hgt⟩ := h
    exact absurd (hin f hf p hp).1.2 (not_le.mpr hgt)

/-! ## C13 — `bi_rectangle_nested` -/

/-- C13: for positive inputs `bi_rectangle_nested` never raises.  With `Ls` the shorter side and
`Bs` its maximum spacing, there is one nested domain per row count `n` with
`Ls/Bs + 1 ≤ n ≤ Ls/B_min + 1`, in increasing order of `n`; every borehole of every field lies in
the land; in each nested domain counts strictly increase; nested domains are nonempty iff an
admissible column count exists for the longer side, and then each starts with one borehole at the
origin and ends with a grid of `n` rows; the spacings lie within `[B_min, B_max_x]` along x and
`[B_min, B_max_y]` along y. -/
theorem C13_nested {X Y Bmin BX BY : K} (hX : 0 < X) (hY : 0 < Y) (hBmin : 0 < Bmin)
    (hBX : 0 < BX) (hBY : 0 < BY) {Ll Ls Bl Bs : K}
    (hL : (Y ≤ X ∧ Ll = X ∧ Ls = Y ∧ Bl = BX ∧ Bs = BY) ∨
          (X < Y ∧ Ll = Y ∧ Ls = X ∧ Bl = BY ∧ Bs = BX)) :
    ∃ nested, biRectangleNested X Y Bmin BX BY = .ok nested ∧
      (nested.length : ℤ) = max 0 (⌊Ls / Bmin + 1⌋ - ⌈Ls / Bs + 1⌉ + 1) ∧
      (∀ d ∈ nested, DomainInLand X Y d ∧ SizesStrictlyIncrease d ∧
        (d ≠ [] ↔ ⌈Ll / Bl + 1⌉ ≤ ⌊Ll / Bmin + 1⌋) ∧
        (d ≠ [] → d.head? = some [(0, 0)]) ∧
        (∀ f ∈ d, ∃ (nx ny : ℤ) (bx bY : K), IsGrid nx ny bx bY f ∧
          Bmin ≤ bx ∧ bx ≤ BX ∧ Bmin ≤ bY ∧ bY ≤ BY)) ∧
      (∀ k : ℕ, ∀ d, nested[k]? = some d → d ≠ [] → ∃ f, d.getLast? = some f ∧
        (f.length : ℤ) = ⌊Ll / Bmin + 1⌋ * (⌈Ls / Bs + 1⌉ + k)) := by
  have key : ∀ (t : Bool) (Ll Ls Bl Bs : K), 0 < Ll → 0 < Ls → Ls ≤ Ll → 0 < Bl → 0 < Bs →
    ∃ nested, (pyRange ⌈Ls / Bs + 1⌉ (⌊Ls / Bmin + 1⌋ + 1)).mapM (fun n2 : ℤ => do
        let b2 ← pyDiv Ls ((n2 - 1 : ℤ) : K)
        biRectangular Ll Ls Bmin Bl b2 t) = .ok nested ∧
      (nested.length : ℤ) = max 0 (⌊Ls / Bmin + 1⌋ - ⌈Ls / Bs + 1⌉ + 1) ∧
      (∀ d ∈ nested, SizesStrictlyIncrease d ∧
        (d ≠ [] ↔ ⌈Ll / Bl + 1⌉ ≤ ⌊Ll / Bmin + 1⌋) ∧
        (d ≠ [] → d.head? = some [(0, 0)]) ∧
        (∀ f ∈ d, ∃ (n1 n2 : ℤ) (b1 b2 : K), OGrid t n1 n2 b1 b2 f ∧
          Bmin ≤ b1 ∧ b1 ≤ Bl ∧ Bmin ≤ b2 ∧ b2 ≤ Bs ∧
          ((n1 : K) - 1) * b1 ≤ Ll ∧ ((n2 : K) - 1) * b2 ≤ Ls)) ∧
      (∀ k : ℕ, ∀ d, nested[k]? = some d → d ≠ [] → ∃ f, d.getLast? = some f ∧
        (f.length : ℤ) = ⌊Ll / Bmin + 1⌋ * (⌈Ls / Bs + 1⌉ + k)) := by
    intro t Ll Ls Bl Bs h1 h2 h12 hBl hBs
    have hN : 2 ≤ ⌈Ls / Bs + 1⌉ := two_le_ceil (div_pos h2 hBs)
    have hn1 : 2 ≤ ⌈Ll / Bl + 1⌉ := two_le_ceil (div_pos h1 hBl)
    set dom : ℤ → List (List (K × K)) := fun n2 =>
      if ⌈Ll / Bl + 1⌉ ≤ ⌊Ll / Bmin + 1⌋ then
        biFields (fun n => Ll / ((n - 1 : ℤ) : K)) (Ls / ((n2 - 1 : ℤ) : K)) t
          ⌈Ll / Bl + 1⌉ (⌊Ll / Bmin + 1⌋ + 1) n2 else [] with hdom
    have hm : (pyRange ⌈Ls / Bs + 1⌉ (⌊Ls / Bmin + 1⌋ + 1)).mapM (fun n2 : ℤ => do
        let b2 ← pyDiv Ls ((n2 - 1 : ℤ) : K)
        biRectangular Ll Ls Bmin Bl b2 t) =
        .ok ((pyRange ⌈Ls / Bs + 1⌉ (⌊Ls / Bmin + 1⌋ + 1)).map dom) := by
      apply mapM_ok
      intro n2 hn2
      rw [mem_pyRange] at hn2
      have h2n : 2 ≤ n2 := by omega
      have hb2 : 0 < Ls / ((n2 - 1 : ℤ) : K) := div_pos h2 (cast_pred_pos h2n)
      rw [pyDiv_ok (cast_pred_pos h2n).ne', Except.ok_bind,
        biRectangular_ordered h1 h2 h12 hBmin hBl hb2 t, ceil_self h2 h2n]
    refine ⟨_, hm, ?_, ?_, ?_⟩
    · rw [List.length_map, length_pyRange]; omega
    · intro d hd
      rw [List.mem_map] at hd
      obtain ⟨n2, hn2, rfl⟩ := hd
      rw [mem_pyRange] at hn2
      have h2n : 2 ≤ n2 := by omega
      have hb2 : 0 < Ls / ((n2 - 1 : ℤ) : K) := div_pos h2 (cast_pred_pos h2n)
      simp only [hdom]
      split
      · rename_i hle
        have hhead := head_biFields (fun n => Ll / ((n - 1 : ℤ) : K)) (Ls / ((n2 - 1 : ℤ) : K)) t
          (N := ⌊Ll / Bmin + 1⌋ + 1) (n2 := n2) hn1
        refine ⟨sizes_biFields _ _ t (by omega) (by omega), ⟨fun _ => hle, fun _ h => ?_⟩,
          fun _ => hhead, ?_⟩
        · rw [h] at hhead; simp at hhead
        · intro f hf
          have hf' := hf
          rw [show n2 = ⌈Ls / (Ls / ((n2 - 1 : ℤ) : K)) + 1⌉ from (ceil_self h2 h2n).symm] at hf'
          obtain ⟨m1, m2, b1, hG, a1, a2, a3, a4⟩ := biFields_good h1 h2 hBmin hBl hb2 t f
            (by rw [ceil_self h2 h2n]; exact hf) hle
          rw [ceil_self h2 h2n] at hG a4
          exact ⟨m1, m2, b1, _, hG, a1, a2, le_spacing h2 hBmin (by omega) h2n,
            spacing_le h2 hBs (by omega), a3, a4⟩
      · rename_i hle
        exact ⟨List.Pairwise.nil, ⟨fun h => absurd rfl h, fun h => absurd h hle⟩,
          fun h => absurd rfl h, by simp⟩
    · intro k d hk hne
      rw [List.getElem?_map] at hk
      have hlt : k < (pyRange ⌈Ls / Bs + 1⌉ (⌊Ls / Bmin + 1⌋ + 1)).length := by
        by_contra hcon
        rw [List.getElem?_eq_none (by omega)] at hk
        cases hk
      rw [length_pyRange] at hlt
      rw [getElem?_pyRange (by omega)] at hk
      simp only [Option.map_some, Option.some.injEq] at hk
      subst hk
      simp only [hdom] at hne ⊢
      split
      · rename_i hle
        refine ⟨_, last_biFields _ _ t hle, ?_⟩
        rw [length_maybeTranspose, length_lattice]
        rw [Nat.cast_mul, Int.toNat_of_nonneg (by omega), Int.toNat_of_nonneg (by omega)]
      · rename_i hle
        rw [if_neg hle] at hne
        exact absurd rfl hne
  unfold biRectangleNested
  rcases hL with ⟨h, rfl, rfl, rfl, rfl⟩ | ⟨h, rfl, rfl, rfl, rfl⟩
  · rw [if_pos h]
    dsimp only
    rw [pyDiv_ok hBmin.ne', Except.ok_bind, pyDiv_ok hBY.ne', Except.ok_bind]
    obtain ⟨nested, hm, hlen, hall, hlast⟩ := key false Ll Ls Bl Bs hX hY h hBX hBY
    refine ⟨nested, hm, hlen, ?_, hlast⟩
    intro d hd
    obtain ⟨a, b, c, e⟩ := hall d hd
    refine ⟨?_, a, b, c, ?_⟩
    · intro f hf
      obtain ⟨n1, n2, b1, b2, hG, s1, s2, s3, s4, s5, s6⟩ := e f hf
      exact isGrid_inLand (by simpa [OGrid] using hG) (by linarith) (by linarith) s5 s6
    · intro f hf
      obtain ⟨n1, n2, b1, b2, hG, s1, s2, s3, s4, s5, s6⟩ := e f hf
      exact ⟨n1, n2, b1, b2, by simpa [OGrid] using hG, s1, s2, s3, s4⟩
  · rw [if_neg (not_le.mpr h)]
    dsimp only
    rw [pyDiv_ok hBmin.ne', Except.ok_bind, pyDiv_ok hBX.ne', Except.ok_bind]
    obtain ⟨nested, hm, hlen, hall, hlast⟩ := key true Ll Ls Bl Bs hY hX h.le hBY hBX
    refine ⟨nested, hm, hlen, ?_, hlast⟩
    intro d hd
    obtain ⟨a, b, c, e⟩ := hall d hd
    refine ⟨?_, a, b, c, ?_⟩
    · intro f hf
      obtain ⟨n1, n2, b1, b2, hG, s1, s2, s3, s4, s5, s6⟩ := e f hf
      exact isGrid_inLand (by simpa [OGrid] using hG) (by linarith) (by linarith) s6 s5
    · intro f hf
      obtain ⟨n1, n2, b1, b2, hG, s1, s2, s3, s4, s5, s6⟩ := e f hf
      exact ⟨n2, n1, b2, b1, by simpa [OGrid] using hG, s3, s4, s1, s2⟩

example : (biRectangleNested (20 : ℚ) 30 5 10 10).map (·.map (·.map List.length)) =
    .ok [[1, 2, 3, 4, 8, 12, 15, 18, 21], [1, 2, 3, 4, 8, 12, 16, 20, 24, 28],
         [1, 2, 3, 4, 8, 12, 16, 20, 25, 30, 35]] := by decide +kernel

end floor

/-! ## C14, C15 — `zoned_rectangle_domain` -/

/-- C14: for positive lengths and at least three boreholes per side the loop terminates (the result
is the same for every fuel from `n_x+n_y` on) and never raises; the interior counts follow a unit
path from `(1,1)` to `(n1-2, n2-2)`; field `k` has the outline plus the `k`-th interior; there are
`n_x+n_y-5` fields of strictly increasing size, the last with `n_x*n_y` boreholes. -/
theorem C14_zoned_domain {X Y : K} (hX : 0 < X) (hY : 0 < Y) {nx ny : ℤ} (hnx : 3 ≤ nx)
    (hny : 3 ≤ ny) (t : Bool) {n1 n2 : ℤ}
    (hn : (Y ≤ X ∧ n1 = nx ∧ n2 = ny) ∨ (X < Y ∧ n1 = ny ∧ n2 = nx)) :
    ∃ (d : List (List (K × K))) (path : List (ℤ × ℤ)),
      (∀ fuel : ℕ, nx + ny ≤ fuel → zonedRectangleDomain fuel X Y nx ny t = .ok d) ∧
      UnitPath (1, 1) (n1 - 2, n2 - 2) path ∧
      List.Forall₂ (fun q f => (f.length : ℤ) = 2 * nx + 2 * ny - 4 + q.1 * q.2) path d ∧
      (d.length : ℤ) = nx + ny - 5 ∧ SizesStrictlyIncrease d ∧
      (∃ f, d.getLast? = some f ∧ (f.length : ℤ) = nx * ny) := by
  obtain ⟨L1, L2, hsel, hL1, hL2⟩ : ∃ L1 L2 : K,
      (L1, L2, n1, n2) = (if X ≥ Y then (X, Y, nx, ny) else (Y, X, ny, nx)) ∧ 0 < L1 ∧ 0 < L2 := by
    rcases hn with ⟨h, rfl, rfl⟩ | ⟨h, rfl, rfl⟩
    · exact ⟨X, Y, by rw [if_pos h], hX, hY⟩
    · exact ⟨Y, X, by rw [if_neg (not_le.mpr h)], hY, hX⟩
  have hn1 : 3 ≤ n1 := by omega
  have hn2 : 3 ≤ n2 := by omega
  have hsum : n1 + n2 = nx + ny := by omega
  have hprod : n1 * n2 = nx * ny := by
    rcases hn with ⟨_, rfl, rfl⟩ | ⟨_, rfl, rfl⟩
    · rfl
    · ring
  have hb1 : 0 < L1 / ((n1 - 1 : ℤ) : K) := div_pos hL1 (by exact_mod_cast (by omega : 0 < n1 - 1))
  have hb2 : 0 < L2 / ((n2 - 1 : ℤ) : K) := div_pos hL2 (by exact_mod_cast (by omega : 0 < n2 - 1))
  obtain ⟨path, z, fields, hp, hl, hz, hF, hrun⟩ := zonedRectangleDomain_spec hX hY t hsel hn1 hn2
  have hbd := unitPath_bounds hp
  have hFor : List.Forall₂ (fun (q : ℤ × ℤ) (f : List (K × K)) =>
      (f.length : ℤ) = 2 * nx + 2 * ny - 4 + q.1 * q.2) ((1, 1) :: path)
      (z :: fields.map (maybeTranspose t)) := by
    refine List.Forall₂.cons ?_ ?_
    · have := length_zoned hb1 hb2 le_rfl le_rfl (by omega) (by omega) hz
      dsimp only; omega
    · rw [List.forall₂_map_right_iff]
      have hmem : ∀ q ∈ path, 1 ≤ q.1 ∧ 1 ≤ q.2 ∧ q.1 ≤ n1 - 2 ∧ q.2 ≤ n2 - 2 := fun q hq =>
        hbd q (List.mem_cons_of_mem _ hq)
      clear hp hl hrun hbd
      induction hF with
      | nil => exact List.Forall₂.nil
      | cons hqf _ ih =>
        refine List.Forall₂.cons ?_ (ih fun q hq => hmem q (List.mem_cons_of_mem _ hq))
        have hq := hmem _ List.mem_cons_self
        have := length_zoned hb1 hb2 hq.1 hq.2.1 hq.2.2.1 hq.2.2.2 hqf
        rw [length_maybeTranspose]
        omega
  have hinc : SizesStrictlyIncrease (z :: fields.map (maybeTranspose t)) := by
    refine forall₂_pairwise hFor (unitPath_pairwise hp le_rfl le_rfl) ?_
    intro a b c e _ _ h1 h2 h3
    zify; omega
  refine ⟨_, (1, 1) :: path, fun fuel hf => hrun fuel (by omega), hp, hFor, ?_, hinc, ?_⟩
  · rw [← hFor.length_eq, unitPath_length hp]; dsimp only; omega
  · have hlast : ∀ {l : List (ℤ × ℤ)} {m : List (List (K × K))} {q : ℤ × ℤ},
        List.Forall₂ (fun (q : ℤ × ℤ) (f : List (K × K)) =>
          (f.length : ℤ) = 2 * nx + 2 * ny - 4 + q.1 * q.2) l m → l.getLast? = some q →
        ∃ f, m.getLast? = some f ∧ (f.length : ℤ) = 2 * nx + 2 * ny - 4 + q.1 * q.2 := by
      intro l m q h
      induction h with
      | nil => intro h; simp at h
      | @cons a b l' m' hab htl ih =>
        intro hq
        cases htl with
        | nil =>
          simp only [List.getLast?_singleton, Option.some.injEq] at hq ⊢
          subst hq
          exact ⟨b, rfl, hab⟩
        | cons h1 h2 =>
          rw [List.getLast?_cons_cons] at hq ⊢
          exact ih hq
    obtain ⟨f, hf, hlen⟩ := hlast hFor hp.2.1
    refine ⟨f, hf, ?_⟩
    rw [hlen]
    dsimp only
    have : (n1 - 2) * (n2 - 2) = n1 * n2 - 2 * n1 - 2 * n2 + 4 := by ring
    omega

/-- C14, content (without `transpose`): field `k` is `zoned_rectangle` (see C05) with the spacings
`L1/(n1-1)`, `L2/(n2-1)` of the longer and shorter side and the `k`-th interior of the path. -/
theorem C14_zoned_domain_fields {X Y : K} (hX : 0 < X) (hY : 0 < Y) {nx ny : ℤ} (hnx : 3 ≤ nx)
    (hny : 3 ≤ ny) {n1 n2 : ℤ} {L1 L2 : K}
    (hn : (Y ≤ X ∧ n1 = nx ∧ n2 = ny ∧ L1 = X ∧ L2 = Y) ∨
      (X < Y ∧ n1 = ny ∧ n2 = nx ∧ L1 = Y ∧ L2 = X)) :
    ∃ (d : List (List (K × K))) (path : List (ℤ × ℤ)),
      (∀ fuel : ℕ, nx + ny ≤ fuel → zonedRectangleDomain fuel X Y nx ny false = .ok d) ∧
      UnitPath (1, 1) (n1 - 2, n2 - 2) path ∧
      List.Forall₂ (fun q f => zonedRectangle n1 n2 (L1 / (n1 - 1)) (L2 / (n2 - 1)) q.1 q.2 = .ok f)
        path d := by
  have hsel : (L1, L2, n1, n2) = (if X ≥ Y then (X, Y, nx, ny) else (Y, X, ny, nx)) := by
    rcases hn with ⟨h, rfl, rfl, rfl, rfl⟩ | ⟨h, rfl, rfl, rfl, rfl⟩
    · rw [if_pos h]
    · rw [if_neg (not_le.mpr h)]
  obtain ⟨path, z, fields, hp, hl, hz, hF, hrun⟩ :=
    zonedRectangleDomain_spec hX hY false hsel (by omega) (by omega)
  have hid : fields.map (maybeTranspose false) = fields := by
    conv_rhs => rw [← List.map_id fields]
    apply List.map_congr_left
    intro f _
    simp [maybeTranspose]
  rw [hid] at hrun
  refine ⟨_, _, fun fuel hf => hrun fuel (by omega), hp, ?_⟩
  push_cast at hz hF
  exact List.Forall₂.cons hz hF

/-- C14, guard: with fewer than three boreholes on a side the call raises: `ZeroDivisionError` when
a side has exactly one borehole, else `ValueError`. -/
theorem C14_zoned_domain_guard {X Y : K} {nx ny : ℤ} (h : nx < 3 ∨ ny < 3) (t : Bool) (fuel : ℕ) :
    zonedRectangleDomain fuel X Y nx ny t =
      .error (if nx = 1 ∨ ny = 1 then .zeroDivisionError else .valueError) := by
  have key : ∀ (L1 L2 : K) (n1 n2 : ℤ), (n1 < 3 ∨ n2 < 3) → (do
      let b1 ← pyDiv L1 ((n1 - 1 : ℤ) : K)
      let b2 ← pyDiv L2 ((n2 - 1 : ℤ) : K)
      let z ← zonedRectangle n1 n2 b1 b2 1 1
      zonedLoop n1 n2 b1 b2 t fuel 1 1 [z] : Py _) =
      .error (if n1 = 1 ∨ n2 = 1 then .zeroDivisionError else .valueError) := by
    intro L1 L2 n1 n2 hn
    by_cases e1 : n1 = 1
    · subst e1; simp
    · have d1 : ((n1 - 1 : ℤ) : K) ≠ 0 := by exact_mod_cast (by omega : n1 - 1 ≠ 0)
      rw [pyDiv_ok d1, Except.ok_bind]
      by_cases e2 : n2 = 1
      · subst e2; simp
      · have d2 : ((n2 - 1 : ℤ) : K) ≠ 0 := by exact_mod_cast (by omega : n2 - 1 ≠ 0)
        rw [pyDiv_ok d2, Except.ok_bind, if_neg (by omega)]
        unfold zonedRectangle
        by_cases h1 : (1 : ℤ) > n1 - 2
        · rw [if_pos h1]; rfl
        · rw [if_neg h1, if_pos (by omega)]; rfl
  unfold zonedRectangleDomain
  by_cases hc : X ≥ Y
  · rw [if_pos hc]; exact key X Y nx ny h
  · rw [if_neg hc]
    have := key Y X ny nx (by omega)
    simp only [or_comm (a := ny = 1)] at this
    exact this

example : (zonedRectangleDomain 10 (20 : ℚ) 30 4 5 false).map (·.map List.length) =
    .ok [15, 16, 17, 20] := by decide +kernel

/-- C15 (violation): the result with `transpose=True` is the result with `transpose=False` with all
fields *but the first* transposed. -/
theorem C15_first_field_not_transposed {X Y : K} (hX : 0 < X) (hY : 0 < Y) {nx ny : ℤ}
    (hnx : 3 ≤ nx) (hny : 3 ≤ ny) :
    ∃ z fields, ∀ fuel : ℕ, nx + ny ≤ fuel →
      zonedRectangleDomain fuel X Y nx ny false = .ok (z :: fields) ∧
      zonedRectangleDomain fuel X Y nx ny true = .ok (z :: fields.map transposeCoordinates) := by
  obtain ⟨L1, L2, n1, n2, hsel, hn1, hn2, hsum⟩ : ∃ (L1 L2 : K) (n1 n2 : ℤ),
      (L1, L2, n1, n2) = (if X ≥ Y then (X, Y, nx, ny) else (Y, X, ny, nx)) ∧ 3 ≤ n1 ∧ 3 ≤ n2 ∧
        n1 + n2 = nx + ny := by
    by_cases h : X ≥ Y
    · exact ⟨X, Y, nx, ny, by rw [if_pos h], hnx, hny, rfl⟩
    · exact ⟨Y, X, ny, nx, by rw [if_neg h], hny, hnx, by ring⟩
  obtain ⟨path, z, fields, hp, hl, hz, hF, hrun⟩ :=
    zonedRectangleDomain_spec hX hY false hsel hn1 hn2
  obtain ⟨path', z', fields', hp', hl', hz', hF', hrun'⟩ :=
    zonedRectangleDomain_spec hX hY true hsel hn1 hn2
  -- both runs visit the same interiors: the loop does not look at `transpose`
  have hloop : ∀ (fuel : ℕ) (b1 b2 : K) (x y : ℤ) (dom : List (List (K × K))) r,
      zonedLoop n1 n2 b1 b2 false fuel x y dom = .ok (dom ++ r) →
      ∀ dom', zonedLoop n1 n2 b1 b2 true fuel x y dom' =
        .ok (dom' ++ r.map transposeCoordinates) := by
    intro fuel
    induction fuel with
    | zero => intro b1 b2 x y dom r h; cases h
    | succ fuel ih =>
      intro b1 b2 x y dom r h dom'
      rw [zonedLoop] at h ⊢
      split at h
      · rename_i hc
        rw [if_pos hc]
        simp only [bind_eq_ok] at h ⊢
        obtain ⟨a1, e1, a2, e2, a3, e3, a4, e4, a5, e5, a6, e6, a7, e7, ⟨x', y'⟩, e8, f, e9, h⟩ := h
        have hdom : ∃ r', r = maybeTranspose false f :: r' := by
          -- the accumulated domain is a prefix of the result
          have pre : ∀ (fuel : ℕ) (x y : ℤ) (dom : List (List (K × K))) d,
              zonedLoop n1 n2 b1 b2 false fuel x y dom = .ok d → ∃ r, d = dom ++ r := by
            intro fuel
            induction fuel with
            | zero => intro x y dom d h; cases h
            | succ fuel ih2 =>
              intro x y dom d h
              rw [zonedLoop] at h
              split at h
              · simp only [bind_eq_ok] at h
                obtain ⟨_, _, _, _, _, _, _, _, _, _, _, _, _, _, q, _, f', _, h⟩ := h
                obtain ⟨r, hr⟩ := ih2 _ _ _ _ h
                exact ⟨[maybeTranspose false f'] ++ r, by rw [hr, List.append_assoc]⟩
              · cases h; exact ⟨[], by simp⟩
          obtain ⟨r', hr'⟩ := pre _ _ _ _ _ h
          rw [List.append_assoc] at hr'
          exact ⟨r', List.append_cancel_left hr'⟩
        obtain ⟨r', rfl⟩ := hdom
        refine ⟨a1, e1, a2, e2, a3, e3, a4, e4, a5, e5, a6, e6, a7, e7, (x', y'), e8, f, e9, ?_⟩
        have := ih b1 b2 x' y' (dom ++ [maybeTranspose false f]) r'
          (by rw [List.append_assoc]; exact h) (dom' ++ [maybeTranspose true f])
        dsimp only at this ⊢
        rw [this]
        simp [maybeTranspose]
      · rename_i hc
        rw [if_neg hc]
        have hr : r = [] := by
          simp only [Except.pure_eq, Except.ok.injEq] at h
          exact (List.self_eq_append_right.1 h)
        subst hr
        simp
  refine ⟨z, fields.map (maybeTranspose false), ?_⟩
  intro fuel hfuel
  have h1 := hrun fuel (by omega)
  refine ⟨h1, ?_⟩
  have h2 := h1
  unfold zonedRectangleDomain at h2 ⊢
  rw [← hsel] at h2 ⊢
  dsimp only at h2 ⊢
  simp only [bind_eq_ok] at h2 ⊢
  obtain ⟨b1, e1, b2, e2, zz, e3, h2⟩ := h2
  have hzz : zz = z := by
    have hd1 : b1 = L1 / ((n1 - 1 : ℤ) : K) := by
      rw [pyDiv_ok (by exact_mod_cast (by omega : n1 - 1 ≠ 0))] at e1; cases e1; rfl
    have hd2 : b2 = L2 / ((n2 - 1 : ℤ) : K) := by
      rw [pyDiv_ok (by exact_mod_cast (by omega : n2 - 1 ≠ 0))] at e2; cases e2; rfl
    rw [hd1, hd2, hz] at e3
    cases e3; rfl
  subst hzz
  refine ⟨b1, e1, b2, e2, zz, e3, ?_⟩
  exact hloop fuel b1 b2 1 1 [zz] _ h2 [zz]

/-- C15, consequence: on a land with unequal sides the first field of the transposed domain always
has a borehole outside the transposed land. -/
theorem C15_first_field_outside {X Y : K} (hX : 0 < X) (hY : 0 < Y) (hne : X ≠ Y) {nx ny : ℤ}
    (hnx : 3 ≤ nx) (hny : 3 ≤ ny) {fuel : ℕ} (hfuel : nx + ny ≤ fuel) :
    ∃ z fields, zonedRectangleDomain fuel X Y nx ny true = .ok (z :: fields) ∧
      ∃ p ∈ z, ¬ InLand (min X Y) (max X Y) p := by
  obtain ⟨L1, L2, n1, n2, hsel, hn1, hn2, hsum, hL1, hL2, e1, e2⟩ :
      ∃ (L1 L2 : K) (n1 n2 : ℤ),
      (L1, L2, n1, n2) = (if X ≥ Y then (X, Y, nx, ny) else (Y, X, ny, nx)) ∧ 3 ≤ n1 ∧ 3 ≤ n2 ∧
        n1 + n2 = nx + ny ∧ 0 < L1 ∧ 0 < L2 ∧ max X Y = L1 ∧ min X Y = L2 := by
    by_cases h : X ≥ Y
    · exact ⟨X, Y, nx, ny, by rw [if_pos h], hnx, hny, rfl, hX, hY, max_eq_left h, min_eq_right h⟩
    · exact ⟨Y, X, ny, nx, by rw [if_neg h], hny, hnx, by ring, hY, hX,
        max_eq_right (not_le.mp h).le, min_eq_left (not_le.mp h).le⟩
  have hlt : L2 < L1 := by rw [← e1, ← e2]; exact min_lt_max.mpr hne
  have p1 : (0 : K) < ((n1 - 1 : ℤ) : K) := by exact_mod_cast (by omega : 0 < n1 - 1)
  have p2 : (0 : K) < ((n2 - 1 : ℤ) : K) := by exact_mod_cast (by omega : 0 < n2 - 1)
  obtain ⟨path, z, fields, hp, hl, hz, hF, hrun⟩ :=
    zonedRectangleDomain_spec hX hY true hsel hn1 hn2
  refine ⟨z, _, hrun fuel (by omega), ?_⟩
  have := (inLand_zoned (div_pos hL1 p1) (div_pos hL2 p2) le_rfl le_rfl (by omega) (by omega) hz).2.1
  refine ⟨_, this, ?_⟩
  rw [e2, e1]
  intro hin
  have h3 := hin.1.2
  dsimp only at h3
  rw [mul_div_cancel₀ _ p1.ne'] at h3
  exact absurd h3 (not_le.mpr hlt)

example : (0 : ℚ) < 20 ∧ (0 : ℚ) < 30 ∧ (20 : ℚ) ≠ 30 := by norm_num

/-! ## C16, C17, C18 — `bi_rectangle_zoned_nested` -/

section nested
variable [FloorRing K]

/-- The longer/shorter side of the land with the maximum spacing given for it and the range of
admissible borehole counts along it. -/
structure Sides (X Y Bmin BX BY : K) (L1 L2 : K) (N1 M1 N2 M2 : ℤ) : Prop where
  orient : (Y ≤ X ∧ L1 = X ∧ L2 = Y ∧ N1 = ⌈X / BX + 1⌉ ∧ N2 = ⌈Y / BY + 1⌉) ∨
    (X < Y ∧ L1 = Y ∧ L2 = X ∧ N1 = ⌈Y / BY + 1⌉ ∧ N2 = ⌈X / BX + 1⌉)
  m1 : M1 = ⌊L1 / Bmin + 1⌋
  m2 : M2 = ⌊L2 / Bmin + 1⌋

theorem ceil_ge_three {L B : K} (hB : 0 < B) (h : B < L) : 3 ≤ ⌈L / B + 1⌉ := by
  have h1 : 1 < L / B := (one_lt_div hB).mpr h
  have : (2 : ℤ) < ⌈L / B + 1⌉ := by rw [Int.lt_ceil]; push_cast; linarith
  omega

/-- working form of C16, with the start-up shapes spelled out in lemma-level terms -/
theorem zonedNested_full {X Y Bmin BX BY : K} (hX : 0 < X) (hY : 0 < Y) (hBmin : 0 < Bmin)
    (hBX : 0 < BX) (hBY : 0 < BY) (hX' : BX < X) (hY' : BY < Y) {L1 L2 : K} {N1 M1 N2 M2 : ℤ}
    (hS : Sides X Y Bmin BX BY L1 L2 N1 M1 N2 M2) (h1 : N1 ≤ M1) (h2 : N2 ≤ M2) {fuel : ℕ}
    (hfuel : M1 + M2 ≤ fuel) :
    ∃ (startup z0 : List (List (K × K))) (zs : List (List (List (K × K)))) (walk : List (ℤ × ℤ)),
      biRectangleZonedNested fuel X Y Bmin BX BY = .ok ((startup ++ z0) :: zs) ∧
      UnitPath (N1, N2) (M1, M2) walk ∧
      (∀ (k : ℕ) p q, walk[k]? = some p → walk[k + 1]? = some q → AlternatingStep M1 M2 k p q) ∧
      (walk.length : ℤ) = (M1 - N1 + 1) + (M2 - N2 + 1) - 1 ∧
      List.Forall₂ (fun q z => zonedRectangleDomain fuel L1 L2 q.1 q.2 (decide (X < Y)) = .ok z)
        walk (z0 :: zs) ∧
      startup = startupFields N1 N2 (X / ((N1 - 1 : ℤ) : K)) (Y / ((N2 - 1 : ℤ) : K))
        (decide (X < Y)) := by
  have hL : 0 < L1 ∧ 0 < L2 ∧ L2 ≤ L1 ∧ 3 ≤ N1 ∧ 3 ≤ N2 := by
    rcases hS.orient with ⟨h, rfl, rfl, rfl, rfl⟩ | ⟨h, rfl, rfl, rfl, rfl⟩
    · exact ⟨hX, hY, h, ceil_ge_three hBX hX', ceil_ge_three hBY hY'⟩
    · exact ⟨hY, hX, h.le, ceil_ge_three hBY hY', ceil_ge_three hBX hX'⟩
  obtain ⟨hL1, hL2, hL12, hN1, hN2⟩ := hL
  obtain ⟨ws, zs, hup, halt, hF, s, hs, hout⟩ := zonedNested_alternating (X := X) (Y := Y) (L1 := L1) (L2 := L2)
    (t := decide (X < Y)) hN1 hN2 h1 h2 (fuel := fuel) (by
      intro n1 n2 a b c d
      obtain ⟨path, z, fields, _, _, _, _, hrun⟩ := zonedRectangleDomain_spec hL1 hL2
        (decide (X < Y)) (nx := n1) (ny := n2) (n1 := n1) (n2 := n2) (L1 := L1) (L2 := L2)
        (by rw [if_pos hL12]) (by omega) (by omega)
      exact ⟨_, hrun fuel (by omega)⟩)
  have hrun : biRectangleZonedNested fuel X Y Bmin BX BY = .ok s.out := by
    unfold biRectangleZonedNested
    rcases hS.orient with ⟨h, rfl, rfl, rfl, rfl⟩ | ⟨h, rfl, rfl, rfl, rfl⟩
    · rw [if_pos h]
      dsimp only
      rw [pyDiv_ok hBmin.ne', Except.ok_bind, pyDiv_ok hBX.ne', Except.ok_bind,
        pyDiv_ok hBmin.ne', Except.ok_bind, pyDiv_ok hBY.ne', Except.ok_bind, ← hS.m1, ← hS.m2]
      rw [decide_eq_false (not_lt.mpr h)] at hs
      rw [hs]; rfl
    · rw [if_neg (not_le.mpr h)]
      dsimp only
      rw [pyDiv_ok hBmin.ne', Except.ok_bind, pyDiv_ok hBY.ne', Except.ok_bind,
        pyDiv_ok hBmin.ne', Except.ok_bind, pyDiv_ok hBX.ne', Except.ok_bind, ← hS.m1, ← hS.m2]
      rw [decide_eq_true h] at hs
      rw [hs]; rfl
  have hlen := unitPath_length hup
  cases zs with
  | nil =>
    cases hF
    simp [UnitPath] at hup
  | cons z0 zs =>
    exact ⟨_, z0, zs, ws, by rw [hrun, hout]; rfl, hup, halt, by rw [hlen]; dsimp only; omega, hF, rfl⟩

/-- the same without the rule of the walk -/
theorem zonedNested_core {X Y Bmin BX BY : K} (hX : 0 < X) (hY : 0 < Y) (hBmin : 0 < Bmin)
    (hBX : 0 < BX) (hBY : 0 < BY) (hX' : BX < X) (hY' : BY < Y) {L1 L2 : K} {N1 M1 N2 M2 : ℤ}
    (hS : Sides X Y Bmin BX BY L1 L2 N1 M1 N2 M2) (h1 : N1 ≤ M1) (h2 : N2 ≤ M2) {fuel : ℕ}
    (hfuel : M1 + M2 ≤ fuel) :
    ∃ (startup z0 : List (List (K × K))) (zs : List (List (List (K × K)))) (walk : List (ℤ × ℤ)),
      biRectangleZonedNested fuel X Y Bmin BX BY = .ok ((startup ++ z0) :: zs) ∧
      UnitPath (N1, N2) (M1, M2) walk ∧
      (walk.length : ℤ) = (M1 - N1 + 1) + (M2 - N2 + 1) - 1 ∧
      List.Forall₂ (fun q z => zonedRectangleDomain fuel L1 L2 q.1 q.2 (decide (X < Y)) = .ok z)
        walk (z0 :: zs) ∧
      startup = startupFields N1 N2 (X / ((N1 - 1 : ℤ) : K)) (Y / ((N2 - 1 : ℤ) : K))
        (decide (X < Y)) := by
  obtain ⟨st, z0, zs, walk, a, b, -, c, d, e⟩ := zonedNested_full hX hY hBmin hBX hBY hX' hY' hS h1 h2 hfuel
  exact ⟨st, z0, zs, walk, a, b, c, d, e⟩

/-- C16: if the land is longer than the maximum spacing in each direction and the candidate ranges
are nonempty, the call never raises (no index out of range); the visited pairs of counts form a
unit path from the smallest to the largest pair, `len1+len2-1` of them; nested domain `i` is
`zoned_rectangle_domain` of the `i`-th pair, and the first one has the start-up shapes in front,
of 1, 2, 3, …, 2·N1+2·N2-4 boreholes. -/
theorem C16_zonedNested_walk {X Y Bmin BX BY : K} (hX : 0 < X) (hY : 0 < Y) (hBmin : 0 < Bmin)
    (hBX : 0 < BX) (hBY : 0 < BY) (hX' : BX < X) (hY' : BY < Y) {L1 L2 : K} {N1 M1 N2 M2 : ℤ}
    (hS : Sides X Y Bmin BX BY L1 L2 N1 M1 N2 M2) (h1 : N1 ≤ M1) (h2 : N2 ≤ M2) {fuel : ℕ}
    (hfuel : M1 + M2 ≤ fuel) :
    ∃ (startup z0 : List (List (K × K))) (zs : List (List (List (K × K)))) (walk : List (ℤ × ℤ)),
      biRectangleZonedNested fuel X Y Bmin BX BY = .ok ((startup ++ z0) :: zs) ∧
      UnitPath (N1, N2) (M1, M2) walk ∧
      (walk.length : ℤ) = (M1 - N1 + 1) + (M2 - N2 + 1) - 1 ∧
      List.Forall₂ (fun q z => zonedRectangleDomain fuel L1 L2 q.1 q.2 (decide (X < Y)) = .ok z)
        walk (z0 :: zs) ∧
      startup.map (fun f => (f.length : ℤ)) = pyRange 1 (2 * N1 + 2 * N2 - 3) := by
  obtain ⟨st, z0, zs, w, a, b, c, d, e⟩ := zonedNested_core hX hY hBmin hBX hBY hX' hY' hS h1 h2 hfuel
  have hN : 2 ≤ N1 ∧ 2 ≤ N2 := by
    rcases hS.orient with ⟨_, _, _, rfl, rfl⟩ | ⟨_, _, _, rfl, rfl⟩
    · exact ⟨two_le_ceil (div_pos hX hBX), two_le_ceil (div_pos hY hBY)⟩
    · exact ⟨two_le_ceil (div_pos hY hBY), two_le_ceil (div_pos hX hBX)⟩
  exact ⟨st, z0, zs, w, a, b, c, d, by rw [e, map_length_startup hN.1 hN.2]⟩

/-- C17: when `length_x ≥ length_y`, every borehole of every field of every nested domain lies in
the land, counts strictly increase inside each nested domain, and the first nested domain starts
with one borehole at the origin. -/
theorem C17_zonedNested_in_land {X Y Bmin BX BY : K} (hY : 0 < Y) (hXY : Y ≤ X)
    (hBmin : 0 < Bmin) (hBX : 0 < BX) (hBY : 0 < BY) (hX' : BX < X) (hY' : BY < Y)
    (h1 : ⌈X / BX + 1⌉ ≤ ⌊X / Bmin + 1⌋) (h2 : ⌈Y / BY + 1⌉ ≤ ⌊Y / Bmin + 1⌋) {fuel : ℕ}
    (hfuel : ⌊X / Bmin + 1⌋ + ⌊Y / Bmin + 1⌋ ≤ fuel) :
    ∃ d0 ds, biRectangleZonedNested fuel X Y Bmin BX BY = .ok (d0 :: ds) ∧
      (∀ d ∈ d0 :: ds, DomainInLand X Y d ∧ SizesStrictlyIncrease d ∧ d ≠ []) ∧
      d0.head? = some [(0, 0)] := by
  have hX : 0 < X := hY.trans_le hXY
  obtain ⟨st, z0, zs, walk, hrun, hup, _, hF, hst⟩ := zonedNested_core hX hY hBmin hBX hBY hX' hY'
    (L1 := X) (L2 := Y) (N1 := ⌈X / BX + 1⌉) (N2 := ⌈Y / BY + 1⌉) (M1 := ⌊X / Bmin + 1⌋)
    (M2 := ⌊Y / Bmin + 1⌋) ⟨Or.inl ⟨hXY, rfl, rfl, rfl, rfl⟩, rfl, rfl⟩ h1 h2 hfuel
  rw [decide_eq_false (not_lt.mpr hXY)] at hF hst
  have hN1 : 3 ≤ ⌈X / BX + 1⌉ := ceil_ge_three hBX hX'
  have hN2 : 3 ≤ ⌈Y / BY + 1⌉ := ceil_ge_three hBY hY'
  -- each zoned domain
  have hz : ∀ q z, q ∈ walk → zonedRectangleDomain fuel X Y q.1 q.2 false = .ok z →
      DomainInLand X Y z ∧ SizesStrictlyIncrease z ∧ z ≠ [] ∧
        ∀ f ∈ z, 2 * q.1 + 2 * q.2 - 4 < (f.length : ℤ) := by
    intro q z hq hz
    have hb := unitPath_bounds hup q hq
    dsimp only at hb
    obtain ⟨d, path', hrun', hup', hsz, hlen, hinc, _⟩ := C14_zoned_domain hX hY (nx := q.1)
      (ny := q.2) (by omega) (by omega) false (n1 := q.1) (n2 := q.2) (Or.inl ⟨hXY, rfl, rfl⟩)
    rw [hrun' fuel (by omega)] at hz
    cases hz
    have hne : z ≠ [] := by
      intro h; subst h; simp at hlen; omega
    refine ⟨?_, hinc, hne, ?_⟩
    · obtain ⟨path, z1, fields, hp, hl, hz1, hF1, hrun1⟩ := zonedRectangleDomain_spec hX hY false
        (nx := q.1) (ny := q.2) (n1 := q.1) (n2 := q.2) (L1 := X) (L2 := Y)
        (by rw [if_pos hXY]) (by omega) (by omega)
      have := hrun1 fuel (by omega)
      rw [hrun' fuel (by omega)] at this
      cases this
      have p1 : (0 : K) < ((q.1 - 1 : ℤ) : K) := by exact_mod_cast (by omega : 0 < q.1 - 1)
      have p2 : (0 : K) < ((q.2 - 1 : ℤ) : K) := by exact_mod_cast (by omega : 0 < q.2 - 1)
      have hbd := unitPath_bounds hp
      have e1 : ((q.1 - 1 : ℤ) : K) * (X / ((q.1 - 1 : ℤ) : K)) = X := mul_div_cancel₀ _ p1.ne'
      have e2 : ((q.2 - 1 : ℤ) : K) * (Y / ((q.2 - 1 : ℤ) : K)) = Y := mul_div_cancel₀ _ p2.ne'
      intro f hf
      rw [List.mem_cons] at hf
      rcases hf with rfl | hf
      · have := (inLand_zoned (div_pos hX p1) (div_pos hY p2) le_rfl le_rfl (by omega) (by omega)
          hz1).1
        rwa [e1, e2] at this
      · rw [List.mem_map] at hf
        obtain ⟨g, hg, rfl⟩ := hf
        obtain ⟨w, hw, hwg⟩ := forall₂_mem_right hF1 g hg
        have hwb := hbd w (List.mem_cons_of_mem _ hw)
        dsimp only at hwb
        have := (inLand_zoned (div_pos hX p1) (div_pos hY p2) hwb.1 hwb.2.1 hwb.2.2.1 hwb.2.2.2
          hwg).1
        rw [e1, e2] at this
        simpa [maybeTranspose] using this
    · intro f hf
      obtain ⟨w, hw, hwf⟩ := forall₂_mem_right hsz f hf
      have hwb := unitPath_bounds hup' w hw
      dsimp only at hwb
      have : 1 ≤ w.1 * w.2 := by nlinarith [hwb.1, hwb.2.1]
      omega
  refine ⟨_, _, hrun, ?_, ?_⟩
  · have p1 : (0 : K) < ((⌈X / BX + 1⌉ - 1 : ℤ) : K) := by
      exact_mod_cast (by omega : 0 < ⌈X / BX + 1⌉ - 1)
    have p2 : (0 : K) < ((⌈Y / BY + 1⌉ - 1 : ℤ) : K) := by
      exact_mod_cast (by omega : 0 < ⌈Y / BY + 1⌉ - 1)
    obtain ⟨w0, hw0, hz0⟩ : ∃ w0, walk.head? = some w0 ∧
        zonedRectangleDomain fuel X Y w0.1 w0.2 false = .ok z0 := by
      cases hF with
      | cons h _ => exact ⟨_, rfl, h⟩
    have hw0e : w0 = (⌈X / BX + 1⌉, ⌈Y / BY + 1⌉) := by
      have := hup.1; rw [hw0] at this; simpa using this
    have hw0m : w0 ∈ walk := List.mem_of_mem_head? hw0
    obtain ⟨a1, a2, a3, a4⟩ := hz w0 z0 hw0m hz0
    obtain ⟨b1, b2, b3⟩ := sizes_startup (K := K) (by omega : 2 ≤ ⌈X / BX + 1⌉)
      (by omega : 2 ≤ ⌈Y / BY + 1⌉) (X / ((⌈X / BX + 1⌉ - 1 : ℤ) : K))
      (Y / ((⌈Y / BY + 1⌉ - 1 : ℤ) : K)) false
    intro d hd
    rw [List.mem_cons] at hd
    rcases hd with rfl | hd
    · refine ⟨?_, ?_, by simp [a3]⟩
      · intro f hf
        rw [List.mem_append] at hf
        rcases hf with hf | hf
        · rw [hst] at hf
          have := startup_inLand (by omega) (by omega) (div_pos hX p1).le (div_pos hY p2).le f hf
          rwa [mul_div_cancel₀ _ p1.ne', mul_div_cancel₀ _ p2.ne'] at this
        · exact a1 f hf
      · unfold SizesStrictlyIncrease at a2 b1 ⊢
        rw [List.pairwise_append]
        refine ⟨by rw [hst]; exact b1, a2, ?_⟩
        intro f hf g hg
        rw [hst] at hf
        have c1 := b2 f hf
        have c2 := a4 g hg
        rw [hw0e] at c2
        dsimp only at c2
        zify; omega
    · obtain ⟨q, hq, hqd⟩ := forall₂_mem_right hF d (List.mem_cons_of_mem _ hd)
      obtain ⟨c1, c2, c3, _⟩ := hz q d hq hqd
      exact ⟨c1, c2, c3⟩
  · rw [hst, List.head?_append,
      (sizes_startup (K := K) (by omega : 2 ≤ ⌈X / BX + 1⌉) (by omega : 2 ≤ ⌈Y / BY + 1⌉) _ _
        false).2.2]
    rfl

/-- C18 (violation): when `length_y > length_x`, *every* nested domain contains a field with a
borehole outside `[0,length_x] × [0,length_y]` — for all admissible inputs, not just some. -/
theorem C18_zonedNested_outside {X Y Bmin BX BY : K} (hX : 0 < X) (hXY : X < Y)
    (hBmin : 0 < Bmin) (hBX : 0 < BX) (hBY : 0 < BY) (hX' : BX < X) (hY' : BY < Y)
    (h1 : ⌈X / BX + 1⌉ ≤ ⌊X / Bmin + 1⌋) (h2 : ⌈Y / BY + 1⌉ ≤ ⌊Y / Bmin + 1⌋) {fuel : ℕ}
    (hfuel : ⌊X / Bmin + 1⌋ + ⌊Y / Bmin + 1⌋ ≤ fuel) :
    ∃ nested, biRectangleZonedNested fuel X Y Bmin BX BY = .ok nested ∧ nested ≠ [] ∧
      ∀ d ∈ nested, ¬ DomainInLand X Y d := by
  have hY : 0 < Y := hX.trans hXY
  obtain ⟨st, z0, zs, walk, hrun, hup, _, hF, hst⟩ := zonedNested_core hX hY hBmin hBX hBY hX' hY'
    (L1 := Y) (L2 := X) (N1 := ⌈Y / BY + 1⌉) (N2 := ⌈X / BX + 1⌉) (M1 := ⌊Y / Bmin + 1⌋)
    (M2 := ⌊X / Bmin + 1⌋) ⟨Or.inr ⟨hXY, rfl, rfl, rfl, rfl⟩, rfl, rfl⟩ h2 h1 (fuel := fuel) (by omega)
  rw [decide_eq_true hXY] at hF hst
  have hN1 : 3 ≤ ⌈X / BX + 1⌉ := ceil_ge_three hBX hX'
  have hN2 : 3 ≤ ⌈Y / BY + 1⌉ := ceil_ge_three hBY hY'
  have hz : ∀ q z, q ∈ walk → zonedRectangleDomain fuel Y X q.1 q.2 true = .ok z →
      ∃ f ∈ z, ∃ p ∈ f, ¬ InLand X Y p := by
    intro q z hq hz
    have hb := unitPath_bounds hup q hq
    dsimp only at hb
    obtain ⟨f, fs, hr, p, hp, hout⟩ := C15_first_field_outside hY hX hXY.ne' (nx := q.1) (ny := q.2)
      (by omega) (by omega) (fuel := fuel) (by omega)
    rw [hr] at hz
    cases hz
    rw [min_eq_right hXY.le, max_eq_left hXY.le] at hout
    exact ⟨f, List.mem_cons_self, p, hp, hout⟩
  refine ⟨_, hrun, by simp, ?_⟩
  intro d hd hin
  rw [List.mem_cons] at hd
  rcases hd with rfl | hd
  · obtain ⟨q, hq, hqz⟩ := forall₂_mem_right hF z0 List.mem_cons_self
    obtain ⟨f, hf, p, hp, hout⟩ := hz q z0 hq hqz
    exact hout (hin f (List.mem_append_right _ hf) p hp)
  · obtain ⟨q, hq, hqz⟩ := forall₂_mem_right hF d (List.mem_cons_of_mem _ hd)
    obtain ⟨f, hf, p, hp, hout⟩ := hz q d hq hqz
    exact hout (hin f hf p hp)

/-- C16, guard: if the longer side is not longer than its maximum spacing (so that only two
boreholes are required along it), the call raises `ValueError`. -/
theorem C16_zonedNested_too_short {X Y Bmin BX BY : K} (hY : 0 < Y) (hXY : Y ≤ X)
    (hBmin : 0 < Bmin) (hBX : 0 < BX) (hBY : 0 < BY) (hX' : X ≤ BX ∨ Y ≤ BY)
    (h1 : ⌈X / BX + 1⌉ ≤ ⌊X / Bmin + 1⌋) (h2 : ⌈Y / BY + 1⌉ ≤ ⌊Y / Bmin + 1⌋) (fuel : ℕ) :
    biRectangleZonedNested fuel X Y Bmin BX BY = .error .valueError := by
  have hX : 0 < X := hY.trans_le hXY
  have hN1 : 2 ≤ ⌈X / BX + 1⌉ := two_le_ceil (div_pos hX hBX)
  have hN2 : 2 ≤ ⌈Y / BY + 1⌉ := two_le_ceil (div_pos hY hBY)
  have hlt : ⌈X / BX + 1⌉ < 3 ∨ ⌈Y / BY + 1⌉ < 3 := by
    rcases hX' with h | h
    · left
      have : ⌈X / BX + 1⌉ ≤ 2 := by
        rw [Int.ceil_le]; push_cast
        have := (div_le_one hBX).mpr h; linarith
      omega
    · right
      have : ⌈Y / BY + 1⌉ ≤ 2 := by
        rw [Int.ceil_le]; push_cast
        have := (div_le_one hBY).mpr h; linarith
      omega
  unfold biRectangleZonedNested
  rw [if_pos hXY]
  dsimp only
  rw [pyDiv_ok hBmin.ne', Except.ok_bind, pyDiv_ok hBX.ne', Except.ok_bind,
    pyDiv_ok hBmin.ne', Except.ok_bind, pyDiv_ok hBY.ne', Except.ok_bind]
  have hl1 : ((pyRange ⌈X / BX + 1⌉ (⌊X / Bmin + 1⌋ + 1)).length : ℤ)
      = ⌊X / Bmin + 1⌋ + 1 - ⌈X / BX + 1⌉ := by rw [length_pyRange]; omega
  have hl2 : ((pyRange ⌈Y / BY + 1⌉ (⌊Y / Bmin + 1⌋ + 1)).length : ℤ)
      = ⌊Y / Bmin + 1⌋ + 1 - ⌈Y / BY + 1⌉ := by rw [length_pyRange]; omega
  rw [pyRange_cons (a := 0) (by rw [hl1, hl2]; omega), List.foldlM_cons]
  have : zonedNestedStep fuel X Y X Y false ⌈X / BX + 1⌉ ⌈Y / BY + 1⌉
      (pyRange ⌈X / BX + 1⌉ (⌊X / Bmin + 1⌋ + 1)) (pyRange ⌈Y / BY + 1⌉ (⌊Y / Bmin + 1⌋ + 1))
      (⟨0, 0, 0, []⟩ : ZonedState K) 0 = .error .valueError := by
    unfold zonedNestedStep
    rw [if_pos rfl, zonedStartup_ok hN1 hN2]
    simp only [Except.ok_bind, Except.pure_eq]
    rw [pyGet_pyRange le_rfl (by omega), Except.ok_bind, pyGet_pyRange le_rfl (by omega),
      Except.ok_bind, C14_zoned_domain_guard (by omega), if_neg (by omega)]
    rfl
  rw [this]
  rfl

/-- a 30 × 20 m land, 5–12 m spacing: hypotheses of C16/C17 hold and the call returns -/
example : (biRectangleZonedNested 20 (30 : ℚ) 20 6 12 12).map (·.map (·.map List.length)) =
    .ok [[1, 2, 3, 4, 5, 6, 7, 8, 9, 10, 11, 12], [13, 14, 15], [15, 16, 17, 20],
      [17, 18, 19, 20, 24]] := by
  decide +kernel
example : (12 : ℚ) < 30 ∧ (12 : ℚ) < 20 ∧ ⌈(30 : ℚ) / 12 + 1⌉ ≤ ⌊(30 : ℚ) / 6 + 1⌋ ∧
    ⌈(20 : ℚ) / 12 + 1⌉ ≤ ⌊(20 : ℚ) / 6 + 1⌋ := by decide +kernel

end nested

/-! ### The theorems applied to concrete land: 20 m by 30 m, 30 m by 20 m -/

example : ∃ d, rectangular (20 : ℚ) 30 5 10 = .ok d ∧ d.length = 8 ∧
    ∀ f ∈ d, ∃ (nx ny : ℤ) (B : ℚ), IsGrid nx ny B B f ∧ 5 ≤ B ∧ B ≤ 10 := by
  have h : ∃ d, rectangular (20 : ℚ) 30 5 10 = .ok d ∧ d.length = 8 := by
    have : (rectangular (20 : ℚ) 30 5 10).map List.length = .ok 8 := by decide +kernel
    cases hd : rectangular (20 : ℚ) 30 5 10 with
    | error e => rw [hd] at this; cases this
    | ok d =>
      rw [hd] at this
      exact ⟨d, rfl, Except.ok.inj this⟩
  obtain ⟨d, hd, hl⟩ := h
  exact ⟨d, hd, hl, C10_rectangular_spacing (by norm_num) (by norm_num) (by norm_num) (by norm_num) hd⟩
example := C12_biRectangular (X := (20 : ℚ)) (Y := 30) (Bmin := 5) (BX := 10) (BY := 12) (by norm_num) (by norm_num)
  (by norm_num) (by norm_num) (by norm_num) true (Or.inr ⟨by norm_num, rfl, rfl, rfl, rfl⟩)
example := C14_zoned_domain_fields (X := (20 : ℚ)) (Y := 30) (by norm_num) (by norm_num) (nx := 4) (ny := 5) (by norm_num)
  (by norm_num) (Or.inr ⟨by norm_num, rfl, rfl, rfl, rfl⟩)
example := C15_first_field_not_transposed (X := (20 : ℚ)) (Y := 30) (by norm_num) (by norm_num) (nx := 4) (ny := 5)
  (by norm_num) (by norm_num)
example := C15_first_field_outside (X := (20 : ℚ)) (Y := 30) (by norm_num) (by norm_num) (by norm_num) (nx := 4) (ny := 5)
  (by norm_num) (by norm_num) (fuel := 9) (by norm_num)
example := C16_zonedNested_walk (X := (30 : ℚ)) (Y := 20) (Bmin := 6) (BX := 12) (BY := 12) (by norm_num) (by norm_num)
  (by norm_num) (by norm_num) (by norm_num) (by norm_num) (by norm_num) (L1 := 30) (L2 := 20) (N1 := 4) (M1 := 6)
  (N2 := 3) (M2 := 4) ⟨Or.inl (by decide +kernel), by decide +kernel, by decide +kernel⟩ (by norm_num) (by norm_num)
  (fuel := 10) (by norm_num)
example := C18_zonedNested_outside (X := (20 : ℚ)) (Y := 30) (Bmin := 6) (BX := 12) (BY := 12) (by norm_num) (by norm_num)
  (by norm_num) (by norm_num) (by norm_num) (by norm_num) (by norm_num) (by decide +kernel) (by decide +kernel) (fuel := 10)
  (by decide +kernel)
example := C16_zonedNested_too_short (X := (30 : ℚ)) (Y := 20) (Bmin := 6) (BX := 12) (BY := 20) (by norm_num)
  (by norm_num) (by norm_num) (by norm_num) (by norm_num) (Or.inr (by norm_num)) (by decide +kernel) (by decide +kernel) 10

end Ghedt.Domains
