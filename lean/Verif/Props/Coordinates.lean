import Verif.Lemmas.Shapes

/-!
# Properties of `coordinates.py` (C01–C06)
-/

set_option linter.unusedSectionVars false

namespace Ghedt.Coordinates
open Spec

variable {K : Type} [Field K] [LinearOrder K] [IsStrictOrderedRing K]

/-! ## C01 — `rectangle` -/

/-- C01, outcome: `rectangle` fails its assertion exactly for a negative count paired with a
non-zero one, and never raises anything else. -/
theorem C01_rectangle_outcome (Nx Ny : ℤ) (Bx By : K) (o : K × K) :
    ((∃ r, rectangle Nx Ny Bx By o = .ok r) ↔ (0 ≤ Nx ∧ 0 ≤ Ny) ∨ Nx = 0 ∨ Ny = 0) ∧
    (∀ e, rectangle Nx Ny Bx By o = .error e → e = .assertionError) := by
  rw [rectangle_def]
  constructor
  · constructor
    · intro ⟨r, h⟩
      split at h
      · rename_i h'
        by_contra hcon
        push Not at hcon
        obtain ⟨h1, h2, h3⟩ := hcon
        rcases lt_or_ge Nx 0 with hx | hx
        · have e : Nx.toNat = 0 := by omega
          rw [e] at h'
          simp at h'
          tauto
        · have e : Ny.toNat = 0 := by have := h1 hx; omega
          rw [e] at h'
          simp at h'
          tauto
      · cases h
    · intro h
      refine ⟨lattice Nx Ny Bx By o, if_pos ?_⟩
      rcases h with ⟨hx, hy⟩ | h | h
      · push_cast [Int.toNat_of_nonneg hx, Int.toNat_of_nonneg hy]; rfl
      · simp [h]
      · simp [h]
  · intro e h
    split at h
    · cases h
    · cases h; rfl

/-- C01, content: for non-negative counts the result exists, has `Nx*Ny` boreholes, contains
exactly the lattice points, is in x-major order and (positive spacings) has no duplicates. -/
theorem C01_rectangle_lattice {Nx Ny : ℤ} (hx : 0 ≤ Nx) (hy : 0 ≤ Ny) (Bx By : K) (o : K × K) :
    ∃ r, rectangle Nx Ny Bx By o = .ok r ∧
      (r.length : ℤ) = Nx * Ny ∧
      (∀ p, p ∈ r ↔ OnLattice Nx Ny Bx By o p) ∧
      (∀ i j : ℤ, 0 ≤ i → i < Nx → 0 ≤ j → j < Ny →
        r[(i * Ny + j).toNat]? = some (o.1 + i * Bx, o.2 + j * By)) ∧
      (0 < Bx → 0 < By → r.Nodup) := by
  refine ⟨_, rectangle_ok hx hy Bx By o, ?_, fun p => mem_lattice, ?_,
    fun h1 h2 => nodup_lattice h1 h2 o⟩
  · rw [length_lattice]
    push_cast [Int.toNat_of_nonneg hx, Int.toNat_of_nonneg hy]; rfl
  · intro i j hi hi' hj hj'
    -- split the lattice at column `i`
    have key : ∀ a : ℤ, 0 ≤ a → ∀ b, a ≤ b → b < Nx →
        ((pyRange a Nx).flatMap fun i : ℤ => (pyRange 0 Ny).map fun j : ℤ =>
          (o.1 + (i : K) * Bx, o.2 + (j : K) * By))[((b - a) * Ny + j).toNat]?
          = some (o.1 + b * Bx, o.2 + j * By) := by
      intro a ha b hab hb
      obtain ⟨n, hn⟩ : ∃ n : ℕ, b - a = n := ⟨(b - a).toNat, by omega⟩
      induction n generalizing a with
      | zero =>
        have hab' : a = b := by omega
        subst hab'
        rw [pyRange_cons hb, List.flatMap_cons, List.getElem?_append_left]
        · rw [List.getElem?_map, getElem?_pyRange]
          · simp [Int.toNat_of_nonneg hj]
          · simp; omega
        · simp; omega
      | succ n ih =>
        rw [pyRange_cons (a := a) (by omega), List.flatMap_cons, List.getElem?_append_right]
        · have h1 := ih (a + 1) (by omega) (by omega) (by omega)
          rw [← h1]
          congr 1
          simp
          have : (b - a) * Ny = (b - (a + 1)) * Ny + Ny := by ring
          rw [this]
          have : 0 ≤ (b - (a + 1)) * Ny := mul_nonneg (by omega) hy
          omega
        · simp
          have : (b - a) * Ny = (b - (a + 1)) * Ny + Ny := by ring
          have : 0 ≤ (b - (a + 1)) * Ny := mul_nonneg (by omega) hy
          omega
    have := key 0 le_rfl i hi hi'
    simpa [lattice] using this

/-- a 2×3 grid -/
example : rectangle 2 3 (5 : ℚ) 7 = .ok [(0,0),(0,7),(0,14),(5,0),(5,7),(5,14)] := by
  decide +kernel
example : rectangle (-1) 3 (5 : ℚ) 7 = .error .assertionError := by decide +kernel

/-! ## C02 — `open_rectangle` -/

/-- C02: for `Nx, Ny > 2` the result exists, consists exactly of the outline of the lattice, has
`2*Nx + 2*Ny - 4` boreholes, without duplicates for positive spacings. -/
theorem C02_openRectangle_outline {Nx Ny : ℤ} (hx : 2 < Nx) (hy : 2 < Ny) (Bx By : K) :
    ∃ r, openRectangle Nx Ny Bx By = .ok r ∧
      (r.length : ℤ) = 2 * Nx + 2 * Ny - 4 ∧
      (∀ p, p ∈ r ↔ OnOutline Nx Ny Bx By p) ∧
      (0 < Bx → 0 < By → r.Nodup) := by
  refine ⟨_, openRectangle_hollow hx hy Bx By, ?_, ?_, ?_⟩
  · rw [List.length_map, length_openInts hx hy]; ring
  · intro p
    simp only [List.mem_map, mem_openInts hx hy, OnOutline]
    constructor
    · rintro ⟨⟨i, j⟩, h, rfl⟩; exact ⟨i, j, h.1, h.2.1, h.2.2, rfl⟩
    · rintro ⟨i, j, h1, h2, h3, rfl⟩; exact ⟨(i, j), ⟨h1, h2, h3⟩, rfl⟩
  · intro h1 h2
    exact (nodup_openInts hx hy).map (toPt_injective h1 h2)

/-- C02, degenerate sizes: otherwise `open_rectangle` behaves exactly as `rectangle`
(in particular it succeeds for non-negative counts). -/
theorem C02_openRectangle_degenerate {Nx Ny : ℤ} (h : Nx ≤ 2 ∨ Ny ≤ 2) (Bx By : K) :
    openRectangle Nx Ny Bx By = rectangle Nx Ny Bx By :=
  openRectangle_full (by omega) Bx By

example : openRectangle 3 3 (1 : ℚ) 1 =
    .ok [(0,0),(1,0),(2,0),(0,1),(2,1),(0,2),(1,2),(2,2)] := by decide +kernel

/-! ## C03 — L, lopsided U and C -/

/-- C03 for `L_shape`. -/
theorem C03_lShape {Nx Ny : ℤ} (hx : 1 ≤ Nx) (hy : 1 ≤ Ny) (Bx By : K) :
    ∃ r, lShape Nx Ny Bx By = .ok r ∧ (r.length : ℤ) = Nx + Ny - 1 ∧
      (∀ p, p ∈ r ↔ OnL Nx Ny Bx By p) ∧ (0 < Bx → 0 < By → r.Nodup) := by
  refine ⟨(lInts Nx Ny).map (toPt Bx By), ?_, ?_, ?_, ?_⟩
  · rw [lShape_def, if_pos (by omega)]
  · rw [List.length_map, length_lInts]; omega
  · intro p
    simp only [List.mem_map, mem_lInts, OnL]
    constructor
    · rintro ⟨⟨i, j⟩, h, rfl⟩; exact ⟨i, j, rfl, by simp at h; omega⟩
    · rintro ⟨i, j, rfl, h⟩
      exact ⟨(i, j), by dsimp only; omega, rfl⟩
  · intro h1 h2; exact nodup_lInts.map (toPt_injective h1 h2)

/-- C03 for `lop_U`. -/
theorem C03_lopU {Nx Ny1 Ny2 : ℤ} (hx : 1 ≤ Nx) (h1 : 1 ≤ Ny1) (h2 : 1 ≤ Ny2) (Bx By : K) :
    ∃ r, lopU Nx Ny1 Bx By Ny2 = .ok r ∧ (r.length : ℤ) = Nx + Ny1 + Ny2 - 2 ∧
      (∀ p, p ∈ r ↔ OnLopU Nx Ny1 Ny2 Bx By p) ∧
      (2 ≤ Nx → 0 < Bx → 0 < By → r.Nodup) := by
  refine ⟨(lopUInts Nx Ny1 Ny2).map (toPt Bx By), ?_, ?_, ?_, ?_⟩
  · rw [lopU_def, if_pos (by omega)]
  · rw [List.length_map, length_lopUInts]; omega
  · intro p
    simp only [List.mem_map, mem_lopUInts, OnLopU]
    constructor
    · rintro ⟨⟨i, j⟩, h, rfl⟩; exact ⟨i, j, rfl, by simp at h; omega⟩
    · rintro ⟨i, j, rfl, h⟩
      exact ⟨(i, j), by dsimp only; omega, rfl⟩
  · intro h3 h1 h2; exact (nodup_lopUInts h3).map (toPt_injective h1 h2)

/-- C03 for `C_shape`. -/
theorem C03_cShape {Nx1 Ny Nx2 : ℤ} (hx : 1 ≤ Nx1) (hy : 1 ≤ Ny) (h2 : 0 ≤ Nx2) (Bx By : K) :
    ∃ r, cShape Nx1 Ny Bx By Nx2 = .ok r ∧ (r.length : ℤ) = Nx1 + 2 * Ny + Nx2 - 2 ∧
      (∀ p, p ∈ r ↔ OnC Nx1 Ny Nx2 Bx By p) ∧
      (2 ≤ Nx1 → 2 ≤ Ny → Nx2 ≤ Nx1 - 2 → 0 < Bx → 0 < By → r.Nodup) := by
  refine ⟨(cInts Nx1 Ny Nx2).map (toPt Bx By), ?_, ?_, ?_, ?_⟩
  · rw [cShape_def, if_pos (by omega)]
  · rw [List.length_map, length_cInts]; omega
  · intro p
    simp only [List.mem_map, mem_cInts, OnC]
    constructor
    · rintro ⟨⟨i, j⟩, h, rfl⟩; exact ⟨i, j, rfl, by simp at h; omega⟩
    · rintro ⟨i, j, rfl, h⟩
      exact ⟨(i, j), by dsimp only; omega, rfl⟩
  · intro h3 h4 h5 h1 h2; exact (nodup_cInts h3 h4 h5).map (toPt_injective h1 h2)

/-- C03, sharpness: as soon as the top row reaches the right column (`Nx2 ≥ Nx1 - 1`) the corner
borehole is duplicated, whatever the spacing. -/
theorem C03_cShape_duplicate {Nx1 Ny Nx2 : ℤ} (hx : 2 ≤ Nx1) (hy : 2 ≤ Ny) (h2 : Nx1 - 1 ≤ Nx2)
    (Bx By : K) {r : List (K × K)} (h : cShape Nx1 Ny Bx By Nx2 = .ok r) : ¬ r.Nodup := by
  rw [cShape_def, if_pos (by omega)] at h
  cases h
  intro hn
  have hn' := List.Nodup.of_map _ hn
  unfold cInts at hn'
  rw [List.nodup_append] at hn'
  refine hn'.2.2 (Nx1 - 1, Ny - 1) ?_ (Nx1 - 1, Ny - 1) ?_ rfl
  · rw [mem_lopUInts]; dsimp only; omega
  · simp; omega

/-- C03, boundary: with no column at all (`Ny = 0`) `C_shape` always fails its assertion. -/
theorem C03_cShape_no_column {Nx1 Nx2 : ℤ} (hx : 0 ≤ Nx1) (h2 : 0 ≤ Nx2) (Bx By : K) :
    cShape Nx1 0 Bx By Nx2 = .error .assertionError := by
  rw [cShape_def, if_neg (by simp; omega)]

example : cShape 3 3 (1 : ℚ) 1 1 = .ok [(0,0),(1,0),(2,0),(0,1),(0,2),(2,1),(2,2),(1,2)] := by
  decide +kernel
example : lopU 3 3 (1 : ℚ) 1 2 = .ok [(0,0),(1,0),(2,0),(0,1),(0,2),(2,1)] := by decide +kernel
example : lShape 3 3 (1 : ℚ) 1 = .ok [(0,0),(1,0),(2,0),(0,1),(0,2)] := by decide +kernel

/-! ## C04 — `U_shape` -/

/-- C04 (violation): every genuine U is rejected by the function's own assertion. -/
theorem C04_uShape_always_fails {Nx Ny : ℤ} (hx : 2 < Nx) (hy : 1 < Ny) (Bx By : K) :
    uShape Nx Ny Bx By = .error .assertionError := by
  have hl := length_lInts Nx Ny
  rw [← List.length_map (toPt Bx By), map_lInts] at hl
  unfold uShape
  rw [if_pos ⟨hx, hy⟩]
  dsimp only
  rw [pyAssert_false]
  · rfl
  · rw [hl]; omega

/-- C04: whenever `U_shape` does return, the size is degenerate and the result is the full
rectangle. -/
theorem C04_uShape_returns_only_rectangles {Nx Ny : ℤ} {Bx By : K} {r : List (K × K)}
    (h : uShape Nx Ny Bx By = .ok r) :
    (Nx ≤ 2 ∨ Ny ≤ 1) ∧ rectangle Nx Ny Bx By = .ok r := by
  by_cases hc : Nx > 2 ∧ Ny > 1
  · rw [C04_uShape_always_fails hc.1 hc.2] at h; cases h
  · refine ⟨by omega, ?_⟩
    unfold uShape at h
    rw [if_neg hc] at h
    simp only [bind_eq_ok] at h
    obtain ⟨u, h1, _, _, h2⟩ := h
    cases h2; exact h1

example : uShape 2 2 (1 : ℚ) 1 = .ok [(0,0),(0,1),(1,0),(1,1)] := by decide +kernel

/-! ## C05 — `zoned_rectangle` -/

/-- C05, guard: too many interior boreholes is a `ValueError`, and for interior counts `≥ 0` and
non-negative outer counts there is no other way to fail. -/
theorem C05_zonedRectangle_guard {Nx Ny Nix Niy : ℤ} (hx : 0 ≤ Nx) (hy : 0 ≤ Ny) (hix : 0 ≤ Nix)
    (hiy : 0 ≤ Niy) (Bx By : K) :
    (Nix > Nx - 2 ∨ Niy > Ny - 2 → zonedRectangle Nx Ny Bx By Nix Niy = .error .valueError) ∧
    (Nix ≤ Nx - 2 → Niy ≤ Ny - 2 → ∃ r, zonedRectangle Nx Ny Bx By Nix Niy = .ok r) := by
  constructor
  · intro h
    unfold zonedRectangle
    by_cases h1 : Nix > Nx - 2
    · rw [if_pos h1]; rfl
    · rw [if_neg h1, if_pos (by omega)]; rfl
  · intro h1 h2
    have e1 : ((Nix + 1 : ℤ) : K) ≠ 0 := by exact_mod_cast (by omega : Nix + 1 ≠ 0)
    have e2 : ((Niy + 1 : ℤ) : K) ≠ 0 := by exact_mod_cast (by omega : Niy + 1 ≠ 0)
    have ho : ∃ r, openRectangle Nx Ny Bx By = .ok r := by
      by_cases hc : 2 < Nx ∧ 2 < Ny
      · exact ⟨_, openRectangle_hollow hc.1 hc.2 Bx By⟩
      · exact ⟨_, by rw [openRectangle_full hc]; exact rectangle_ok hx hy _ _ _⟩
    obtain ⟨r, hr⟩ := ho
    unfold zonedRectangle
    rw [if_neg (by omega), if_neg (by omega), hr, pyDiv_ok e1, pyDiv_ok e2]
    refine ⟨r ++ lattice Nix Niy (((Nx - 1 : ℤ) : K) * Bx / ((Nix + 1 : ℤ) : K))
      (((Ny - 1 : ℤ) : K) * By / ((Niy + 1 : ℤ) : K))
      (((Nx - 1 : ℤ) : K) * Bx / ((Nix + 1 : ℤ) : K), ((Ny - 1 : ℤ) : K) * By / ((Niy + 1 : ℤ) : K)),
      ?_⟩
    simp only [Except.ok_bind, Except.pure_eq]
    rw [rectangle_ok hix hiy]
    rfl

/-- C05, content: for at least one interior row and column the field is the outline followed by an
interior that is strictly inside, so it lies in the land, has `2*Nx+2*Ny-4 + Nix*Niy` boreholes and
no duplicates. -/
theorem C05_zonedRectangle_content {Nx Ny Nix Niy : ℤ} (hix : 1 ≤ Nix) (hiy : 1 ≤ Niy)
    (h1 : Nix ≤ Nx - 2) (h2 : Niy ≤ Ny - 2) {Bx By : K} (hBx : 0 < Bx) (hBy : 0 < By) :
    ∃ outer inner, zonedRectangle Nx Ny Bx By Nix Niy = .ok (outer ++ inner) ∧
      openRectangle Nx Ny Bx By = .ok outer ∧
      (outer.length : ℤ) = 2 * Nx + 2 * Ny - 4 ∧ (inner.length : ℤ) = Nix * Niy ∧
      (∀ p ∈ outer, InLand ((Nx - 1) * Bx) ((Ny - 1) * By) p) ∧
      (∀ p ∈ inner, StrictlyInside ((Nx - 1) * Bx) ((Ny - 1) * By) p) ∧
      (outer ++ inner).Nodup := by
  have hx : 2 < Nx := by omega
  have hy : 2 < Ny := by omega
  have p1 : (0 : K) < ((Nix + 1 : ℤ) : K) := by exact_mod_cast (by omega : 0 < Nix + 1)
  have p2 : (0 : K) < ((Niy + 1 : ℤ) : K) := by exact_mod_cast (by omega : 0 < Niy + 1)
  have q1 : (0 : K) < ((Nx - 1 : ℤ) : K) := by exact_mod_cast (by omega : 0 < Nx - 1)
  have q2 : (0 : K) < ((Ny - 1 : ℤ) : K) := by exact_mod_cast (by omega : 0 < Ny - 1)
  obtain ⟨outer, ho, hlen, hmem, hnd⟩ := C02_openRectangle_outline hx hy Bx By
  set Bix : K := ((Nx - 1 : ℤ) : K) * Bx / ((Nix + 1 : ℤ) : K) with hBix
  set Biy : K := ((Ny - 1 : ℤ) : K) * By / ((Niy + 1 : ℤ) : K) with hBiy
  have hBixpos : 0 < Bix := div_pos (mul_pos q1 hBx) p1
  have hBiypos : 0 < Biy := div_pos (mul_pos q2 hBy) p2
  have eX : ((Nix + 1 : ℤ) : K) * Bix = ((Nx - 1 : ℤ) : K) * Bx := by
    rw [hBix]; field_simp
  have eY : ((Niy + 1 : ℤ) : K) * Biy = ((Ny - 1 : ℤ) : K) * By := by
    rw [hBiy]; field_simp
  have hin : ∀ p ∈ lattice Nix Niy Bix Biy (Bix, Biy),
      StrictlyInside ((Nx - 1) * Bx) ((Ny - 1) * By) p := by
    intro p hp
    rw [mem_lattice] at hp
    obtain ⟨i, j, ⟨hi0, hi1⟩, ⟨hj0, hj1⟩, rfl⟩ := hp
    have hi0' : (0 : K) ≤ i := by exact_mod_cast hi0
    have hj0' : (0 : K) ≤ j := by exact_mod_cast hj0
    have hi1' : (i : K) + 1 ≤ Nix := by exact_mod_cast hi1
    have hj1' : (j : K) + 1 ≤ Niy := by exact_mod_cast hj1
    push_cast at eX eY
    refine ⟨⟨?_, ?_⟩, ?_, ?_⟩
    · simp only; nlinarith
    · simp only; rw [← eX]; nlinarith
    · simp only; nlinarith
    · simp only; rw [← eY]; nlinarith
  refine ⟨outer, lattice Nix Niy Bix Biy (Bix, Biy), ?_, ho, hlen, ?_, ?_, hin, ?_⟩
  · unfold zonedRectangle
    rw [if_neg (by omega), if_neg (by omega), ho, pyDiv_ok p1.ne', pyDiv_ok p2.ne']
    simp only [Except.ok_bind, Except.pure_eq]
    rw [rectangle_ok (by omega) (by omega)]
    rfl
  · rw [length_lattice]
    push_cast [Int.toNat_of_nonneg (by omega : 0 ≤ Nix), Int.toNat_of_nonneg (by omega : 0 ≤ Niy)]
    rfl
  · intro p hp
    rw [hmem] at hp
    obtain ⟨i, j, ⟨hi0, hi1⟩, ⟨hj0, hj1⟩, _, rfl⟩ := hp
    have hi0' : (0 : K) ≤ i := by exact_mod_cast hi0
    have hj0' : (0 : K) ≤ j := by exact_mod_cast hj0
    have hi1' : (i : K) + 1 ≤ Nx := by exact_mod_cast hi1
    have hj1' : (j : K) + 1 ≤ Ny := by exact_mod_cast hj1
    refine ⟨⟨mul_nonneg hi0' hBx.le, ?_⟩, mul_nonneg hj0' hBy.le, ?_⟩
    · exact mul_le_mul_of_nonneg_right (by linarith) hBx.le
    · exact mul_le_mul_of_nonneg_right (by linarith) hBy.le
  · rw [List.nodup_append]
    refine ⟨hnd hBx hBy, nodup_lattice hBixpos hBiypos _, ?_⟩
    rintro a ha b hb rfl
    obtain ⟨⟨s1, s2⟩, s3, s4⟩ := hin a hb
    rw [hmem] at ha
    obtain ⟨i, j, _, _, hij, rfl⟩ := ha
    simp only at s1 s2 s3 s4
    rcases hij with h | h | h | h
    · subst h; simp at s1
    · subst h; push_cast at s2; exact lt_irrefl _ s2
    · subst h; simp at s3
    · subst h; push_cast at s4; exact lt_irrefl _ s4

example : zonedRectangle 4 3 (1 : ℚ) 1 1 1 = .ok
    [(0,0),(1,0),(2,0),(3,0),(0,1),(3,1),(0,2),(1,2),(2,2),(3,2),(3/2,1)] := by decide +kernel
/-- outside the guard of the previous theorem: a count of -1 divides by zero -/
example : zonedRectangle 4 3 (1 : ℚ) 1 (-1) 1 = .error .zeroDivisionError := by decide +kernel

/-! ## C06 — `transpose_coordinates` -/

omit [Field K] [LinearOrder K] [IsStrictOrderedRing K] in
/-- C06: axes are swapped element by element (count and order kept), and twice is the identity. -/
theorem C06_transpose (l : List (K × K)) :
    (transposeCoordinates l).length = l.length ∧
    (∀ n : ℕ, (transposeCoordinates l)[n]? = l[n]?.map Prod.swap) ∧
    transposeCoordinates (transposeCoordinates l) = l := by
  refine ⟨by simp [transposeCoordinates], ?_, by simp [transposeCoordinates, Function.comp_def]⟩
  intro n
  simp [transposeCoordinates]
  rfl

example : transposeCoordinates [((1:ℚ),2),(3,4)] = [(2,1),(4,3)] := by decide +kernel

/-! ### The theorems applied to concrete fields -/

example := C01_rectangle_lattice (Nx := 4) (Ny := 5) (by norm_num) (by norm_num) (6 : ℚ) 7 (1, 2)
example := C02_openRectangle_outline (Nx := 4) (Ny := 5) (by norm_num) (by norm_num) (6 : ℚ) 7
example := C02_openRectangle_degenerate (Nx := 2) (Ny := 5) (Or.inl (by norm_num)) (6 : ℚ) 7
example := C03_lShape (Nx := 4) (Ny := 5) (by norm_num) (by norm_num) (6 : ℚ) 7
example := C03_lopU (Nx := 4) (Ny1 := 5) (Ny2 := 3) (by norm_num) (by norm_num) (by norm_num) (6 : ℚ) 7
example := C03_cShape (Nx1 := 4) (Ny := 5) (Nx2 := 2) (by norm_num) (by norm_num) (by norm_num) (6 : ℚ) 7
example : ∃ r, cShape 3 3 (1 : ℚ) 1 2 = .ok r ∧ ¬ r.Nodup := by
  obtain ⟨r, hr, -⟩ := C03_cShape (Nx1 := 3) (Ny := 3) (Nx2 := 2) (by norm_num) (by norm_num) (by norm_num) (1 : ℚ) 1
  exact ⟨r, hr, C03_cShape_duplicate (by norm_num) (by norm_num) (by norm_num) _ _ hr⟩
example := C03_cShape_no_column (Nx1 := 3) (Nx2 := 1) (by norm_num) (by norm_num) (6 : ℚ) 7
example := C04_uShape_always_fails (Nx := 3) (Ny := 4) (by norm_num) (by norm_num) (6 : ℚ) 7
example := C04_uShape_returns_only_rectangles (Nx := 2) (Ny := 2) (Bx := (1 : ℚ)) (By := 1)
  (r := [(0, 0), (0, 1), (1, 0), (1, 1)]) (by decide +kernel)
example := C05_zonedRectangle_guard (Nx := 5) (Ny := 4) (Nix := 2) (Niy := 1) (by norm_num) (by norm_num)
  (by norm_num) (by norm_num) (6 : ℚ) 7

end Ghedt.Coordinates
