import Verif.Lemmas.RoundedNested
import Verif.Props.Rounded

/-!
# C117 — `bi_rectangle_nested` and `square_and_near_square` in floating-point arithmetic
-/

set_option linter.unusedSectionVars false

namespace Ghedt.Rounded
open Coordinates Domains Spec

variable {K : Type} [Field K] [LinearOrder K] [IsStrictOrderedRing K] [FloorRing K]
  (R : Rounding K)

/-- the gap computed for `n` boreholes, up to rounding -/
theorem rB_near {L : K} (hL : 0 < L) {n : ℤ} (h2 : 2 ≤ n) :
    (1 - tiny) * L ≤ ((n : K) - 1) * rB R L n ∧ ((n : K) - 1) * rB R L n ≤ (1 + tiny) * L := by
  have u0 := ur_pos (K := K)
  have u9 := tiny_ge (K := K)
  have hp := cast_pred_pos (K := K) h2
  have ex : 0 < L / ((n - 1 : ℤ) : K) := div_pos hL hp
  have b1 : rB R L n ≤ (1 + ur) * (L / ((n - 1 : ℤ) : K)) := fl_le R ex.le
  have b2 : (1 - ur) * (L / ((n - 1 : ℤ) : K)) ≤ rB R L n := le_fl R ex.le
  have eq : ((n - 1 : ℤ) : K) * (L / ((n - 1 : ℤ) : K)) = L := by field_simp
  have c1 := mul_le_mul_of_nonneg_left b1 hp.le
  have c2 := mul_le_mul_of_nonneg_left b2 hp.le
  have e1 : ((n - 1 : ℤ) : K) * ((1 + ur) * (L / ((n - 1 : ℤ) : K))) = (1 + ur) * L := by
    rw [mul_left_comm, eq]
  have e2 : ((n - 1 : ℤ) : K) * ((1 - ur) * (L / ((n - 1 : ℤ) : K))) = (1 - ur) * L := by
    rw [mul_left_comm, eq]
  rw [e1] at c1
  rw [e2] at c2
  push_cast at c1 c2
  constructor <;> nlinarith

theorem nested_ordered {Ll Ls Bmin Bl Bs : K} (hl : 0 < Ll) (hs : 0 < Ls) (hsl : Ls ≤ Ll) (hBmin : 0 < Bmin)
    (hBl : 0 < Bl) (hBs : 0 < Bs) (hlo : Ll ≤ 10 ^ 15 * Bmin) (hhl : Bl ≤ 10 ^ 15 * Ll) (hhs : Bs ≤ 10 ^ 15 * Ls)
    (t : Bool) :
    (pyRange (rMin R Ls Bs) (rMax R Ls Bmin + 1)).mapM (fun n2 : ℤ => do
      let b2 ← div R Ls ((n2 - 1 : ℤ) : K)
      biRectangular R Ll Ls Bmin Bl b2 t) =
    .ok ((pyRange (rMin R Ls Bs) (rMax R Ls Bmin + 1)).map fun n2 : ℤ =>
      (biCandidates R Ll Ls Bmin Bl (rB R Ls n2)).map (rField R t)) := by
  apply mapM_ok
  intro n hn
  rw [mem_pyRange] at hn
  have h2 : 2 ≤ n := (two_le_rMin R hBs hhs).trans hn.1
  have hp := cast_pred_pos (K := K) h2
  rw [div_ok R hp.ne', Except.ok_bind]
  have hmax := (rMax_le R hs hBmin (c := 10 ^ 15) (by norm_num) (by norm_num) (hsl.trans hlo)).1
  have hnb : (n : K) ≤ 2 + 10 ^ 15 := le_trans (by exact_mod_cast (by omega : n ≤ rMax R Ls Bmin)) hmax
  have hr := rMin_rB R hs h2 hnb
  exact biRectangular_shapes R hsl hBmin hBl (rB_pos R hs h2) (two_le_rMin R hBl hhl) (by omega) t

/-- C117, `bi_rectangle_nested`: with rounded arithmetic, for positive inputs whose ratios are at most `10^15`, the generator
returns.  With `Ll ≥ Ls` the sides of the land and `Bl`, `Bs` their maximum spacings there is one domain for each row count
from `n0` to `n1`; every row count that is admissible in exact arithmetic is among them, and all are admissible up to one
part in `10^15`.  The domain for the row count `n` ends in a field of `r` rows with `r = n` or, by a rounding error,
`r = n + 1`.  In each domain borehole counts strictly increase, starting with one borehole at the origin; no two boreholes
of a field coincide; every field is a grid, the boreholes at most one part in `10^15` off, in the land up to one part in
`10^15`; the spacing along the longer side lies between the bounds, and that along the shorter side is `Ls / (r - 1)`, up
to one part in `10^15`. -/
theorem C117_nested {X Y Bmin BX BY : K} (hX : 0 < X) (hY : 0 < Y) (hBmin : 0 < Bmin) (hBX : 0 < BX) (hBY : 0 < BY)
    (hlo : max X Y ≤ 10 ^ 15 * Bmin) (hhx : BX ≤ 10 ^ 15 * X) (hhy : BY ≤ 10 ^ 15 * Y) {Ll Ls Bl Bs : K}
    (hL : (Y ≤ X ∧ Ll = X ∧ Ls = Y ∧ Bl = BX ∧ Bs = BY) ∨
          (X < Y ∧ Ll = Y ∧ Ls = X ∧ Bl = BY ∧ Bs = BX)) :
    ∃ (nested : List (List (List (K × K)))) (n0 n1 : ℤ), biRectangleNested R X Y Bmin BX BY = .ok nested ∧
      (nested.length : ℤ) = max 0 (n1 - n0 + 1) ∧
      (∀ n : ℤ, Ls / Bs + 1 ≤ n → n ≤ Ls / Bmin + 1 → n0 ≤ n ∧ n ≤ n1) ∧
      (∀ n : ℤ, n0 ≤ n → n ≤ n1 → 2 ≤ n ∧ (1 - tiny) * Bmin ≤ Ls / ((n : K) - 1) ∧
        Ls / ((n : K) - 1) ≤ (1 + tiny) * Bs) ∧
      ∀ (k : ℕ) (d : List (List (K × K))), nested[k]? = some d →
        ∃ r : ℤ, (r = n0 + k ∨ r = n0 + k + 1) ∧
          SizesStrictlyIncrease d ∧ (d ≠ [] → d.head? = some [(0, 0)]) ∧
          ((∃ n : ℤ, Ll / Bl + 1 ≤ n ∧ n ≤ Ll / Bmin + 1) → d ≠ []) ∧
          (d ≠ [] → ∃ f m b1 b2 g, d.getLast? = some f ∧ GridAlong (decide (X < Y)) m r b1 b2 g ∧ Near f g) ∧
          DomainInLand ((1 + tiny) * X) ((1 + tiny) * Y) d ∧
          ∀ f ∈ d, f.Nodup ∧ ∃ (n1 n2 : ℤ) (b1 b2 : K) (g : List (K × K)),
            GridAlong (decide (X < Y)) n1 n2 b1 b2 g ∧ Near f g ∧ n2 ≤ r ∧
            (1 - tiny) * Bmin ≤ b1 ∧ b1 ≤ (1 + tiny) * Bl ∧
            (1 - tiny) * Ls ≤ ((r : K) - 1) * b2 ∧ ((r : K) - 1) * b2 ≤ (1 + tiny) * Ls := by
  have key : ∀ (t : Bool) (Ll Ls Bl Bs : K), 0 < Ll → 0 < Ls → Ls ≤ Ll → 0 < Bl → 0 < Bs → Ll ≤ 10 ^ 15 * Bmin →
      Bl ≤ 10 ^ 15 * Ll → Bs ≤ 10 ^ 15 * Ls →
      ∃ (nested : List (List (List (K × K)))) (n0 n1 : ℤ),
      (pyRange (rMin R Ls Bs) (rMax R Ls Bmin + 1)).mapM (fun n2 : ℤ => do
        let b2 ← div R Ls ((n2 - 1 : ℤ) : K)
        biRectangular R Ll Ls Bmin Bl b2 t) = .ok nested ∧
      (nested.length : ℤ) = max 0 (n1 - n0 + 1) ∧
      (∀ n : ℤ, Ls / Bs + 1 ≤ n → n ≤ Ls / Bmin + 1 → n0 ≤ n ∧ n ≤ n1) ∧
      (∀ n : ℤ, n0 ≤ n → n ≤ n1 → 2 ≤ n ∧ (1 - tiny) * Bmin ≤ Ls / ((n : K) - 1) ∧
        Ls / ((n : K) - 1) ≤ (1 + tiny) * Bs) ∧
      ∀ (k : ℕ) (d : List (List (K × K))), nested[k]? = some d →
        ∃ r : ℤ, (r = n0 + k ∨ r = n0 + k + 1) ∧
          SizesStrictlyIncrease d ∧ (d ≠ [] → d.head? = some [(0, 0)]) ∧
          ((∃ n : ℤ, Ll / Bl + 1 ≤ n ∧ n ≤ Ll / Bmin + 1) → d ≠ []) ∧
          (d ≠ [] → ∃ f m b1 b2 g, d.getLast? = some f ∧ GridAlong t m r b1 b2 g ∧ Near f g) ∧
          (∀ f ∈ d, ∀ p ∈ f, if t then InLand ((1 + tiny) * Ls) ((1 + tiny) * Ll) p
            else InLand ((1 + tiny) * Ll) ((1 + tiny) * Ls) p) ∧
          ∀ f ∈ d, f.Nodup ∧ ∃ (n1 n2 : ℤ) (b1 b2 : K) (g : List (K × K)),
            GridAlong t n1 n2 b1 b2 g ∧ Near f g ∧ n2 ≤ r ∧
            (1 - tiny) * Bmin ≤ b1 ∧ b1 ≤ (1 + tiny) * Bl ∧
            (1 - tiny) * Ls ≤ ((r : K) - 1) * b2 ∧ ((r : K) - 1) * b2 ≤ (1 + tiny) * Ls := by
    clear hL Ll Ls Bl Bs
    intro t Ll Ls Bl Bs hl hs hsl hBl hBs hlo hhl hhs
    have u0 := ur_pos (K := K)
    have u1 := ur_le (K := K)
    have u9 := tiny_ge (K := K)
    have ht : (tiny : K) < 1 := by rw [tiny_eq]; norm_num
    have hn0 := two_le_rMin R hBs hhs
    have hN0 := two_le_rMin R hBl hhl
    have hmax := rMax_le R hs hBmin (c := 10 ^ 15) (by norm_num) (by norm_num) (hsl.trans hlo)
    have hMax := rMax_le R hl hBmin (c := 10 ^ 15) (by norm_num) (by norm_num) hlo
    have small : ∀ {L : K} {n : ℤ}, L ≤ 10 ^ 15 * Bmin → (n : K) ≤ L / Bmin + 1 → n ≤ 2 ^ 53 := by
      intro L n h hn
      have : L / Bmin ≤ 10 ^ 15 := by rwa [div_le_iff₀ hBmin]
      have : (n : K) ≤ ((2 ^ 53 : ℤ) : K) := by
        refine hn.trans ?_
        push_cast
        have : (10 : K) ^ 15 + 1 ≤ 2 ^ 53 := by norm_num
        linarith
      exact_mod_cast this
    have admissible : ∀ {L B : K} {n : ℤ}, 0 < L → 0 < B → L ≤ 10 ^ 15 * Bmin → L / B + 1 ≤ n → n ≤ L / Bmin + 1 →
        rMin R L B ≤ n ∧ n ≤ rMax R L Bmin := by
      intro L B n hL hB h h1 h2
      have h53 := small h h2
      have : (1 : K) < n := by have := div_pos hL hB; linarith
      have : (1 : ℤ) < n := by exact_mod_cast this
      exact ⟨rMin_le_ceil R hL hB h53 h1, floor_le_rMax R (by omega) h53 h2⟩
    refine ⟨_, rMin R Ls Bs, rMax R Ls Bmin, nested_ordered R hl hs hsl hBmin hBl hBs hlo hhl hhs t, ?_, ?_, ?_, ?_⟩
    · rw [List.length_map, length_pyRange]
      omega
    · intro n h1 h2
      exact admissible hs hBs (hsl.trans hlo) h1 h2
    · intro n h1 h2
      have hn2 : 2 ≤ n := hn0.trans h1
      have hp := cast_pred_pos (K := K) hn2
      have a := count_fits R (div_pos hs hBmin).le (two_cast (K := K) hn2)
        (le_trans (by exact_mod_cast h2) (Int.floor_le _))
      have b := count_enough R (div_pos hs hBs).le (two_cast (K := K) hn2)
        ((Int.le_ceil _).trans (by exact_mod_cast h1))
      push_cast at hp
      have e : (1 + 4 * ur) * (Ls / Bmin) = (1 + 4 * ur) * Ls / Bmin := by ring
      rw [e, le_div_iff₀ hBmin] at a
      rw [div_le_iff₀ hBs] at b
      refine ⟨hn2, ?_, ?_⟩
      · rw [le_div_iff₀ hp]
        have : (1 - tiny) * (((n : K) - 1) * Bmin) ≤ (1 - tiny) * ((1 + 4 * ur) * Ls) :=
          mul_le_mul_of_nonneg_left a (by linarith)
        have : (1 - tiny) * (1 + 4 * ur) ≤ (1 : K) := by nlinarith
        nlinarith
      · rw [div_le_iff₀ hp]
        have := mul_pos hp hBs
        nlinarith
    · intro k d hd
      rw [List.getElem?_map] at hd
      obtain ⟨n, hn, rfl⟩ := Option.map_eq_some_iff.mp hd
      have hnv : n = rMin R Ls Bs + k ∧ n < rMax R Ls Bmin + 1 := by
        have hm := List.mem_of_getElem? hn
        rw [mem_pyRange] at hm
        unfold pyRange at hn
        rw [List.getElem?_map] at hn
        obtain ⟨k', hk', e⟩ := Option.map_eq_some_iff.mp hn
        rw [List.getElem?_range] at hk'
        · cases hk'
          exact ⟨e.symm, hm.2⟩
        · by_contra hcon
          rw [List.getElem?_eq_none (by simpa using hcon)] at hk'
          cases hk'
      have h2 : 2 ≤ n := by omega
      have hnb : (n : K) ≤ 2 + 10 ^ 15 := le_trans (by exact_mod_cast (by omega : n ≤ rMax R Ls Bmin)) hmax.1
      have hr := rMin_rB R hs h2 hnb
      have hr2 : 2 ≤ rMin R Ls (rB R Ls n) := by omega
      have hr51 : rMin R Ls (rB R Ls n) ≤ 2 ^ 51 := by
        have : (n : K) ≤ ((2 ^ 51 - 1 : ℤ) : K) := by
          refine hnb.trans ?_
          norm_num
        have := (Int.cast_le (R := K)).mp this
        omega
      refine ⟨rMin R Ls (rB R Ls n), by omega, ?_⟩
      generalize hrr : rMin R Ls (rB R Ls n) = r at *
      unfold biCandidates
      rw [hrr]
      have hb2 := rB_pos R hs hr2
      have near2 := rB_near R hs hr2
      have good : ∀ s ∈ biShapes (rB R Ll) (rB R Ls r) r (rMin R Ll Bl) (rMax R Ll Bmin), rMin R Ll Bl ≤ rMax R Ll Bmin →
          (1 ≤ s.1 ∧ s.1 ≤ 2 ^ 51) ∧ (1 ≤ s.2.1 ∧ s.2.1 ≤ r) ∧ 0 < s.2.2.1 ∧ s.2.2.2 = rB R Ls r ∧
          (1 - tiny) * Bmin ≤ s.2.2.1 ∧ s.2.2.1 ≤ (1 + tiny) * Bl ∧
          ((s.1 : K) - 1) * s.2.2.1 ≤ (1 + 5 * ur) * Ll ∧ ((s.2.1 : K) - 1) * s.2.2.2 ≤ (1 + 5 * ur) * Ls := by
        intro s hs' hle
        obtain ⟨N, i, j, a1, a2, a3, a4, a5, a6, rfl⟩ := mem_biShapes (by omega) hle (by omega) hs'
        have hN2 : 2 ≤ N := by omega
        have c1 := rB_le R hl hBl hN2 a1
        have c2 := le_rB R hl hBmin hN2 a2
        have hM := hMax.2
        refine ⟨⟨a3, by dsimp only; omega⟩, ⟨a5, a6⟩, rB_pos R hl hN2, rfl, le_trans ?_ c2, c1.trans ?_,
          rB_fits R hl hN2 a4, rB_fits R hs hr2 a6⟩
        · exact mul_le_mul_of_nonneg_right (by linarith) hBmin.le
        · exact mul_le_mul_of_nonneg_right (by linarith) hBl.le
      refine ⟨?_, ?_, ?_, ?_, ?_, ?_⟩
      · split
        · rename_i hle
          exact biShapes_sizes R _ _ (by omega) hle (by omega) t
        · exact List.Pairwise.nil
      · intro hne
        split
        · exact biShapes_head R _ _ hN0 t
        · rename_i h
          rw [if_neg h] at hne
          exact absurd rfl hne
      · rintro ⟨m, hm1, hm2⟩ hnil
        obtain ⟨a, b⟩ := admissible hl hBl hlo hm1 hm2
        rw [if_pos (a.trans b)] at hnil
        have := biShapes_head R (rB R Ll) (rB R Ls r) (n2 := r) (N1 := rMax R Ll Bmin) hN0 t
        rw [hnil] at this
        cases this
      · intro hne
        split
        · rename_i hle
          have h2M : 2 ≤ rMax R Ll Bmin := hN0.trans hle
          exact ⟨_, rMax R Ll Bmin, _, _, _, biShapes_last R _ _ hle t,
            near_rField R t (s := (rMax R Ll Bmin, r, rB R Ll (rMax R Ll Bmin), rB R Ls r)) (by dsimp only; omega)
              (by dsimp only; omega) (rB_pos R hl h2M) hb2⟩
        · rename_i h
          rw [if_neg h] at hne
          exact absurd rfl hne
      · intro f hf p hp
        rw [List.mem_map] at hf
        obtain ⟨s, hs', rfl⟩ := hf
        split at hs'
        · rename_i hle
          obtain ⟨-, -, g1, g2, -, -, f1, f2⟩ := good s hs' hle
          exact inLand_maybeTranspose (t := t) (rlattice_inLand R g1.le (by rw [g2]; exact hb2.le) f1 f2 hl.le hs.le) p hp
        · simp at hs'
      · intro f hf
        rw [List.mem_map] at hf
        obtain ⟨s, hs', rfl⟩ := hf
        split at hs'
        · rename_i hle
          obtain ⟨a1, a2, g1, g2, b1, b2, -, -⟩ := good s hs' hle
          have g2' : 0 < s.2.2.2 := by rw [g2]; exact hb2
          refine ⟨nodup_maybeTranspose _ (nodup_rlattice R a1.2 (by omega) g1 g2'), ?_⟩
          obtain ⟨hG, hnear⟩ := near_rField R t a1.1 a2.1 g1 g2'
          refine ⟨_, _, _, _, _, hG, hnear, a2.2, b1, b2, ?_⟩
          rw [g2]
          exact near2
        · simp at hs'
  unfold biRectangleNested
  rcases hL with ⟨h, rfl, rfl, rfl, rfl⟩ | ⟨h, rfl, rfl, rfl, rfl⟩
  · have := key false _ _ _ _ hX hY h hBX hBY (by rwa [max_eq_left h] at hlo) hhx hhy
    rw [decide_eq_false (not_lt.mpr h)]
    simp only [ge_iff_le, h, if_true]
    rw [div_ok R hBmin.ne', Except.ok_bind, div_ok R hBY.ne', Except.ok_bind]
    exact this
  · have hc := not_le.mpr h
    have := key true _ _ _ _ hY hX h.le hBY hBX (by rwa [max_eq_right h.le] at hlo) hhy hhx
    rw [decide_eq_true h]
    simp only [ge_iff_le, hc, if_false]
    rw [div_ok R hBmin.ne', Except.ok_bind, div_ok R hBX.ne', Except.ok_bind]
    exact this

end Ghedt.Rounded
