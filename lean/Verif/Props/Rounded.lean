import Verif.Lemmas.RoundedBounds
import Verif.Lemmas.Rounding

/-!
# C117 — the candidate generators in floating-point arithmetic

The other files prove the promises of the candidate generators in exact arithmetic.  Here every operation is rounded:
`R` is any rounding that is monotone, exact on whole numbers and accurate to 53 bits, so IEEE double precision in
particular.  The promises survive up to one part in `10^15`.  `Props/RoundedFindings.lean` shows which do not survive
exactly.
-/

set_option linter.unusedSectionVars false

namespace Ghedt.Rounded
open Coordinates Domains Spec

variable {K : Type} [Field K] [LinearOrder K] [IsStrictOrderedRing K] [FloorRing K]
  (R : Rounding K)

/-! ## With exact arithmetic these are the definitions the other theorems are about -/

theorem zonedLoop_exact : zonedLoop (Rounding.exact (K := K)) = Domains.zonedLoop := by
  funext n1 n2 b1 b2 t fuel
  induction fuel with
  | zero => rfl
  | succ n ih =>
    funext i j d
    rw [zonedLoop, Domains.zonedLoop, ih]
    rfl

/-- C117, fidelity: without rounding the rounded generators are the exact ones, and so is what the design object computes
from its constraints. -/
theorem C117_exact :
    rectangular (Rounding.exact (K := K)) = Domains.rectangular ∧
    biRectangular (Rounding.exact (K := K)) = Domains.biRectangular ∧
    biRectangleNested (Rounding.exact (K := K)) = Domains.biRectangleNested ∧
    squareAndNearSquare (Rounding.exact (K := K)) = Domains.squareAndNearSquare ∧
    biRectangleZonedNested (Rounding.exact (K := K)) = Domains.biRectangleZonedNested ∧
    designInit (Rounding.exact (K := K)) = Design.designInit := by
  have hz : zonedRectangleDomain (Rounding.exact (K := K)) = Domains.zonedRectangleDomain := by
    unfold zonedRectangleDomain Domains.zonedRectangleDomain
    rw [zonedLoop_exact]
    rfl
  have hs : zonedNestedStep (Rounding.exact (K := K)) = Domains.zonedNestedStep := by
    unfold zonedNestedStep Domains.zonedNestedStep
    rw [hz]
    rfl
  have hn : biRectangleZonedNested (Rounding.exact (K := K)) = Domains.biRectangleZonedNested := by
    unfold biRectangleZonedNested Domains.biRectangleZonedNested
    rw [hs]
    rfl
  refine ⟨rfl, rfl, rfl, rfl, hn, ?_⟩
  unfold designInit Design.designInit
  rw [hn]
  rfl

/-! ## `rectangular` -/

theorem near_rField (t : Bool) {s : ℤ × ℤ × K × K} (h1 : 1 ≤ s.1) (h2 : 1 ≤ s.2.1) (h3 : 0 < s.2.2.1)
    (h4 : 0 < s.2.2.2) :
    OGrid t s.1 s.2.1 s.2.2.1 s.2.2.2 (shapeField t s) ∧ Near (rField R t s) (shapeField t s) :=
  ⟨ogrid_lattice t h1 h2 h3 h4, near_maybeTranspose t (near_rlattice R _ _ _ _)⟩

theorem inLand_maybeTranspose {t : Bool} {L1 L2 : K} {f : List (K × K)} (h : ∀ p ∈ f, InLand L1 L2 p) :
    ∀ p ∈ maybeTranspose t f, if t then InLand L2 L1 p else InLand L1 L2 p := by
  cases t
  · simpa [maybeTranspose] using h
  · intro p hp
    simp only [maybeTranspose, transposeCoordinates, if_true, List.mem_map] at hp ⊢
    obtain ⟨q, hq, rfl⟩ := hp
    exact ⟨(h q hq).2, (h q hq).1⟩

/-- every candidate shape of `rectangular` is fine, up to rounding -/
theorem rCandidates_good {L1 L2 Bmin Bmax : K} (h1 : 0 < L1) (h2 : 0 < L2) (h21 : L2 ≤ L1) (hBmin : 0 < Bmin)
    (hBmax : 0 < Bmax) (hlo : L1 ≤ 10 ^ 15 * Bmin) (hhi : Bmax ≤ 10 ^ 15 * L1) :
    ∀ s ∈ rCandidates R L1 L2 Bmin Bmax, (1 ≤ s.1 ∧ s.1 ≤ 2 ^ 51) ∧ (1 ≤ s.2.1 ∧ s.2.1 ≤ 2 ^ 51) ∧
      s.2.2.1 = s.2.2.2 ∧ 0 < s.2.2.2 ∧ (1 - tiny) * Bmin ≤ s.2.2.2 ∧ s.2.2.2 ≤ (1 + tiny) * Bmax ∧
      ((s.1 : K) - 1) * s.2.2.2 ≤ (1 + 5 * ur) * L1 ∧ ((s.2.1 : K) - 1) * s.2.2.2 ≤ (1 + 5 * ur) * L2 := by
  have u0 := ur_pos (K := K)
  have u1 := ur_le (K := K)
  have u9 := tiny_ge (K := K)
  have hN0 := two_le_rMin R hBmax hhi
  have hmax := rMax_le R h1 hBmin (c := 10 ^ 15) (by norm_num) (by norm_num) hlo
  have main : ∀ N i j : ℤ, rMin R L1 Bmax ≤ N → N ≤ rMax R L1 Bmin → 1 ≤ i → i ≤ N → 1 ≤ j → j ≤ rRows R L1 L2 N →
      (1 ≤ i ∧ i ≤ 2 ^ 51) ∧ (1 ≤ j ∧ j ≤ 2 ^ 51) ∧ rB R L1 N = rB R L1 N ∧ 0 < rB R L1 N ∧
      (1 - tiny) * Bmin ≤ rB R L1 N ∧ rB R L1 N ≤ (1 + tiny) * Bmax ∧
      ((i : K) - 1) * rB R L1 N ≤ (1 + 5 * ur) * L1 ∧ ((j : K) - 1) * rB R L1 N ≤ (1 + 5 * ur) * L2 := by
    intro N i j hN hN' hi hi' hj hj'
    have hN2 : 2 ≤ N := hN0.trans hN
    have hB := rB_pos R h1 hN2
    have hle := rB_le R h1 hBmax hN2 hN
    have hge := le_rB R h1 hBmin hN2 hN'
    have hrow : rRows R L1 L2 N ≤ 2 ^ 51 := by
      refine (rMax_le R h2 hB (c := 2 * 10 ^ 15) (by norm_num) le_rfl ?_).2
      have : Bmin / 2 ≤ rB R L1 N := by nlinarith
      nlinarith
    refine ⟨⟨hi, by omega⟩, ⟨hj, by omega⟩, rfl, hB, le_trans ?_ hge, hle.trans ?_, rB_fits R h1 hN2 hi',
      rRows_fits R h2 hB hj'⟩
    · exact mul_le_mul_of_nonneg_right (by linarith) hBmin.le
    · exact mul_le_mul_of_nonneg_right (by linarith) hBmax.le
  intro s hs
  unfold rCandidates at hs
  split at hs
  · rename_i hle
    have r0 := one_le_rRows R h1 h2 hN0
    unfold rectShapes at hs
    simp only [List.mem_append, List.mem_map, List.mem_filter, fromTo_eq, mem_pyRange] at hs
    rcases hs with (⟨i, hi, rfl⟩ | ⟨j, hj, rfl⟩) | ⟨N, ⟨hN, _⟩, rfl⟩
    · exact main _ _ _ le_rfl hle (by omega) (by omega) le_rfl r0
    · exact main _ _ j le_rfl hle (by omega) le_rfl (by omega) (by omega)
    · exact main _ _ _ (by omega) (by omega) (by omega) le_rfl (one_le_rRows R h1 h2 (by omega)) le_rfl
  · simp at hs

theorem rMin_le_ceil {L B : K} (hL : 0 < L) (hB : 0 < B) {n : ℤ} (hn : n ≤ 2 ^ 53) (h : L / B + 1 ≤ n) :
    rMin R L B ≤ n := by
  unfold rMin
  rw [Int.ceil_le]
  have h1 : (1 : K) < n := by have := div_pos hL hB; linarith
  exact countOf_le_int R (by have : (1 : ℤ) < n := by exact_mod_cast h1
                             omega) hn h

theorem floor_le_rMax {L B : K} {n : ℤ} (h1 : 1 ≤ n) (hn : n ≤ 2 ^ 53) (h : (n : K) ≤ L / B + 1) :
    n ≤ rMax R L B := by
  unfold rMax
  rw [Int.le_floor]
  exact int_le_countOf R h1 hn h

/-- C117, `rectangular`: with rounded arithmetic, for positive inputs whose ratios are at most `10^15`, the generator
returns; borehole counts strictly increase, starting with a single borehole at the origin; whenever some whole number of
boreholes fits the spacing range there are candidates; no field has two boreholes in the same place; every field is a
square grid, the boreholes at most one part in `10^15` off, inside the land up to one part in `10^15`, and its spacing
lies between the bounds up to one part in `10^15`. -/
theorem C117_rectangular {X Y Bmin Bmax : K} (hX : 0 < X) (hY : 0 < Y) (hBmin : 0 < Bmin) (hBmax : 0 < Bmax)
    (hlo : max X Y ≤ 10 ^ 15 * Bmin) (hhi : Bmax ≤ 10 ^ 15 * max X Y) :
    ∃ d, rectangular R X Y Bmin Bmax = .ok d ∧ SizesStrictlyIncrease d ∧
      (d ≠ [] → d.head? = some [(0, 0)]) ∧
      ((∃ n : ℤ, max X Y / Bmax + 1 ≤ n ∧ n ≤ max X Y / Bmin + 1) → d ≠ []) ∧
      DomainInLand ((1 + tiny) * X) ((1 + tiny) * Y) d ∧
      ∀ f ∈ d, f.Nodup ∧ ∃ (nx ny : ℤ) (B : K) (g : List (K × K)), IsGrid nx ny B B g ∧ Near f g ∧
        (1 - tiny) * Bmin ≤ B ∧ B ≤ (1 + tiny) * Bmax := by
  set L1 := max X Y with hL1
  set L2 := min X Y with hL2
  have h1 : 0 < L1 := lt_of_lt_of_le hX (le_max_left _ _)
  have h2 : 0 < L2 := lt_min hX hY
  have h21 : L2 ≤ L1 := min_le_max
  have hN0 := two_le_rMin R hBmax hhi
  have good := rCandidates_good R h1 h2 h21 hBmin hBmax hlo hhi
  have hsh := rectangular_shapes R hX hY hBmin hBmax hN0
  rw [← hL1, ← hL2] at hsh
  refine ⟨_, hsh, ?_, ?_, ?_, ?_, ?_⟩
  · unfold rCandidates
    split
    · rename_i hle
      exact rectShapes_sizes R _ hN0 (fun N hN _ => one_le_rRows R h1 h2 (by omega))
        (fun M N hM hMN _ => rRows_mono R h1 h2 (by omega) hMN) hle _
    · exact List.Pairwise.nil
  · intro hne
    unfold rCandidates at hne ⊢
    split
    · unfold rectShapes
      rw [fromTo_eq, pyRange_cons (by omega)]
      simp [rField, rlattice_one, maybeTranspose_origin]
    · rename_i h
      rw [if_neg h] at hne
      exact absurd rfl hne
  · rintro ⟨n, hn1, hn2⟩
    have hn51 : n ≤ 2 ^ 51 := by
      have : L1 / Bmin ≤ 10 ^ 15 := by rwa [div_le_iff₀ hBmin]
      have : (n : K) ≤ ((2 ^ 51 : ℤ) : K) := by
        refine hn2.trans ?_
        push_cast
        have : (10 : K) ^ 15 + 1 ≤ 2 ^ 51 := by norm_num
        linarith
      exact_mod_cast this
    have a := rMin_le_ceil R h1 hBmax (by omega) hn1
    have b := floor_le_rMax R (by omega : 1 ≤ n) (by omega) hn2
    unfold rCandidates
    rw [if_pos (a.trans b)]
    unfold rectShapes
    rw [fromTo_eq, pyRange_cons (by omega)]
    simp
  · intro f hf p hp
    rw [List.mem_map] at hf
    obtain ⟨s, hs, rfl⟩ := hf
    obtain ⟨-, -, e, hB, -, -, f1, f2⟩ := good s hs
    have hin := rlattice_inLand R (Nx := s.1) (Ny := s.2.1) (Bx := s.2.2.1) (By := s.2.2.2) (by rw [e]; exact hB.le)
      hB.le (by rw [e]; exact f1) f2 h1.le h2.le
    have := inLand_maybeTranspose (t := decide (X < Y)) hin p hp
    by_cases hc : X < Y
    · rw [decide_eq_true hc, if_pos rfl, hL1, hL2, max_eq_right hc.le, min_eq_left hc.le] at this
      exact this
    · have hc' := not_lt.mp hc
      rw [decide_eq_false hc, if_neg (by simp), hL1, hL2, max_eq_left hc', min_eq_right hc'] at this
      exact this
  · intro f hf
    rw [List.mem_map] at hf
    obtain ⟨s, hs, rfl⟩ := hf
    obtain ⟨a1, a2, e, hB, b1, b2, -, -⟩ := good s hs
    refine ⟨nodup_maybeTranspose _ (nodup_rlattice R a1.2 a2.2 (by rw [e]; exact hB) hB), ?_⟩
    obtain ⟨hG, hnear⟩ := near_rField R (decide (X < Y)) a1.1 a2.1 (by rw [e]; exact hB) hB
    rw [e] at hG
    unfold OGrid at hG
    split at hG
    · exact ⟨_, _, _, _, hG, hnear, b1, b2⟩
    · exact ⟨_, _, _, _, hG, hnear, b1, b2⟩

end Ghedt.Rounded
