import Verif.Lemmas.RoundedBounds

/-! `bi_rectangular` and `bi_rectangle_nested` with rounding. -/

set_option linter.unusedSectionVars false

namespace Ghedt.Rounded
open Coordinates Domains Spec

variable {K : Type} [Field K] [LinearOrder K] [IsStrictOrderedRing K] [FloorRing K]
  (R : Rounding K)

/-- the shapes of `bi_rectangular` -/
def biShapes (b1 : ℤ → K) (b2 : K) (n2 N0 N1 : ℤ) : List (ℤ × ℤ × K × K) :=
  (fromTo 1 (N0 - 1)).map (fun i => (i, 1, b1 N0, b2))
    ++ (fromTo 1 (n2 - 1)).map (fun j => (N0, j, b1 N0, b2))
    ++ (fromTo N0 N1).map fun N => (N, n2, b1 N, b2)

theorem mem_biShapes {b1 : ℤ → K} {b2 : K} {n2 N0 N1 : ℤ} {s : ℤ × ℤ × K × K} (hN0 : 1 ≤ N0) (hle : N0 ≤ N1)
    (hn2 : 1 ≤ n2) (hs : s ∈ biShapes b1 b2 n2 N0 N1) :
    ∃ N i j : ℤ, N0 ≤ N ∧ N ≤ N1 ∧ 1 ≤ i ∧ i ≤ N ∧ 1 ≤ j ∧ j ≤ n2 ∧ s = (i, j, b1 N, b2) := by
  unfold biShapes at hs
  simp only [List.mem_append, List.mem_map, fromTo_eq, mem_pyRange] at hs
  rcases hs with (⟨i, hi, rfl⟩ | ⟨j, hj, rfl⟩) | ⟨N, hN, rfl⟩
  · exact ⟨N0, i, 1, le_rfl, hle, by omega, by omega, le_rfl, hn2, rfl⟩
  · exact ⟨N0, N0, j, le_rfl, hle, by omega, le_rfl, by omega, by omega, rfl⟩
  · exact ⟨N, N, n2, by omega, by omega, by omega, le_rfl, by omega, by omega, rfl⟩

theorem biShapes_sizes (b1 : ℤ → K) (b2 : K) {n2 N0 N1 : ℤ} (hN0 : 1 ≤ N0) (hle : N0 ≤ N1) (hn2 : 1 ≤ n2) (t : Bool) :
    SizesStrictlyIncrease ((biShapes b1 b2 n2 N0 N1).map (rField R t)) := by
  unfold SizesStrictlyIncrease
  rw [List.pairwise_map]
  have key : (biShapes b1 b2 n2 N0 N1).Pairwise fun s s' : ℤ × ℤ × K × K =>
      s.1 * s.2.1 < s'.1 * s'.2.1 := by
    unfold biShapes
    rw [List.pairwise_append, List.pairwise_append, List.pairwise_map, List.pairwise_map, List.pairwise_map]
    simp only [fromTo_eq]
    refine ⟨⟨?_, ?_, ?_⟩, ?_, ?_⟩
    · refine (pyRange_pairwise _ _).imp fun h => ?_
      simpa using h
    · refine (pyRange_pairwise _ _).imp fun h => ?_
      nlinarith
    · intro a ha b hb
      simp only [List.mem_map, mem_pyRange] at ha hb
      obtain ⟨i, hi, rfl⟩ := ha
      obtain ⟨j, hj, rfl⟩ := hb
      dsimp only
      nlinarith
    · refine (pyRange_pairwise _ _).imp fun h => ?_
      nlinarith
    · intro a ha b hb
      simp only [List.mem_append, List.mem_map, mem_pyRange] at ha hb
      obtain ⟨N, hN, rfl⟩ := hb
      rcases ha with ⟨i, hi, rfl⟩ | ⟨j, hj, rfl⟩
      · dsimp only
        nlinarith
      · dsimp only
        nlinarith
  refine List.Pairwise.imp_of_mem ?_ key
  intro a b ha hb hab
  obtain ⟨N, i, j, _, _, _, _, _, _, rfl⟩ := mem_biShapes hN0 hle hn2 ha
  obtain ⟨M, k, l, _, _, _, _, _, _, rfl⟩ := mem_biShapes hN0 hle hn2 hb
  zify
  rw [length_rField R t (by dsimp only; omega) (by dsimp only; omega),
    length_rField R t (by dsimp only; omega) (by dsimp only; omega)]
  exact hab

theorem biShapes_head (b1 : ℤ → K) (b2 : K) {n2 N0 N1 : ℤ} (hN0 : 2 ≤ N0) (t : Bool) :
    ((biShapes b1 b2 n2 N0 N1).map (rField R t)).head? = some [(0, 0)] := by
  unfold biShapes
  rw [fromTo_eq, pyRange_cons (by omega)]
  simp [rField, rlattice_one, maybeTranspose_origin]

theorem biShapes_last (b1 : ℤ → K) (b2 : K) {n2 N0 N1 : ℤ} (hle : N0 ≤ N1) (t : Bool) :
    ((biShapes b1 b2 n2 N0 N1).map (rField R t)).getLast? = some (rField R t (N1, n2, b1 N1, b2)) := by
  unfold biShapes
  rw [fromTo_eq N0 N1, pyRange_succ hle]
  simp

/-- the candidates of `bi_rectangular`, longer side first -/
def biCandidates (L1 L2 Bmin B1 B2 : K) : List (ℤ × ℤ × K × K) :=
  if rMin R L1 B1 ≤ rMax R L1 Bmin then
    biShapes (rB R L1) (rB R L2 (rMin R L2 B2)) (rMin R L2 B2) (rMin R L1 B1) (rMax R L1 Bmin) else []

theorem biRectangular_shapes {L1 L2 Bmin B1 B2 : K} (h21 : L2 ≤ L1)
    (hBmin : 0 < Bmin) (hB1 : 0 < B1) (hB2 : 0 < B2) (hN0 : 2 ≤ rMin R L1 B1) (hn2 : 2 ≤ rMin R L2 B2) (t : Bool) :
    biRectangular R L1 L2 Bmin B1 B2 t = .ok ((biCandidates R L1 L2 Bmin B1 B2).map (rField R t)) := by
  unfold biRectangular
  simp only [ge_iff_le, h21, if_true]
  rw [div_ok R hBmin.ne', Except.ok_bind, div_ok R hB1.ne', Except.ok_bind]
  have e1 : ⌈add R (R.fl (L1 / B1)) 1⌉ = rMin R L1 B1 := rfl
  have e2 : ⌊add R (R.fl (L1 / Bmin)) 1⌋ = rMax R L1 Bmin := rfl
  rw [e1, e2]
  unfold biCandidates
  generalize rMin R L1 B1 = N0 at *
  generalize rMax R L1 Bmin = N1 at *
  have step : ∀ (N : ℤ) (s : ℕ × List (List (K × K))), N0 ≤ N →
      (if N = N0 then s = (0, []) else
        s = (1, (biShapes (rB R L1) (rB R L2 (rMin R L2 B2)) (rMin R L2 B2) N0 (N - 1)).map (rField R t))) →
      biRectangularStep R L1 L2 B2 t s N =
        .ok (1, (biShapes (rB R L1) (rB R L2 (rMin R L2 B2)) (rMin R L2 B2) N0 N).map (rField R t)) := by
    intro N s hN hs
    have hN2 : 2 ≤ N := by omega
    have d1 : div R L2 B2 = .ok (R.fl (L2 / B2)) := div_ok R hB2.ne'
    have d2 : ⌈add R (R.fl (L2 / B2)) 1⌉ = rMin R L2 B2 := rfl
    unfold biRectangularStep
    rw [d1, Except.ok_bind, d2]
    generalize rMin R L2 B2 = n2 at *
    have d3 : div R L2 ((n2 - 1 : ℤ) : K) = .ok (rB R L2 n2) := div_ok R (cast_pred_pos hn2).ne'
    have d4 : div R L1 ((N - 1 : ℤ) : K) = .ok (rB R L1 N) := div_ok R (cast_pred_pos hN2).ne'
    dsimp only
    rw [d3, Except.ok_bind, d4, Except.ok_bind]
    generalize hb2 : rB R L2 n2 = b2 at *
    have m1 : (pyRange 1 N).mapM (fun i : ℤ => do
        let r ← rectangle R i 1 (rB R L1 N) b2
        pure (maybeTranspose t r)) = .ok ((pyRange 1 N).map fun i : ℤ =>
          maybeTranspose t (rlattice R i 1 (rB R L1 N) b2)) := by
      apply mapM_ok
      intro i hi
      rw [mem_pyRange] at hi
      rw [rectangle_ok R (by omega) (by omega)]; rfl
    have m2 : (pyRange 1 n2).mapM (fun j : ℤ => do
        let r ← rectangle R N j (rB R L1 N) b2
        pure (maybeTranspose t r)) = .ok ((pyRange 1 n2).map fun j : ℤ =>
          maybeTranspose t (rlattice R N j (rB R L1 N) b2)) := by
      apply mapM_ok
      intro i hi
      rw [mem_pyRange] at hi
      rw [rectangle_ok R (by omega) (by omega)]; rfl
    have m3 : rectangle R N n2 (rB R L1 N) b2 = .ok (rlattice R N n2 (rB R L1 N) b2) :=
      rectangle_ok R (by omega) (by omega) _ _
    by_cases hc : N = N0
    · rw [if_pos hc] at hs
      subst hs
      subst hc
      rw [if_pos rfl, m1, Except.ok_bind, m2, Except.ok_bind, Except.pure_eq, Except.ok_bind, m3, Except.ok_bind]
      unfold biShapes
      rw [fromTo_eq N N, pyRange_succ le_rfl, pyRange_empty le_rfl]
      simp [fromTo_eq, rField, Function.comp_def]
    · rw [if_neg hc] at hs
      subst hs
      rw [if_neg (by simp), Except.pure_eq, Except.ok_bind, m3, Except.ok_bind]
      unfold biShapes
      rw [fromTo_eq N0 N, pyRange_succ hN, fromTo_eq N0 (N - 1), sub_add_cancel]
      simp [rField]
  by_cases hle : N0 ≤ N1
  · rw [if_pos hle]
    obtain ⟨s, hs, hP⟩ := foldlM_pyRange_inv
      (fun N s => if N = N0 then s = (0, []) else
        s = (1, (biShapes (rB R L1) (rB R L2 (rMin R L2 B2)) (rMin R L2 B2) N0 (N - 1)).map (rField R t)))
      (f := biRectangularStep R L1 L2 B2 t)
      (by omega : N0 ≤ N1 + 1)
      (by
        intro N s hN hN' hP
        refine ⟨_, step N s hN hP, ?_⟩
        rw [if_neg (by omega), add_sub_cancel_right])
      (s := (0, [])) (by simp)
    rw [if_neg (by omega), add_sub_cancel_right] at hP
    rw [hs, hP]
    rfl
  · rw [if_neg hle, pyRange_empty (by omega)]
    rfl

/-- the number of rows recomputed from its own spacing is the same or one more -/
theorem rMin_rB {L : K} (hL : 0 < L) {n : ℤ} (h2 : 2 ≤ n) (hn : (n : K) ≤ 2 + 10 ^ 15) :
    rMin R L (rB R L n) = n ∨ rMin R L (rB R L n) = n + 1 := by
  have u0 := ur_pos (K := K)
  have u1 := ur_le (K := K)
  have hp := cast_pred_pos (K := K) h2
  have hB := rB_pos R hL h2
  have ex : 0 < L / ((n - 1 : ℤ) : K) := div_pos hL hp
  have b1 : rB R L n ≤ (1 + ur) * (L / ((n - 1 : ℤ) : K)) := fl_le R ex.le
  have b2 : (1 - ur) * (L / ((n - 1 : ℤ) : K)) ≤ rB R L n := le_fl R ex.le
  set q := L / rB R L n with hq
  have hqp : 0 < q := div_pos hL hB
  have eq : ((n - 1 : ℤ) : K) * (L / ((n - 1 : ℤ) : K)) = L := by field_simp
  have eq' : q * rB R L n = L := by rw [hq]; field_simp
  have c1 : ((n - 1 : ℤ) : K) ≤ (1 + ur) * q := by
    have : ((n - 1 : ℤ) : K) * (L / ((n - 1 : ℤ) : K)) ≤ (1 + ur) * q * (L / ((n - 1 : ℤ) : K)) := by
      have h := mul_le_mul_of_nonneg_left b1 hqp.le
      rw [eq'] at h
      rw [eq]
      linarith
    exact le_of_mul_le_mul_right this ex
  have c2 : (1 - ur) * q ≤ ((n - 1 : ℤ) : K) := by
    have : (1 - ur) * q * (L / ((n - 1 : ℤ) : K)) ≤ ((n - 1 : ℤ) : K) * (L / ((n - 1 : ℤ) : K)) := by
      have h := mul_le_mul_of_nonneg_left b2 hqp.le
      rw [eq'] at h
      rw [eq]
      linarith
    exact le_of_mul_le_mul_right this ex
  push_cast at c1 c2
  have un : ur * (n : K) ≤ 1 / 8 := by
    have hn0 : (0 : K) ≤ n := by exact_mod_cast (by omega : 0 ≤ n)
    have : ur * (n : K) ≤ 1 / 9000000000000000 * (2 + 10 ^ 15) := mul_le_mul u1 hn hn0 (by norm_num)
    refine this.trans ?_
    norm_num
  have hn2 := two_cast (K := K) h2
  have hup : rMin R L (rB R L n) ≤ n + 1 := by
    unfold rMin
    rw [Int.ceil_le]
    have h53 : n + 1 ≤ 2 ^ 53 := by
      have : (n : K) ≤ ((2 ^ 53 - 1 : ℤ) : K) := by
        refine hn.trans ?_
        norm_num
      have := (Int.cast_le (R := K)).mp this
      omega
    apply countOf_le_int R (by omega) h53
    push_cast
    have : q ≤ n := by
      have h1 : (0 : K) < 1 - ur := by linarith
      have : (1 - ur) * q ≤ (1 - ur) * n := by linarith
      exact le_of_mul_le_mul_left this h1
    linarith
  have hlo : n ≤ rMin R L (rB R L n) := by
    have : n - 1 < rMin R L (rB R L n) := by
      unfold rMin
      rw [Int.lt_ceil]
      refine lt_of_lt_of_le ?_ (le_countOf R hqp.le)
      push_cast
      have e1 : (1 - 2 * ur) * ((n : K) - 1) ≤ q := by
        have : (1 - 2 * ur) * ((n : K) - 1) ≤ (1 - 2 * ur) * ((1 + ur) * q) :=
          mul_le_mul_of_nonneg_left c1 (by linarith)
        have : (1 - 2 * ur) * ((1 + ur) * q) ≤ q := by
          have : (1 - 2 * ur) * (1 + ur) ≤ (1 : K) := by nlinarith
          nlinarith
        linarith
      have e2 : (1 - ur) ^ 2 * ((1 - 2 * ur) * ((n : K) - 1)) ≤ (1 - ur) ^ 2 * q :=
        mul_le_mul_of_nonneg_left e1 (by positivity)
      have e3 : (1 - 4 * ur : K) ≤ (1 - ur) ^ 2 * (1 - 2 * ur) := by nlinarith [pow_pos u0 3, mul_pos u0 u0]
      have e4 : (1 - 4 * ur : K) * ((n : K) - 1) ≤ (1 - ur) ^ 2 * (1 - 2 * ur) * ((n : K) - 1) :=
        mul_le_mul_of_nonneg_right e3 (by linarith)
      nlinarith
    omega
  omega

end Ghedt.Rounded
