import Verif.Lemmas.RoundedBasic
import Verif.Props.FieldContents

/-! `rectangular` with rounding. -/

set_option linter.unusedSectionVars false

namespace Ghedt.Rounded
open Coordinates Domains Spec

variable {K : Type} [Field K] [LinearOrder K] [IsStrictOrderedRing K] [FloorRing K]
  (R : Rounding K)

/-- the shapes of `rectangular` for spacings `B` and row counts `rows` -/
def rectShapes (B : ℤ → K) (rows : ℤ → ℤ) (N0 N1 : ℤ) : List (ℤ × ℤ × K × K) :=
  (fromTo 1 (N0 - 1)).map (fun i => (i, 1, B N0, B N0))
    ++ (fromTo 1 (rows N0 - 1)).map (fun j => (N0, j, B N0, B N0))
    ++ ((fromTo N0 N1).filter fun N => decide (rows N ≠ if N = N0 then 1 else rows (N - 1))).map
        fun N => (N, rows N, B N, B N)

/-- the computed field of the given shape -/
def rField (t : Bool) (s : ℤ × ℤ × K × K) : List (K × K) :=
  maybeTranspose t (rlattice R s.1 s.2.1 s.2.2.1 s.2.2.2)

theorem length_rField (t : Bool) {s : ℤ × ℤ × K × K} (h1 : 0 ≤ s.1) (h2 : 0 ≤ s.2.1) :
    ((rField R t s).length : ℤ) = s.1 * s.2.1 := by
  unfold rField
  rw [length_maybeTranspose, length_rlattice]
  push_cast [Int.toNat_of_nonneg h1, Int.toNat_of_nonneg h2]
  rfl

/-- the computed spacing for `N` boreholes -/
def rB (L : K) (N : ℤ) : K := R.fl (L / ((N - 1 : ℤ) : K))

theorem rB_pos {L : K} (h : 0 < L) {N : ℤ} (hN : 2 ≤ N) : 0 < rB R L N := fl_pos R (div_pos h (cast_pred_pos hN))

theorem rectShapes_sizes (B : ℤ → K) {rows : ℤ → ℤ} {N0 N1 : ℤ} (hN0 : 2 ≤ N0)
    (hpos : ∀ N, N0 ≤ N → N ≤ N1 → 1 ≤ rows N) (hmono : ∀ M N, N0 ≤ M → M ≤ N → N ≤ N1 → rows M ≤ rows N)
    (hle : N0 ≤ N1) (t : Bool) :
    SizesStrictlyIncrease ((rectShapes B rows N0 N1).map (rField R t)) := by
  unfold SizesStrictlyIncrease
  rw [List.pairwise_map]
  have key : (rectShapes B rows N0 N1).Pairwise fun s s' : ℤ × ℤ × K × K =>
      s.1 * s.2.1 < s'.1 * s'.2.1 := by
    have r0 := hpos N0 le_rfl hle
    unfold rectShapes
    rw [List.pairwise_append, List.pairwise_append, List.pairwise_map, List.pairwise_map, List.pairwise_map]
    simp only [fromTo_eq]
    refine ⟨⟨?_, ?_, ?_⟩, ?_, ?_⟩
    · refine (pyRange_pairwise _ _).imp fun h => ?_
      simpa using h
    · refine (pyRange_pairwise _ _).imp fun h => ?_
      nlinarith
    · intro a ha b hb
      simp only [List.mem_map, mem_pyRange] at ha hb
      obtain ⟨i, hi, rfl⟩ := ha
      obtain ⟨j, hj, rfl⟩ := hb
      dsimp only
      nlinarith
    · refine List.Pairwise.imp_of_mem ?_ ((pyRange_pairwise _ _).filter _)
      intro M N hM hN hMN
      simp only [List.mem_filter, mem_pyRange, decide_eq_true_eq] at hM hN
      have hc := hN.2
      rw [if_neg (by omega)] at hc
      have a1 := hpos M (by omega) (by omega)
      have a2 := hmono M (N - 1) (by omega) (by omega) (by omega)
      have a3 := hmono (N - 1) N (by omega) (by omega) (by omega)
      have a4 : rows M < rows N := by omega
      nlinarith
    · intro a ha b hb
      simp only [List.mem_append, List.mem_map, List.mem_filter, mem_pyRange, decide_eq_true_eq] at ha hb
      obtain ⟨N, ⟨hN, hc⟩, rfl⟩ := hb
      have a1 := hpos N (by omega) (by omega)
      have a2 := hmono N0 N (by omega) (by omega) (by omega)
      rcases ha with ⟨i, hi, rfl⟩ | ⟨j, hj, rfl⟩
      · dsimp only
        nlinarith
      · dsimp only
        nlinarith
  have hnn : ∀ s ∈ rectShapes B rows N0 N1, 0 ≤ s.1 ∧ 0 ≤ s.2.1 := by
    intro s hs
    unfold rectShapes at hs
    simp only [List.mem_append, List.mem_map, List.mem_filter, fromTo_eq, mem_pyRange] at hs
    rcases hs with (⟨i, hi, rfl⟩ | ⟨j, hj, rfl⟩) | ⟨N, ⟨hN, _⟩, rfl⟩
    · dsimp only; omega
    · dsimp only; omega
    · have := hpos N (by omega) (by omega)
      dsimp only; omega
  refine List.Pairwise.imp_of_mem ?_ key
  intro a b ha hb hab
  zify
  rw [length_rField R t (hnn a ha).1 (hnn a ha).2, length_rField R t (hnn b hb).1 (hnn b hb).2]
  exact hab

/-- the computed number of rows -/
def rRows (L1 L2 : K) (N : ℤ) : ℤ := ⌊countOf R (L2 / rB R L1 N)⌋

theorem one_le_rRows {L1 L2 : K} (h1 : 0 < L1) (h2 : 0 < L2) {N : ℤ} (hN : 2 ≤ N) : 1 ≤ rRows R L1 L2 N := by
  unfold rRows
  rw [Int.le_floor]
  simpa using one_le_countOf R (div_pos h2 (rB_pos R h1 hN)).le

theorem rRows_mono {L1 L2 : K} (h1 : 0 < L1) (h2 : 0 < L2) {M N : ℤ} (hM : 2 ≤ M) (h : M ≤ N) :
    rRows R L1 L2 M ≤ rRows R L1 L2 N := by
  unfold rRows
  apply Int.floor_mono
  apply countOf_mono
  apply div_le_div_of_nonneg_left h2.le (rB_pos R h1 (hM.trans h))
  unfold rB
  apply R.mono
  apply div_le_div_of_nonneg_left h1.le (cast_pred_pos hM)
  exact_mod_cast (by omega : M - 1 ≤ N - 1)

theorem rectangularStep_shapes {L1 L2 : K} (h1 : 0 < L1) (h2 : 0 < L2) (t : Bool) {N0 N : ℤ} (hN0 : 2 ≤ N0)
    (hN : N0 ≤ N) {s : RectState K}
    (hs : if N = N0 then s = ⟨0, 1, []⟩ else
      s = ⟨1, rRows R L1 L2 (N - 1), (rectShapes (rB R L1) (rRows R L1 L2) N0 (N - 1)).map (rField R t)⟩) :
    rectangularStep R L1 L2 t N0 s N =
      .ok ⟨1, rRows R L1 L2 N, (rectShapes (rB R L1) (rRows R L1 L2) N0 N).map (rField R t)⟩ := by
  have hN2 : 2 ≤ N := by omega
  have hB : 0 < rB R L1 N := rB_pos R h1 hN2
  have e1 : div R L1 ((N - 1 : ℤ) : K) = .ok (rB R L1 N) := div_ok R (cast_pred_pos hN2).ne'
  have e2 : div R L2 (rB R L1 N) = .ok (R.fl (L2 / rB R L1 N)) := div_ok R hB.ne'
  have hn2 : ⌊add R (R.fl (L2 / rB R L1 N)) 1⌋ = rRows R L1 L2 N := rfl
  have hr1 : 1 ≤ rRows R L1 L2 N := one_le_rRows R h1 h2 hN2
  generalize hBdef : rB R L1 N = B at *
  have m1 : (pyRange 1 N0).mapM (fun i : ℤ => do
      let r ← rectangle R i 1 B B
      pure (maybeTranspose t r)) = .ok ((pyRange 1 N0).map fun i : ℤ =>
        maybeTranspose t (rlattice R i 1 B B)) := by
    apply mapM_ok
    intro i hi
    rw [mem_pyRange] at hi
    rw [rectangle_ok R (by omega) (by omega)]; rfl
  have m2 : (pyRange 1 (rRows R L1 L2 N)).mapM (fun j : ℤ => do
      let r ← rectangle R N0 j B B
      pure (maybeTranspose t r)) = .ok ((pyRange 1 (rRows R L1 L2 N)).map fun j : ℤ =>
        maybeTranspose t (rlattice R N0 j B B)) := by
    apply mapM_ok
    intro i hi
    rw [mem_pyRange] at hi
    rw [rectangle_ok R (by omega) (by omega)]; rfl
  have m3 : rectangle R N (rRows R L1 L2 N) B B = .ok (rlattice R N (rRows R L1 L2 N) B B) :=
    rectangle_ok R (by omega) (by omega) _ _
  unfold rectangularStep
  rw [e1, Except.ok_bind, e2, Except.ok_bind, hn2]
  dsimp only
  have hsh : rectShapes (rB R L1) (rRows R L1 L2) N0 N =
      (if N = N0 then (fromTo 1 (N0 - 1)).map (fun i => (i, 1, B, B))
        ++ (fromTo 1 (rRows R L1 L2 N - 1)).map (fun j => (N0, j, B, B))
        else rectShapes (rB R L1) (rRows R L1 L2) N0 (N - 1))
      ++ if (if N = N0 then 1 else rRows R L1 L2 (N - 1)) = rRows R L1 L2 N then [] else
        [(N, rRows R L1 L2 N, B, B)] := by
    unfold rectShapes
    rw [filter_fromTo_succ _ hN]
    simp only [List.map_append, ← List.append_assoc]
    by_cases hc : N = N0
    · subst hc
      rw [show fromTo N (N - 1) = [] by rw [fromTo_eq]; exact pyRange_empty (by omega)]
      simp only [if_true, List.filter_nil, List.map_nil, List.append_nil, hBdef]
      congr 1
      by_cases h : rRows R L1 L2 N = 1
      · simp [h]
      · simp [h, Ne.symm h, hBdef]
    · simp only [if_neg hc]
      congr 1
      by_cases h : rRows R L1 L2 N = rRows R L1 L2 (N - 1)
      · simp [h]
      · simp [h, Ne.symm h, hBdef]
  rw [hsh]
  by_cases hc : N = N0
  · rw [if_pos hc] at hs
    subst hs
    subst hc
    rw [if_pos rfl, m1, Except.ok_bind, m2, Except.ok_bind, Except.pure_eq, Except.ok_bind]
    simp only [if_true]
    by_cases h : (1 : ℤ) = rRows R L1 L2 N
    · rw [if_pos h, if_pos h, ← h]
      simp [fromTo_eq, rField, Function.comp_def]
    · rw [if_neg h, if_neg h, m3, Except.ok_bind]
      simp [fromTo_eq, rField, Function.comp_def]
  · rw [if_neg hc] at hs
    subst hs
    rw [if_neg (by simp), Except.pure_eq, Except.ok_bind]
    simp only [if_neg hc]
    by_cases h : rRows R L1 L2 (N - 1) = rRows R L1 L2 N
    · rw [if_pos h, if_pos h, ← h]
      simp
    · rw [if_neg h, if_neg h, m3, Except.ok_bind]
      simp [rField]

/-- least and greatest number of boreholes along a side, as computed -/
def rMin (L B : K) : ℤ := ⌈countOf R (L / B)⌉
def rMax (L B : K) : ℤ := ⌊countOf R (L / B)⌋

theorem two_le_rMin {L B : K} (hB : 0 < B) (h : B ≤ 10 ^ 15 * L) : 2 ≤ rMin R L B := by
  have : 1 < rMin R L B := by
    unfold rMin
    rw [Int.lt_ceil]
    push_cast
    apply one_lt_countOf
    rw [le_div_iff₀ hB, tiny_eq]
    linarith
  omega

/-- the candidates of `rectangular`, longer side first -/
def rCandidates (L1 L2 Bmin Bmax : K) : List (ℤ × ℤ × K × K) :=
  if rMin R L1 Bmax ≤ rMax R L1 Bmin then
    rectShapes (rB R L1) (rRows R L1 L2) (rMin R L1 Bmax) (rMax R L1 Bmin) else []

theorem rectangular_shapes {X Y Bmin Bmax : K} (hX : 0 < X) (hY : 0 < Y) (hBmin : 0 < Bmin) (hBmax : 0 < Bmax)
    (hN : 2 ≤ rMin R (max X Y) Bmax) :
    rectangular R X Y Bmin Bmax =
      .ok ((rCandidates R (max X Y) (min X Y) Bmin Bmax).map (rField R (decide (X < Y)))) := by
  have key : ∀ (L1 L2 : K) (t : Bool), 0 < L1 → 0 < L2 → 2 ≤ rMin R L1 Bmax → (do
        let a ← div R L1 Bmin
        let b ← div R L1 Bmax
        let s ← (pyRange ⌈add R b 1⌉ (⌊add R a 1⌋ + 1)).foldlM
          (rectangularStep R L1 L2 t ⌈add R b 1⌉) ⟨0, 1, []⟩
        return s.domain : Py _) = .ok ((rCandidates R L1 L2 Bmin Bmax).map (rField R t)) := by
    intro L1 L2 t h1 h2 hN0
    rw [div_ok R hBmin.ne', Except.ok_bind, div_ok R hBmax.ne', Except.ok_bind]
    have e1 : ⌈add R (R.fl (L1 / Bmax)) 1⌉ = rMin R L1 Bmax := rfl
    have e2 : ⌊add R (R.fl (L1 / Bmin)) 1⌋ = rMax R L1 Bmin := rfl
    rw [e1, e2]
    unfold rCandidates
    generalize rMin R L1 Bmax = N0 at *
    generalize rMax R L1 Bmin = N1 at *
    by_cases hle : N0 ≤ N1
    · rw [if_pos hle]
      obtain ⟨s, hs, hP⟩ := foldlM_pyRange_inv
        (fun N s => if N = N0 then s = ⟨0, 1, []⟩ else
          s = ⟨1, rRows R L1 L2 (N - 1), (rectShapes (rB R L1) (rRows R L1 L2) N0 (N - 1)).map (rField R t)⟩)
        (f := rectangularStep R L1 L2 t N0)
        (by omega : N0 ≤ N1 + 1)
        (by
          intro N s hN hN' hP
          refine ⟨_, rectangularStep_shapes R h1 h2 t hN0 hN hP, ?_⟩
          rw [if_neg (by omega), add_sub_cancel_right])
        (s := ⟨0, 1, []⟩) (by simp)
      rw [if_neg (by omega), add_sub_cancel_right] at hP
      rw [hs, hP]
      rfl
    · rw [if_neg hle, pyRange_empty (by omega)]
      rfl
  unfold rectangular
  by_cases hc : X ≥ Y
  · have := key X Y false hX hY (by rwa [max_eq_left hc] at hN)
    rw [max_eq_left hc, min_eq_right hc, decide_eq_false (not_lt.mpr hc)]
    simpa only [hc, if_true] using this
  · have hc' : X < Y := not_le.mp hc
    have := key Y X true hY hX (by rwa [max_eq_right hc'.le] at hN)
    rw [max_eq_right hc'.le, min_eq_left hc'.le, decide_eq_true hc']
    simpa only [hc, if_false] using this

end Ghedt.Rounded
