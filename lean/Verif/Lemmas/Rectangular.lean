import Verif.Lemmas.Domains

set_option linter.unusedSectionVars false

namespace Ghedt.Domains
open Coordinates Spec

variable {K : Type} [Field K] [LinearOrder K] [IsStrictOrderedRing K] [FloorRing K]

/-- what is known of a field of `rectangular` -/
def RectGood (t : Bool) (L1 L2 Bmin Bmax : K) (f : List (K × K)) : Prop :=
  ∃ (n1 n2 : ℤ) (B : K), OGrid t n1 n2 B B f ∧ Bmin ≤ B ∧ B ≤ Bmax ∧
    ((n1 : K) - 1) * B ≤ L1 ∧ ((n2 : K) - 1) * B ≤ L2

theorem length_ogrid {t : Bool} {n1 n2 : ℤ} {b1 b2 : K} {f : List (K × K)}
    (h : OGrid t n1 n2 b1 b2 f) : (f.length : ℤ) = n1 * n2 := by
  unfold OGrid at h
  cases t
  · simpa using h.count
  · rw [mul_comm]; simpa using h.count

/-- number of rows chosen for `N` columns -/
def rows (L1 L2 : K) (N : ℤ) : ℤ := ⌊L2 / (L1 / ((N - 1 : ℤ) : K)) + 1⌋

theorem rows_mono {L1 L2 : K} (h1 : 0 < L1) (h2 : 0 < L2) {M N : ℤ} (hM : 2 ≤ M) (h : M ≤ N) :
    rows L1 L2 M ≤ rows L1 L2 N := by
  unfold rows
  apply Int.floor_mono
  have a := cast_pred_pos (K := K) hM
  have b := cast_pred_pos (K := K) (hM.trans h)
  have c : ((M - 1 : ℤ) : K) ≤ ((N - 1 : ℤ) : K) := by exact_mod_cast (by omega : M - 1 ≤ N - 1)
  have e : ∀ x : K, 0 < x → L2 / (L1 / x) = L2 / L1 * x := by
    intro x hx; field_simp
  rw [e _ a, e _ b]
  have : 0 < L2 / L1 := div_pos h2 h1
  nlinarith

theorem one_le_rows {L1 L2 : K} (h1 : 0 < L1) (h2 : 0 < L2) {N : ℤ} (hN : 2 ≤ N) :
    1 ≤ rows L1 L2 N := by
  unfold rows
  rw [Int.le_floor]
  have := div_pos h2 (div_pos h1 (cast_pred_pos (K := K) hN))
  push_cast at this ⊢
  linarith

theorem rows_fit {L1 L2 : K} (h1 : 0 < L1) {N : ℤ} (hN : 2 ≤ N) {j : ℤ}
    (hj : j ≤ rows L1 L2 N) : ((j : K) - 1) * (L1 / ((N - 1 : ℤ) : K)) ≤ L2 := by
  have hB := div_pos h1 (cast_pred_pos (K := K) hN)
  have : (j : K) ≤ L2 / (L1 / ((N - 1 : ℤ) : K)) + 1 :=
    le_trans (by exact_mod_cast hj) (Int.floor_le _)
  rw [← le_div_iff₀ hB]
  linarith

structure RectInv (t : Bool) (L1 L2 Bmin Bmax : K) (N : ℤ) (s : RectState K) : Prop where
  iter : s.iter = 1
  old : s.n2Old = rows L1 L2 (N - 1)
  sizes : ∀ f ∈ s.domain, (f.length : ℤ) ≤ (N - 1) * s.n2Old
  inc : SizesStrictlyIncrease s.domain
  good : ∀ f ∈ s.domain, RectGood t L1 L2 Bmin Bmax f
  head : s.domain.head? = some [(0, 0)]

theorem sizes_map_lattice_line (t : Bool) (B C : K) (N : ℤ) :
    SizesStrictlyIncrease ((pyRange 1 N).map fun i : ℤ =>
      maybeTranspose t (lattice i 1 B C (0, 0))) := by
  unfold SizesStrictlyIncrease
  rw [List.pairwise_map]
  refine List.Pairwise.imp_of_mem ?_ (pyRange_pairwise _ _)
  intro a b ha hb hab
  rw [mem_pyRange] at ha hb
  rw [length_maybeTranspose, length_maybeTranspose, length_lattice, length_lattice]
  simp; omega

theorem lattice_one (B C : K) : lattice 1 1 B C (0, 0) = [(0, 0)] := by
  have h : pyRange 0 1 = [0] := by decide
  simp [lattice, h]

theorem maybeTranspose_origin (t : Bool) : maybeTranspose t [((0 : K), (0 : K))] = [(0, 0)] := by
  cases t <;> simp [maybeTranspose, transposeCoordinates]

theorem rectangularStep_inv {L1 L2 Bmin Bmax : K} (h1 : 0 < L1) (h2 : 0 < L2) (hBmin : 0 < Bmin)
    (hBmax : 0 < Bmax) (t : Bool) {Nmin : ℤ} (hNmin : Nmin = ⌈L1 / Bmax + 1⌉) {N : ℤ}
    (hN : Nmin ≤ N) (hN' : N ≤ ⌊L1 / Bmin + 1⌋) {s : RectState K}
    (hs : if N = Nmin then s = ⟨0, 1, []⟩ else RectInv t L1 L2 Bmin Bmax N s) :
    ∃ s', rectangularStep L1 L2 t Nmin s N = .ok s' ∧ RectInv t L1 L2 Bmin Bmax (N + 1) s' := by
  have hNmin2 : 2 ≤ Nmin := by rw [hNmin]; exact two_le_ceil (div_pos h1 hBmax)
  have hN2 : 2 ≤ N := by omega
  set B : K := L1 / ((N - 1 : ℤ) : K) with hBdef
  have hB : 0 < B := div_pos h1 (cast_pred_pos hN2)
  have hBle : B ≤ Bmax := spacing_le h1 hBmax (by omega)
  have hleB : Bmin ≤ B := le_spacing h1 hBmin hN' hN2
  have e1 : pyDiv L1 ((N - 1 : ℤ) : K) = .ok B := pyDiv_ok (cast_pred_pos hN2).ne'
  have e2 : pyDiv L2 B = .ok (L2 / B) := pyDiv_ok hB.ne'
  have hn2 : ⌊L2 / B + 1⌋ = rows L1 L2 N := rfl
  have hr1 : 1 ≤ rows L1 L2 N := one_le_rows h1 h2 hN2
  have hfit : ((N : K) - 1) * B ≤ L1 := by
    have := mul_spacing (L := L1) hN2
    push_cast at this
    rw [hBdef]; push_cast; exact this.le
  have good : ∀ i j : ℤ, 1 ≤ i → i ≤ N → 1 ≤ j → j ≤ rows L1 L2 N →
      RectGood t L1 L2 Bmin Bmax (maybeTranspose t (lattice i j B B (0, 0))) := by
    intro i j hi hi' hj hj'
    refine ⟨i, j, B, ogrid_lattice t hi hj hB hB, hleB, hBle, ?_, rows_fit h1 hN2 hj'⟩
    have : (i : K) ≤ N := by exact_mod_cast hi'
    nlinarith
  have len : ∀ i j : ℤ, 1 ≤ i → 1 ≤ j →
      ((maybeTranspose t (lattice i j B B (0, 0))).length : ℤ) = i * j := by
    intro i j hi hj
    exact length_ogrid (ogrid_lattice t hi hj hB hB)
  have m1 : (pyRange 1 Nmin).mapM (fun i : ℤ => do
      let r ← rectangle i 1 B B
      pure (maybeTranspose t r)) = .ok ((pyRange 1 Nmin).map fun i : ℤ =>
        maybeTranspose t (lattice i 1 B B (0, 0))) := by
    apply mapM_ok
    intro i hi
    rw [mem_pyRange] at hi
    rw [rectangle_ok (by omega) (by omega)]; rfl
  have m2 : (pyRange 1 (rows L1 L2 N)).mapM (fun j : ℤ => do
      let r ← rectangle Nmin j B B
      pure (maybeTranspose t r)) = .ok ((pyRange 1 (rows L1 L2 N)).map fun j : ℤ =>
        maybeTranspose t (lattice Nmin j B B (0, 0))) := by
    apply mapM_ok
    intro i hi
    rw [mem_pyRange] at hi
    rw [rectangle_ok (by omega) (by omega)]; rfl
  have m3 : rectangle N (rows L1 L2 N) B B = .ok (lattice N (rows L1 L2 N) B B (0, 0)) :=
    rectangle_ok (by omega) (by omega) _ _ _
  unfold rectangularStep
  rw [e1, Except.ok_bind, e2, Except.ok_bind, hn2]
  dsimp only
  by_cases hc : N = Nmin
  · rw [if_pos hc] at hs
    subst hs
    rw [if_pos rfl, m1, Except.ok_bind, m2, Except.ok_bind, Except.pure_eq, Except.ok_bind]
    have hline : ∀ f ∈ (pyRange 1 Nmin).map (fun i : ℤ =>
        maybeTranspose t (lattice i 1 B B (0, 0))), (f.length : ℤ) < N ∧
        RectGood t L1 L2 Bmin Bmax f := by
      intro f hf
      simp only [List.mem_map, mem_pyRange] at hf
      obtain ⟨i, hi, rfl⟩ := hf
      rw [len i 1 (by omega) le_rfl]
      exact ⟨by omega, good _ _ (by omega) (by omega) le_rfl hr1⟩
    have hrow : ∀ f ∈ (pyRange 1 (rows L1 L2 N)).map (fun j : ℤ =>
        maybeTranspose t (lattice Nmin j B B (0, 0))), N ≤ (f.length : ℤ) ∧
        (f.length : ℤ) < N * rows L1 L2 N ∧ RectGood t L1 L2 Bmin Bmax f := by
      intro f hf
      simp only [List.mem_map, mem_pyRange] at hf
      obtain ⟨i, hi, rfl⟩ := hf
      rw [len Nmin i (by omega) (by omega), ← hc]
      exact ⟨by nlinarith, by nlinarith, good _ _ (by omega) (by omega) (by omega) (by omega)⟩
    have hhead : ∀ l, (([] : List (List (K × K))) ++ ((pyRange 1 Nmin).map fun i : ℤ =>
        maybeTranspose t (lattice i 1 B B (0, 0))) ++ l).head? = some [(0, 0)] := by
      intro l
      rw [pyRange_cons (by omega)]
      simp [lattice_one, maybeTranspose_origin]
    have hinc : SizesStrictlyIncrease (([] : List (List (K × K))) ++ ((pyRange 1 Nmin).map
        fun i : ℤ => maybeTranspose t (lattice i 1 B B (0, 0))) ++
        (pyRange 1 (rows L1 L2 N)).map fun j : ℤ =>
        maybeTranspose t (lattice Nmin j B B (0, 0))) := by
      rw [List.nil_append]
      unfold SizesStrictlyIncrease
      rw [List.pairwise_append]
      refine ⟨sizes_map_lattice_line t B B Nmin, ?_, ?_⟩
      · rw [List.pairwise_map]
        refine List.Pairwise.imp_of_mem ?_ (pyRange_pairwise _ _)
        intro a b ha hb hab
        rw [mem_pyRange] at ha hb
        zify
        rw [len _ _ (by omega) (by omega), len _ _ (by omega) (by omega)]
        nlinarith
      · intro f hf g hg
        have a := (hline f hf).1
        have b := (hrow g hg).1
        omega
    by_cases hone : rows L1 L2 N = 1
    · rw [if_pos hone.symm]
      refine ⟨_, rfl, ⟨rfl, ?_, ?_, hinc, ?_, hhead _⟩⟩
      · simp [hone]
      · intro f hf
        rw [List.nil_append, List.mem_append] at hf
        dsimp only
        rcases hf with hf | hf
        · have := (hline f hf).1; omega
        · have := (hrow f hf).2.1; rw [hone] at this; omega
      · intro f hf
        rw [List.nil_append, List.mem_append] at hf
        rcases hf with hf | hf
        · exact (hline f hf).2
        · exact (hrow f hf).2.2
    · rw [if_neg (by dsimp only; omega), m3, Except.ok_bind]
      have hb : ∀ f ∈ (([] : List (List (K × K))) ++ ((pyRange 1 Nmin).map
          fun i : ℤ => maybeTranspose t (lattice i 1 B B (0, 0))) ++
          (pyRange 1 (rows L1 L2 N)).map fun j : ℤ =>
          maybeTranspose t (lattice Nmin j B B (0, 0))), (f.length : ℤ) < N * rows L1 L2 N ∧
          RectGood t L1 L2 Bmin Bmax f := by
        intro f hf
        rw [List.nil_append, List.mem_append] at hf
        rcases hf with hf | hf
        · exact ⟨by have := (hline f hf).1; nlinarith, (hline f hf).2⟩
        · exact (hrow f hf).2
      refine ⟨_, rfl, ⟨rfl, by simp, ?_, ?_, ?_, ?_⟩⟩
      · intro f hf
        rw [List.mem_append, List.mem_singleton] at hf
        dsimp only
        rw [add_sub_cancel_right]
        rcases hf with hf | rfl
        · exact (hb f hf).1.le
        · rw [len _ _ (by omega) hr1]
      · unfold SizesStrictlyIncrease at hinc ⊢
        rw [List.pairwise_append]
        refine ⟨hinc, List.pairwise_singleton _ _, ?_⟩
        intro f hf g hg
        rw [List.mem_singleton] at hg
        subst hg
        zify
        rw [len _ _ (by omega) hr1]
        exact (hb f hf).1
      · intro f hf
        rw [List.mem_append, List.mem_singleton] at hf
        rcases hf with hf | rfl
        · exact (hb f hf).2
        · exact good _ _ (by omega) le_rfl hr1 le_rfl
      · dsimp only
        rw [List.head?_append, hhead]; rfl
  · rw [if_neg hc] at hs
    rw [if_neg (by rw [hs.iter]; omega), Except.pure_eq, Except.ok_bind]
    have hmono : rows L1 L2 (N - 1) ≤ rows L1 L2 N := rows_mono h1 h2 (by omega) (by omega)
    have hr0 : 1 ≤ rows L1 L2 (N - 1) := one_le_rows h1 h2 (by omega)
    by_cases hold : s.n2Old = rows L1 L2 N
    · rw [if_pos hold]
      refine ⟨_, rfl, ⟨hs.iter, by simpa using hold, ?_, hs.inc, hs.good, hs.head⟩⟩
      intro f hf
      have := hs.sizes f hf
      rw [add_sub_cancel_right]
      nlinarith
    · rw [if_neg hold, m3, Except.ok_bind]
      have hlt : s.n2Old < rows L1 L2 N := by
        have := hs.old
        omega
      have hb : ∀ f ∈ s.domain, (f.length : ℤ) < N * rows L1 L2 N := by
        intro f hf
        have := hs.sizes f hf
        have := hs.old
        nlinarith
      refine ⟨_, rfl, ⟨hs.iter, by simp, ?_, ?_, ?_, ?_⟩⟩
      · intro f hf
        rw [List.mem_append, List.mem_singleton] at hf
        dsimp only
        rw [add_sub_cancel_right]
        rcases hf with hf | rfl
        · exact (hb f hf).le
        · rw [len _ _ (by omega) hr1]
      · have := hs.inc
        unfold SizesStrictlyIncrease at this ⊢
        rw [List.pairwise_append]
        refine ⟨this, List.pairwise_singleton _ _, ?_⟩
        intro f hf g hg
        rw [List.mem_singleton] at hg
        subst hg
        zify
        rw [len _ _ (by omega) hr1]
        exact hb f hf
      · intro f hf
        rw [List.mem_append, List.mem_singleton] at hf
        rcases hf with hf | rfl
        · exact hs.good f hf
        · exact good _ _ (by omega) le_rfl hr1 le_rfl
      · dsimp only
        rw [List.head?_append, hs.head]; rfl

/-- summary for `rectangular` -/
theorem rectangular_spec {X Y Bmin Bmax : K} (hX : 0 < X) (hY : 0 < Y) (hBmin : 0 < Bmin)
    (hBmax : 0 < Bmax) :
    ∃ d, rectangular X Y Bmin Bmax = .ok d ∧
      (⌈max X Y / Bmax + 1⌉ ≤ ⌊max X Y / Bmin + 1⌋ → d.head? = some [(0, 0)]) ∧
      (⌊max X Y / Bmin + 1⌋ < ⌈max X Y / Bmax + 1⌉ → d = []) ∧
      SizesStrictlyIncrease d ∧
      ∀ f ∈ d, RectGood (decide (X < Y)) (max X Y) (min X Y) Bmin Bmax f := by
  unfold rectangular
  have key : ∀ (L1 L2 : K) (t : Bool), 0 < L1 → 0 < L2 →
      ∃ d, (do
        let a ← pyDiv L1 Bmin
        let b ← pyDiv L1 Bmax
        let s ← (pyRange ⌈b + 1⌉ (⌊a + 1⌋ + 1)).foldlM
          (rectangularStep L1 L2 t ⌈b + 1⌉) ⟨0, 1, []⟩
        return s.domain : Py _) = .ok d ∧
        (⌈L1 / Bmax + 1⌉ ≤ ⌊L1 / Bmin + 1⌋ → d.head? = some [(0, 0)]) ∧
        (⌊L1 / Bmin + 1⌋ < ⌈L1 / Bmax + 1⌉ → d = []) ∧
        SizesStrictlyIncrease d ∧ ∀ f ∈ d, RectGood t L1 L2 Bmin Bmax f := by
    intro L1 L2 t h1 h2
    rw [pyDiv_ok hBmin.ne', Except.ok_bind, pyDiv_ok hBmax.ne', Except.ok_bind]
    by_cases hle : ⌈L1 / Bmax + 1⌉ ≤ ⌊L1 / Bmin + 1⌋
    · obtain ⟨s, hs, hP⟩ := foldlM_pyRange_inv
        (fun N s => if N = ⌈L1 / Bmax + 1⌉ then s = ⟨0, 1, []⟩ else RectInv t L1 L2 Bmin Bmax N s)
        (f := rectangularStep L1 L2 t ⌈L1 / Bmax + 1⌉)
        (by omega : ⌈L1 / Bmax + 1⌉ ≤ ⌊L1 / Bmin + 1⌋ + 1)
        (by
          intro N s hN hN' hP
          obtain ⟨s', e, i⟩ := rectangularStep_inv h1 h2 hBmin hBmax t rfl hN (by omega) hP
          exact ⟨s', e, by rw [if_neg (by omega)]; exact i⟩)
        (s := ⟨0, 1, []⟩) (by simp)
      rw [if_neg (by omega)] at hP
      rw [hs]
      exact ⟨s.domain, rfl, fun _ => hP.head, fun h => by omega, hP.inc, hP.good⟩
    · rw [pyRange_empty (by omega)]
      exact ⟨[], rfl, fun h => absurd h hle, fun _ => rfl, List.Pairwise.nil, by simp⟩
  by_cases hc : X ≥ Y
  · have := key X Y false hX hY
    rw [max_eq_left hc, min_eq_right hc, decide_eq_false (not_lt.mpr hc)]
    simpa only [hc, if_true] using this
  · have := key Y X true hY hX
    have hc' : X < Y := not_le.mp hc
    rw [max_eq_right hc'.le, min_eq_left hc'.le, decide_eq_true hc']
    simpa only [hc, if_false] using this

end Ghedt.Domains
