import Verif.Lemmas.Shapes
import Verif.Lemmas.PyList
import Verif.Model.Domains

set_option linter.unusedSectionVars false

namespace Ghedt.Domains
open Coordinates Spec

variable {K : Type} [Field K] [LinearOrder K] [IsStrictOrderedRing K]

theorem isGrid_lattice {nx ny : ℤ} (hx : 1 ≤ nx) (hy : 1 ≤ ny) {Bx By : K} (hBx : 0 < Bx)
    (hBy : 0 < By) : IsGrid nx ny Bx By (lattice nx ny Bx By (0, 0)) where
  one_le_x := hx
  one_le_y := hy
  count := by
    rw [length_lattice]
    push_cast [Int.toNat_of_nonneg (by omega : 0 ≤ nx), Int.toNat_of_nonneg (by omega : 0 ≤ ny)]
    rfl
  points := by
    intro p
    rw [mem_lattice]
    simp [OnLattice]
  distinct := nodup_lattice hBx hBy _

theorem isGrid_transpose {nx ny : ℤ} {Bx By : K} {f : List (K × K)} (h : IsGrid nx ny Bx By f) :
    IsGrid ny nx By Bx (transposeCoordinates f) where
  one_le_x := h.one_le_y
  one_le_y := h.one_le_x
  count := by simp [transposeCoordinates, h.count, mul_comm]
  points := by
    rintro ⟨a, b⟩
    simp only [transposeCoordinates, List.mem_map]
    constructor
    · rintro ⟨q, hq, he⟩
      obtain ⟨i, j, hi, hj, rfl⟩ := (h.points q).1 hq
      exact ⟨j, i, hj, hi, he.symm⟩
    · rintro ⟨i, j, hi, hj, he⟩
      exact ⟨(j * Bx, i * By), (h.points _).2 ⟨j, i, hj, hi, rfl⟩, he.symm⟩
  distinct := by
    refine h.distinct.map ?_
    rintro ⟨a, b⟩ ⟨c, d⟩ he
    simp at he ⊢; exact ⟨he.2, he.1⟩

/-- oriented grid -/
def OGrid (t : Bool) (n1 n2 : ℤ) (b1 b2 : K) (f : List (K × K)) : Prop :=
  if t then IsGrid n2 n1 b2 b1 f else IsGrid n1 n2 b1 b2 f

theorem ogrid_lattice (t : Bool) {nx ny : ℤ} (hx : 1 ≤ nx) (hy : 1 ≤ ny) {Bx By : K} (hBx : 0 < Bx)
    (hBy : 0 < By) : OGrid t nx ny Bx By (maybeTranspose t (lattice nx ny Bx By (0, 0))) := by
  unfold OGrid maybeTranspose
  cases t
  · simpa using isGrid_lattice hx hy hBx hBy
  · simpa using isGrid_transpose (isGrid_lattice hx hy hBx hBy)

theorem length_maybeTranspose (t : Bool) (f : List (K × K)) :
    (maybeTranspose t f).length = f.length := by
  cases t <;> simp [maybeTranspose, transposeCoordinates]

theorem isGrid_inLand {nx ny : ℤ} {Bx By Lx Ly : K} {f : List (K × K)} (h : IsGrid nx ny Bx By f)
    (hBx : 0 ≤ Bx) (hBy : 0 ≤ By) (hx : ((nx : K) - 1) * Bx ≤ Lx) (hy : ((ny : K) - 1) * By ≤ Ly) :
    ∀ p ∈ f, InLand Lx Ly p := by
  intro p hp
  obtain ⟨i, j, ⟨hi0, hi1⟩, ⟨hj0, hj1⟩, rfl⟩ := (h.points p).1 hp
  have a1 : (0 : K) ≤ i := by exact_mod_cast hi0
  have a2 : (i : K) + 1 ≤ nx := by exact_mod_cast hi1
  have a3 : (0 : K) ≤ j := by exact_mod_cast hj0
  have a4 : (j : K) + 1 ≤ ny := by exact_mod_cast hj1
  refine ⟨⟨mul_nonneg a1 hBx, le_trans (mul_le_mul_of_nonneg_right ?_ hBx) hx⟩,
    mul_nonneg a3 hBy, le_trans (mul_le_mul_of_nonneg_right ?_ hBy) hy⟩ <;> linarith

/-! ### spacing arithmetic -/

section floor
variable [FloorRing K]

theorem two_le_ceil {q : K} (h : 0 < q) : 2 ≤ ⌈q + 1⌉ := by
  have : 1 < ⌈q + 1⌉ := by rw [Int.lt_ceil]; push_cast; linarith
  omega

theorem spacing_le {L B : K} (hL : 0 < L) (hB : 0 < B) {N : ℤ} (h : ⌈L / B + 1⌉ ≤ N) :
    L / ((N - 1 : ℤ) : K) ≤ B := by
  have h1 : L / B + 1 ≤ (N : K) := (Int.le_ceil _).trans (by exact_mod_cast h)
  have hp : 0 < L / B := div_pos hL hB
  push_cast
  rw [div_le_iff₀ (by linarith)]
  have : L = L / B * B := by field_simp
  nlinarith

theorem le_spacing {L B : K} (hL : 0 < L) (hB : 0 < B) {N : ℤ} (h : N ≤ ⌊L / B + 1⌋)
    (h1 : 2 ≤ N) : B ≤ L / ((N - 1 : ℤ) : K) := by
  have h2 : (N : K) ≤ L / B + 1 := le_trans (by exact_mod_cast h) (Int.floor_le _)
  have h3 : (2 : K) ≤ N := by exact_mod_cast h1
  push_cast
  rw [le_div_iff₀ (by linarith)]
  have : L = L / B * B := by field_simp
  nlinarith

theorem cast_pred_pos {N : ℤ} (h : 2 ≤ N) : (0 : K) < ((N - 1 : ℤ) : K) := by
  exact_mod_cast (by omega : 0 < N - 1)

theorem mul_spacing {L : K} {N : ℤ} (h : 2 ≤ N) : ((N - 1 : ℤ) : K) * (L / ((N - 1 : ℤ) : K)) = L := by
  have := (cast_pred_pos (K := K) h).ne'
  field_simp

/-- the fields of `bi_rectangular` -/
def biFields (b1 : ℤ → K) (b2 : K) (t : Bool) (Nmin N n2 : ℤ) : List (List (K × K)) :=
  ((pyRange 1 Nmin).map fun i : ℤ => maybeTranspose t (lattice i 1 (b1 Nmin) b2 (0, 0)))
  ++ ((pyRange 1 n2).map fun j : ℤ => maybeTranspose t (lattice Nmin j (b1 Nmin) b2 (0, 0)))
  ++ ((pyRange Nmin N).map fun n1 : ℤ => maybeTranspose t (lattice n1 n2 (b1 n1) b2 (0, 0)))

theorem biRectangular_fold {L1 L2 Bmax2 : K} (h1 : 0 < L1) (h2 : 0 < L2) (hB : 0 < Bmax2)
    (t : Bool) {Nmin Nmax : ℤ} (hN : 2 ≤ Nmin) (hle : Nmin ≤ Nmax) :
    (pyRange Nmin (Nmax + 1)).foldlM (biRectangularStep L1 L2 Bmax2 t) (0, []) =
      .ok (1, biFields (fun n => L1 / ((n - 1 : ℤ) : K)) (L2 / ((⌈L2 / Bmax2 + 1⌉ - 1 : ℤ) : K)) t
        Nmin (Nmax + 1) ⌈L2 / Bmax2 + 1⌉) := by
  have hn2 : 2 ≤ ⌈L2 / Bmax2 + 1⌉ := two_le_ceil (div_pos h2 hB)
  set n2 := ⌈L2 / Bmax2 + 1⌉ with hn2def
  set b1 : ℤ → K := fun n => L1 / ((n - 1 : ℤ) : K)
  set b2 : K := L2 / ((n2 - 1 : ℤ) : K)
  have step : ∀ (N : ℤ) (s : ℕ × List (List (K × K))), Nmin ≤ N → N < Nmax + 1 →
      (if N = Nmin then s = (0, []) else s = (1, biFields b1 b2 t Nmin N n2)) →
      ∃ s', biRectangularStep L1 L2 Bmax2 t s N = .ok s' ∧
        (if N + 1 = Nmin then s' = (0, []) else s' = (1, biFields b1 b2 t Nmin (N + 1) n2)) := by
    intro N s hN1 hN2 hP
    have e1 : pyDiv L2 Bmax2 = .ok (L2 / Bmax2) := pyDiv_ok hB.ne'
    have e2 : pyDiv L2 ((n2 - 1 : ℤ) : K) = .ok b2 := pyDiv_ok (cast_pred_pos hn2).ne'
    have e3 : pyDiv L1 ((N - 1 : ℤ) : K) = .ok (b1 N) := pyDiv_ok (cast_pred_pos (by omega)).ne'
    have m1 : ∀ N' : ℤ, 1 ≤ N' → (pyRange 1 N').mapM (fun i : ℤ => do
        let r ← rectangle i 1 (b1 N) b2
        pure (maybeTranspose t r)) = .ok ((pyRange 1 N').map fun i : ℤ =>
          maybeTranspose t (lattice i 1 (b1 N) b2 (0, 0))) := by
      intro N' _
      apply mapM_ok
      intro i hi
      rw [mem_pyRange] at hi
      rw [rectangle_ok (by omega) (by omega)]; rfl
    have m2 : (pyRange 1 n2).mapM (fun j : ℤ => do
        let r ← rectangle N j (b1 N) b2
        pure (maybeTranspose t r)) = .ok ((pyRange 1 n2).map fun j : ℤ =>
          maybeTranspose t (lattice N j (b1 N) b2 (0, 0))) := by
      apply mapM_ok
      intro i hi
      rw [mem_pyRange] at hi
      rw [rectangle_ok (by omega) (by omega)]; rfl
    have m3 : rectangle N n2 (b1 N) b2 = .ok (lattice N n2 (b1 N) b2 (0, 0)) :=
      rectangle_ok (by omega) (by omega) _ _ _
    refine ⟨(1, biFields b1 b2 t Nmin (N + 1) n2), ?_, ?_⟩
    · unfold biRectangularStep
      rw [e1, Except.ok_bind, ← hn2def]
      dsimp only
      rw [e2, Except.ok_bind, e3, Except.ok_bind]
      by_cases hc : N = Nmin
      · subst hc
        rw [if_pos rfl] at hP
        subst hP
        rw [if_pos rfl, m1 N (by omega), Except.ok_bind, m2, Except.ok_bind, Except.pure_eq,
          Except.ok_bind, m3]
        simp [biFields, pyRange_succ, pyRange_empty]
      · rw [if_neg hc] at hP
        subst hP
        rw [if_neg (by simp), Except.pure_eq, Except.ok_bind, m3]
        simp [biFields, pyRange_succ hN1]
    · rw [if_neg (by omega)]
  obtain ⟨s, hs, hP⟩ := foldlM_pyRange_inv
    (fun N s => if N = Nmin then s = (0, []) else s = (1, biFields b1 b2 t Nmin N n2))
    (by omega) step (s := (0, [])) (by simp)
  rw [if_neg (by omega)] at hP
  rw [hs, hP]

theorem sizes_biFields (b1 : ℤ → K) (b2 : K) (t : Bool) {Nmin N n2 : ℤ} (hN : 1 ≤ Nmin)
    (hn2 : 1 ≤ n2) : SizesStrictlyIncrease (biFields b1 b2 t Nmin N n2) := by
  unfold SizesStrictlyIncrease biFields
  rw [List.pairwise_append, List.pairwise_append]
  have len : ∀ i j : ℤ, ∀ x y : K, ((maybeTranspose t (lattice i j x y (0, 0))).length : ℤ)
      = (i.toNat : ℤ) * j.toNat := by
    intro i j x y; rw [length_maybeTranspose, length_lattice]; push_cast; rfl
  refine ⟨⟨?_, ?_, ?_⟩, ?_, ?_⟩
  · rw [List.pairwise_map]
    refine List.Pairwise.imp_of_mem ?_ (pyRange_pairwise _ _)
    intro a b ha hb hab
    rw [mem_pyRange] at ha hb
    zify; rw [len, len]; simp; omega
  · rw [List.pairwise_map]
    refine List.Pairwise.imp_of_mem ?_ (pyRange_pairwise _ _)
    intro a b ha hb hab
    rw [mem_pyRange] at ha hb
    zify; rw [len, len]
    have : (a.toNat : ℤ) < b.toNat := by omega
    have : 0 < (Nmin.toNat : ℤ) := by omega
    nlinarith
  · intro a ha b hb
    simp only [List.mem_map, mem_pyRange] at ha hb
    obtain ⟨i, hi, rfl⟩ := ha
    obtain ⟨j, hj, rfl⟩ := hb
    zify; rw [len, len]
    have e1 : ((1 : ℤ).toNat : ℤ) = 1 := rfl
    rw [e1]
    have : (1 : ℤ) ≤ j.toNat := by omega
    have : (i.toNat : ℤ) < Nmin.toNat := by omega
    nlinarith
  · rw [List.pairwise_map]
    refine List.Pairwise.imp_of_mem ?_ (pyRange_pairwise _ _)
    intro a b ha hb hab
    rw [mem_pyRange] at ha hb
    zify; rw [len, len]
    have : (a.toNat : ℤ) < b.toNat := by omega
    have : 0 < (n2.toNat : ℤ) := by omega
    nlinarith
  · intro a ha b hb
    rw [List.mem_append] at ha
    simp only [List.mem_map, mem_pyRange] at ha hb
    obtain ⟨k, hk, rfl⟩ := hb
    rcases ha with ⟨i, hi, rfl⟩ | ⟨j, hj, rfl⟩
    · zify; rw [len, len]
      have : (1 : ℤ) ≤ n2.toNat := by omega
      have : (i.toNat : ℤ) < k.toNat := by omega
      have : ((1 : ℤ).toNat : ℤ) = 1 := rfl
      rw [this]
      nlinarith
    · zify; rw [len, len]
      have : (j.toNat : ℤ) < n2.toNat := by omega
      have : (Nmin.toNat : ℤ) ≤ k.toNat := by omega
      have : (1 : ℤ) ≤ Nmin.toNat := by omega
      have : (0 : ℤ) ≤ j.toNat := by omega
      nlinarith

end floor
end Ghedt.Domains
