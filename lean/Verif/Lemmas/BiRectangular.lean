import Verif.Lemmas.Rectangular

set_option linter.unusedSectionVars false

namespace Ghedt.Domains
open Coordinates Spec

variable {K : Type} [Field K] [LinearOrder K] [IsStrictOrderedRing K] [FloorRing K]

theorem biFields_good {L1 L2 Bmin Bmax1 Bmax2 : K} (h1 : 0 < L1) (h2 : 0 < L2) (hBmin : 0 < Bmin)
    (hB1 : 0 < Bmax1) (hB2 : 0 < Bmax2) (t : Bool) :
    ∀ f ∈ biFields (fun n => L1 / ((n - 1 : ℤ) : K)) (L2 / ((⌈L2 / Bmax2 + 1⌉ - 1 : ℤ) : K)) t
        ⌈L1 / Bmax1 + 1⌉ (⌊L1 / Bmin + 1⌋ + 1) ⌈L2 / Bmax2 + 1⌉,
      ⌈L1 / Bmax1 + 1⌉ ≤ ⌊L1 / Bmin + 1⌋ →
      ∃ (n1 n2 : ℤ) (b1 : K), OGrid t n1 n2 b1 (L2 / ((⌈L2 / Bmax2 + 1⌉ - 1 : ℤ) : K)) f ∧
        Bmin ≤ b1 ∧ b1 ≤ Bmax1 ∧ ((n1 : K) - 1) * b1 ≤ L1 ∧
        ((n2 : K) - 1) * (L2 / ((⌈L2 / Bmax2 + 1⌉ - 1 : ℤ) : K)) ≤ L2 := by
  intro f hf hle
  have hn1 : 2 ≤ ⌈L1 / Bmax1 + 1⌉ := two_le_ceil (div_pos h1 hB1)
  have hn2 : 2 ≤ ⌈L2 / Bmax2 + 1⌉ := two_le_ceil (div_pos h2 hB2)
  set n2 := ⌈L2 / Bmax2 + 1⌉
  set Nmin := ⌈L1 / Bmax1 + 1⌉
  set b2 := L2 / ((n2 - 1 : ℤ) : K)
  have hb2 : 0 < b2 := div_pos h2 (cast_pred_pos hn2)
  have key : ∀ N i j : ℤ, Nmin ≤ N → N ≤ ⌊L1 / Bmin + 1⌋ → 1 ≤ i → i ≤ N → 1 ≤ j → j ≤ n2 →
      ∃ (n1 n2 : ℤ) (b1 : K), OGrid t n1 n2 b1 b2
        (maybeTranspose t (lattice i j (L1 / ((N - 1 : ℤ) : K)) b2 (0, 0))) ∧
        Bmin ≤ b1 ∧ b1 ≤ Bmax1 ∧ ((n1 : K) - 1) * b1 ≤ L1 ∧ ((n2 : K) - 1) * b2 ≤ L2 := by
    intro N i j hN hN' hi hi' hj hj'
    have hN2 : 2 ≤ N := by omega
    have hb1 : 0 < L1 / ((N - 1 : ℤ) : K) := div_pos h1 (cast_pred_pos hN2)
    refine ⟨i, j, _, ogrid_lattice t hi hj hb1 hb2, le_spacing h1 hBmin hN' hN2,
      spacing_le h1 hB1 hN, ?_, ?_⟩
    · have e := mul_spacing (L := L1) hN2
      have : (i : K) ≤ N := by exact_mod_cast hi'
      push_cast at e hb1 ⊢
      nlinarith
    · have e := mul_spacing (L := L2) hn2
      have : (j : K) ≤ n2 := by exact_mod_cast hj'
      have e' : ((n2 : K) - 1) * b2 = L2 := by push_cast at e; simpa [b2] using e
      nlinarith
  simp only [biFields, List.mem_append, List.mem_map, mem_pyRange] at hf
  rcases hf with (⟨i, hi, rfl⟩ | ⟨j, hj, rfl⟩) | ⟨n, hn, rfl⟩
  · exact key Nmin i 1 le_rfl hle (by omega) (by omega) le_rfl (by omega)
  · exact key Nmin Nmin j le_rfl hle (by omega) le_rfl (by omega) (by omega)
  · exact key n n n2 (by omega) (by omega) (by omega) le_rfl (by omega) le_rfl

theorem head_biFields (b1 : ℤ → K) (b2 : K) (t : Bool) {Nmin N n2 : ℤ} (h : 2 ≤ Nmin) :
    (biFields b1 b2 t Nmin N n2).head? = some [(0, 0)] := by
  unfold biFields
  rw [pyRange_cons (by omega : (1 : ℤ) < Nmin)]
  simp [lattice_one, maybeTranspose_origin]

/-- the last field is the full `Nmax × n2` grid -/
theorem last_biFields (b1 : ℤ → K) (b2 : K) (t : Bool) {Nmin Nmax n2 : ℤ} (h : Nmin ≤ Nmax) :
    (biFields b1 b2 t Nmin (Nmax + 1) n2).getLast? =
      some (maybeTranspose t (lattice Nmax n2 (b1 Nmax) b2 (0, 0))) := by
  unfold biFields
  rw [pyRange_succ h]
  simp

theorem length_biFields (b1 : ℤ → K) (b2 : K) (t : Bool) {Nmin Nmax n2 : ℤ} (h : Nmin ≤ Nmax)
    (h1 : 1 ≤ Nmin) (h2 : 1 ≤ n2) :
    ((biFields b1 b2 t Nmin (Nmax + 1) n2).length : ℤ) = Nmax + n2 - 1 := by
  unfold biFields
  simp; omega

/-- `bi_rectangular` with the sides already ordered -/
theorem biRectangular_ordered {L1 L2 Bmin Bmax1 Bmax2 : K} (h1 : 0 < L1) (h2 : 0 < L2)
    (h12 : L2 ≤ L1) (hBmin : 0 < Bmin) (hB1 : 0 < Bmax1) (hB2 : 0 < Bmax2) (t : Bool) :
    biRectangular L1 L2 Bmin Bmax1 Bmax2 t = .ok
      (if ⌈L1 / Bmax1 + 1⌉ ≤ ⌊L1 / Bmin + 1⌋ then
        biFields (fun n => L1 / ((n - 1 : ℤ) : K)) (L2 / ((⌈L2 / Bmax2 + 1⌉ - 1 : ℤ) : K)) t
          ⌈L1 / Bmax1 + 1⌉ (⌊L1 / Bmin + 1⌋ + 1) ⌈L2 / Bmax2 + 1⌉ else []) := by
  unfold biRectangular
  rw [if_pos h12]
  dsimp only
  rw [pyDiv_ok hBmin.ne', Except.ok_bind, pyDiv_ok hB1.ne', Except.ok_bind]
  split
  · rename_i hle
    rw [biRectangular_fold h1 h2 hB2 t (two_le_ceil (div_pos h1 hB1)) hle]
    rfl
  · rename_i hle
    rw [pyRange_empty (by omega)]
    rfl

theorem biRectangular_swap {X Y Bmin BX BY : K} (h : X < Y) (t : Bool) :
    biRectangular X Y Bmin BX BY t = biRectangular Y X Bmin BY BX t := by
  unfold biRectangular
  rw [if_neg (not_le.mpr h), if_pos h.le]

theorem ceil_self {L : K} (hL : 0 < L) {n : ℤ} (hn : 2 ≤ n) :
    ⌈L / (L / ((n - 1 : ℤ) : K)) + 1⌉ = n := by
  have := (cast_pred_pos (K := K) hn).ne'
  have e : L / (L / ((n - 1 : ℤ) : K)) + 1 = (n : K) := by
    have h := hL.ne'
    field_simp
    push_cast; ring
  rw [e, Int.ceil_intCast]

end Ghedt.Domains
