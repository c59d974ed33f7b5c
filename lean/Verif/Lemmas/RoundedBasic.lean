import Verif.Lemmas.Domains
import Verif.Model.RoundedDomains
import Verif.Spec.Near

/-! Rounded arithmetic, counts and grids. -/

set_option linter.unusedSectionVars false

namespace Ghedt.Rounded
open Coordinates Domains Spec

variable {K : Type} [Field K] [LinearOrder K] [IsStrictOrderedRing K] (R : Rounding K)

/-- unit roundoff -/
def ur : K := 1 / 2 ^ 53

theorem ur_pos : (0 : K) < ur := by unfold ur; positivity
theorem ur_le : (ur : K) ≤ 1 / 9000000000000000 := by
  unfold ur
  rw [div_le_div_iff_of_pos_left] <;> norm_num
theorem tiny_eq : (tiny : K) = 1 / 1000000000000000 := by unfold tiny; norm_num

theorem fl_le {x : K} (h : 0 ≤ x) : R.fl x ≤ (1 + ur) * x := by
  have := (abs_le.mp (R.err x)).2
  rw [abs_of_nonneg h] at this
  unfold ur; linarith

theorem le_fl {x : K} (h : 0 ≤ x) : (1 - ur) * x ≤ R.fl x := by
  have := (abs_le.mp (R.err x)).1
  rw [abs_of_nonneg h] at this
  unfold ur; linarith

theorem fl_nonneg {x : K} (h : 0 ≤ x) : 0 ≤ R.fl x := by
  have := le_fl R h
  have h1 := ur_le (K := K)
  exact le_trans (mul_nonneg (by linarith) h) this

theorem fl_pos {x : K} (h : 0 < x) : 0 < R.fl x := by
  have := le_fl R h.le
  have h1 := ur_le (K := K)
  exact lt_of_lt_of_le (mul_pos (by linarith) h) this

theorem fl_zero : R.fl 0 = 0 := by
  have := R.int 0 (by norm_num)
  simpa using this

theorem fl_one : R.fl 1 = 1 := by
  have := R.int 1 (by norm_num)
  simpa using this

theorem int_le_fl {n : ℤ} (hn : |n| ≤ 2 ^ 53) {x : K} (h : (n : K) ≤ x) : (n : K) ≤ R.fl x := by
  rw [← R.int n hn]; exact R.mono h

theorem fl_le_int {n : ℤ} (hn : |n| ≤ 2 ^ 53) {x : K} (h : x ≤ (n : K)) : R.fl x ≤ (n : K) := by
  rw [← R.int n hn]; exact R.mono h

theorem div_ok {a b : K} (h : b ≠ 0) : div R a b = .ok (R.fl (a / b)) := by
  unfold div; rw [if_neg h]

/-! ### counts -/

/-- `length / B + 1` as computed -/
def countOf (q : K) : K := R.fl (R.fl q + 1)

theorem countOf_mono {p q : K} (h : p ≤ q) : countOf R p ≤ countOf R q := by
  unfold countOf
  exact R.mono (by have := R.mono h; linarith)

theorem int_le_countOf {n : ℤ} (hn : 1 ≤ n) (hn' : n ≤ 2 ^ 53) {q : K} (h : (n : K) ≤ q + 1) :
    (n : K) ≤ countOf R q := by
  unfold countOf
  apply int_le_fl R (by rw [abs_le]; omega)
  have : ((n - 1 : ℤ) : K) ≤ R.fl q := int_le_fl R (by rw [abs_le]; omega) (by push_cast; linarith)
  push_cast at this
  linarith

theorem countOf_le_int {n : ℤ} (hn : 1 ≤ n) (hn' : n ≤ 2 ^ 53) {q : K} (h : q + 1 ≤ (n : K)) :
    countOf R q ≤ (n : K) := by
  unfold countOf
  apply fl_le_int R (by rw [abs_le]; omega)
  have : R.fl q ≤ ((n - 1 : ℤ) : K) := fl_le_int R (by rw [abs_le]; omega) (by push_cast; linarith)
  push_cast at this
  linarith

theorem one_le_countOf {q : K} (h : 0 ≤ q) : 1 ≤ countOf R q := by
  have := int_le_countOf R (n := 1) le_rfl (by norm_num) (q := q) (by push_cast; linarith)
  simpa using this

theorem one_lt_countOf {q : K} (h : tiny ≤ q) : 1 < countOf R q := by
  unfold countOf
  have h1 := ur_le (K := K)
  have h0 := ur_pos (K := K)
  rw [tiny_eq] at h
  have hq : 0 ≤ q := le_trans (by norm_num) h
  have a := le_fl R hq
  have b : (0 : K) ≤ R.fl q := fl_nonneg R hq
  have c := le_fl R (by linarith : 0 ≤ R.fl q + 1)
  have d : q / 2 ≤ R.fl q := by nlinarith
  nlinarith

theorem countOf_le {q : K} (h : 0 ≤ q) : countOf R q ≤ (1 + ur) * ((1 + ur) * q + 1) := by
  unfold countOf
  have h0 := ur_pos (K := K)
  have a := fl_le R h
  have b := fl_nonneg R h
  have c := fl_le R (by linarith : 0 ≤ R.fl q + 1)
  nlinarith

theorem le_countOf {q : K} (h : 0 ≤ q) : (1 - ur) * ((1 - ur) * q + 1) ≤ countOf R q := by
  unfold countOf
  have h0 := ur_pos (K := K)
  have h1 := ur_le (K := K)
  have a := le_fl R h
  have b := fl_nonneg R h
  have c := le_fl R (by linarith : 0 ≤ R.fl q + 1)
  nlinarith

/-- a count not above the computed one fits, up to rounding -/
theorem count_fits {q : K} (h : 0 ≤ q) {n : K} (hn : 2 ≤ n) (hle : n ≤ countOf R q) :
    (n - 1) ≤ (1 + 4 * ur) * q := by
  have h0 := ur_pos (K := K)
  have h1 := ur_le (K := K)
  have a := countOf_le R h
  have e : (n - 1) * (1 - ur) ≤ (1 + ur) ^ 2 * q := by nlinarith
  have f : (1 + ur) ^ 2 * q ≤ (1 + 4 * ur) * q * (1 - ur) := by
    have : (1 + ur : K) ^ 2 ≤ (1 + 4 * ur) * (1 - ur) := by nlinarith
    nlinarith
  have g : 0 < (1 - ur : K) := by linarith
  exact le_of_mul_le_mul_right (e.trans f) g

/-- a count not below the computed one is enough, up to rounding -/
theorem count_enough {q : K} (h : 0 ≤ q) {n : K} (hn : 2 ≤ n) (hle : countOf R q ≤ n) :
    q ≤ (1 + 4 * ur) * (n - 1) := by
  have h0 := ur_pos (K := K)
  have h1 := ur_le (K := K)
  have a := le_countOf R h
  have e : (1 - ur) ^ 2 * q ≤ (n - 1) * (1 + ur) := by nlinarith
  have f : (n - 1) * (1 + ur) ≤ (1 - ur) ^ 2 * ((1 + 4 * ur) * (n - 1)) := by
    have : (1 + ur : K) ≤ (1 - ur) ^ 2 * (1 + 4 * ur) := by
      have e1 : (0 : K) ≤ ur * (1 - 7 * ur) := mul_nonneg h0.le (by linarith)
      have e2 : (0 : K) < ur ^ 3 := pow_pos h0 3
      nlinarith
    nlinarith
  have g : 0 < (1 - ur : K) ^ 2 := pow_pos (by linarith) 2
  exact le_of_mul_le_mul_left (e.trans f) g

/-! ### grids -/

/-- the points of `rectangle` as computed -/
def rlattice (Nx Ny : ℤ) (Bx By : K) : List (K × K) :=
  (pyRange 0 Nx).flatMap fun i : ℤ => (pyRange 0 Ny).map fun j : ℤ => (R.fl ((i : K) * Bx), R.fl ((j : K) * By))

theorem length_rlattice (Nx Ny : ℤ) (Bx By : K) :
    (rlattice R Nx Ny Bx By).length = Nx.toNat * Ny.toNat := by
  unfold rlattice
  rw [length_flatMap_const _ _ Ny.toNat]
  · simp
  · intro a _; simp

theorem rectangle_ok {Nx Ny : ℤ} (hx : 0 ≤ Nx) (hy : 0 ≤ Ny) (Bx By : K) :
    rectangle R Nx Ny Bx By = .ok (rlattice R Nx Ny Bx By) := by
  have e : ∀ x : K, add R 0 (mul R x Bx) = R.fl (x * Bx) := fun x => by
    unfold add mul; rw [zero_add, R.idem]
  have e' : ∀ x : K, add R 0 (mul R x By) = R.fl (x * By) := fun x => by
    unfold add mul; rw [zero_add, R.idem]
  unfold rectangle
  simp only [e, e']
  have := length_rlattice R Nx Ny Bx By
  unfold rlattice at this ⊢
  rw [this, pyAssert, if_pos]
  · rfl
  · push_cast [Int.toNat_of_nonneg hx, Int.toNat_of_nonneg hy]; rfl

theorem fl_near {x : K} : |R.fl x - x| ≤ tiny * |x| := by
  refine (R.err x).trans (mul_le_mul_of_nonneg_right ?_ (abs_nonneg x))
  have := ur_le (K := K)
  unfold ur at this
  rw [tiny_eq]
  refine this.trans ?_
  norm_num

theorem forall₂_flatMap {α β γ : Type} {P : β → γ → Prop} {f : α → List β} {g : α → List γ} {l : List α}
    (h : ∀ a ∈ l, List.Forall₂ P (f a) (g a)) : List.Forall₂ P (l.flatMap f) (l.flatMap g) := by
  induction l with
  | nil => simp
  | cons a l ih =>
    rw [List.flatMap_cons, List.flatMap_cons]
    exact List.rel_append (h a (by simp)) (ih fun b hb => h b (by simp [hb]))

theorem near_rlattice (Nx Ny : ℤ) (Bx By : K) :
    Near (rlattice R Nx Ny Bx By) (lattice Nx Ny Bx By (0, 0)) := by
  unfold Near rlattice lattice
  apply forall₂_flatMap
  intro i _
  rw [List.forall₂_map_left_iff, List.forall₂_map_right_iff, List.forall₂_same]
  intro j _
  simp only [zero_add]
  exact ⟨fl_near R, fl_near R⟩

theorem near_maybeTranspose (t : Bool) {f g : List (K × K)} (h : Near f g) :
    Near (maybeTranspose t f) (maybeTranspose t g) := by
  cases t
  · exact h
  · unfold Near maybeTranspose transposeCoordinates at *
    simp only [if_true]
    rw [List.forall₂_map_left_iff, List.forall₂_map_right_iff]
    exact h.imp fun a b hab => ⟨hab.2, hab.1⟩

/-- the coordinates along an axis are distinct -/
theorem fl_mul_lt {B : K} (hB : 0 < B) {i j : ℤ} (hi : 0 ≤ i) (hij : i < j) (hj : j ≤ 2 ^ 51) :
    R.fl ((i : K) * B) < R.fl ((j : K) * B) := by
  have h0 := ur_pos (K := K)
  have h1 := ur_le (K := K)
  have hi' : (0 : K) ≤ i := by exact_mod_cast hi
  have hij' : (i : K) + 1 ≤ j := by exact_mod_cast hij
  have hj' : (j : K) ≤ 2 ^ 51 := by exact_mod_cast hj
  have a := fl_le R (mul_nonneg hi' hB.le)
  have b := le_fl R (mul_nonneg (hi'.trans (by linarith : (i : K) ≤ j)) hB.le)
  refine lt_of_le_of_lt a (lt_of_lt_of_le ?_ b)
  rw [← mul_assoc, ← mul_assoc]
  apply mul_lt_mul_of_pos_right _ hB
  have c : ur * (j : K) ≤ 1 / 4 := by
    have : ur * (j : K) ≤ ur * 2 ^ 51 := mul_le_mul_of_nonneg_left hj' h0.le
    refine this.trans ?_
    unfold ur
    norm_num
  nlinarith

theorem nodup_rlattice {Nx Ny : ℤ} (hx : Nx ≤ 2 ^ 51) (hy : Ny ≤ 2 ^ 51) {Bx By : K} (hBx : 0 < Bx) (hBy : 0 < By) :
    (rlattice R Nx Ny Bx By).Nodup := by
  have inj : ∀ {B : K} (_ : 0 < B) {N : ℤ} (_ : N ≤ 2 ^ 51) {i j : ℤ}, i ∈ pyRange 0 N → j ∈ pyRange 0 N →
      R.fl ((i : K) * B) = R.fl ((j : K) * B) → i = j := by
    intro B hB N hN i j hi hj h
    rw [mem_pyRange] at hi hj
    rcases lt_trichotomy i j with hlt | rfl | hlt
    · exact absurd h (fl_mul_lt R hB hi.1 hlt (by omega)).ne
    · rfl
    · exact absurd h (fl_mul_lt R hB hj.1 hlt (by omega)).ne'
  have nd : ∀ N : ℤ, (pyRange 0 N).Nodup := fun N => (pyRange_pairwise 0 N).imp fun h => h.ne
  unfold rlattice
  rw [List.nodup_flatMap]
  constructor
  · intro i _
    refine List.Nodup.map_on ?_ (nd _)
    intro a ha b hb hab
    simp only [Prod.mk.injEq] at hab
    exact inj hBy hy ha hb hab.2
  · refine List.Pairwise.imp_of_mem ?_ (nd _)
    intro a b ha hb hab p hp hq
    simp only [List.mem_map] at hp hq
    obtain ⟨j, _, rfl⟩ := hp
    obtain ⟨j', _, e⟩ := hq
    simp only [Prod.mk.injEq] at e
    exact hab (inj hBx hx ha hb e.1.symm)

theorem nodup_maybeTranspose (t : Bool) {f : List (K × K)} (h : f.Nodup) : (maybeTranspose t f).Nodup := by
  cases t
  · exact h
  · unfold maybeTranspose transposeCoordinates
    refine h.map ?_
    rintro ⟨a, b⟩ ⟨c, d⟩ he
    simp at he ⊢; exact ⟨he.2, he.1⟩

theorem rlattice_one (B C : K) : rlattice R 1 1 B C = [(0, 0)] := by
  have h : pyRange 0 1 = [0] := by decide
  simp [rlattice, h, fl_zero]

/-- a computed grid stays in a land whose sides the grid exceeds by rounding only -/
theorem rlattice_inLand {Nx Ny : ℤ} {Bx By Lx Ly : K} (hBx : 0 ≤ Bx) (hBy : 0 ≤ By)
    (hx : ((Nx : K) - 1) * Bx ≤ (1 + 5 * ur) * Lx) (hy : ((Ny : K) - 1) * By ≤ (1 + 5 * ur) * Ly)
    (hLx : 0 ≤ Lx) (hLy : 0 ≤ Ly) :
    ∀ p ∈ rlattice R Nx Ny Bx By, InLand ((1 + tiny) * Lx) ((1 + tiny) * Ly) p := by
  have key : ∀ {N i : ℤ} {B L : K}, 0 ≤ B → 0 ≤ L → ((N : K) - 1) * B ≤ (1 + 5 * ur) * L → 0 ≤ i → i < N →
      0 ≤ R.fl ((i : K) * B) ∧ R.fl ((i : K) * B) ≤ (1 + tiny) * L := by
    intro N i B L hB hL h h0 h1
    have u0 := ur_pos (K := K)
    have u1 := ur_le (K := K)
    have a1 : (0 : K) ≤ i := by exact_mod_cast h0
    have a2 : (i : K) + 1 ≤ N := by exact_mod_cast h1
    have hi : (i : K) * B ≤ (1 + 5 * ur) * L := le_trans (mul_le_mul_of_nonneg_right (by linarith) hB) h
    refine ⟨fl_nonneg R (mul_nonneg a1 hB), (fl_le R (mul_nonneg a1 hB)).trans ?_⟩
    have : (1 + ur) * ((i : K) * B) ≤ (1 + ur) * ((1 + 5 * ur) * L) :=
      mul_le_mul_of_nonneg_left hi (by linarith)
    refine this.trans ?_
    rw [← mul_assoc]
    apply mul_le_mul_of_nonneg_right _ hL
    rw [tiny_eq]
    nlinarith
  intro p hp
  unfold rlattice at hp
  simp only [List.mem_flatMap, List.mem_map, mem_pyRange] at hp
  obtain ⟨i, hi, j, hj, rfl⟩ := hp
  exact ⟨key hBx hLx hx hi.1 hi.2, key hBy hLy hy hj.1 hj.2⟩

end Ghedt.Rounded
