import Verif.Lemmas.RoundedBasic
import Verif.Lemmas.Shapes

/-! The outline, L, U, C and zoned shapes as computed. -/

set_option linter.unusedSectionVars false

namespace Ghedt.Rounded
open Coordinates Domains Spec

variable {K : Type} [Field K] [LinearOrder K] [IsStrictOrderedRing K] (R : Rounding K)

/-! ### accumulated relative errors -/

/-- `a` is `b` up to `k` roundings -/
def Rel (k : ℕ) (a b : K) : Prop := (1 - ur) ^ k * b ≤ a ∧ a ≤ (1 + ur) ^ k * b

theorem one_sub_ur_pos : (0 : K) < 1 - ur := by have := ur_le (K := K); linarith

theorem Rel.refl (a : K) : Rel 0 a a := by simp [Rel]

theorem Rel.nonneg {k : ℕ} {a b : K} (h : Rel k a b) (hb : 0 ≤ b) : 0 ≤ a :=
  (mul_nonneg (pow_nonneg one_sub_ur_pos.le k) hb).trans h.1

theorem Rel.pos {k : ℕ} {a b : K} (h : Rel k a b) (hb : 0 < b) : 0 < a :=
  (mul_pos (pow_pos one_sub_ur_pos k) hb).trans_le h.1

theorem Rel.fl {k : ℕ} {a b : K} (h : Rel k a b) (hb : 0 ≤ b) : Rel (k + 1) (R.fl a) b := by
  have ha := h.nonneg hb
  have u0 := ur_pos (K := K)
  constructor
  · refine le_trans ?_ (le_fl R ha)
    rw [pow_succ', mul_assoc]
    exact mul_le_mul_of_nonneg_left h.1 one_sub_ur_pos.le
  · refine (fl_le R ha).trans ?_
    rw [pow_succ', mul_assoc]
    exact mul_le_mul_of_nonneg_left h.2 (by linarith)

theorem Rel.mono {k l : ℕ} (hkl : k ≤ l) {a b : K} (h : Rel k a b) (hb : 0 ≤ b) : Rel l a b := by
  have u0 := ur_pos (K := K)
  have u1 := one_sub_ur_pos (K := K)
  constructor
  · refine le_trans (mul_le_mul_of_nonneg_right ?_ hb) h.1
    exact pow_le_pow_of_le_one u1.le (by linarith) hkl
  · refine h.2.trans (mul_le_mul_of_nonneg_right ?_ hb)
    exact pow_le_pow_right₀ (by linarith) hkl

theorem Rel.const_mul {k : ℕ} {a b c : K} (h : Rel k a b) (hc : 0 ≤ c) : Rel k (c * a) (c * b) := by
  constructor
  · have := mul_le_mul_of_nonneg_left h.1 hc; linarith
  · have := mul_le_mul_of_nonneg_left h.2 hc; linarith

theorem Rel.div_const {k : ℕ} {a b c : K} (h : Rel k a b) (hc : 0 < c) : Rel k (a / c) (b / c) := by
  constructor
  · rw [← mul_div_assoc]; exact div_le_div_of_nonneg_right h.1 hc.le
  · rw [← mul_div_assoc]; exact div_le_div_of_nonneg_right h.2 hc.le

theorem Rel.add {k : ℕ} {a b c d : K} (h : Rel k a b) (h' : Rel k c d) : Rel k (a + c) (b + d) := by
  constructor
  · have := add_le_add h.1 h'.1; linarith
  · have := add_le_add h.2 h'.2; linarith

theorem pow5_le : (1 + ur : K) ^ 5 ≤ 1 + 6 * ur := by
  have u0 := ur_pos (K := K)
  have u1 := ur_le (K := K)
  have h2 : (ur : K) ^ 2 ≤ ur / 1000 := by rw [pow_two]; nlinarith
  have h3 : (ur : K) ^ 3 ≤ ur / 1000 := by rw [pow_succ]; nlinarith
  have h4 : (ur : K) ^ 4 ≤ ur / 1000 := by rw [pow_succ]; nlinarith
  have h5 : (ur : K) ^ 5 ≤ ur / 1000 := by rw [pow_succ]; nlinarith
  have e : (1 + ur : K) ^ 5 = 1 + 5 * ur + 10 * ur ^ 2 + 10 * ur ^ 3 + 5 * ur ^ 4 + ur ^ 5 := by ring
  rw [e]; linarith

theorem le_pow5 : 1 - 6 * ur ≤ (1 - ur : K) ^ 5 := by
  have u0 := ur_pos (K := K)
  have u1 := ur_le (K := K)
  have h3 : (ur : K) ^ 3 ≤ ur ^ 2 := by rw [pow_succ]; nlinarith
  have h5 : (ur : K) ^ 5 ≤ ur ^ 2 := by
    have : (ur : K) ^ 5 = ur ^ 2 * ur ^ 3 := by ring
    rw [this]
    have : (ur : K) ^ 3 ≤ 1 := pow_le_one₀ u0.le (by linarith)
    nlinarith [pow_pos u0 2]
  have h2 : (ur : K) ^ 2 ≤ ur / 1000 := by rw [pow_two]; nlinarith
  have e : (1 - ur : K) ^ 5 = 1 - 5 * ur + 10 * ur ^ 2 - 10 * ur ^ 3 + 5 * ur ^ 4 - ur ^ 5 := by ring
  rw [e]
  nlinarith [pow_pos u0 4]

theorem Rel.near {k : ℕ} (hk : k ≤ 5) {a b : K} (h : Rel k a b) (hb : 0 ≤ b) : |a - b| ≤ tiny * |b| := by
  have h5 := h.mono hk hb
  have t : 6 * ur ≤ (tiny : K) := by have := ur_le (K := K); rw [tiny_eq]; linarith
  have u0 := ur_pos (K := K)
  have e1 : (1 + ur : K) ^ 5 * b ≤ (1 + 6 * ur) * b := mul_le_mul_of_nonneg_right pow5_le hb
  have e2 : (1 - 6 * ur) * b ≤ (1 - ur : K) ^ 5 * b := mul_le_mul_of_nonneg_right le_pow5 hb
  have e3 : 6 * ur * b ≤ tiny * b := mul_le_mul_of_nonneg_right (by linarith) hb
  rw [abs_of_nonneg hb, abs_le]
  constructor
  · linarith [h5.1]
  · linarith [h5.2]

/-! ### shapes -/

/-- whole-number point to coordinates as computed -/
def rPt (Bx By : K) (q : ℤ × ℤ) : K × K := (R.fl ((q.1 : K) * Bx), R.fl ((q.2 : K) * By))

theorem map_rOpen (Nx Ny : ℤ) (Bx By : K) : (openInts Nx Ny).map (rPt R Bx By) =
      ((pyRange 0 Nx).map fun i : ℤ => (mul R (i : K) Bx, (0 : K)))
      ++ ((pyRange 1 (Ny - 1)).flatMap fun j : ℤ =>
            [((0 : K), mul R (j : K) By), (mul R ((Nx - 1 : ℤ) : K) Bx, mul R (j : K) By)])
      ++ ((pyRange 0 Nx).map fun i : ℤ => (mul R (i : K) Bx, mul R ((Ny - 1 : ℤ) : K) By)) := by
  unfold openInts
  simp only [List.map_append, List.map_map, List.map_flatMap]
  congr 1
  · congr 1
    · apply List.map_congr_left; intro i _; simp [rPt, fl_zero, mul]
    · congr 1; funext j; simp [rPt, fl_zero, mul]

theorem map_rL (Nx Ny : ℤ) (Bx By : K) : (lInts Nx Ny).map (rPt R Bx By) =
      ((pyRange 0 Nx).map fun i : ℤ => (mul R (i : K) Bx, (0 : K)))
      ++ ((pyRange 1 Ny).map fun j : ℤ => ((0 : K), mul R (j : K) By)) := by
  unfold lInts
  simp only [List.map_append, List.map_map]
  congr 1
  · apply List.map_congr_left; intro i _; simp [rPt, fl_zero, mul]
  · apply List.map_congr_left; intro i _; simp [rPt, fl_zero, mul]

theorem map_rLopU (Nx Ny Ny2 : ℤ) (Bx By : K) : (lopUInts Nx Ny Ny2).map (rPt R Bx By) =
      ((pyRange 0 Nx).map fun i : ℤ => (mul R (i : K) Bx, (0 : K)))
      ++ ((pyRange 1 Ny).map fun j : ℤ => ((0 : K), mul R (j : K) By))
      ++ ((pyRange 1 Ny2).map fun j : ℤ => (mul R ((Nx - 1 : ℤ) : K) Bx, mul R (j : K) By)) := by
  unfold lopUInts
  rw [List.map_append, map_rL, List.map_map]
  rfl

theorem map_rC (Nx Ny Nx2 : ℤ) (Bx By : K) : (cInts Nx Ny Nx2).map (rPt R Bx By) =
      ((pyRange 0 Nx).map fun i : ℤ => (mul R (i : K) Bx, (0 : K)))
      ++ ((pyRange 1 Ny).map fun j : ℤ => ((0 : K), mul R (j : K) By))
      ++ ((pyRange 1 Ny).map fun j : ℤ => (mul R ((Nx - 1 : ℤ) : K) Bx, mul R (j : K) By))
      ++ ((pyRange 1 (Nx2 + 1)).map fun i : ℤ => (mul R (i : K) Bx, mul R ((Ny - 1 : ℤ) : K) By)) := by
  unfold cInts
  rw [List.map_append, map_rLopU, List.map_map]
  rfl

theorem openRectangle_hollow {Nx Ny : ℤ} (hx : 2 < Nx) (hy : 2 < Ny) (Bx By : K) :
    openRectangle R Nx Ny Bx By = .ok ((openInts Nx Ny).map (rPt R Bx By)) := by
  have hl : (((openInts Nx Ny).map (rPt R Bx By)).length : ℤ) = Ny * 2 + (Nx - 2) * 2 := by
    rw [List.length_map, length_openInts hx hy]
  rw [map_rOpen] at hl ⊢
  unfold openRectangle
  rw [if_pos ⟨hx, hy⟩]
  dsimp only
  rw [pyAssert_true hl]
  rfl

theorem lShape_ok {Nx Ny : ℤ} (hx : 0 ≤ Nx) (hy : 1 ≤ Ny) (Bx By : K) :
    lShape R Nx Ny Bx By = .ok ((lInts Nx Ny).map (rPt R Bx By)) := by
  have hl : (((lInts Nx Ny).map (rPt R Bx By)).length : ℤ) = Nx + Ny - 1 := by
    rw [List.length_map, length_lInts]; omega
  rw [map_rL] at hl ⊢
  unfold lShape
  dsimp only
  rw [pyAssert_true hl]
  rfl

theorem lopU_ok {Nx Ny Ny2 : ℤ} (hx : 0 ≤ Nx) (hy : 1 ≤ Ny) (hy2 : 1 ≤ Ny2) (Bx By : K) :
    lopU R Nx Ny Bx By Ny2 = .ok ((lopUInts Nx Ny Ny2).map (rPt R Bx By)) := by
  have hl : (((lopUInts Nx Ny Ny2).map (rPt R Bx By)).length : ℤ) = Nx + Ny - 1 + Ny2 - 1 := by
    rw [List.length_map, length_lopUInts]; omega
  rw [map_rLopU] at hl ⊢
  unfold lopU
  dsimp only
  rw [pyAssert_true hl]
  rfl

theorem cShape_ok {Nx1 Ny Nx2 : ℤ} (hx : 0 ≤ Nx1) (hy : 1 ≤ Ny) (hx2 : 0 ≤ Nx2) (Bx By : K) :
    cShape R Nx1 Ny Bx By Nx2 = .ok ((cInts Nx1 Ny Nx2).map (rPt R Bx By)) := by
  have hl : (((cInts Nx1 Ny Nx2).map (rPt R Bx By)).length : ℤ) = Nx1 + (Ny * 2) - 1 + Nx2 - 1 := by
    rw [List.length_map, length_cInts]; omega
  rw [map_rC] at hl ⊢
  unfold cShape
  dsimp only
  rw [pyAssert_true hl]
  rfl

/-- a shape computed with a rounded spacing -/
theorem near_shape {l : List (ℤ × ℤ)} (hl : ∀ q ∈ l, 0 ≤ q.1 ∧ 0 ≤ q.2) {Bx By : K} (hx : 0 ≤ Bx) (hy : 0 ≤ By) :
    Near (l.map (rPt R (R.fl Bx) (R.fl By))) (l.map (toPt Bx By)) := by
  unfold Near
  rw [List.forall₂_map_left_iff, List.forall₂_map_right_iff, List.forall₂_same]
  intro q hq
  obtain ⟨h1, h2⟩ := hl q hq
  have c1 : (0 : K) ≤ (q.1 : K) := by exact_mod_cast h1
  have c2 : (0 : K) ≤ (q.2 : K) := by exact_mod_cast h2
  have key : ∀ {B c : K}, 0 ≤ B → 0 ≤ c → |R.fl (c * R.fl B) - c * B| ≤ tiny * |c * B| := by
    intro B c hB hc
    exact ((((Rel.refl B).fl R hB).const_mul hc).fl R (mul_nonneg hc hB)).near (by norm_num) (mul_nonneg hc hB)
  exact ⟨key hx c1, key hy c2⟩

theorem rPt_inj {Bx By : K} (hx : 0 < Bx) (hy : 0 < By) {p q : ℤ × ℤ} (hp : 0 ≤ p.1 ∧ 0 ≤ p.2) (hq : 0 ≤ q.1 ∧ 0 ≤ q.2)
    (hp' : p.1 ≤ 2 ^ 51 ∧ p.2 ≤ 2 ^ 51) (hq' : q.1 ≤ 2 ^ 51 ∧ q.2 ≤ 2 ^ 51) (h : rPt R Bx By p = rPt R Bx By q) :
    p = q := by
  simp only [rPt, Prod.mk.injEq] at h
  have key : ∀ {B : K} (_ : 0 < B) {i j : ℤ}, 0 ≤ i → 0 ≤ j → i ≤ 2 ^ 51 → j ≤ 2 ^ 51 →
      R.fl ((i : K) * B) = R.fl ((j : K) * B) → i = j := by
    intro B hB i j hi hj hi' hj' h
    rcases lt_trichotomy i j with hlt | rfl | hlt
    · exact absurd h (fl_mul_lt R hB hi hlt hj').ne
    · rfl
    · exact absurd h (fl_mul_lt R hB hj hlt hi').ne'
  exact Prod.ext (key hx hp.1 hq.1 hp'.1 hq'.1 h.1) (key hy hp.2 hq.2 hp'.2 hq'.2 h.2)

theorem nodup_shape {l : List (ℤ × ℤ)} (hnd : l.Nodup) (hl : ∀ q ∈ l, 0 ≤ q.1 ∧ 0 ≤ q.2)
    (hl' : ∀ q ∈ l, q.1 ≤ 2 ^ 51 ∧ q.2 ≤ 2 ^ 51) {Bx By : K} (hx : 0 < Bx) (hy : 0 < By) :
    (l.map (rPt R Bx By)).Nodup :=
  List.Nodup.map_on (fun p hp q hq h => rPt_inj R hx hy (hl p hp) (hl q hq) (hl' p hp) (hl' q hq) h) hnd

/-! ### the interior of a zoned field -/

/-- the `j`-th coordinate of the interior along one side -/
def rIn (B : K) (j : ℤ) : K := R.fl (B + R.fl ((j : K) * B))

theorem rel_rIn {k : ℕ} {B B' : K} (h : Rel k B B') (hB : 0 ≤ B') {j : ℤ} (hj : 0 ≤ j) :
    Rel (k + 2) (rIn R B j) (B' + (j : K) * B') := by
  have c : (0 : K) ≤ (j : K) := by exact_mod_cast hj
  have h1 := (h.const_mul c).fl R (mul_nonneg c hB)
  have h2 := (h.mono (Nat.le_succ k) hB).add h1
  exact h2.fl R (add_nonneg hB (mul_nonneg c hB))

theorem sq_gap {i j : K} (hi : 1 ≤ i) (hij : i + 1 ≤ j) (hj : j ≤ 2 ^ 50) : (1 + ur : K) ^ 3 * i < (1 - ur) ^ 2 * j := by
  have u0 := ur_pos (K := K)
  have u1 := ur_le (K := K)
  have c : ur * j ≤ 1 / 8 := by
    have : ur * j ≤ ur * 2 ^ 50 := mul_le_mul_of_nonneg_left hj u0.le
    refine this.trans ?_
    unfold ur
    norm_num
  have h2 : (ur : K) ^ 2 ≤ ur / 1000 := by rw [pow_two]; nlinarith
  have h3 : (ur : K) ^ 3 ≤ ur / 1000 := by rw [pow_succ]; nlinarith
  have a : (1 + ur : K) ^ 3 ≤ 1 + 4 * ur := by
    have e : (1 + ur : K) ^ 3 = 1 + 3 * ur + 3 * ur ^ 2 + ur ^ 3 := by ring
    rw [e]; linarith
  have b : 1 - 2 * ur ≤ (1 - ur : K) ^ 2 := by nlinarith [pow_pos u0 2]
  have a' : (1 + ur : K) ^ 3 * i ≤ (1 + 4 * ur) * i := mul_le_mul_of_nonneg_right a (by linarith)
  have b' : (1 - 2 * ur) * j ≤ (1 - ur : K) ^ 2 * j := mul_le_mul_of_nonneg_right b (by linarith)
  have hi' : ur * i ≤ ur * j := mul_le_mul_of_nonneg_left (by linarith) u0.le
  linarith

theorem rIn_lt {B : K} (hB : 0 < B) {i j : ℤ} (hi : 0 ≤ i) (hij : i < j) (hj : j + 1 ≤ 2 ^ 50) :
    rIn R B i < rIn R B j := by
  have hi' : (0 : K) ≤ i := by exact_mod_cast hi
  have hij' : (i : K) + 1 ≤ j := by exact_mod_cast hij
  have hj' : (j : K) + 1 ≤ 2 ^ 50 := by exact_mod_cast hj
  have u0 := ur_pos (K := K)
  have a := ((rel_rIn R (Rel.refl B) hB.le hi).mono (by norm_num : 0 + 2 ≤ 3)
    (add_nonneg hB.le (mul_nonneg hi' hB.le))).2
  have b := (rel_rIn R (Rel.refl B) hB.le (hi.trans hij.le)).1
  have g := sq_gap (K := K) (i := (i : K) + 1) (j := (j : K) + 1) (by linarith) (by linarith) hj'
  have := mul_lt_mul_of_pos_right g hB
  rw [zero_add] at b
  calc rIn R B i ≤ (1 + ur) ^ 3 * (B + (i : K) * B) := a
    _ = (1 + ur) ^ 3 * ((i : K) + 1) * B := by ring
    _ < (1 - ur) ^ 2 * ((j : K) + 1) * B := this
    _ = (1 - ur) ^ 2 * (B + (j : K) * B) := by ring
    _ ≤ _ := b

theorem rIn_pos {B : K} (hB : 0 < B) {i : ℤ} (hi : 0 ≤ i) : 0 < rIn R B i := by
  have hi' : (0 : K) ≤ i := by exact_mod_cast hi
  exact (rel_rIn R (Rel.refl B) hB.le hi).pos (by nlinarith)

/-- the interior stays below the far side -/
theorem rIn_lt_side {W : K} (hW : 0 < W) {m i : ℤ} (hi : 0 ≤ i) (him : i < m) (hm : m + 1 ≤ 2 ^ 50) :
    rIn R (R.fl (W / ((m + 1 : ℤ) : K))) i < W := by
  have hi' : (0 : K) ≤ i := by exact_mod_cast hi
  have him' : (i : K) + 1 ≤ m := by exact_mod_cast him
  have pm : (0 : K) < ((m + 1 : ℤ) : K) := by exact_mod_cast (by omega : 0 < m + 1)
  have hm' : ((m + 1 : ℤ) : K) ≤ 2 ^ 50 := by exact_mod_cast hm
  have u0 := ur_pos (K := K)
  have hq := div_pos hW pm
  have a := (rel_rIn R ((Rel.refl (W / ((m + 1 : ℤ) : K))).fl R hq.le) hq.le hi).2
  have g := sq_gap (K := K) (i := (i : K) + 1) (j := ((m + 1 : ℤ) : K)) (by linarith) (by push_cast; linarith) hm'
  have s : (1 - ur : K) ^ 2 ≤ 1 := pow_le_one₀ one_sub_ur_pos.le (by linarith)
  have g' : (1 + ur : K) ^ 3 * ((i : K) + 1) < ((m + 1 : ℤ) : K) :=
    g.trans_le (by have := mul_le_mul_of_nonneg_right s pm.le; linarith)
  refine a.trans_lt ?_
  have e : (1 + ur : K) ^ (0 + 1 + 2) * (W / ((m + 1 : ℤ) : K) + (i : K) * (W / ((m + 1 : ℤ) : K))) =
      ((1 + ur : K) ^ 3 * ((i : K) + 1)) * W / ((m + 1 : ℤ) : K) := by
    field_simp
    ring
  rw [e, div_lt_iff₀ pm, mul_comm W]
  exact mul_lt_mul_of_pos_right g' hW

/-- the interior as computed -/
def rInner (Nix Niy : ℤ) (Bix Biy : K) : List (K × K) :=
  (pyRange 0 Nix).flatMap fun i : ℤ => (pyRange 0 Niy).map fun j : ℤ => (rIn R Bix i, rIn R Biy j)

theorem length_rInner (Nx Ny : ℤ) (Bx By : K) :
    (rInner R Nx Ny Bx By).length = Nx.toNat * Ny.toNat := by
  unfold rInner
  rw [length_flatMap_const _ _ Ny.toNat]
  · simp
  · intro a _; simp

theorem rectangle_inner {Nx Ny : ℤ} (hx : 0 ≤ Nx) (hy : 0 ≤ Ny) (Bx By : K) :
    rectangle R Nx Ny Bx By (Bx, By) = .ok (rInner R Nx Ny Bx By) := by
  unfold rectangle
  have := length_rInner R Nx Ny Bx By
  unfold rInner rIn at this ⊢
  unfold add mul
  dsimp only
  rw [this, pyAssert, if_pos]
  · rfl
  · push_cast [Int.toNat_of_nonneg hx, Int.toNat_of_nonneg hy]; rfl

/-- spacing of the interior along one side, as computed -/
def rBi (N Ni : ℤ) (B : K) : K := R.fl (R.fl (((N - 1 : ℤ) : K) * B) / ((Ni + 1 : ℤ) : K))

/-- a zoned field as computed -/
def rZoned (Nx Ny : ℤ) (Bx By : K) (Nix Niy : ℤ) : List (K × K) :=
  (openInts Nx Ny).map (rPt R Bx By) ++ rInner R Nix Niy (rBi R Nx Nix Bx) (rBi R Ny Niy By)

theorem zonedRectangle_ok {Nx Ny Nix Niy : ℤ} (hix : 1 ≤ Nix) (hiy : 1 ≤ Niy) (h1 : Nix ≤ Nx - 2) (h2 : Niy ≤ Ny - 2)
    (Bx By : K) : zonedRectangle R Nx Ny Bx By Nix Niy = .ok (rZoned R Nx Ny Bx By Nix Niy) := by
  have e1 : ((Nix + 1 : ℤ) : K) ≠ 0 := by exact_mod_cast (by omega : Nix + 1 ≠ 0)
  have e2 : ((Niy + 1 : ℤ) : K) ≠ 0 := by exact_mod_cast (by omega : Niy + 1 ≠ 0)
  unfold zonedRectangle
  rw [if_neg (by omega), if_neg (by omega), openRectangle_hollow R (by omega) (by omega), div_ok R e1, div_ok R e2]
  simp only [Except.ok_bind, Except.pure_eq]
  rw [rectangle_inner R (by omega) (by omega)]
  rfl

theorem exact_zoned {Nx Ny Nix Niy : ℤ} (hix : 1 ≤ Nix) (hiy : 1 ≤ Niy) (h1 : Nix ≤ Nx - 2) (h2 : Niy ≤ Ny - 2)
    (Bx By : K) : Coordinates.zonedRectangle Nx Ny Bx By Nix Niy =
      .ok ((openInts Nx Ny).map (toPt Bx By) ++
        lattice Nix Niy (((Nx - 1 : ℤ) : K) * Bx / ((Nix + 1 : ℤ) : K)) (((Ny - 1 : ℤ) : K) * By / ((Niy + 1 : ℤ) : K))
          (((Nx - 1 : ℤ) : K) * Bx / ((Nix + 1 : ℤ) : K), ((Ny - 1 : ℤ) : K) * By / ((Niy + 1 : ℤ) : K))) := by
  have e1 : ((Nix + 1 : ℤ) : K) ≠ 0 := by exact_mod_cast (by omega : Nix + 1 ≠ 0)
  have e2 : ((Niy + 1 : ℤ) : K) ≠ 0 := by exact_mod_cast (by omega : Niy + 1 ≠ 0)
  unfold Coordinates.zonedRectangle
  rw [if_neg (by omega), if_neg (by omega), Coordinates.openRectangle_hollow (by omega) (by omega), pyDiv_ok e1,
    pyDiv_ok e2]
  simp only [Except.ok_bind, Except.pure_eq]
  rw [Coordinates.rectangle_ok (by omega) (by omega)]
  rfl

/-- a computed zoned field is the exact one up to rounding -/
theorem near_rZoned {Nx Ny Nix Niy : ℤ} (hix : 1 ≤ Nix) (hiy : 1 ≤ Niy) (h1 : Nix ≤ Nx - 2) (h2 : Niy ≤ Ny - 2)
    {Bx By : K} (hx : 0 < Bx) (hy : 0 < By) :
    ∃ g, Coordinates.zonedRectangle Nx Ny Bx By Nix Niy = .ok g ∧
      Near (rZoned R Nx Ny (R.fl Bx) (R.fl By) Nix Niy) g := by
  refine ⟨_, exact_zoned hix hiy h1 h2 Bx By, ?_⟩
  unfold Near rZoned
  refine List.rel_append (near_shape R ?_ hx.le hy.le) ?_
  · intro q hq
    rw [mem_openInts (by omega) (by omega)] at hq
    exact ⟨hq.1.1, hq.2.1.1⟩
  · unfold rInner lattice
    have key : ∀ {N Ni i : ℤ} {B : K}, 1 ≤ Ni → Ni ≤ N - 2 → 0 < B → 0 ≤ i →
        |rIn R (rBi R N Ni (R.fl B)) i - (((N - 1 : ℤ) : K) * B / ((Ni + 1 : ℤ) : K) +
          (i : K) * (((N - 1 : ℤ) : K) * B / ((Ni + 1 : ℤ) : K)))| ≤ tiny * |((N - 1 : ℤ) : K) * B / ((Ni + 1 : ℤ) : K) +
          (i : K) * (((N - 1 : ℤ) : K) * B / ((Ni + 1 : ℤ) : K))| := by
      intro N Ni i B hNi hN hB hi
      have pn : (0 : K) < ((N - 1 : ℤ) : K) := by exact_mod_cast (by omega : 0 < N - 1)
      have pi : (0 : K) < ((Ni + 1 : ℤ) : K) := by exact_mod_cast (by omega : 0 < Ni + 1)
      have c : (0 : K) ≤ (i : K) := by exact_mod_cast hi
      have r1 := ((Rel.refl B).fl R hB.le).const_mul pn.le
      have r2 := (r1.fl R (mul_pos pn hB).le).div_const pi
      have r3 := r2.fl R (div_pos (mul_pos pn hB) pi).le
      have r4 := rel_rIn R r3 (div_pos (mul_pos pn hB) pi).le hi
      refine Rel.near (by norm_num) r4 ?_
      have := (div_pos (mul_pos pn hB) pi).le
      exact add_nonneg this (mul_nonneg c this)
    apply forall₂_flatMap
    intro i hi
    rw [mem_pyRange] at hi
    rw [List.forall₂_map_left_iff, List.forall₂_map_right_iff, List.forall₂_same]
    intro j hj
    rw [mem_pyRange] at hj
    exact ⟨key hix h1 hx hi.1, key hiy h2 hy hj.1⟩

theorem nodup_rInner {Nix Niy : ℤ} (hx : Nix ≤ 2 ^ 50) (hy : Niy ≤ 2 ^ 50) {Bx By : K} (hBx : 0 < Bx) (hBy : 0 < By) :
    (rInner R Nix Niy Bx By).Nodup := by
  have inj : ∀ {B : K} (_ : 0 < B) {N : ℤ} (_ : N ≤ 2 ^ 50) {i j : ℤ}, i ∈ pyRange 0 N → j ∈ pyRange 0 N →
      rIn R B i = rIn R B j → i = j := by
    intro B hB N hN i j hi hj h
    rw [mem_pyRange] at hi hj
    rcases lt_trichotomy i j with hlt | rfl | hlt
    · exact absurd h (rIn_lt R hB hi.1 hlt (by omega)).ne
    · rfl
    · exact absurd h (rIn_lt R hB hj.1 hlt (by omega)).ne'
  unfold rInner
  rw [List.nodup_flatMap]
  constructor
  · intro i _
    refine List.Nodup.map_on ?_ (nodup_pyRange _ _)
    intro a ha b hb hab
    simp only [Prod.mk.injEq] at hab
    exact inj hBy hy ha hb hab.2
  · refine List.Pairwise.imp_of_mem ?_ (nodup_pyRange _ _)
    intro a b ha hb hab p hp hq
    simp only [List.mem_map] at hp hq
    obtain ⟨j, _, rfl⟩ := hp
    obtain ⟨j', _, e⟩ := hq
    simp only [Prod.mk.injEq] at e
    exact hab (inj hBx hx ha hb e.1.symm)

/-- no two boreholes of a computed zoned field coincide -/
theorem nodup_rZoned {Nx Ny Nix Niy : ℤ} (hix : 1 ≤ Nix) (hiy : 1 ≤ Niy) (h1 : Nix ≤ Nx - 2) (h2 : Niy ≤ Ny - 2)
    (hNx : Nx ≤ 2 ^ 50) (hNy : Ny ≤ 2 ^ 50) {Bx By : K} (hx : 0 < Bx) (hy : 0 < By) :
    (rZoned R Nx Ny Bx By Nix Niy).Nodup := by
  have pnx : (0 : K) < ((Nx - 1 : ℤ) : K) := by exact_mod_cast (by omega : 0 < Nx - 1)
  have pny : (0 : K) < ((Ny - 1 : ℤ) : K) := by exact_mod_cast (by omega : 0 < Ny - 1)
  have pix : (0 : K) < ((Nix + 1 : ℤ) : K) := by exact_mod_cast (by omega : 0 < Nix + 1)
  have piy : (0 : K) < ((Niy + 1 : ℤ) : K) := by exact_mod_cast (by omega : 0 < Niy + 1)
  have hWx := fl_pos R (mul_pos pnx hx)
  have hWy := fl_pos R (mul_pos pny hy)
  have hbx : 0 < rBi R Nx Nix Bx := fl_pos R (div_pos hWx pix)
  have hby : 0 < rBi R Ny Niy By := fl_pos R (div_pos hWy piy)
  unfold rZoned
  rw [List.nodup_append]
  refine ⟨nodup_shape R (nodup_openInts (by omega) (by omega)) ?_ ?_ hx hy,
    nodup_rInner R (by omega) (by omega) hbx hby, ?_⟩
  · intro q hq
    rw [mem_openInts (by omega) (by omega)] at hq
    exact ⟨hq.1.1, hq.2.1.1⟩
  · intro q hq
    rw [mem_openInts (by omega) (by omega)] at hq
    have := hq.1.2
    have := hq.2.1.2
    constructor <;> linarith
  · rintro p hp p' hp' rfl
    rw [List.mem_map] at hp
    obtain ⟨q, hq, rfl⟩ := hp
    rw [mem_openInts (by omega) (by omega)] at hq
    unfold rInner at hp'
    simp only [List.mem_flatMap, List.mem_map, mem_pyRange] at hp'
    obtain ⟨i, hi, j, hj, e⟩ := hp'
    simp only [rPt, Prod.mk.injEq] at e
    have ax := rIn_pos R hbx hi.1
    have ay := rIn_pos R hby hj.1
    have bx := rIn_lt_side R hWx hi.1 hi.2 (by omega)
    have bY := rIn_lt_side R hWy hj.1 hj.2 (by omega)
    unfold rBi at e ax ay
    rcases hq.2.2 with h | h | h | h
    · rw [e.1, h] at ax
      simp [fl_zero] at ax
    · rw [e.1, h] at bx
      exact lt_irrefl _ bx
    · rw [e.2, h] at ay
      simp [fl_zero] at ay
    · rw [e.2, h] at bY
      exact lt_irrefl _ bY

end Ghedt.Rounded
