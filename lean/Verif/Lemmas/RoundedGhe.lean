import Verif.Model.RoundedGhe
import Verif.Lemmas.RoundedHybridBounds
import Verif.Lemmas.GroundHeatExchangers

set_option linter.unusedSectionVars false

/-!
# The simulation of an exchanger in floating-point arithmetic: error bounds
-/

namespace Ghedt.Rounded
open GHE Spec
variable {K : Type} [Field K] [LinearOrder K] [IsStrictOrderedRing K]

/-- what `k` roundings do to something of size 1 -/
def grow (k : ℕ) : K := (1 + ur) ^ k - 1

theorem grow_zero : (grow 0 : K) = 0 := by simp [grow]

theorem grow_nonneg (k : ℕ) : (0 : K) ≤ grow k := by
  unfold grow
  have := one_le_pow₀ (a := (1 + ur : K)) (by have := ur_pos (K := K); linarith) (n := k)
  linarith

theorem grow_mono {k m : ℕ} (h : k ≤ m) : (grow k : K) ≤ grow m := by
  unfold grow
  have := pow_le_pow_right₀ (a := (1 + ur : K)) (by have := ur_pos (K := K); linarith) h
  linarith

theorem grow_add (k m : ℕ) : (1 + grow (k + m) : K) = (1 + grow k) * (1 + grow m) := by
  unfold grow
  rw [pow_add]
  ring

theorem grow_one : (grow 1 : K) = ur := by simp [grow]

theorem grow_le {k : ℕ} (h : k ≤ 2 ^ 52) : (grow k : K) ≤ k / 2 ^ 52 := by
  have key : ∀ k : ℕ, k ≤ 2 ^ 52 → (1 + ur : K) ^ k ≤ 1 + 2 * k * ur := by
    intro k
    induction k with
    | zero => intro; simp
    | succ k ih =>
      intro h
      have h1 := ih (by omega)
      have h0 := ur_pos (K := K)
      have h2 : (2 * k * ur : K) ≤ 1 := by
        have : (k : K) ≤ 2 ^ 52 := by exact_mod_cast (by omega : k ≤ 2 ^ 52)
        unfold ur
        have : (2 * k * (1 / 2 ^ 53) : K) ≤ 2 * 2 ^ 52 * (1 / 2 ^ 53) := by
          apply mul_le_mul_of_nonneg_right _ (by positivity)
          linarith
        refine this.trans (by norm_num)
      rw [pow_succ]
      push_cast
      calc (1 + ur : K) ^ k * (1 + ur) ≤ (1 + 2 * k * ur) * (1 + ur) :=
            mul_le_mul_of_nonneg_right h1 (by linarith)
        _ ≤ 1 + 2 * (k + 1) * ur := by nlinarith
  have := key k h
  unfold grow
  have e : (2 * k * ur : K) = k / 2 ^ 52 := by unfold ur; norm_num; ring
  linarith

/-- `x'` is `x` after `k` roundings of something of size `X` -/
def Off (k : ℕ) (x' x X : K) : Prop := |x' - x| ≤ grow k * X ∧ |x| ≤ X

variable {k m : ℕ} {x x' X y y' Y c : K}

theorem Off.nonneg (h : Off k x' x X) : 0 ≤ X := (abs_nonneg _).trans h.2

theorem Off.refl (k : ℕ) (x : K) : Off k x x |x| :=
  ⟨by rw [sub_self, abs_zero]; exact mul_nonneg (grow_nonneg k) (abs_nonneg _), le_rfl⟩

theorem Off.mono (h : Off k x' x X) (hk : k ≤ m) : Off m x' x X :=
  ⟨h.1.trans (mul_le_mul_of_nonneg_right (grow_mono hk) h.nonneg), h.2⟩

theorem Off.fl (R : Rounding K) (h : Off k x' x X) : Off (k + 1) (R.fl x') x X := by
  refine ⟨(fl_step R h.1 h.2).trans (le_of_eq ?_), h.2⟩
  have := grow_add (K := K) k 1
  rw [grow_one] at this
  have e : (grow (k + 1) : K) = (1 + grow k) * (1 + ur) - 1 := by rw [← this]; ring
  rw [e]
  ring

theorem Off.mul_const (h : Off k x' x X) (c : K) : Off k (x' * c) (x * c) (X * |c|) := by
  refine ⟨?_, ?_⟩
  · rw [← sub_mul, abs_mul, ← mul_assoc]
    exact mul_le_mul_of_nonneg_right h.1 (abs_nonneg _)
  · rw [abs_mul]
    exact mul_le_mul_of_nonneg_right h.2 (abs_nonneg _)

theorem Off.div_const (h : Off k x' x X) (hc : 0 < c) : Off k (x' / c) (x / c) (X / c) := by
  have := h.mul_const c⁻¹
  rwa [abs_of_pos (inv_pos.2 hc), ← div_eq_mul_inv, ← div_eq_mul_inv, ← div_eq_mul_inv] at this

theorem Off.add (h : Off k x' x X) (h' : Off k y' y Y) : Off k (x' + y') (x + y) (X + Y) := by
  refine ⟨?_, (abs_add_le _ _).trans (add_le_add h.2 h'.2)⟩
  have : x' + y' - (x + y) = (x' - x) + (y' - y) := by ring
  rw [this, mul_add]
  exact (abs_add_le _ _).trans (add_le_add h.1 h'.1)

theorem Off.neg (h : Off k x' x X) : Off k (-x') (-x) X := by
  refine ⟨?_, by rw [abs_neg]; exact h.2⟩
  rw [show -x' - -x = -(x' - x) by ring, abs_neg]
  exact h.1

theorem Off.sub (h : Off k x' x X) (h' : Off k y' y Y) : Off k (x' - y') (x - y) (X + Y) := by
  rw [sub_eq_add_neg, sub_eq_add_neg]
  exact h.add h'.neg

theorem Off.mul (h : Off k x' x X) (h' : Off m y' y Y) : Off (k + m) (x' * y') (x * y) (X * Y) := by
  refine ⟨?_, by rw [abs_mul]; exact mul_le_mul h.2 h'.2 (abs_nonneg _) h.nonneg⟩
  have hy : |y'| ≤ (1 + grow m) * Y := by
    have : y' = (y' - y) + y := by ring
    rw [this]
    refine (abs_add_le _ _).trans ?_
    have := h'.1
    have := h'.2
    linarith
  have e : x' * y' - x * y = (x' - x) * y' + x * (y' - y) := by ring
  rw [e]
  refine (abs_add_le _ _).trans ?_
  rw [abs_mul, abs_mul]
  have h1 : |x' - x| * |y'| ≤ (grow k * X) * ((1 + grow m) * Y) :=
    mul_le_mul h.1 hy (abs_nonneg _) (mul_nonneg (grow_nonneg k) h.nonneg)
  have h2 : |x| * |y' - y| ≤ X * (grow m * Y) := mul_le_mul h.2 h'.1 (abs_nonneg _) h.nonneg
  have e2 : (grow (k + m) : K) = (1 + grow k) * (1 + grow m) - 1 := by rw [← grow_add]; ring
  rw [e2]
  have : (grow k * X) * ((1 + grow m) * Y) + X * (grow m * Y) = ((1 + grow k) * (1 + grow m) - 1) * (X * Y) := by ring
  linarith

/-- adding up what is off -/
theorem Off.sum {n : ℕ} {f f' F : ℕ → K} (h : ∀ j < n, Off k (f' j) (f j) (F j)) :
    Off k (∑ j ∈ Finset.range n, f' j) (∑ j ∈ Finset.range n, f j) (∑ j ∈ Finset.range n, F j) := by
  induction n with
  | zero => simp [Off]
  | succ n ih =>
    rw [Finset.sum_range_succ, Finset.sum_range_succ, Finset.sum_range_succ]
    exact (ih fun j hj => h j (by omega)).add (h n (by omega))

/-- further errors of what is off -/
theorem Off.trans {z Z : K} (h : Off k x' x X) (h' : |z - x'| ≤ grow m * Z) (hZ : Z ≤ (1 + grow k) * X) :
    Off (k + m) z x X := by
  refine ⟨?_, h.2⟩
  have e : z - x = (z - x') + (x' - x) := by ring
  rw [e]
  refine (abs_add_le _ _).trans ?_
  have h1 : grow m * Z ≤ grow m * ((1 + grow k) * X) := mul_le_mul_of_nonneg_left hZ (grow_nonneg m)
  have e2 : (grow (k + m) : K) = (1 + grow k) * (1 + grow m) - 1 := by rw [← grow_add]; ring
  rw [e2]
  have := h.1
  have e3 : grow m * ((1 + grow k) * X) + grow k * X = ((1 + grow k) * (1 + grow m) - 1) * X := by ring
  linarith

/-- the inverse of a product of three, computed with two roundings -/
theorem Off.inv (R : Rounding K) {a b : K} (ha : 0 < a) (hb : 0 < b) :
    0 < R.fl (R.fl (2 * a) * b) ∧ Off 3 (1 / R.fl (R.fl (2 * a) * b)) (1 / (2 * a * b)) (1 / (2 * a * b)) := by
  have hu := ur_pos (K := K)
  have hu' := ur_le (K := K)
  set D := 2 * a * b with hD
  have hDp : 0 < D := by positivity
  have l1 := le_fl R (x := 2 * a) (by positivity)
  have l2 := fl_le R (x := 2 * a) (by positivity)
  have p1 : 0 < R.fl (2 * a) := fl_pos R (by positivity)
  have p2 : 0 < R.fl (2 * a) * b := mul_pos p1 hb
  have p3 := fl_pos R p2
  have l3 := le_fl R p2.le
  have l4 := fl_le R p2.le
  set D' := R.fl (R.fl (2 * a) * b) with hD'
  have low : (1 - ur) ^ 2 * D ≤ D' := by
    refine le_trans ?_ l3
    have : (1 - ur) * (2 * a) * b ≤ R.fl (2 * a) * b := mul_le_mul_of_nonneg_right l1 hb.le
    have := mul_le_mul_of_nonneg_left this (by linarith : (0 : K) ≤ 1 - ur)
    refine le_trans (le_of_eq ?_) this
    rw [hD]; ring
  have high : D' ≤ (1 + ur) ^ 2 * D := by
    refine l4.trans ?_
    have : R.fl (2 * a) * b ≤ (1 + ur) * (2 * a) * b := mul_le_mul_of_nonneg_right l2 hb.le
    have := mul_le_mul_of_nonneg_left this (by linarith : (0 : K) ≤ 1 + ur)
    refine this.trans (le_of_eq ?_)
    rw [hD]; ring
  refine ⟨p3, ?_, by rw [abs_of_pos (by positivity)]⟩
  have hg : (1 : K) ≤ (1 - ur) ^ 2 * (1 + grow 3) := by
    unfold grow
    have e : (1 - ur : K) ^ 2 * (1 + ((1 + ur) ^ 3 - 1)) = 1 + ur * (1 - 2 * ur - 2 * ur ^ 2 + ur ^ 3 + ur ^ 4) := by ring
    rw [e]
    have : (0 : K) ≤ 1 - 2 * ur - 2 * ur ^ 2 + ur ^ 3 + ur ^ 4 := by
      have h3 : (0 : K) ≤ ur ^ 3 := by positivity
      have h4 : (0 : K) ≤ ur ^ 4 := by positivity
      have h2 : (ur : K) ^ 2 ≤ ur := by nlinarith
      linarith
    have := mul_nonneg hu.le this
    linarith
  rw [abs_le]
  constructor
  · -- 1 / D' ≥ (1 - grow 3) / D
    have h1 : D' * (1 - grow 3) ≤ D := by
      have h2 : (0 : K) ≤ 1 - grow 3 := by
        have : (grow 3 : K) ≤ 3 / 2 ^ 52 := by
          have := grow_le (K := K) (k := 3) (by norm_num)
          exact_mod_cast this
        have : (3 / 2 ^ 52 : K) ≤ 1 := by norm_num
        linarith
      have h3 : D' * (1 - grow 3) ≤ (1 + ur) ^ 2 * D * (1 - grow 3) := mul_le_mul_of_nonneg_right high h2
      have h4 : (1 + ur : K) ^ 2 * (1 - grow 3) ≤ 1 := by
        have : (grow 2 : K) ≤ grow 3 := grow_mono (by norm_num)
        have e : (1 + ur : K) ^ 2 = 1 + grow 2 := by unfold grow; ring
        rw [e]
        have := grow_nonneg (K := K) 2
        have := grow_nonneg (K := K) 3
        nlinarith
      calc D' * (1 - grow 3) ≤ (1 + ur) ^ 2 * D * (1 - grow 3) := h3
        _ = ((1 + ur) ^ 2 * (1 - grow 3)) * D := by ring
        _ ≤ 1 * D := mul_le_mul_of_nonneg_right h4 hDp.le
        _ = D := one_mul D
    have h5 : (1 - grow 3) * (1 / D) ≤ 1 / D' := by
      rw [mul_one_div, div_le_div_iff₀ hDp p3]
      linarith
    linarith
  · have h1 : D ≤ D' * (1 + grow 3) := by
      have h2 : (0 : K) ≤ 1 + grow 3 := by have := grow_nonneg (K := K) 3; linarith
      calc D = 1 * D := (one_mul D).symm
        _ ≤ ((1 - ur) ^ 2 * (1 + grow 3)) * D := mul_le_mul_of_nonneg_right hg hDp.le
        _ = (1 - ur) ^ 2 * D * (1 + grow 3) := by ring
        _ ≤ D' * (1 + grow 3) := mul_le_mul_of_nonneg_right low h2
    have h5 : 1 / D' ≤ (1 + grow 3) * (1 / D) := by
      rw [mul_one_div, div_le_div_iff₀ p3 hDp]
      linarith
    linarith

/-- a dot product, added up in any order -/
theorem summed_off {R : Rounding K} {l : List (K × K)} {s : K} (h : Summed R l s) :
    R.fl s = s ∧ |s - (l.map fun p => p.1 * p.2).sum| ≤ grow l.length * (l.map fun p => |p.1 * p.2|).sum := by
  have habs : ∀ l : List (K × K), |(l.map fun p => p.1 * p.2).sum| ≤ (l.map fun p => |p.1 * p.2|).sum := by
    intro l
    induction l with
    | nil => simp
    | cons p l ih =>
      rw [List.map_cons, List.sum_cons, List.map_cons, List.sum_cons]
      exact (abs_add_le _ _).trans (by linarith)
  have hoff : ∀ {l : List (K × K)} {s : K} {k : ℕ}, |s - (l.map fun p => p.1 * p.2).sum| ≤
      grow k * (l.map fun p => |p.1 * p.2|).sum →
        Off k s (l.map fun p => p.1 * p.2).sum (l.map fun p => |p.1 * p.2|).sum := fun h => ⟨h, habs _⟩
  induction h with
  | nil => simp [fl_zero]
  | product a b =>
    refine ⟨R.idem _, ?_⟩
    have := ((Off.refl 0 (a * b)).fl R).1
    simpa using this
  | @fused a b l s hs ih =>
    refine ⟨R.idem _, ?_⟩
    have h1 := ((((Off.refl 0 (a * b)).mono (Nat.zero_le l.length)).add (hoff ih.2)).fl R).1
    simpa using h1
  | @sum l l' l'' s s' hs hs' hp ih ih' =>
    refine ⟨R.idem _, ?_⟩
    have e1 : (l''.map fun p => p.1 * p.2).sum = (l.map fun p => p.1 * p.2).sum + (l'.map fun p => p.1 * p.2).sum := by
      rw [(hp.map _).sum_eq, List.map_append, List.sum_append]
    have e2 : (l''.map fun p => |p.1 * p.2|).sum = (l.map fun p => |p.1 * p.2|).sum + (l'.map fun p => |p.1 * p.2|).sum := by
      rw [(hp.map _).sum_eq, List.map_append, List.sum_append]
    have e3 : l''.length = l.length + l'.length := by rw [hp.length_eq, List.length_append]
    rw [e1, e2, e3]
    by_cases h0 : l = []
    · subst h0
      have hz : s = 0 := by
        have := ih.2
        simpa using this
      rw [hz, zero_add, ih'.1]
      simpa using ih'.2
    · by_cases h0' : l' = []
      · subst h0'
        have hz : s' = 0 := by
          have := ih'.2
          simpa using this
        rw [hz, add_zero, ih.1]
        simpa using ih.2
      · have p1 : 1 ≤ l.length := by
          have := List.length_pos_iff.2 h0
          omega
        have p2 : 1 ≤ l'.length := by
          have := List.length_pos_iff.2 h0'
          omega
        have h1 := (hoff ih.2).mono (show l.length ≤ l.length + l'.length - 1 by omega)
        have h2 := (hoff ih'.2).mono (show l'.length ≤ l.length + l'.length - 1 by omega)
        have h3 := ((h1.add h2).fl R).1
        rwa [show l.length + l'.length - 1 + 1 = l.length + l'.length by omega] at h3

/-! ### the loop -/

section
variable (R : Rounding K) (dot : List K → List K → K)

/-- load per borehole after step `i`, as computed -/
def rLoad (th : Thermal K) (Q : List K) (i : ℕ) : K := at0 (Q.map fun q => R.fl (q / th.nbh)) i

/-- weight of the response to the change after step `j`, as computed -/
def rWeight (th : Thermal K) (Q : List K) (j : ℕ) : K :=
  R.fl (R.fl (Rounded.sub R (rLoad R th Q (j + 1)) (rLoad R th Q j) / th.H) / th.twoPiK)

/-- temperature rise of the wall, as computed -/
def rRise (th : Thermal K) (G : K → K) (Q t : List K) (i : ℕ) : K :=
  dot ((List.range i).map (rWeight R th Q)) ((List.range i).map fun j => G (Rounded.sub R (at0 t i) (at0 t j)))

/-- exiting temperature, as computed -/
def rTemp (th : Thermal K) (G : K → K) (Q t : List K) (i : ℕ) : K :=
  Rounded.sub R (Rounded.add R (Rounded.add R th.Tg (rRise R dot th G Q t i))
      (Rounded.mul R (R.fl (rLoad R th Q i / th.H)) th.Rb))
    (R.fl (rLoad R th Q i / Rounded.mul R (Rounded.mul R 2 th.mdot) th.cp))

/-- some difference with an earlier time, as computed, is negative -/
def RLate (t : List K) (i : ℕ) : Prop := ∃ j < i, Rounded.sub R (at0 t i) (at0 t j) < 0

instance (t : List K) (i : ℕ) : Decidable (RLate R t i) := by unfold RLate; infer_instance

def rRiseN (th : Thermal K) (G : K → K) (Q t : List K) (i : ℕ) : Num K :=
  if RLate R t i then none else some (rRise R dot th G Q t i)

def rTempN (th : Thermal K) (G : K → K) (Q t : List K) (i : ℕ) : Num K :=
  if RLate R t i then none else some (rTemp R dot th G Q t i)

theorem rstep_ok {th : Thermal K} {Q t : List K} {i : ℕ} (h1 : 1 ≤ i) (h2 : i ≤ Q.length) (h3 : i ≤ t.length)
    (G : K → K) (hg : ∀ j < i, ¬ Rounded.sub R (at0 t i) (at0 t j) < 0 →
      th.g (Rounded.sub R (at0 t i) (at0 t j)) = .ok (G (Rounded.sub R (at0 t i) (at0 t j)))) :
    (do
      let ti ← pyGet (0 :: t) (i : ℤ)
      let gv ← ((0 :: t).take (i : ℤ).toNat).mapM fun τ => th.answer (Rounded.sub R ti τ)
      let w := ((List.zipWith (Rounded.sub R) (0 :: Q.map fun q => R.fl (q / th.nbh)).tail
        (0 :: Q.map fun q => R.fl (q / th.nbh))).take (i : ℤ).toNat).map fun q => R.fl (R.fl (q / th.H) / th.twoPiK)
      if w.length ≠ gv.length then throw .valueError
      let delta := Num.dotBy dot w gv
      let Tb := delta.map (Rounded.add R th.Tg ·)
      let q ← pyGet (0 :: Q.map fun q => R.fl (q / th.nbh)) (i : ℤ)
      let Tbulk := Tb.map (Rounded.add R · (Rounded.mul R (R.fl (q / th.H)) th.Rb))
      return (Tbulk.map (Rounded.sub R · (R.fl (q / Rounded.mul R (Rounded.mul R 2 th.mdot) th.cp))), delta) :
        Py (Num K × Num K)) =
    .ok (rTempN R dot th G Q t i, rRiseN R dot th G Q t i) := by
  have e1 : pyGet (0 :: t) (i : ℤ) = .ok (at0 t i) := by
    rw [pyGet_eq_ok (by omega)]; exact at0_getElem? (by omega)
  have e2 : pyGet (0 :: Q.map fun q => R.fl (q / th.nbh)) (i : ℤ) = .ok (rLoad R th Q i) := by
    rw [pyGet_eq_ok (by omega)]; exact at0_getElem? (by simp; omega)
  have e3 : ((0 :: t).take i).mapM (fun τ => th.answer (Rounded.sub R (at0 t i) τ)) =
      .ok ((List.range i).map fun j => if Rounded.sub R (at0 t i) (at0 t j) < 0 then none
        else some (G (Rounded.sub R (at0 t i) (at0 t j)))) := by
    rw [take_eq_map_range (by simp; omega), mapM_ok (g := fun τ => if Rounded.sub R (at0 t i) τ < 0 then none
        else some (G (Rounded.sub R (at0 t i) τ)))]
    · rw [List.map_map]; rfl
    · intro τ hτ
      rw [List.mem_map] at hτ
      obtain ⟨j, hj, rfl⟩ := hτ
      change th.answer (Rounded.sub R (at0 t i) (at0 t j)) = .ok (if Rounded.sub R (at0 t i) (at0 t j) < 0 then none
        else some (G (Rounded.sub R (at0 t i) (at0 t j))))
      by_cases hlt : Rounded.sub R (at0 t i) (at0 t j) < 0
      · rw [if_pos hlt, answer_neg hlt]
      · rw [if_neg hlt]
        exact answer_ok hlt (hg j (List.mem_range.1 hj) hlt)
  have e4 : (List.zipWith (Rounded.sub R) (0 :: Q.map fun q => R.fl (q / th.nbh)).tail
        (0 :: Q.map fun q => R.fl (q / th.nbh))).take i = (List.range i).map fun j =>
          Rounded.sub R (rLoad R th Q (j + 1)) (rLoad R th Q j) := by
    apply List.ext_getElem?
    intro k
    by_cases hk : k < i
    · rw [List.getElem?_take_of_lt hk, List.getElem?_map, List.getElem?_range hk,
        List.getElem?_zipWith, List.tail_cons]
      have a1 := at0_getElem? (l := Q.map fun q => R.fl (q / th.nbh)) (k := k + 1) (by simp; omega)
      have a2 := at0_getElem? (l := Q.map fun q => R.fl (q / th.nbh)) (k := k) (by simp; omega)
      rw [List.getElem?_cons_succ] at a1
      rw [a1, a2]; rfl
    · rw [List.getElem?_eq_none (by simp; omega), List.getElem?_eq_none (by simp; omega)]
  rw [e1, Except.ok_bind, Int.toNat_natCast, e3, Except.ok_bind, e4]
  dsimp only
  rw [if_neg (by simp), e2, List.map_map]
  unfold rTempN rRiseN
  by_cases hl : RLate R t i
  · rw [if_pos hl, if_pos hl]
    obtain ⟨j, hj, hlt⟩ := hl
    rw [dotBy_none _ (List.mem_map.2 ⟨j, List.mem_range.2 hj, if_pos hlt⟩)]
    rfl
  · rw [if_neg hl, if_neg hl]
    have : ((List.range i).map fun j => if Rounded.sub R (at0 t i) (at0 t j) < 0 then none
        else some (G (Rounded.sub R (at0 t i) (at0 t j)))) =
        ((List.range i).map fun j => G (Rounded.sub R (at0 t i) (at0 t j))).map some := by
      rw [List.map_map]
      apply List.map_congr_left
      intro j hj
      exact if_neg fun hlt => hl ⟨j, List.mem_range.1 hj, hlt⟩
    rw [this, dotBy_some]
    rfl

theorem rsimulate_ok {th : Thermal K} {Q t : List K} (h1 : Q.length ≤ t.length) (G : K → K)
    (hg : ∀ i ≤ Q.length, ∀ j < i, ¬ Rounded.sub R (at0 t i) (at0 t j) < 0 →
      th.g (Rounded.sub R (at0 t i) (at0 t j)) = .ok (G (Rounded.sub R (at0 t i) (at0 t j)))) :
    Rounded.simulateDetailed R dot th Q t =
      .ok ((List.range Q.length).map (fun k => rTempN R dot th G Q t (k + 1)),
        (List.range Q.length).map (fun k => rRiseN R dot th G Q t (k + 1))) := by
  unfold Rounded.simulateDetailed
  dsimp only
  rw [mapM_ok (g := fun i : ℤ => (rTempN R dot th G Q t i.toNat, rRiseN R dot th G Q t i.toNat))]
  · simp only [Except.ok_bind, Except.pure_eq, Except.ok.injEq, Prod.mk.injEq, pyRange, List.map_map]
    rw [show ((Q.length : ℤ) + 1 - 1).toNat = Q.length by omega]
    constructor <;> apply List.map_congr_left <;> intro k _ <;>
      simp [show ((1 : ℤ) + k).toNat = k + 1 by omega]
  · intro i hi
    rw [mem_pyRange] at hi
    obtain ⟨m, rfl⟩ : ∃ m : ℕ, i = m := ⟨i.toNat, by omega⟩
    exact rstep_ok R dot (by omega) (by omega) (by omega) _ fun j hj => hg m (by omega) j hj

end

/-- the exchanger of a plant with a response function -/
def thermalOf (p : Plant K) (g : K → Py K) : Thermal K :=
  ⟨g, p.boreholes, p.height, p.twoPiK, p.ground, p.resistance, p.flow, p.cp⟩

theorem at0_map_fl (R : Rounding K) (Q : List K) (c : K) (i : ℕ) :
    at0 (Q.map fun q => R.fl (q / c)) i = R.fl (at0 Q i / c) := by
  cases i with
  | zero => simp [fl_zero]
  | succ k =>
    rw [at0_succ, at0_succ, List.getD_eq_getElem?_getD, List.getD_eq_getElem?_getD, List.getElem?_map]
    cases Q[k]? <;> simp [fl_zero]

/-- one temperature, as computed from loads that are off by one rounding -/
theorem rTemp_off (R : Rounding K) {dot : List K → List K → K}
    (hdot : ∀ w v : List K, w.length = v.length → Summed R (w.zip v) (dot w v)) {p : Plant K} (hp : p.Sound)
    (g : K → Py K) (G : K → K) {Q : ℕ → K} {Q' t : List K} {i : ℕ}
    (hQ : ∀ j ≤ i, |at0 Q' j - Q j| ≤ 1 / 2 ^ 53 * |Q j|) :
    Off (i + 8) (rTemp R dot (thermalOf p g) G Q' t i)
      (p.exit (fun i j => G (Rounded.sub R (at0 t i) (at0 t j))) Q i)
      (p.size (fun i j => G (Rounded.sub R (at0 t i) (at0 t j))) Q i) := by
  obtain ⟨h1, h2, h3, h4, h5⟩ := hp
  set g' : ℕ → K := fun j => G (Rounded.sub R (at0 t i) (at0 t j)) with hg'
  have hload : ∀ j ≤ i, Off 2 (rLoad R (thermalOf p g) Q' j) (Q j / p.boreholes) (|Q j| / p.boreholes) := by
    intro j hj
    unfold rLoad
    rw [at0_map_fl]
    have h0 : Off 1 (at0 Q' j) (Q j) |Q j| := ⟨by rw [grow_one]; exact hQ j hj, le_rfl⟩
    exact (h0.div_const h1).fl R
  have hw : ∀ j < i, Off 5 (rWeight R (thermalOf p g) Q' j)
      ((Q (j + 1) - Q j) / (p.boreholes * p.height * p.twoPiK))
      ((|Q (j + 1)| + |Q j|) / (p.boreholes * p.height * p.twoPiK)) := by
    intro j hj
    have h0 := ((((((hload (j + 1) (by omega)).sub (hload j (by omega))).fl R).div_const h2).fl R).div_const h3).fl R
    have e : ∀ x y : K, (x / p.boreholes - y / p.boreholes) / p.height / p.twoPiK =
        (x - y) / (p.boreholes * p.height * p.twoPiK) := by
      intro x y; field_simp
    have e' : ∀ x y : K, (x / p.boreholes + y / p.boreholes) / p.height / p.twoPiK =
        (x + y) / (p.boreholes * p.height * p.twoPiK) := by
      intro x y; field_simp
    rw [e, e'] at h0
    exact h0
  have hwg : ∀ j < i, Off 5 (rWeight R (thermalOf p g) Q' j * g' j)
      ((Q (j + 1) - Q j) / (p.boreholes * p.height * p.twoPiK) * g' j)
      ((|Q (j + 1)| + |Q j|) / (p.boreholes * p.height * p.twoPiK) * |g' j|) := fun j hj => (hw j hj).mul_const _
  have hsum := Off.sum hwg
  have hrise : Off (5 + i) (rRise R dot (thermalOf p g) G Q' t i)
      (∑ j ∈ Finset.range i, (Q (j + 1) - Q j) / (p.boreholes * p.height * p.twoPiK) * g' j)
      (∑ j ∈ Finset.range i, (|Q (j + 1)| + |Q j|) / (p.boreholes * p.height * p.twoPiK) * |g' j|) := by
    have hs := (summed_off (hdot ((List.range i).map (rWeight R (thermalOf p g) Q')) ((List.range i).map g') (by simp))).2
    have ez : ((List.range i).map (rWeight R (thermalOf p g) Q')).zip ((List.range i).map g') =
        (List.range i).map fun j => (rWeight R (thermalOf p g) Q' j, g' j) := List.zip_map'
    rw [ez, List.map_map, List.map_map, List.length_map, List.length_range] at hs
    have e1 := sum_map_range (fun j => rWeight R (thermalOf p g) Q' j * g' j) i
    have e2 := sum_map_range (fun j => |rWeight R (thermalOf p g) Q' j * g' j|) i
    have hs' : |rRise R dot (thermalOf p g) G Q' t i - ∑ j ∈ Finset.range i, rWeight R (thermalOf p g) Q' j * g' j| ≤
        grow i * ∑ j ∈ Finset.range i, |rWeight R (thermalOf p g) Q' j * g' j| := by
      rw [← e1, ← e2]
      exact hs
    refine hsum.trans hs' ?_
    rw [Finset.mul_sum]
    apply Finset.sum_le_sum
    intro j hj
    have h0 := hwg j (Finset.mem_range.1 hj)
    have h6 := abs_le.1 h0.1
    have h7 := abs_le.1 h0.2
    exact abs_le.2 ⟨by linarith, by linarith⟩
  have hTb := ((((Off.refl 0 p.ground).mono (Nat.zero_le (5 + i))).add hrise).fl R)
  have hres : Off (5 + i + 1) (Rounded.mul R (R.fl (rLoad R (thermalOf p g) Q' i / p.height)) p.resistance)
      (Q i / (p.boreholes * p.height) * p.resistance) (|Q i| / (p.boreholes * p.height) * |p.resistance|) := by
    have h0 := (((((hload i le_rfl).div_const h2).fl R).mul_const p.resistance).fl R).mono (show 2 + 1 + 1 ≤ 5 + i + 1 by omega)
    rw [div_div, div_div] at h0
    exact h0
  have hbulk := (hTb.add hres).fl R
  have hout : Off (5 + i + 1 + 1) (R.fl (rLoad R (thermalOf p g) Q' i / Rounded.mul R (Rounded.mul R 2 p.flow) p.cp))
      (Q i / (p.boreholes * (2 * p.flow * p.cp))) (|Q i| / (p.boreholes * (2 * p.flow * p.cp))) := by
    obtain ⟨-, hi⟩ := Off.inv R h4 h5
    have h0 := (((hload i le_rfl).mul hi).fl R).mono (show 2 + 3 + 1 ≤ 5 + i + 1 + 1 by omega)
    have e : ∀ x : K, x / p.boreholes * (1 / (2 * p.flow * p.cp)) = x / (p.boreholes * (2 * p.flow * p.cp)) := by
      intro x; field_simp
    rw [e, e, mul_one_div] at h0
    exact h0
  have hall := (hbulk.sub hout).fl R
  rw [show i + 8 = 5 + i + 1 + 1 + 1 by omega]
  exact hall

end Ghedt.Rounded
