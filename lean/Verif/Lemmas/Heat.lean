import Verif.Spec.Radial
import Mathlib.LinearAlgebra.FiniteDimensional.Lemmas
import Mathlib.Data.Finset.Max
import Mathlib.Tactic.Linarith
import Mathlib.Tactic.Ring
import Mathlib.Tactic.Positivity

namespace Ghedt.Spec

variable {n : ℕ} {E C : ℕ → ℝ} {q : ℝ} {T x : ℕ → ℝ}

/-- positive conductances and capacities -/
def Pos (n : ℕ) (E C : ℕ → ℝ) : Prop := (∀ i, i + 1 < n → 0 < E i) ∧ ∀ i, i + 1 < n → 0 < C i

/-- minimum principle -/
theorem HeatStep.ge (hp : Pos n E C) (hq : 0 ≤ q) (h : HeatStep n E C q T x) {m : ℝ}
    (hm : ∀ i < n, m ≤ T i) : ∀ i < n, m ≤ x i := by
  intro j hj
  obtain ⟨i, hi, hmin⟩ := Finset.exists_min_image (Finset.range n) x ⟨j, Finset.mem_range.2 hj⟩
  rw [Finset.mem_range] at hi
  have hmin' : ∀ k < n, x i ≤ x k := fun k hk => hmin k (Finset.mem_range.2 hk)
  refine le_trans ?_ (hmin' j hj)
  rcases Nat.lt_or_ge (i + 1) n with h1 | h1
  · have e := h.1 i h1
    have hE := hp.1 i h1
    have hC := hp.2 i h1
    have a := mul_nonneg hE.le (sub_nonneg.2 (hmin' (i + 1) h1))
    have b : 0 ≤ (if i = 0 then q else E (i - 1) * (x (i - 1) - x i)) := by
      split_ifs with h0
      · exact hq
      · exact mul_nonneg (hp.1 _ (by omega)).le (sub_nonneg.2 (hmin' _ (by omega)))
    have c : 0 ≤ C i * (x i - T i) := by rw [e]; linarith
    have := nonneg_of_mul_nonneg_right c hC
    linarith [hm i hi]
  · obtain rfl : i = n - 1 := by omega
    rw [h.2]; exact hm _ hi

/-- superposition: the difference of two steps -/
theorem HeatStep.sub {q' : ℝ} {T' x' : ℕ → ℝ} (h : HeatStep n E C q T x) (h' : HeatStep n E C q' T' x') :
    HeatStep n E C (q - q') (fun i => T i - T' i) (fun i => x i - x' i) := by
  refine ⟨fun i hi => ?_, by simp only; rw [h.2, h'.2]⟩
  have a := h.1 i hi
  have b := h'.1 i hi
  split_ifs at a b ⊢ with h0 <;> linarith

theorem HeatStep.unique (hp : Pos n E C) {x' : ℕ → ℝ} (h : HeatStep n E C q T x)
    (h' : HeatStep n E C q T x') : ∀ i < n, x i = x' i := by
  intro i hi
  have a := (h.sub h').ge hp (by simp) (m := 0) (fun i _ => by simp) i hi
  have b := (h'.sub h).ge hp (by simp) (m := 0) (fun i _ => by simp) i hi
  linarith

theorem HeatStep.congr {T' x' : ℕ → ℝ} (h : HeatStep n E C q T x) (hn : 0 < n)
    (hT : ∀ i < n, T' i = T i) (hx : ∀ i < n, x' i = x i) : HeatStep n E C q T' x' := by
  refine ⟨fun i hi => ?_, ?_⟩
  · have := h.1 i hi
    rw [hT i (by omega), hx i (by omega), hx (i + 1) hi]
    split_ifs at this ⊢ with h0
    · exact this
    · rw [hx (i - 1) (by omega)]; exact this
  · rw [hT _ (by omega), hx _ (by omega)]; exact h.2

/-- the left hand side of the system -/
def rowOf (n : ℕ) (E C : ℕ → ℝ) (x : ℕ → ℝ) (i : ℕ) : ℝ :=
  if i + 1 < n then C i * x i + E i * (x i - x (i + 1)) - (if i = 0 then 0 else E (i - 1) * (x (i - 1) - x i))
  else x i

def extend (x : Fin n → ℝ) (i : ℕ) : ℝ := if h : i < n then x ⟨i, h⟩ else 0

theorem extend_lt (x : Fin n → ℝ) {i : ℕ} (h : i < n) : extend x i = x ⟨i, h⟩ := dif_pos h

def rowMap (n : ℕ) (E C : ℕ → ℝ) : (Fin n → ℝ) →ₗ[ℝ] (Fin n → ℝ) where
  toFun x i := rowOf n E C (extend x) i
  map_add' x y := by
    funext i
    have : ∀ j, extend (x + y) j = extend x j + extend y j := by
      intro j; unfold extend; split_ifs <;> simp
    simp only [rowOf, Pi.add_apply, this]
    split_ifs <;> ring
  map_smul' a x := by
    funext i
    have : ∀ j, extend (a • x) j = a * extend x j := by
      intro j; unfold extend; split_ifs <;> simp
    simp only [rowOf, Pi.smul_apply, this, RingHom.id_apply, smul_eq_mul]
    split_ifs <;> ring

theorem exists_heatStep (hp : Pos n E C) (hn : 0 < n) (q : ℝ) (T : ℕ → ℝ) :
    ∃ x, HeatStep n E C q T x := by
  have hinj : Function.Injective (rowMap n E C) := by
    rw [← LinearMap.ker_eq_bot, LinearMap.ker_eq_bot']
    intro x hx
    have hx' : ∀ i (h : i < n), rowOf n E C (extend x) i = 0 := fun i h => congrFun hx ⟨i, h⟩
    have hs : HeatStep n E C 0 (fun _ => 0) (extend x) := by
      refine ⟨fun i hi => ?_, ?_⟩
      · have := hx' i (by omega)
        unfold rowOf at this
        rw [if_pos hi] at this
        split_ifs at this ⊢ <;> linarith
      · have := hx' (n - 1) (by omega)
        unfold rowOf at this
        rwa [if_neg (by omega)] at this
    have hz : HeatStep n E C 0 (fun _ => 0) (fun _ => 0) := by
      refine ⟨fun i hi => ?_, rfl⟩
      split_ifs <;> simp
    funext i
    have := hs.unique hp hz i i.2
    rwa [extend_lt x i.2] at this
  have hsurj := (LinearMap.injective_iff_surjective).1 hinj
  obtain ⟨x, hx⟩ := hsurj fun i =>
    if (i : ℕ) + 1 < n then C i * T i + (if (i : ℕ) = 0 then q else 0) else T i
  refine ⟨extend x, fun i hi => ?_, ?_⟩
  · have := congrFun hx ⟨i, by omega⟩
    change rowOf n E C (extend x) i = _ at this
    unfold rowOf at this
    simp only [hi, if_true] at this
    split_ifs at this ⊢ <;> linarith
  · have := congrFun hx ⟨n - 1, by omega⟩
    change rowOf n E C (extend x) (n - 1) = _ at this
    unfold rowOf at this
    simp only [show ¬ (n - 1 + 1 < n) by omega, if_false] at this
    exact this

/-- one strict step at the core -/
theorem HeatStep.core_pos (hp : Pos n E C) (hn : 1 < n) (hq : 0 ≤ q) (h : HeatStep n E C q T x)
    (hT : ∀ i < n, 0 ≤ T i) (hpos : 0 < q ∨ 0 < T 0) : 0 < x 0 := by
  have hx := h.ge hp hq hT
  have e := h.1 0 (by omega)
  simp only [if_true, zero_add] at e
  have hE := hp.1 0 (by omega)
  have hC := hp.2 0 (by omega)
  have h1 := mul_nonneg hE.le (hx 1 hn)
  have h0 := hx 0 (by omega)
  rcases h0.lt_or_eq with h2 | h2
  · exact h2
  · exfalso
    rw [← h2] at e
    have hT0 := mul_nonneg hC.le (hT 0 (by omega))
    rcases hpos with h3 | h3
    · linarith
    · have := mul_pos hC h3
      linarith

variable {init : ℝ} {H : ℕ → ℕ → ℝ}

theorem HeatHistory.mono (hp : Pos n E C) (hq : 0 ≤ q) (h : HeatHistory n E C q init H) (k : ℕ) :
    ∀ i < n, H k i ≤ H (k + 1) i := by
  induction k with
  | zero =>
    intro i hi
    rw [h.1 i hi]
    exact (h.2 0).ge hp hq (fun j hj => (h.1 j hj).ge) i hi
  | succ k ih =>
    intro i hi
    have := ((h.2 (k + 1)).sub (h.2 k)).ge hp (by simp) (m := 0)
      (fun j hj => sub_nonneg.2 (ih j hj)) i hi
    simpa using this

theorem HeatHistory.core_strict (hp : Pos n E C) (hn : 1 < n) (hq : 0 < q)
    (h : HeatHistory n E C q init H) (k : ℕ) : H k 0 < H (k + 1) 0 := by
  induction k with
  | zero =>
    have hz : HeatStep n E C 0 (H 0) (H 0) := by
      refine ⟨fun i hi => ?_, rfl⟩
      rw [h.1 i (by omega), h.1 (i + 1) hi]
      split_ifs with h0
      · simp
      · rw [h.1 (i - 1) (by omega)]; simp
    have := ((h.2 0).sub hz).core_pos hp hn (by linarith) (fun i _ => by simp) (Or.inl (by linarith))
    linarith
  | succ k ih =>
    have := ((h.2 (k + 1)).sub (h.2 k)).core_pos hp hn (by simp)
      (fun i hi => by simp only [sub_nonneg]; exact h.mono hp hq.le k i hi) (Or.inr (by linarith))
    linarith

/-- heat flows outwards, and never more than is fed in -/
theorem HeatHistory.flux (hp : Pos n E C) (hq : 0 ≤ q) (h : HeatHistory n E C q init H) (k : ℕ) :
    ∀ i, i + 1 < n → 0 ≤ E i * (H k i - H k (i + 1)) ∧ E i * (H k i - H k (i + 1)) ≤ q := by
  induction k with
  | zero =>
    intro i hi
    rw [h.1 i (by omega), h.1 (i + 1) hi]
    simpa using hq
  | succ k ih =>
    have hs := h.2 k
    set x := H (k + 1)
    set T := H k
    set f : ℕ → ℝ := fun i => E i * (x i - x (i + 1)) with hf
    -- temperature change of cell i in terms of the fluxes
    have hch : ∀ i, i + 1 < n → C i * (x i - T i) = (if i = 0 then q else f (i - 1)) - f i := by
      intro i hi
      rw [hs.1 i hi]
      split_ifs with h0
      · rfl
      · simp only [hf]; rw [show i - 1 + 1 = i by omega]
    intro j hj
    have hne : (Finset.range (n - 1)).Nonempty := ⟨j, by rw [Finset.mem_range]; omega⟩
    constructor
    · obtain ⟨i, hi, hmin⟩ := Finset.exists_min_image (Finset.range (n - 1)) f hne
      rw [Finset.mem_range] at hi
      have hmin' : ∀ k, k + 1 < n → f i ≤ f k := fun k hk => hmin k (by rw [Finset.mem_range]; omega)
      refine le_trans ?_ (hmin' j hj)
      by_contra hneg
      push Not at hneg
      have hi' : i + 1 < n := by omega
      have c1 := hch i hi'
      have hC := hp.2 i hi'
      have hE := hp.1 i hi'
      have d1 : 0 ≤ C i * (x i - T i) := by
        rw [c1]
        split_ifs with h0
        · linarith
        · have := hmin' (i - 1) (by omega); linarith
      have e1 : T i ≤ x i := by linarith [nonneg_of_mul_nonneg_right d1 hC]
      have e2 : x (i + 1) ≤ T (i + 1) := by
        rcases Nat.lt_or_ge (i + 2) n with h2 | h2
        · have c2 := hch (i + 1) (by omega)
          rw [if_neg (by omega)] at c2
          simp only [Nat.add_sub_cancel] at c2
          have := hmin' (i + 1) (by omega)
          have hC2 := hp.2 (i + 1) (by omega)
          have d2 : 0 ≤ C (i + 1) * (T (i + 1) - x (i + 1)) := by linarith
          linarith [nonneg_of_mul_nonneg_right d2 hC2]
        · have := hs.2
          rw [show n - 1 = i + 1 by omega] at this
          exact this.le
      have e3 := (ih i hi').1
      have e4 : 0 ≤ T i - T (i + 1) := nonneg_of_mul_nonneg_right e3 hE
      have : 0 ≤ f i := mul_nonneg hE.le (by linarith)
      linarith
    · obtain ⟨i, hi, hmax⟩ := Finset.exists_max_image (Finset.range (n - 1)) f hne
      rw [Finset.mem_range] at hi
      have hmax' : ∀ k, k + 1 < n → f k ≤ f i := fun k hk => hmax k (by rw [Finset.mem_range]; omega)
      refine le_trans (hmax' j hj) ?_
      by_contra hneg
      push Not at hneg
      have hi' : i + 1 < n := by omega
      have c1 := hch i hi'
      have hC := hp.2 i hi'
      have hE := hp.1 i hi'
      have d1 : 0 ≤ C i * (T i - x i) := by
        have : C i * (T i - x i) = f i - (if i = 0 then q else f (i - 1)) := by linarith
        rw [this]
        split_ifs with h0
        · linarith
        · have := hmax' (i - 1) (by omega); linarith
      have e1 : x i ≤ T i := by linarith [nonneg_of_mul_nonneg_right d1 hC]
      have e2 : T (i + 1) ≤ x (i + 1) := by
        rcases Nat.lt_or_ge (i + 2) n with h2 | h2
        · have c2 := hch (i + 1) (by omega)
          rw [if_neg (by omega)] at c2
          simp only [Nat.add_sub_cancel] at c2
          have := hmax' (i + 1) (by omega)
          have hC2 := hp.2 (i + 1) (by omega)
          have d2 : 0 ≤ C (i + 1) * (x (i + 1) - T (i + 1)) := by linarith
          linarith [nonneg_of_mul_nonneg_right d2 hC2]
        · have := hs.2
          rw [show n - 1 = i + 1 by omega] at this
          exact this.ge
      have e3 := (ih i hi').2
      have : f i ≤ E i * (T i - T (i + 1)) := mul_le_mul_of_nonneg_left (by linarith) hE.le
      linarith

theorem HeatHistory.far (h : HeatHistory n E C q init H) (hn : 0 < n) (k : ℕ) : H k (n - 1) = init := by
  induction k with
  | zero => exact h.1 _ (by omega)
  | succ k ih => rw [(h.2 k).2, ih]

/-- the core temperature stays below that of the steady state -/
theorem HeatHistory.bound (hp : Pos n E C) (hn : 0 < n) (hq : 0 ≤ q) (h : HeatHistory n E C q init H)
    (k : ℕ) : H k 0 - init ≤ q * ∑ i ∈ Finset.range (n - 1), 1 / E i := by
  have key : ∀ m, m < n → H k 0 - H k m ≤ q * ∑ i ∈ Finset.range m, 1 / E i := by
    intro m
    induction m with
    | zero => intro _; simp
    | succ m ih =>
      intro hm
      rw [Finset.sum_range_succ, mul_add]
      have hE := hp.1 m hm
      have := (h.flux hp hq k m hm).2
      have h2 : H k m - H k (m + 1) ≤ q * (1 / E m) := by
        rw [mul_one_div, le_div_iff₀ hE]; linarith
      linarith [ih (by omega)]
  have := key (n - 1) (by omega)
  rwa [h.far hn] at this

/-- energy balance of one step -/
theorem HeatStep.energy (h : HeatStep n E C q T x) (m : ℕ) (hm : m + 1 < n) :
    ∑ i ∈ Finset.range (m + 1), C i * (x i - T i) = q - E m * (x m - x (m + 1)) := by
  induction m with
  | zero => rw [Finset.sum_range_one, h.1 0 hm, if_pos rfl]
  | succ m ih =>
    rw [Finset.sum_range_succ, ih (by omega), h.1 (m + 1) hm, if_neg (by omega)]
    simp only [Nat.add_sub_cancel]
    ring

/-- a history -/
noncomputable def heat (n : ℕ) (E C : ℕ → ℝ) (q init : ℝ) (hp : Pos n E C) (hn : 0 < n) : ℕ → ℕ → ℝ
  | 0 => fun _ => init
  | k + 1 => Classical.choose (exists_heatStep hp hn q (heat n E C q init hp hn k))

theorem heat_history (hp : Pos n E C) (hn : 0 < n) (q init : ℝ) :
    HeatHistory n E C q init (heat n E C q init hp hn) :=
  ⟨fun _ _ => rfl, fun k => Classical.choose_spec (exists_heatStep hp hn q (heat n E C q init hp hn k))⟩

theorem HeatHistory.unique (hp : Pos n E C) (hn : 0 < n) {H' : ℕ → ℕ → ℝ} (h : HeatHistory n E C q init H)
    (h' : HeatHistory n E C q init H') (k : ℕ) : ∀ i < n, H k i = H' k i := by
  induction k with
  | zero => intro i hi; rw [h.1 i hi, h'.1 i hi]
  | succ k ih =>
    exact (h.2 k).unique hp ((h'.2 k).congr hn ih (fun i _ => rfl))

end Ghedt.Spec
