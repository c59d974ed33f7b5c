import Verif.Lemmas.Heat
import Mathlib.Tactic.LinearCombination
import Mathlib.Algebra.Order.BigOperators.Group.Finset

/-!
# Heat conduction along cells, solved with errors

The errors made in the steps do not add up: they are bounded by the steady temperatures that heat sources of the size of
the residuals would maintain.
-/

namespace Ghedt.Spec

variable {n : ℕ} {E C : ℕ → ℝ} {q : ℝ} {T x : ℕ → ℝ}

/-- one step with a source in every cell -/
def SourceStep (n : ℕ) (E C s T x : ℕ → ℝ) : Prop :=
  (∀ i, i + 1 < n → C i * (x i - T i) =
    s i + (if i = 0 then 0 else E (i - 1) * (x (i - 1) - x i)) - E i * (x i - x (i + 1))) ∧
  x (n - 1) = T (n - 1)

theorem SourceStep.nonneg (hp : Pos n E C) {s : ℕ → ℝ} (hs : ∀ i, i + 1 < n → 0 ≤ s i) (h : SourceStep n E C s T x)
    (hm : ∀ i < n, 0 ≤ T i) : ∀ i < n, 0 ≤ x i := by
  intro j hj
  obtain ⟨i, hi, hmin⟩ := Finset.exists_min_image (Finset.range n) x ⟨j, Finset.mem_range.2 hj⟩
  rw [Finset.mem_range] at hi
  have hmin' : ∀ k < n, x i ≤ x k := fun k hk => hmin k (Finset.mem_range.2 hk)
  refine le_trans ?_ (hmin' j hj)
  rcases Nat.lt_or_ge (i + 1) n with h1 | h1
  · have e := h.1 i h1
    have hE := hp.1 i h1
    have hC := hp.2 i h1
    have a := mul_nonneg hE.le (sub_nonneg.2 (hmin' (i + 1) h1))
    have b : 0 ≤ (if i = 0 then 0 else E (i - 1) * (x (i - 1) - x i)) := by
      split_ifs with h0
      · exact le_rfl
      · exact mul_nonneg (hp.1 _ (by omega)).le (sub_nonneg.2 (hmin' _ (by omega)))
    have c : 0 ≤ C i * (x i - T i) := by rw [e]; linarith [hs i h1]
    have := nonneg_of_mul_nonneg_right c hC
    linarith [hm i hi]
  · obtain rfl : i = n - 1 := by omega
    rw [h.2]; exact hm _ hi

/-- the steady temperatures maintained by the sources `σ` -/
noncomputable def steady (n : ℕ) (E σ : ℕ → ℝ) (i : ℕ) : ℝ :=
  ∑ m ∈ Finset.Ico i (n - 1), 1 / E m * ∑ l ∈ Finset.range (m + 1), σ l

theorem steady_step (hp : Pos n E C) (σ : ℕ → ℝ) : SourceStep n E C σ (steady n E σ) (steady n E σ) := by
  have key : ∀ i, i + 1 < n → E i * (steady n E σ i - steady n E σ (i + 1)) = ∑ l ∈ Finset.range (i + 1), σ l := by
    intro i hi
    unfold steady
    rw [Finset.sum_eq_sum_Ico_succ_bot (by omega), add_sub_cancel_right, ← mul_assoc, mul_one_div,
      div_self (hp.1 i hi).ne', one_mul]
  refine ⟨fun i hi => ?_, rfl⟩
  rw [sub_self, mul_zero, key i hi, Finset.sum_range_succ]
  split_ifs with h0
  · subst h0; simp
  · have := key (i - 1) (by omega)
    rw [show i - 1 + 1 = i by omega] at this
    rw [this]; ring

theorem steady_le (hp : Pos n E C) {σ : ℕ → ℝ} (hσ : ∀ i, i + 1 < n → 0 ≤ σ i) {i : ℕ} :
    steady n E σ i ≤ (∑ m ∈ Finset.range (n - 1), 1 / E m) * ∑ l ∈ Finset.range (n - 1), σ l := by
  unfold steady
  rw [Finset.sum_mul]
  have pos : ∀ m ∈ Finset.range (n - 1), 0 ≤ 1 / E m := fun m hm => by
    rw [Finset.mem_range] at hm
    exact (one_div_pos.2 (hp.1 m (by omega))).le
  have npos : ∀ l ∈ Finset.range (n - 1), 0 ≤ σ l := fun l hl => by
    rw [Finset.mem_range] at hl
    exact hσ l (by omega)
  have sub : Finset.Ico i (n - 1) ⊆ Finset.range (n - 1) := by
    intro m hm
    rw [Finset.mem_Ico] at hm
    exact Finset.mem_range.2 hm.2
  calc _ ≤ ∑ m ∈ Finset.Ico i (n - 1), 1 / E m * ∑ l ∈ Finset.range (n - 1), σ l := by
        refine Finset.sum_le_sum fun m hm => mul_le_mul_of_nonneg_left ?_ (pos m (sub hm))
        refine Finset.sum_le_sum_of_subset_of_nonneg ?_ fun l hl _ => npos l hl
        intro l hl
        rw [Finset.mem_Ico] at hm
        rw [Finset.mem_range] at hl ⊢
        omega
    _ ≤ _ := Finset.sum_le_sum_of_subset_of_nonneg sub
        fun m hm _ => mul_nonneg (pos m hm) (Finset.sum_nonneg npos)

/-- comparison with the steady temperatures -/
theorem SourceStep.le_steady (hp : Pos n E C) {s σ : ℕ → ℝ} {β : ℝ} (h : SourceStep n E C s T x)
    (hs : ∀ i, i + 1 < n → |s i| ≤ β * σ i) (hT : ∀ i < n, |T i| ≤ β * steady n E σ i) :
    ∀ i < n, |x i| ≤ β * steady n E σ i := by
  have hw := steady_step hp σ
  intro i hi
  rw [abs_le]
  constructor
  · have := SourceStep.nonneg hp (s := fun i => β * σ i + s i) (T := fun i => β * steady n E σ i + T i)
      (x := fun i => β * steady n E σ i + x i)
      (fun i hi => by have := (abs_le.1 (hs i hi)).1; linarith)
      ⟨fun i hi => by
        have a := h.1 i hi
        have b := hw.1 i hi
        split_ifs at a b ⊢ with h0 <;> linear_combination a + β * b, by dsimp only; rw [h.2]⟩
      (fun i hi => by have := (abs_le.1 (hT i hi)).1; linarith) i hi
    linarith
  · have := SourceStep.nonneg hp (s := fun i => β * σ i - s i) (T := fun i => β * steady n E σ i - T i)
      (x := fun i => β * steady n E σ i - x i)
      (fun i hi => by have := (abs_le.1 (hs i hi)).2; linarith)
      ⟨fun i hi => by
        have a := h.1 i hi
        have b := hw.1 i hi
        split_ifs at a b ⊢ with h0 <;> linear_combination β * b - a, by dsimp only; rw [h.2]⟩
      (fun i hi => by have := (abs_le.1 (hT i hi)).2; linarith) i hi
    linarith

/-- a step up to a relative error `ε` -/
def NearStep (n : ℕ) (E C : ℕ → ℝ) (q ε : ℝ) (T x : ℕ → ℝ) : Prop :=
  (∀ i, i + 1 < n → |(if i = 0 then q else E (i - 1) * (x (i - 1) - x i)) - E i * (x i - x (i + 1)) -
      C i * (x i - T i)| ≤
    ε * ((if i = 0 then |q| else E (i - 1) * (|x (i - 1)| + |x i|)) + E i * (|x i| + |x (i + 1)|) +
      C i * (|x i| + |T i|))) ∧
  x (n - 1) = T (n - 1)

/-- the sources that bound the residuals -/
noncomputable def load (E C : ℕ → ℝ) (i : ℕ) : ℝ :=
  (if i = 0 then 1 else 2 * E (i - 1)) + 2 * E i + 2 * C i

theorem load_nonneg (hp : Pos n E C) (i : ℕ) (hi : i + 1 < n) : 0 ≤ load E C i := by
  unfold load
  have h1 := hp.1 i hi
  have h2 := hp.2 i hi
  split_ifs with h0
  · linarith
  · have := hp.1 (i - 1) (by omega)
    linarith

theorem load_sum (hp : Pos n E C) : ∑ l ∈ Finset.range (n - 1), load E C l ≤
    1 + ∑ l ∈ Finset.range (n - 1), (4 * E l + 2 * C l) := by
  have key : ∀ m, m ≤ n - 1 → ∑ l ∈ Finset.range m, load E C l ≤
      1 + ∑ l ∈ Finset.range m, (4 * E l + 2 * C l) - (if m = 0 then 0 else 2 * E (m - 1)) := by
    intro m
    induction m with
    | zero => intro _; simp
    | succ m ih =>
      intro hm
      have := ih (by omega)
      rw [Finset.sum_range_succ, Finset.sum_range_succ, if_neg (by omega), Nat.add_sub_cancel]
      unfold load at this ⊢
      rcases m with _ | m
      · simp only [if_true] at this ⊢
        simp only [Finset.range_zero, Finset.sum_empty]
        linarith
      · rw [if_neg (by omega)] at this ⊢
        linarith
  have := key (n - 1) le_rfl
  split_ifs at this with h0
  · linarith
  · have := hp.1 (n - 1 - 1) (by omega)
    linarith

/-- the temperatures computed with relative errors stay close to the exact ones -/
theorem near_history (hp : Pos n E C) (hn : 0 < n) {init ε A B : ℝ} {H X : ℕ → ℕ → ℝ}
    (hH : HeatHistory n E C q init H) (h0 : ∀ i < n, X 0 i = init) (hX : ∀ k, NearStep n E C q ε (X k) (X (k + 1)))
    (hε : 0 ≤ ε) (hA : ∀ k, ∀ i < n, |H k i| ≤ A) (hq : |q| ≤ A)
    (hB : ∀ i < n, steady n E (load E C) i ≤ B) (hεB : ε * B ≤ 1 / 2) (k : ℕ) :
    ∀ i < n, |X k i - H k i| ≤ 2 * ε * A * steady n E (load E C) i := by
  have hA0 : 0 ≤ A := (abs_nonneg q).trans hq
  have hW0 : ∀ i < n, 0 ≤ steady n E (load E C) i := by
    intro i hi
    unfold steady
    refine Finset.sum_nonneg fun m hm => mul_nonneg ?_ (Finset.sum_nonneg fun l hl => ?_)
    · rw [Finset.mem_Ico] at hm
      exact (one_div_pos.2 (hp.1 m (by omega))).le
    · rw [Finset.mem_Ico] at hm
      rw [Finset.mem_range] at hl
      exact load_nonneg hp l (by omega)
  have hB0 : 0 ≤ B := (hW0 0 hn).trans (hB 0 hn)
  induction k with
  | zero =>
    intro i hi
    rw [h0 i hi, hH.1 i hi, sub_self, abs_zero]
    exact mul_nonneg (by positivity) (hW0 i hi)
  | succ k ih =>
    set W := steady n E (load E C) with hW
    set x := X (k + 1) with hx
    set y := H (k + 1) with hy
    obtain ⟨hr, hl⟩ := hX k
    have hh := hH.2 k
    -- the largest error after the step
    obtain ⟨j, hj, hmax⟩ := Finset.exists_max_image (Finset.range n) (fun i => |x i - y i|) ⟨0, Finset.mem_range.2 hn⟩
    rw [Finset.mem_range] at hj
    set m := |x j - y j| with hm
    have hm0 : 0 ≤ m := abs_nonneg _
    have hmx : ∀ i < n, |x i - y i| ≤ m := fun i hi => hmax i (Finset.mem_range.2 hi)
    set s : ℕ → ℝ := fun i => -((if i = 0 then q else E (i - 1) * (x (i - 1) - x i)) - E i * (x i - x (i + 1)) -
      C i * (x i - X k i)) with hs
    have hstep : SourceStep n E C s (fun i => X k i - H k i) (fun i => x i - y i) := by
      refine ⟨fun i hi => ?_, ?_⟩
      · have := hh.1 i hi
        simp only [hs]
        rw [← hy] at this
        split_ifs at this ⊢ with h0 <;> linarith
      · dsimp only
        rw [hx, hl, hy, hh.2]
    -- the residuals
    have hbd : 2 * ε * A * B ≤ A := by nlinarith
    set D := max m (2 * ε * A * B) with hD
    have hD0 : 0 ≤ D := le_max_of_le_left hm0
    have hxA : ∀ i < n, |x i| ≤ A + D := by
      intro i hi
      have a := hA (k + 1) i hi
      have b := hmx i hi
      have c : |x i| ≤ |y i| + |x i - y i| := by
        have := abs_add_le (y i) (x i - y i)
        rwa [add_sub_cancel] at this
      have := le_max_left m (2 * ε * A * B)
      linarith
    have hTA : ∀ i < n, |X k i| ≤ A + D := by
      intro i hi
      have a := hA k i hi
      have b := (ih i hi).trans (mul_le_mul_of_nonneg_left (hB i hi) (by positivity))
      have c : |X k i| ≤ |H k i| + |X k i - H k i| := by
        have := abs_add_le (H k i) (X k i - H k i)
        rwa [add_sub_cancel] at this
      have := le_max_right m (2 * ε * A * B)
      linarith
    have hsrc : ∀ i, i + 1 < n → |s i| ≤ ε * (A + D) * load E C i := by
      intro i hi
      simp only [hs]
      rw [abs_neg, mul_assoc]
      refine (hr i hi).trans (mul_le_mul_of_nonneg_left ?_ hε)
      unfold load
      have a1 := mul_le_mul_of_nonneg_left (add_le_add (hxA i (by omega)) (hxA (i + 1) hi)) (hp.1 i hi).le
      have a2 := mul_le_mul_of_nonneg_left (add_le_add (hxA i (by omega)) (hTA i (by omega))) (hp.2 i hi).le
      split_ifs with h0
      · nlinarith
      · have a3 := mul_le_mul_of_nonneg_left (add_le_add (hxA (i - 1) (by omega)) (hxA i (by omega)))
          (hp.1 (i - 1) (by omega)).le
        nlinarith
    set β := max (2 * ε * A) (ε * (A + D)) with hβ
    have hout := hstep.le_steady hp (σ := load E C) (β := β)
      (fun i hi => (hsrc i hi).trans (mul_le_mul_of_nonneg_right (le_max_right _ _) (load_nonneg hp i hi)))
      (fun i hi => (ih i hi).trans (mul_le_mul_of_nonneg_right (le_max_left _ _) (hW0 i hi)))
    suffices hββ : β ≤ 2 * ε * A by
      intro i hi
      exact (hout i hi).trans (mul_le_mul_of_nonneg_right hββ (hW0 i hi))
    refine max_le le_rfl ?_
    -- the error is at most `A`
    have hDA : D ≤ A := by
      refine max_le ?_ hbd
      have h1 : m ≤ β * B := (hout j hj).trans (mul_le_mul_of_nonneg_left (hB j hj)
        (le_max_of_le_left (by positivity)))
      rcases le_total (ε * (A + D)) (2 * ε * A) with h2 | h2
      · rw [hβ, max_eq_left h2] at h1
        linarith
      · rw [hβ, max_eq_right h2] at h1
        rcases le_total m (2 * ε * A * B) with h3 | h3
        · linarith
        · rw [hD, max_eq_left h3] at h1
          have : ε * (A + m) * B ≤ 1 / 2 * (A + m) := by
            have := mul_le_mul_of_nonneg_right hεB (show 0 ≤ A + m by linarith)
            linarith
          linarith
    have := mul_le_mul_of_nonneg_left hDA hε
    linarith

end Ghedt.Spec
