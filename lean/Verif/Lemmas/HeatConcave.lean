import Verif.Lemmas.Heat

/-!
# The core temperature rises ever more slowly
-/

namespace Ghedt.Spec

variable {n : ℕ} {E C : ℕ → ℝ} {q : ℝ} {T x : ℕ → ℝ}

/-- temperatures that do not rise outward stay so while heat is fed into the core -/
theorem HeatStep.outward (hp : Pos n E C) (hq : 0 ≤ q) (h : HeatStep n E C q T x)
    (hT : ∀ i, i + 1 < n → T (i + 1) ≤ T i) : ∀ i, i + 1 < n → x (i + 1) ≤ x i := by
  set f : ℕ → ℝ := fun i => E i * (x i - x (i + 1)) with hf
  have hch : ∀ i, i + 1 < n → C i * (x i - T i) = (if i = 0 then q else f (i - 1)) - f i := by
    intro i hi
    rw [h.1 i hi]
    split_ifs with h0
    · rfl
    · simp only [hf]; rw [show i - 1 + 1 = i by omega]
  intro j hj
  have hne : (Finset.range (n - 1)).Nonempty := ⟨j, by rw [Finset.mem_range]; omega⟩
  obtain ⟨i, hi, hmin⟩ := Finset.exists_min_image (Finset.range (n - 1)) f hne
  rw [Finset.mem_range] at hi
  have hmin' : ∀ k, k + 1 < n → f i ≤ f k := fun k hk => hmin k (by rw [Finset.mem_range]; omega)
  suffices h0 : 0 ≤ f i by
    have := nonneg_of_mul_nonneg_right (h0.trans (hmin' j hj)) (hp.1 j hj)
    linarith
  by_contra hneg
  push Not at hneg
  have hi' : i + 1 < n := by omega
  have c1 := hch i hi'
  have hC := hp.2 i hi'
  have hE := hp.1 i hi'
  have d1 : 0 ≤ C i * (x i - T i) := by
    rw [c1]
    split_ifs with h0
    · linarith
    · have := hmin' (i - 1) (by omega); linarith
  have e1 : T i ≤ x i := by linarith [nonneg_of_mul_nonneg_right d1 hC]
  have e2 : x (i + 1) ≤ T (i + 1) := by
    rcases Nat.lt_or_ge (i + 2) n with h2 | h2
    · have c2 := hch (i + 1) (by omega)
      rw [if_neg (by omega)] at c2
      simp only [Nat.add_sub_cancel] at c2
      have := hmin' (i + 1) (by omega)
      have hC2 := hp.2 (i + 1) (by omega)
      have d2 : 0 ≤ C (i + 1) * (T (i + 1) - x (i + 1)) := by linarith
      linarith [nonneg_of_mul_nonneg_right d2 hC2]
    · have := h.2
      rw [show n - 1 = i + 1 by omega] at this
      exact this.le
  have e3 := hT i hi'
  have : 0 ≤ f i := mul_nonneg hE.le (by linarith)
  linarith

/-- maximum principle without heat fed in -/
theorem HeatStep.le (hp : Pos n E C) (h : HeatStep n E C 0 T x) {m : ℝ} (hm : ∀ i < n, T i ≤ m) :
    ∀ i < n, x i ≤ m := by
  have hz : HeatStep n E C 0 (fun _ => 0) (fun _ => 0) := ⟨fun i _ => by simp, rfl⟩
  intro i hi
  have := (hz.sub h).ge hp (by simp) (m := -m) (fun j hj => by have := hm j hj; linarith) i hi
  linarith

variable {init : ℝ} {H : ℕ → ℕ → ℝ}

/-- what a step adds does not rise outward -/
theorem HeatHistory.gain_outward (hp : Pos n E C) (hq : 0 ≤ q) (h : HeatHistory n E C q init H) (k : ℕ) :
    ∀ i, i + 1 < n → H (k + 1) (i + 1) - H k (i + 1) ≤ H (k + 1) i - H k i := by
  induction k with
  | zero =>
    intro i hi
    have := (h.2 0).outward hp hq (fun j hj => by rw [h.1 j (by omega), h.1 (j + 1) hj]) i hi
    rw [h.1 i (by omega), h.1 (i + 1) hi]
    linarith
  | succ k ih =>
    have hs := (h.2 (k + 1)).sub (h.2 k)
    rw [sub_self] at hs
    exact hs.outward hp le_rfl ih

/-- the core gains less in every step than in the one before -/
theorem HeatHistory.gain_core (hp : Pos n E C) (hn : 0 < n) (hq : 0 ≤ q) (h : HeatHistory n E C q init H) (k : ℕ) :
    H (k + 2) 0 - H (k + 1) 0 ≤ H (k + 1) 0 - H k 0 := by
  have hs := (h.2 (k + 1)).sub (h.2 k)
  rw [sub_self] at hs
  refine hs.le hp (m := H (k + 1) 0 - H k 0) ?_ 0 hn
  intro i
  induction i with
  | zero => intro _; exact le_rfl
  | succ i ih => exact fun hi => (h.gain_outward hp hq k i hi).trans (ih (by omega))

/-- a sequence from 0 that rises ever more slowly stays below its chords -/
theorem chord {R : ℕ → ℝ} (h0 : R 0 = 0) (h : ∀ k, R (k + 2) - R (k + 1) ≤ R (k + 1) - R k) {a b : ℕ}
    (hab : a ≤ b) : a * R b ≤ b * R a := by
  have anti : ∀ i j, i ≤ j → R (j + 1) - R j ≤ R (i + 1) - R i := by
    intro i j hij
    induction j, hij using Nat.le_induction with
    | base => exact le_rfl
    | succ j _ ih => exact (h j).trans ih
  -- the first `a` gains are each at least the gain after `a`
  have low : ∀ m, m ≤ a → m * (R (a + 1) - R a) ≤ R m := by
    intro m
    induction m with
    | zero => intro _; simp [h0]
    | succ m ih =>
      intro hm
      have := ih (by omega)
      have := anti m a (by omega)
      push_cast
      linarith
  induction b, hab using Nat.le_induction with
  | base => exact le_rfl
  | succ b hb ih =>
    have h1 := anti a b hb
    have h2 := low a le_rfl
    have h3 : (a : ℝ) * (R (b + 1) - R b) ≤ a * (R (a + 1) - R a) := mul_le_mul_of_nonneg_left h1 (by positivity)
    push_cast
    linarith

end Ghedt.Spec
