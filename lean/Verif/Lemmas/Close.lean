import Verif.Lemmas.Superposition

/-!
# Close responses give close temperatures

Lemmas for `Props/Stability.lean`.
-/

namespace Ghedt.Spec
open Real

/-- two lists of points over the same abscissae, with ordinates that differ by at most `η` -/
def ClosePoints (η : ℝ) : List (ℝ × ℝ) → List (ℝ × ℝ) → Prop := List.Forall₂ fun q q' => q.1 = q'.1 ∧ |q.2 - q'.2| ≤ η

variable {η : ℝ} {pts pts' : List (ℝ × ℝ)}

theorem ClosePoints.get (h : ClosePoints η pts pts') {k : ℕ} {q : ℝ × ℝ} (hq : pts[k]? = some q) :
    ∃ q', pts'[k]? = some q' ∧ q.1 = q'.1 ∧ |q.2 - q'.2| ≤ η := by
  induction h generalizing k with
  | nil => simp at hq
  | cons h _ ih =>
    cases k with
    | zero => cases hq; exact ⟨_, rfl, h⟩
    | succ k => exact ih hq

theorem closePoints_zip {x y y' : List ℝ} (hl : y.length = y'.length)
    (h : ∀ (k : ℕ) a b, y[k]? = some a → y'[k]? = some b → |a - b| ≤ η) : ClosePoints η (x.zip y) (x.zip y') := by
  induction x generalizing y y' with
  | nil => exact .nil
  | cons u x ih =>
    cases y with
    | nil =>
      rw [List.eq_nil_of_length_eq_zero (l := y') (by rw [← hl]; rfl)]
      exact .nil
    | cons a y =>
      cases y' with
      | nil => cases hl
      | cons b y' =>
        refine .cons ⟨rfl, h 0 a b rfl rfl⟩ (ih (by simpa using hl) fun k a b h1 h2 => h (k + 1) a b ?_ ?_)
        · simpa using h1
        · simpa using h2

theorem closePoints_filter (t : ℝ) (h : ClosePoints η pts pts') :
    ClosePoints η (pts.filter fun q => decide (q.1 ≤ t)) (pts'.filter fun q => decide (q.1 ≤ t)) := by
  induction h with
  | nil => exact .nil
  | cons h _ ih =>
    rw [List.filter_cons, List.filter_cons, h.1]
    split
    · exact .cons h ih
    · exact ih

theorem closePoints_append {l l' : List (ℝ × ℝ)} (h : ClosePoints η pts pts') (h' : ClosePoints η l l') :
    ClosePoints η (pts ++ l) (pts' ++ l') := List.rel_append h h'

/-- between two pairs of close points -/
theorem seg_close {x0 x1 u a b a' b' : ℝ} (h0 : x0 ≤ u) (h1 : u < x1) (ha : |a - a'| ≤ η) (hb : |b - b'| ≤ η) :
    |(a + (b - a) / (x1 - x0) * (u - x0)) - (a' + (b' - a') / (x1 - x0) * (u - x0))| ≤ η := by
  have hd : 0 < x1 - x0 := by linarith
  have a0 : 0 ≤ (u - x0) / (x1 - x0) := div_nonneg (by linarith) hd.le
  have a1 : (u - x0) / (x1 - x0) ≤ 1 := by rw [div_le_one hd]; linarith
  have e : (a + (b - a) / (x1 - x0) * (u - x0)) - (a' + (b' - a') / (x1 - x0) * (u - x0)) =
      (1 - (u - x0) / (x1 - x0)) * (a - a') + (u - x0) / (x1 - x0) * (b - b') := by ring
  rw [e]
  generalize (u - x0) / (x1 - x0) = w at a0 a1
  rw [abs_le] at ha hb ⊢
  constructor <;> nlinarith

/-- values at the same place of close polylines are close -/
theorem polyline_close (hx : pts'.Pairwise (fun a b => a.1 < b.1)) (h : ClosePoints η pts pts') {u y y' : ℝ}
    (hy : OnPolyline pts u y) (hy' : OnPolyline pts' u y') : |y - y'| ≤ η := by
  rcases hy with hy | ⟨k, a, b, k1, k2, k3, k4, rfl⟩
  · obtain ⟨i, hi⟩ := List.mem_iff_getElem?.1 hy
    obtain ⟨q', hq, e1, e2⟩ := h.get hi
    have : OnPolyline pts' u q'.2 := .inl (by
      have : (u, q'.2) = q' := Prod.ext e1 rfl
      rw [this]
      exact List.mem_of_getElem? hq)
    rw [polyline_unique hx hy' this]
    exact e2
  · obtain ⟨a', ha, e1, e2⟩ := h.get k1
    obtain ⟨b', hb, e3, e4⟩ := h.get k2
    have : OnPolyline pts' u (a'.2 + (b'.2 - a'.2) / (b'.1 - a'.1) * (u - a'.1)) :=
      .inr ⟨k, a', b', ha, hb, e1 ▸ k3, e3 ▸ k4, rfl⟩
    rw [polyline_unique hx hy' this, ← e1, ← e3]
    exact seg_close k3 k4 e2 e4

/-- responses that differ by at most `η` give exit temperatures that differ by at most `η` times all changes of the load -/
theorem exitTemp_close (c : Site) (h1 : 0 ≤ (c.boreholes : ℝ) * c.height) (h2 : 0 ≤ 2 * π * c.conductivity) (G G' : ℝ → ℝ) (Q t : ℕ → ℝ) (i : ℕ)
    (h : ∀ j < i, |G (t i - t j) - G' (t i - t j)| ≤ η) :
    |exitTemp c G Q t i - exitTemp c G' Q t i| ≤
      (∑ j ∈ Finset.range i, |Q (j + 1) - Q j|) / (c.boreholes * c.height) / (2 * π * c.conductivity) * η := by
  have e : exitTemp c G Q t i - exitTemp c G' Q t i = ∑ j ∈ Finset.range i,
      (Q (j + 1) - Q j) / (c.boreholes * c.height) / (2 * π * c.conductivity) * (G (t i - t j) - G' (t i - t j)) := by
    unfold exitTemp wallRise
    rw [show ∀ a b w r d : ℝ, (a + b + r - d) - (a + w + r - d) = b - w by intros; ring, ← Finset.sum_sub_distrib]
    refine Finset.sum_congr rfl fun j _ => by ring
  rw [e, Finset.sum_div, Finset.sum_div, Finset.sum_mul]
  refine (Finset.abs_sum_le_sum_abs _ _).trans (Finset.sum_le_sum fun j hj => ?_)
  rw [abs_mul, abs_div, abs_div, abs_of_nonneg h1, abs_of_nonneg h2]
  exact mul_le_mul_of_nonneg_left (h j (Finset.mem_range.1 hj)) (by positivity)

end Ghedt.Spec
