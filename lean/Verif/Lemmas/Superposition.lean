import Verif.Spec.Response
import Mathlib.Algebra.BigOperators.Intervals
import Mathlib.Tactic

/-!
# Superposition with a response that does not fall

Lemmas for `Props/MoreLoad.lean`: values on a rising polyline, and sums of load changes times such values.
-/

namespace Ghedt.Spec
open Real

theorem seg_bounds {x0 y0 x1 y1 u : ℝ} (h0 : x0 ≤ u) (h1 : u < x1) (hy : y0 ≤ y1) :
    y0 ≤ y0 + (y1 - y0) / (x1 - x0) * (u - x0) ∧ y0 + (y1 - y0) / (x1 - x0) * (u - x0) ≤ y1 := by
  have hd : 0 < x1 - x0 := by linarith
  have e : y0 + (y1 - y0) / (x1 - x0) * (u - x0) = y0 + (y1 - y0) * ((u - x0) / (x1 - x0)) := by ring
  have a0 : 0 ≤ (u - x0) / (x1 - x0) := div_nonneg (by linarith) hd.le
  have a1 : (u - x0) / (x1 - x0) ≤ 1 := by rw [div_le_one hd]; linarith
  rw [e]
  constructor <;> nlinarith

theorem getElem?_lt_of_pairwise {α : Type} {r : α → α → Prop} {l : List α} (h : l.Pairwise r) {i j : ℕ} {a b : α}
    (hi : l[i]? = some a) (hj : l[j]? = some b) (hij : i < j) : r a b := by
  obtain ⟨h1, rfl⟩ := List.getElem?_eq_some_iff.1 hi
  obtain ⟨h2, rfl⟩ := List.getElem?_eq_some_iff.1 hj
  exact List.pairwise_iff_getElem.1 h i j h1 h2 hij

variable {pts : List (ℝ × ℝ)}

/-- a polyline with values that do not fall does not fall -/
theorem polyline_mono (hx : pts.Pairwise (fun a b => a.1 < b.1)) (hy : pts.Pairwise (fun a b => a.2 ≤ b.2))
    {u v y z : ℝ} (hu : OnPolyline pts u y) (hv : OnPolyline pts v z) (huv : u ≤ v) : y ≤ z := by
  have X : ∀ {i j : ℕ} {a b : ℝ × ℝ}, pts[i]? = some a → pts[j]? = some b → i < j → a.1 < b.1 :=
    fun h1 h2 h3 => getElem?_lt_of_pairwise hx h1 h2 h3
  have Y : ∀ {i j : ℕ} {a b : ℝ × ℝ}, pts[i]? = some a → pts[j]? = some b → i ≤ j → a.2 ≤ b.2 := by
    intro i j a b h1 h2 h3
    rcases Nat.lt_or_eq_of_le h3 with h | rfl
    · exact getElem?_lt_of_pairwise hy h1 h2 h
    · rw [h1] at h2
      cases h2
      exact le_rfl
  rcases hu with hu | ⟨k, a, b, k1, k2, k3, k4, rfl⟩
  · obtain ⟨i, hi⟩ := List.mem_iff_getElem?.1 hu
    rcases hv with hv | ⟨l, c, d, l1, l2, l3, l4, rfl⟩
    · obtain ⟨j, hj⟩ := List.mem_iff_getElem?.1 hv
      refine Y hi hj ?_
      by_contra hn
      have := X hj hi (by omega)
      dsimp only at this
      linarith
    · have hb := (seg_bounds l3 l4 (Y l1 l2 (by omega))).1
      refine le_trans (Y hi l1 ?_) hb
      by_contra hn
      rcases Nat.lt_or_eq_of_le (show l + 1 ≤ i by omega) with h | rfl
      · have := X l2 hi h
        dsimp only at this
        linarith
      · rw [l2] at hi
        cases hi
        dsimp only at *
        linarith
  · rcases hv with hv | ⟨l, c, d, l1, l2, l3, l4, rfl⟩
    · obtain ⟨j, hj⟩ := List.mem_iff_getElem?.1 hv
      have hkb := (seg_bounds k3 k4 (Y k1 k2 (by omega)))
      have hkj : k ≤ j := by
        by_contra hn
        have := X hj k1 (by omega)
        dsimp only at this
        linarith
      rcases Nat.lt_or_eq_of_le hkj with h | rfl
      · exact hkb.2.trans (Y k2 hj h)
      · rw [k1] at hj
        cases hj
        dsimp only at *
        have : u = v := by linarith
        subst this
        simp
    · rcases lt_trichotomy k l with h | rfl | h
      · exact (seg_bounds k3 k4 (Y k1 k2 (by omega))).2.trans
          ((Y k2 l1 h).trans (seg_bounds l3 l4 (Y l1 l2 (by omega))).1)
      · rw [k1] at l1
        rw [k2] at l2
        cases l1
        cases l2
        have : 0 ≤ (b.2 - a.2) / (b.1 - a.1) :=
          div_nonneg (by linarith [Y k1 k2 (by omega)]) (by linarith)
        have := mul_le_mul_of_nonneg_left (sub_le_sub_right huv a.1) this
        linarith
      · exfalso
        have : d.1 ≤ a.1 := by
          rcases Nat.lt_or_eq_of_le (show l + 1 ≤ k by omega) with h | rfl
          · exact (X l2 k1 h).le
          · rw [k1] at l2
            cases l2
            exact le_rfl
        linarith

theorem polyline_unique (hx : pts.Pairwise (fun a b => a.1 < b.1)) {u y z : ℝ}
    (hu : OnPolyline pts u y) (hv : OnPolyline pts u z) : y = z := by
  have X : ∀ {i j : ℕ} {a b : ℝ × ℝ}, pts[i]? = some a → pts[j]? = some b → i < j → a.1 < b.1 :=
    fun h1 h2 h3 => getElem?_lt_of_pairwise hx h1 h2 h3
  have key : ∀ {k i : ℕ} {a b c : ℝ × ℝ}, pts[k]? = some a → pts[k + 1]? = some b → a.1 ≤ u → u < b.1 →
      pts[i]? = some c → c.1 = u → i = k := by
    intro k i a b c h1 h2 h3 h4 h5 h6
    rcases lt_trichotomy i k with h | h | h
    · have := X h5 h1 h
      linarith
    · exact h
    · rcases Nat.lt_or_eq_of_le (show k + 1 ≤ i by omega) with h | rfl
      · have := X h2 h5 h
        linarith
      · rw [h2] at h5
        cases h5
        linarith
  rcases hu with hu | ⟨k, a, b, k1, k2, k3, k4, rfl⟩ <;> rcases hv with hv | ⟨l, c, d, l1, l2, l3, l4, rfl⟩
  · obtain ⟨i, hi⟩ := List.mem_iff_getElem?.1 hu
    obtain ⟨j, hj⟩ := List.mem_iff_getElem?.1 hv
    rcases lt_trichotomy i j with h | rfl | h
    · exact absurd (X hi hj h) (lt_irrefl _)
    · rw [hi] at hj
      cases hj
      rfl
    · exact absurd (X hj hi h) (lt_irrefl _)
  · obtain ⟨i, hi⟩ := List.mem_iff_getElem?.1 hu
    obtain rfl := key l1 l2 l3 l4 hi rfl
    rw [hi] at l1
    cases l1
    simp
  · obtain ⟨i, hi⟩ := List.mem_iff_getElem?.1 hv
    obtain rfl := key k1 k2 k3 k4 hi rfl
    rw [hi] at k1
    cases k1
    simp
  · have : k = l := by
      rcases lt_trichotomy k l with h | h | h
      · rcases Nat.lt_or_eq_of_le (show k + 1 ≤ l by omega) with h | rfl
        · have := X k2 l1 h
          linarith
        · rw [k2] at l1
          cases l1
          linarith
      · exact h
      · rcases Nat.lt_or_eq_of_le (show l + 1 ≤ k by omega) with h | rfl
        · have := X l2 k1 h
          linarith
        · rw [l2] at k1
          cases k1
          linarith
    subst this
    rw [k1] at l1
    rw [k2] at l2
    cases l1
    cases l2
    rfl

/-- values on a polyline are not below its lowest point -/
theorem polyline_ge {m u y : ℝ} (hm : ∀ q ∈ pts, m ≤ q.2) (h : OnPolyline pts u y) : m ≤ y := by
  rcases h with h | ⟨k, a, b, h1, h2, h3, h4, rfl⟩
  · exact hm _ h
  · have ha := hm _ (List.mem_of_getElem? h1)
    have hb := hm _ (List.mem_of_getElem? h2)
    have hd : 0 < b.1 - a.1 := by linarith
    have e : a.2 + (b.2 - a.2) / (b.1 - a.1) * (u - a.1) =
        (a.2 * (b.1 - u) + b.2 * (u - a.1)) / (b.1 - a.1) := by
      field_simp
      ring
    rw [e, le_div_iff₀ hd]
    nlinarith

/-- load changes `D (j+1) - D j` times weights that do not rise with `j`: at least the last load times the last weight -/
theorem abel_le {D w : ℕ → ℝ} (h0 : D 0 = 0) (i : ℕ) (hD : ∀ j ≤ i + 1, 0 ≤ D j) (hw : ∀ j < i, w (j + 1) ≤ w j) :
    D (i + 1) * w i ≤ ∑ j ∈ Finset.range (i + 1), (D (j + 1) - D j) * w j := by
  induction i with
  | zero => simp [h0]
  | succ i ih =>
    rw [Finset.sum_range_succ]
    have h1 := ih (fun j hj => hD j (by omega)) (fun j hj => hw j (by omega))
    have h2 := mul_le_mul_of_nonneg_left (hw i (by omega)) (hD (i + 1) (by omega))
    linarith

/-- How much higher the exit temperature is for higher loads, for a response that does not fall: at least what the
difference of the loads of the step itself brings. -/
theorem exitTemp_mono {c : Site} (hN : 0 < c.boreholes) (hH : 0 < c.height) (hk : 0 < c.conductivity) {G : ℝ → ℝ}
    {Q Q' t : ℕ → ℝ} {i : ℕ} (h0 : Q 0 = Q' 0) (hQ : ∀ j ≤ i + 1, Q j ≤ Q' j)
    (hG : ∀ j < i, G (t (i + 1) - t (j + 1)) ≤ G (t (i + 1) - t j)) :
    exitTemp c G Q t (i + 1) + (Q' (i + 1) - Q (i + 1)) / c.boreholes *
      ((G (t (i + 1) - t i) / (2 * π * c.conductivity) + c.resistance) / c.height - 1 / (2 * c.flow * c.cp)) ≤
      exitTemp c G Q' t (i + 1) := by
  have hpi := pi_pos
  have hA : 0 < 1 / (c.boreholes * c.height) / (2 * π * c.conductivity) := by positivity
  set A := 1 / (c.boreholes * c.height) / (2 * π * c.conductivity) with hAd
  have e : ∀ R : ℕ → ℝ, wallRise c G R t (i + 1) =
      A * ∑ j ∈ Finset.range (i + 1), (R (j + 1) - R j) * G (t (i + 1) - t j) := by
    intro R
    unfold wallRise
    rw [Finset.mul_sum]
    refine Finset.sum_congr rfl fun j _ => ?_
    rw [hAd]
    ring
  have key := abel_le (D := fun j => Q' j - Q j) (w := fun j => G (t (i + 1) - t j)) (by simp [h0]) i
    (fun j hj => sub_nonneg.2 (hQ j hj)) hG
  have key := mul_le_mul_of_nonneg_left key hA.le
  have es : ∑ j ∈ Finset.range (i + 1), ((Q' (j + 1) - Q (j + 1)) - (Q' j - Q j)) * G (t (i + 1) - t j) =
      ∑ j ∈ Finset.range (i + 1), (Q' (j + 1) - Q' j) * G (t (i + 1) - t j) -
      ∑ j ∈ Finset.range (i + 1), (Q (j + 1) - Q j) * G (t (i + 1) - t j) := by
    rw [← Finset.sum_sub_distrib]
    exact Finset.sum_congr rfl fun j _ => by ring
  rw [es, mul_sub] at key
  unfold exitTemp
  rw [e Q, e Q']
  have e2 : (Q' (i + 1) - Q (i + 1)) / c.boreholes *
      ((G (t (i + 1) - t i) / (2 * π * c.conductivity) + c.resistance) / c.height - 1 / (2 * c.flow * c.cp)) =
      A * ((Q' (i + 1) - Q (i + 1)) * G (t (i + 1) - t i)) +
      (Q' (i + 1) / (c.boreholes * c.height) * c.resistance - Q (i + 1) / (c.boreholes * c.height) * c.resistance) -
      (Q' (i + 1) / c.boreholes / (2 * c.flow * c.cp) - Q (i + 1) / c.boreholes / (2 * c.flow * c.cp)) := by
    rw [hAd]
    field_simp
  rw [e2]
  linarith

theorem exitTemp_zero (c : Site) (G : ℝ → ℝ) (t : ℕ → ℝ) (i : ℕ) : exitTemp c G (fun _ => 0) t i = c.ground := by
  simp [exitTemp, wallRise]

theorem exitTemp_congr {c : Site} {G G' : ℝ → ℝ} {Q Q' t t' : ℕ → ℝ} {i : ℕ} (hQ : ∀ j ≤ i, Q j = Q' j)
    (hG : ∀ j < i, G (t i - t j) = G' (t' i - t' j)) : exitTemp c G Q t i = exitTemp c G' Q' t' i := by
  unfold exitTemp wallRise
  rw [hQ i le_rfl]
  rw [Finset.sum_congr rfl fun j hj => by
    rw [hQ j (Finset.mem_range.1 hj).le, hQ (j + 1) (Finset.mem_range.1 hj), hG j (Finset.mem_range.1 hj)]]

end Ghedt.Spec
