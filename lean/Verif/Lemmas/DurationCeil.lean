import Verif.Lemmas.DurationFloor

/-!
# How long a peak can last when the response slows down
-/

set_option linter.unusedSectionVars false

namespace Ghedt.GL
open Spec Search
variable {K : Type} [Field K] [LinearOrder K] [IsStrictOrderedRing K]

/-- what a unit of load adds to the temperature in its hour (`i = 0`), and `i` hours later -/
def lag (r : Resp K) (G : ℕ → K) (i : ℕ) : K :=
  if i = 0 then G 1 / r.twoPiK + r.Rb else G (i + 1) / r.twoPiK - G i / r.twoPiK

theorem sum_lag (r : Resp K) (G : ℕ → K) (n : ℕ) : ∑ i ∈ Finset.range (n + 1), lag r G i = G (n + 1) / r.twoPiK + r.Rb := by
  induction n with
  | zero => simp [lag]
  | succ n ih =>
    rw [Finset.sum_range_succ, ih]
    unfold lag
    rw [if_neg (Nat.succ_ne_zero n)]
    ring

theorem dT_lag {r : Resp K} {G : ℕ → K} {q : ℕ → K} (h0 : q 0 = 0) {n : ℕ} (hn : 1 ≤ n) :
    dT r G q n = ∑ i ∈ Finset.range n, q (n - i) * lag r G i := by
  have key : ∀ m, 1 ≤ m → m ≤ n → ∑ k ∈ Finset.range m, (q (k + 1) - q k) / r.twoPiK * G (n - k) =
      q m * (G (n - m + 1) / r.twoPiK) +
        ∑ k ∈ Finset.range (m - 1), q (k + 1) * (G (n - k) / r.twoPiK - G (n - (k + 1)) / r.twoPiK) := by
    intro m hm
    induction m, hm using Nat.le_induction with
    | base =>
      intro _
      rw [Finset.sum_range_one, h0, show n - 1 + 1 = n by omega]
      simp
      ring
    | succ m hm ih =>
      intro hle
      rw [Finset.sum_range_succ, ih (by omega)]
      obtain ⟨j, rfl⟩ : ∃ j, m = j + 1 := ⟨m - 1, by omega⟩
      rw [show j + 1 + 1 - 1 = j + 1 by omega, show j + 1 - 1 = j by omega, Finset.sum_range_succ,
        show n - (j + 1) + 1 = n - j by omega, show n - (j + 1 + 1) + 1 = n - (j + 1) by omega]
      ring
  unfold dT
  rw [key n hn le_rfl]
  obtain ⟨N, rfl⟩ : ∃ N, n = N + 1 := ⟨n - 1, by omega⟩
  rw [Finset.sum_range_succ', ← Finset.sum_range_reflect (fun i => q (N + 1 - (i + 1)) * lag r G (i + 1))]
  have e : ∀ k ∈ Finset.range (N + 1 - 1), q (k + 1) * (G (N + 1 - k) / r.twoPiK - G (N + 1 - (k + 1)) / r.twoPiK) =
      q (N + 1 - (N - 1 - k + 1)) * lag r G (N - 1 - k + 1) := by
    intro k hk
    have hk := Finset.mem_range.1 hk
    unfold lag
    rw [if_neg (Nat.succ_ne_zero _), show N + 1 - (N - 1 - k + 1) = k + 1 by omega, show N - 1 - k + 1 + 1 = N + 1 - k by omega,
      show N - 1 - k + 1 = N + 1 - (k + 1) by omega]
  rw [Finset.sum_congr rfl e]
  simp [lag]
  ring

/-- The response slows down: what an hour adds is at least a third of what any later hour adds. -/
def Slows (r : Resp K) (G : ℕ → K) : Prop := (∀ i < 48, 0 < lag r G i) ∧ ∀ i j, i ≤ j → j < 48 → lag r G j ≤ 3 * lag r G i

/-- a load that is at most `c`, and in all less than `S` hours of `c` (thrice), warms the fluid no more than `S` hours of `c` -/
theorem dT_budget {r : Resp K} {G : ℕ → K} (hs : Slows r G) {q : ℕ → K} (h0 : q 0 = 0) {c : K} (hc : 0 ≤ c)
    (hq : ∀ k, 1 ≤ k → k ≤ 48 → q k ≤ c) {S : ℕ} (hS : S < 48)
    (hsum : 3 * ∑ k ∈ Finset.range 48, max (q (k + 1)) 0 ≤ ((S + 1 : ℕ) : K) * c) {n : ℕ} (hn : 1 ≤ n) (hn2 : n ≤ 48) :
    dT r G q n ≤ c * (G (S + 1) / r.twoPiK + r.Rb) := by
  rw [dT_lag h0 hn, ← sum_lag, Finset.mul_sum]
  rcases Nat.lt_or_ge (S + 1) n with h | h
  · obtain ⟨e, rfl⟩ : ∃ e, n = (S + 1) + e := ⟨n - (S + 1), by omega⟩
    obtain ⟨i0, hi0, hmin⟩ := Finset.exists_min_image (Finset.range (S + 1)) (lag r G) ⟨0, by simp⟩
    have hi0 := Finset.mem_range.1 hi0
    set μ := lag r G i0 with hμ
    have hμ0 : 0 < μ := hs.1 i0 (by omega)
    have a1 : ∀ i ∈ Finset.range (S + 1), q (S + 1 + e - i) * lag r G i ≤
        c * lag r G i - c * μ + 3 * μ * max (q (S + 1 + e - i)) 0 := by
      intro i hi
      have hi' := Finset.mem_range.1 hi
      have g1 := hmin i hi
      have g2 := hq (S + 1 + e - i) (by omega) (by omega)
      have g3 := le_max_left (q (S + 1 + e - i)) 0
      have g4 := le_max_right (q (S + 1 + e - i)) 0
      generalize q (S + 1 + e - i) = y at *
      nlinarith [mul_nonneg (sub_nonneg.2 g2) (sub_nonneg.2 g1), mul_nonneg hμ0.le g4, mul_le_mul_of_nonneg_right g3 hμ0.le]
    have a2 : ∀ i ∈ Finset.range e, q (S + 1 + e - (S + 1 + i)) * lag r G (S + 1 + i) ≤
        3 * μ * max (q (S + 1 + e - (S + 1 + i))) 0 := by
      intro i hi
      have hi' := Finset.mem_range.1 hi
      have g1 := hs.2 i0 (S + 1 + i) (by omega) (by omega)
      have g0 := hs.1 (S + 1 + i) (by omega)
      have g3 := le_max_left (q (S + 1 + e - (S + 1 + i))) 0
      have g4 := le_max_right (q (S + 1 + e - (S + 1 + i))) 0
      have b1 := mul_le_mul_of_nonneg_right g3 g0.le
      have b2 := mul_le_mul_of_nonneg_left g1 g4
      linarith
    have b1 := Finset.sum_le_sum a1
    have b2 := Finset.sum_le_sum a2
    have b3 : ∑ i ∈ Finset.range (S + 1), max (q (S + 1 + e - i)) 0 + ∑ i ∈ Finset.range e, max (q (S + 1 + e - (S + 1 + i))) 0 ≤
        ∑ k ∈ Finset.range 48, max (q (k + 1)) 0 := by
      rw [← Finset.sum_range_add (fun i => max (q (S + 1 + e - i)) 0), ← Finset.sum_range_reflect]
      have : ∀ j ∈ Finset.range (S + 1 + e), max (q (S + 1 + e - (S + 1 + e - 1 - j))) 0 = max (q (j + 1)) 0 := by
        intro j hj
        have := Finset.mem_range.1 hj
        rw [show S + 1 + e - (S + 1 + e - 1 - j) = j + 1 by omega]
      rw [Finset.sum_congr rfl this]
      exact Finset.sum_le_sum_of_subset_of_nonneg (Finset.range_subset_range.2 hn2) (fun _ _ _ => le_max_right _ _)
    rw [Finset.sum_range_add]
    have e1 : ∑ i ∈ Finset.range (S + 1), (c * lag r G i - c * μ + 3 * μ * max (q (S + 1 + e - i)) 0) =
        ∑ i ∈ Finset.range (S + 1), c * lag r G i - ((S + 1 : ℕ) : K) * (c * μ) +
          3 * μ * ∑ i ∈ Finset.range (S + 1), max (q (S + 1 + e - i)) 0 := by
      rw [Finset.sum_add_distrib, Finset.sum_sub_distrib, Finset.sum_const, Finset.card_range, nsmul_eq_mul,
        Finset.mul_sum (a := 3 * μ)]
    rw [e1] at b1
    rw [← Finset.mul_sum] at b2
    have b4 := mul_le_mul_of_nonneg_left b3 hμ0.le
    have b5 := mul_le_mul_of_nonneg_left hsum hμ0.le
    generalize ((S + 1 : ℕ) : K) = T at *
    linarith
  · have a1 : ∀ i ∈ Finset.range n, q (n - i) * lag r G i ≤ c * lag r G i := by
      intro i hi
      have hi' := Finset.mem_range.1 hi
      exact mul_le_mul_of_nonneg_right (hq _ (by omega) (by omega)) (hs.1 i (by omega)).le
    refine (Finset.sum_le_sum a1).trans (Finset.sum_le_sum_of_subset_of_nonneg (Finset.range_subset_range.2 h) fun i hi _ => ?_)
    exact mul_nonneg hc (hs.1 i (by have := Finset.mem_range.1 hi; omega)).le

/-- loads below zero before hour `n` cool the fluid by no more than thrice their sum would in their own hour -/
theorem dT_deficit {r : Resp K} {G : ℕ → K} (hs : Slows r G) {q : ℕ → K} (h0 : q 0 = 0) {n : ℕ} (hn : n < 48) :
    (q (n + 1) - 3 * ∑ k ∈ Finset.range n, max (-q (k + 1)) 0) * (G 1 / r.twoPiK + r.Rb) ≤ dT r G q (n + 1) := by
  have e : lag r G 0 = G 1 / r.twoPiK + r.Rb := by simp [lag]
  rw [dT_lag h0 (by omega), Finset.sum_range_succ', ← e, Nat.sub_zero,
    ← Finset.sum_range_reflect (fun k => q (n + 1 - (k + 1)) * lag r G (k + 1))]
  have a : ∀ k ∈ Finset.range n, -(3 * lag r G 0 * max (-q (k + 1)) 0) ≤
      q (n + 1 - (n - 1 - k + 1)) * lag r G (n - 1 - k + 1) := by
    intro k hk
    have hk := Finset.mem_range.1 hk
    rw [show n + 1 - (n - 1 - k + 1) = k + 1 by omega]
    have g1 := hs.2 0 (n - 1 - k + 1) (by omega) (by omega)
    have g0 := hs.1 (n - 1 - k + 1) (by omega)
    have g3 := le_max_left (-q (k + 1)) 0
    have g4 := le_max_right (-q (k + 1)) 0
    have b1 := mul_le_mul_of_nonneg_right g3 g0.le
    have b2 := mul_le_mul_of_nonneg_left g1 g4
    linarith
  have b := Finset.sum_le_sum a
  rw [Finset.sum_neg_distrib, ← Finset.mul_sum] at b
  linarith

theorem interpNodes_before : ∀ (l : List (K × K)) (q : K × K) (t : List (K × K)) (v d : K),
    interpNodes (l ++ q :: t) v = .ok d → v < q.1 → (∀ p ∈ l, p.2 ≤ q.2) → d ≤ q.2
  | [], q, [], v, d, h, hv, _ => by
    rw [List.nil_append] at h
    unfold interpNodes at h
    rw [if_neg hv.ne] at h
    cases h
  | [], q, p :: t, v, d, h, hv, _ => by
    rw [List.nil_append] at h
    unfold interpNodes at h
    rw [if_pos hv] at h
    cases h
  | [p], q, t, v, d, h, hv, hl => by
    rw [List.cons_append, List.nil_append] at h
    unfold interpNodes at h
    split at h
    · cases h
    · rename_i hp
      cases h
      have := hl p (by simp)
      have h1 : 0 < q.1 - p.1 := by linarith
      have h2 : (v - p.1) / (q.1 - p.1) ≤ 1 := by rw [div_le_one h1]; linarith
      have : (q.2 - p.2) / (q.1 - p.1) * (v - p.1) = (q.2 - p.2) * ((v - p.1) / (q.1 - p.1)) := by ring
      rw [this]
      have := mul_le_mul_of_nonneg_left h2 (show 0 ≤ q.2 - p.2 by linarith)
      linarith
  | p :: p' :: l, q, t, v, d, h, hv, hl => by
    rw [List.cons_append, List.cons_append] at h
    unfold interpNodes at h
    split at h
    · cases h
    · rename_i hp
      split at h
      · rename_i hp'
        cases h
        have h1 : 0 < p'.1 - p.1 := by linarith
        have h2 : (v - p.1) / (p'.1 - p.1) ≤ 1 := by rw [div_le_one h1]; linarith
        have h3 : 0 ≤ (v - p.1) / (p'.1 - p.1) := div_nonneg (by linarith) h1.le
        have : (p'.2 - p.2) / (p'.1 - p.1) * (v - p.1) = (p'.2 - p.2) * ((v - p.1) / (p'.1 - p.1)) := by ring
        rw [this]
        have e1 := hl p (by simp)
        have e2 := hl p' (by simp)
        nlinarith
      · exact interpNodes_before (p' :: l) q t v d (by rw [List.cons_append]; exact h) hv
          (fun a ha => hl a (List.mem_cons_of_mem _ ha))

theorem Slows.mono {r : Resp K} {G : ℕ → K} (hs : Slows r G) (hk : 0 < r.twoPiK) : ∀ t, 1 ≤ t → t < 48 → G t ≤ G (t + 1) := by
  intro t t1 t2
  have := hs.1 t t2
  unfold lag at this
  rw [if_neg (by omega), sub_pos, div_lt_div_iff_of_pos_right hk] at this
  exact this.le

theorem Slows.pos {r : Resp K} {G : ℕ → K} (hs : Slows r G) : 0 < G 1 / r.twoPiK + r.Rb := by
  simpa [lag] using hs.1 0 (by norm_num)

/-- interpolating the history of a constant load for a value below that of hour `T` -/
theorem interp_hist_le {r : Resp K} {G : ℕ → K} {c : K} (hc : 0 ≤ c) (hk : 0 < r.twoPiK)
    (hG : ∀ t, 1 ≤ t → t < 48 → G t ≤ G (t + 1)) (h1 : 0 ≤ G 1 / r.twoPiK + r.Rb)
    {v : K} {T : ℕ} (hT : 1 ≤ T) (hT2 : T ≤ 48) (hv : v < c * (G T / r.twoPiK + r.Rb))
    {d : K} (hd : interp1d (hist r G (qPk c)) hours49 v = .ok d) : d ≤ T := by
  set f : ℕ → K × K := fun n => (if n = 0 then 0 else c * (G n / r.twoPiK + r.Rb), (n : K)) with hf
  have hhist : hist r G (qPk c) = (List.range 49).map fun n => (f n).1 := by
    apply List.ext_getElem?
    intro n
    by_cases hn : n ≤ 48
    · rw [hist_getElem? r G _ n hn, List.getElem?_map, List.getElem?_range (by omega)]
      simp only [Option.map_some, hf]
      by_cases h0 : n = 0
      · simp [h0]
      · rw [if_neg h0, if_neg h0, dT_const (c := c) (by simp [qPk]) _ (by omega) hn]
        intro k hk1 _
        simp [qPk, show k ≠ 0 by omega]
    · rw [List.getElem?_eq_none (by rw [hist_length]; omega), List.getElem?_eq_none (by simp; omega)]
  have hhours : hours49 = (List.range 49).map fun n => (f n).2 := by
    unfold hours49
    rw [show pyRange 0 (2 * 24 + 1) = (List.range 49).map fun k : ℕ => (k : ℤ) from pyRange_zero 49,
      List.map_map]
    apply List.map_congr_left
    intro k _
    simp [hf]
  have hzip : (hist r G (qPk c)).zip hours49 = (List.range 49).map f := by
    rw [hhist, hhours, List.zip_map']
  have hmono : ∀ k, k + 1 < 49 → (f k).1 ≤ (f (k + 1)).1 := by
    intro k hk'
    simp only [hf]
    rw [if_neg (Nat.succ_ne_zero k)]
    by_cases h0 : k = 0
    · subst h0
      rw [if_pos rfl]
      exact mul_nonneg hc h1
    · rw [if_neg h0]
      apply mul_le_mul_of_nonneg_left _ hc
      have := div_le_div_of_nonneg_right (hG k (by omega) (by omega)) hk.le
      linarith
  have hchain : ((List.range 49).map f).IsChain (fun a b => a.1 ≤ b.1) := isChain_map_range _ f 49 hmono
  have hsort : ((List.range 49).map f).insertionSort (fun a b => a.1 ≤ b.1) = (List.range 49).map f := by
    apply List.Pairwise.insertionSort_eq
    have : IsTrans (K × K) (fun a b => a.1 ≤ b.1) := ⟨fun a b c h h' => le_trans h h'⟩
    exact List.IsChain.pairwise hchain
  unfold interp1d at hd
  rw [if_neg (by rw [hist_length]; simp [hours49]), hzip, hsort] at hd
  have hsplit : (List.range 49).map f = (List.range T).map f ++ f T :: (List.range (48 - T)).map fun k => f (T + 1 + k) := by
    apply List.ext_getElem?
    intro n
    rw [List.getElem?_map]
    rcases lt_trichotomy n T with hn | hn | hn
    · rw [List.getElem?_append_left (by simpa using hn), List.getElem?_map, List.getElem?_range hn, List.getElem?_range (by omega)]
    · rw [List.getElem?_append_right (by simp; omega), hn, List.length_map, List.length_range, Nat.sub_self, List.getElem?_range (by omega)]
      rfl
    · rw [List.getElem?_append_right (by simp; omega), List.length_map, List.length_range]
      obtain ⟨e, rfl⟩ : ∃ e, n = T + 1 + e := ⟨n - (T + 1), by omega⟩
      rw [show T + 1 + e - T = e + 1 by omega, List.getElem?_cons_succ, List.getElem?_map]
      by_cases he : e < 48 - T
      · rw [List.getElem?_range he, List.getElem?_range (by omega)]
        rfl
      · rw [List.getElem?_eq_none (by rw [List.length_range]; omega), List.getElem?_eq_none (by rw [List.length_range]; omega)]
        rfl
  rw [hsplit] at hd
  have := interpNodes_before _ (f T) _ v d hd (by simp only [hf]; rw [if_neg (by omega)]; exact hv) (by
    intro p hp
    obtain ⟨k, hk', rfl⟩ := List.mem_map.1 hp
    have := List.mem_range.1 hk'
    simp only [hf]
    exact_mod_cast this.le)
  simpa [hf] using this

/-- the duration of one month whose peak is in the window, if the response slows down -/
theorem month_span {r : Resp K} {G : ℕ → K} (hr : Answers r G) (hk : 0 < r.twoPiK) (hs : Slows r G)
    {w : List K} (hw : w.length = 48) {P a : K} (hP : 0 < P) (haP : a < P)
    (hx : ∀ x ∈ w, 0 ≤ x ∧ x ≤ P) {d : K} {x y : List K} (h : performMonth r (0 :: w) P a = .ok (d, x, y)) :
    (∀ S : ℕ, S < 47 → 3 * ∑ k ∈ Finset.range 48, max (qNm w P a (k + 1)) 0 ≤ ((S + 1 : ℕ) : K) * (P - a) → d ≤ ((S + 2 : ℕ) : K)) ∧
    (∀ j : ℕ, w[j]? = some P → 4 * ∑ k ∈ Finset.range j, max (-qNm w P a (k + 1)) 0 ≤ P - a → 1 / 1000000 ≤ d) := by
  have hG := hs.mono hk
  have h1 := hs.pos
  rw [performMonth_eq hr hw hP.ne' a, bind_eq_ok] at h
  obtain ⟨m, hm, h⟩ := h
  rw [bind_eq_ok] at h
  obtain ⟨d', hd, h⟩ := h
  cases h
  by_cases hm0 : m > 0
  swap
  · rw [if_neg hm0] at hd
    cases hd
    refine ⟨fun S _ _ => ?_, fun _ _ _ => le_rfl⟩
    have : (0 : K) ≤ S := Nat.cast_nonneg S
    push_cast
    norm_num
    linarith
  rw [if_pos hm0] at hd
  refine ⟨fun S hS hsum => ?_, fun j hj hsum => ?_⟩
  · refine interp_hist_le (by linarith) hk hG h1.le (by omega) (by omega) ?_ hd
    have hle : m ≤ (P - a) * (G (S + 1) / r.twoPiK + r.Rb) := by
      rcases mem_hist (pyMax_eq_ok hm).1 with h' | ⟨n, n1, n2, h'⟩
      · exact absurd h' hm0.ne'
      · rw [h']
        exact dT_budget hs (by simp [qNm]) (by linarith) (fun k k1 k2 => qNm_le hw hP haP.le hx k1 k2) (by omega) hsum n1 n2
    have hl := hs.1 (S + 1) (by omega)
    unfold lag at hl
    rw [if_neg (by omega)] at hl
    have := mul_pos (show 0 < P - a by linarith) hl
    rw [show S + 1 + 1 = S + 2 by omega] at this
    linarith
  · have hj48 : j < 48 := by
      by_contra hcon
      rw [List.getElem?_eq_none (by omega)] at hj
      cases hj
    have hlast : qNm w P a (j + 1) = P - a := by
      unfold qNm
      rw [if_neg (Nat.succ_ne_zero j), List.getD_cons_succ, List.getD_eq_getElem?_getD, hj, Option.getD_some]
      field_simp
    have hmax : dT r G (qNm w P a) (j + 1) ≤ m := (pyMax_eq_ok hm).2 _ (dT_mem_hist (by omega) (by omega))
    have hdef := dT_deficit hs (q := qNm w P a) (by simp [qNm]) hj48
    rw [hlast] at hdef
    refine interp_hist_ge (by linarith) hk hG h1 (by norm_num) hm0 (le_trans ?_ (hdef.trans hmax)) hd
    rw [← mul_assoc]
    apply mul_le_mul_of_nonneg_right _ h1.le
    linarith

end Ghedt.GL
