import Verif.Lemmas.GroundHeatExchangers

/-!
# Properties of the exchanger simulation and sizing (C39–C46)
-/

set_option linter.unusedSectionVars false

namespace Ghedt.GHE
open Utilities
variable {K : Type} [Field K] [LinearOrder K] [IsStrictOrderedRing K]

/-! ## C39 — the excess temperature -/

/-- C39: the excess is at most 0 iff both limits hold; it is the larger of the two violations. -/
theorem C39_cost (maxA minA hi lo : K) :
    (cost maxA minA hi lo ≤ 0 ↔ hi ≤ maxA ∧ minA ≤ lo) ∧
    (cost maxA minA hi lo = hi - maxA ∨ cost maxA minA hi lo = minA - lo) ∧
    hi ≤ maxA + cost maxA minA hi lo ∧ minA - cost maxA minA hi lo ≤ lo := by
  unfold cost
  refine ⟨?_, max_choice _ _, ?_, ?_⟩
  · rw [max_le_iff, sub_nonpos, sub_nonpos]
  · have := le_max_left (hi - maxA) (minA - lo); linarith
  · have := le_max_right (hi - maxA) (minA - lo); linarith

/-- C39: strict version: positive excess iff some limit is violated. -/
theorem C39_cost_pos (maxA minA hi lo : K) :
    0 < cost maxA minA hi lo ↔ maxA < hi ∨ lo < minA := by
  rw [← not_le, (C39_cost maxA minA hi lo).1, not_and_or, not_le, not_le]

example : cost (35 : ℚ) 5 36 4 = 1 ∧ cost (35 : ℚ) 5 30 3 = 2 ∧ cost (35 : ℚ) 5 30 7 = -2 := by
  decide +kernel

/-! ## C40 — the superposition formula and its consequences -/

theorem at0_map_range {f : ℕ → K} (h0 : f 0 = 0) {n i : ℕ} (hi : i ≤ n) :
    at0 ((List.range n).map fun k => f (k + 1)) i = f i := by
  cases i with
  | zero => rw [h0]; rfl
  | succ k =>
    rw [at0_succ, List.getD_eq_getElem?_getD, List.getElem?_map, List.getElem?_range (by omega)]
    rfl

/-- C40: `_simulate_detailed` computes the superposition of step responses.  The loads `Q 1 … Q n`
are applied at the times `t 1 … t n`, with `Q 0 = t 0 = 0`; `G` is the g-function.  The result of a step is `nan` if
some earlier time is later (the g-function is then asked for a negative time). -/
theorem C40_superposition (th : Thermal K) (G : K → K) (n : ℕ) (Q t : ℕ → K) (hQ : Q 0 = 0)
    (ht : t 0 = 0) (hG : ∀ i ≤ n, ∀ j < i, t j ≤ t i → th.g (t i - t j) = .ok (G (t i - t j))) :
    simulateDetailed th ((List.range n).map fun k => Q (k + 1))
        ((List.range n).map fun k => t (k + 1)) =
      .ok ((List.range n).map (fun k => if ∃ j < k + 1, t (k + 1) < t j then none else
          some (th.Tg + (∑ j ∈ Finset.range (k + 1),
            (Q (j + 1) - Q j) / th.nbh / (th.H * th.twoPiK) * G (t (k + 1) - t j)) +
          Q (k + 1) / th.nbh / th.H * th.Rb - Q (k + 1) / th.nbh / (2 * th.mdot * th.cp))),
        (List.range n).map (fun k => if ∃ j < k + 1, t (k + 1) < t j then none else
          some (∑ j ∈ Finset.range (k + 1),
            (Q (j + 1) - Q j) / th.nbh / (th.H * th.twoPiK) * G (t (k + 1) - t j)))) := by
  have hlen : ((List.range n).map fun k => Q (k + 1)).length = n := by simp
  have at_t : ∀ i ≤ n, at0 ((List.range n).map fun k => t (k + 1)) i = t i :=
    fun i hi => at0_map_range ht hi
  have at_q : ∀ i ≤ n, at0 (((List.range n).map fun k => Q (k + 1)).map (· / th.nbh)) i =
      Q i / th.nbh := by
    intro i hi
    rw [List.map_map]
    exact at0_map_range (f := fun k => Q k / th.nbh) (by simp [hQ]) hi
  have hresp : Responds th ((List.range n).map fun k => t (k + 1)) n := by
    intro i hi j hj
    rw [at_t i hi, at_t j (by omega)]
    exact fun hle => ⟨_, hG i hi j hj hle⟩
  have hlate : ∀ i ≤ n, Late ((List.range n).map fun k => t (k + 1)) i ↔ ∃ j < i, t i < t j := by
    intro i hi
    unfold Late
    constructor
    · rintro ⟨j, hj, hlt⟩
      rw [at_t i hi, at_t j (by omega)] at hlt
      exact ⟨j, hj, hlt⟩
    · rintro ⟨j, hj, hlt⟩
      refine ⟨j, hj, ?_⟩
      rw [at_t i hi, at_t j (by omega)]
      exact hlt
  have hrise : ∀ i ≤ n, (¬ ∃ j < i, t i < t j) → rise th (resp th) ((List.range n).map fun k => Q (k + 1))
      ((List.range n).map fun k => t (k + 1)) i = ∑ j ∈ Finset.range i,
            (Q (j + 1) - Q j) / th.nbh / (th.H * th.twoPiK) * G (t i - t j) := by
    intro i hi hno
    unfold rise
    apply Finset.sum_congr rfl
    intro j hj
    rw [Finset.mem_range] at hj
    rw [at_q _ (by omega), at_q _ (by omega), at_t i hi, at_t j (by omega), ← sub_div, div_div,
      resp, hG i hi j hj (not_lt.1 fun hlt => hno ⟨j, hj, hlt⟩)]
    rfl
  rw [simulateDetailed_ok (by simp) (by rw [hlen]; exact hresp), hlen]
  congr 2 <;> apply List.map_congr_left <;> intro k hk <;> rw [List.mem_range] at hk
  · unfold tempN
    by_cases hl : ∃ j < k + 1, t (k + 1) < t j
    · rw [if_pos hl, if_pos ((hlate _ (by omega)).2 hl)]
    · rw [if_neg hl, if_neg (mt (hlate _ (by omega)).1 hl)]
      unfold temp
      rw [hrise _ (by omega) hl, at_q _ (by omega)]
  · unfold riseN
    by_cases hl : ∃ j < k + 1, t (k + 1) < t j
    · rw [if_pos hl, if_pos ((hlate _ (by omega)).2 hl)]
    · rw [if_neg hl, if_neg (mt (hlate _ (by omega)).1 hl), hrise _ (by omega) hl]

/-- C40 for times in order: every result is a number. -/
theorem C40_ordered (th : Thermal K) (G : K → K) (n : ℕ) (Q t : ℕ → K) (hQ : Q 0 = 0)
    (ht : t 0 = 0) (ho : ∀ i ≤ n, ∀ j < i, t j ≤ t i)
    (hG : ∀ i ≤ n, ∀ j < i, th.g (t i - t j) = .ok (G (t i - t j))) :
    simulateDetailed th ((List.range n).map fun k => Q (k + 1))
        ((List.range n).map fun k => t (k + 1)) =
      .ok ((List.range n).map (fun k => some (
          th.Tg + (∑ j ∈ Finset.range (k + 1),
            (Q (j + 1) - Q j) / th.nbh / (th.H * th.twoPiK) * G (t (k + 1) - t j)) +
          Q (k + 1) / th.nbh / th.H * th.Rb - Q (k + 1) / th.nbh / (2 * th.mdot * th.cp))),
        (List.range n).map (fun k => some (∑ j ∈ Finset.range (k + 1),
            (Q (j + 1) - Q j) / th.nbh / (th.H * th.twoPiK) * G (t (k + 1) - t j)))) := by
  rw [C40_superposition th G n Q t hQ ht fun i hi j hj _ => hG i hi j hj]
  have : ∀ k < n, ¬ ∃ j < k + 1, t (k + 1) < t j := by
    rintro k hk ⟨j, hj, hlt⟩
    exact absurd (ho (k + 1) hk j hj) (not_le.2 hlt)
  congr 2 <;> apply List.map_congr_left <;> intro k hk <;> rw [List.mem_range] at hk <;> exact if_neg (this k hk)

theorem at0_map_div (Q : List K) (c : K) (i : ℕ) : at0 (Q.map (· / c)) i = at0 Q i / c := by
  cases i with
  | zero => simp
  | succ k =>
    rw [at0_succ, at0_succ, List.getD_eq_getElem?_getD, List.getD_eq_getElem?_getD,
      List.getElem?_map]
    cases Q[k]? <;> simp

/-- C40: with zero load the fluid stays at the undisturbed ground temperature: every temperature that is a number is
that one. -/
theorem C40_zero_load (th : Thermal K) (n : ℕ) (t : List K) (T d : List (Num K))
    (h : simulateDetailed th (List.replicate n 0) t = .ok (T, d)) :
    T.length = n ∧ d.length = n ∧ (∀ x, some x ∈ T → x = th.Tg) ∧ ∀ x, some x ∈ d → x = 0 := by
  rw [simulateDetailed_eq_ok] at h
  obtain ⟨-, rfl, rfl⟩ := h
  have hq : ∀ i, at0 ((List.replicate n (0 : K)).map (· / th.nbh)) i = 0 := by
    intro i
    cases i with
    | zero => rfl
    | succ k =>
      rw [at0_map_div, at0_succ, List.getD_eq_getElem?_getD, List.getElem?_replicate]
      split <;> simp
  have hr : ∀ i, rise th (resp th) (List.replicate n 0) t i = 0 := by
    intro i
    unfold rise
    apply Finset.sum_eq_zero
    intro j _
    rw [hq, hq]; simp
  refine ⟨by simp, by simp, ?_, ?_⟩
  · intro x hx
    rw [List.mem_map] at hx
    obtain ⟨k, -, hk⟩ := hx
    unfold tempN at hk
    split at hk
    · cases hk
    · rw [← Option.some.inj hk]
      unfold temp
      rw [hr, hq]; simp
  · intro x hx
    rw [List.mem_map] at hx
    obtain ⟨k, -, hk⟩ := hx
    unfold riseN at hk
    split at hk
    · cases hk
    · rw [← Option.some.inj hk]
      exact hr _

/-- C40: departures from the ground temperature depend linearly on the load sequence: if two load
sequences can be simulated, so can any combination, and its departures are the same combination (`nan` where theirs
are). -/
theorem C40_linear (th : Thermal K) (Q₁ Q₂ t : List K) (T₁ T₂ d₁ d₂ : List (Num K)) (a b : K)
    (hlen : Q₁.length = Q₂.length)
    (h₁ : simulateDetailed th Q₁ t = .ok (T₁, d₁)) (h₂ : simulateDetailed th Q₂ t = .ok (T₂, d₂)) :
    simulateDetailed th (List.zipWith (fun x y => a * x + b * y) Q₁ Q₂) t =
      .ok (List.zipWith (Option.map₂ fun x y => th.Tg + (a * (x - th.Tg) + b * (y - th.Tg))) T₁ T₂,
        List.zipWith (Option.map₂ fun x y => a * x + b * y) d₁ d₂) := by
  rw [simulateDetailed_eq_ok] at h₁ h₂
  obtain ⟨⟨hl, hg⟩, rfl, rfl⟩ := h₁
  obtain ⟨-, rfl, rfl⟩ := h₂
  have hL : (List.zipWith (fun x y => a * x + b * y) Q₁ Q₂).length = Q₁.length := by
    simp [hlen]
  have hq : ∀ i, i ≤ Q₁.length →
      at0 ((List.zipWith (fun x y => a * x + b * y) Q₁ Q₂).map (· / th.nbh)) i =
      a * at0 (Q₁.map (· / th.nbh)) i + b * at0 (Q₂.map (· / th.nbh)) i := by
    intro i hi
    simp only [at0_map_div]
    cases i with
    | zero => simp
    | succ k =>
      simp only [at0_succ, List.getD_eq_getElem?_getD, List.getElem?_zipWith]
      rw [List.getElem?_eq_getElem (by omega), List.getElem?_eq_getElem (by omega)]
      simp; ring
  have hr : ∀ i, i ≤ Q₁.length →
      rise th (resp th) (List.zipWith (fun x y => a * x + b * y) Q₁ Q₂) t i =
      a * rise th (resp th) Q₁ t i + b * rise th (resp th) Q₂ t i := by
    intro i hi
    unfold rise
    rw [Finset.mul_sum, Finset.mul_sum, ← Finset.sum_add_distrib]
    apply Finset.sum_congr rfl
    intro j hj
    rw [Finset.mem_range] at hj
    rw [hq _ (by omega), hq _ (by omega)]
    ring
  rw [simulateDetailed_eq_ok]
  refine ⟨⟨by rw [hL]; exact hl, by rw [hL]; exact hg⟩, ?_, ?_⟩
  · rw [← hlen, hL, List.zipWith_map, List.zipWith_self]
    apply List.map_congr_left
    intro k hk
    rw [List.mem_range] at hk
    unfold tempN
    by_cases hl : Late t (k + 1)
    · simp only [if_pos hl, Option.map₂_none_left]
    · simp only [if_neg hl, Option.map₂_some_some]
      unfold temp
      rw [hr _ (by omega), hq _ (by omega)]
      congr 1
      ring
  · rw [← hlen, hL, List.zipWith_map, List.zipWith_self]
    apply List.map_congr_left
    intro k hk
    rw [List.mem_range] at hk
    unfold riseN
    by_cases hl : Late t (k + 1)
    · simp only [if_pos hl, Option.map₂_none_left]
    · simp only [if_neg hl, Option.map₂_some_some]
      exact congrArg some (hr _ (by omega)).symm

/-- C40: causality: the first `m` temperatures depend only on the first `m` loads and times. -/
theorem C40_causal (th : Thermal K) (Q Q' t t' : List K) (T T' d d' : List (Num K)) (m : ℕ)
    (h : simulateDetailed th Q t = .ok (T, d)) (h' : simulateDetailed th Q' t' = .ok (T', d'))
    (hQ : Q.take m = Q'.take m) (ht : t.take m = t'.take m) :
    T.take m = T'.take m ∧ d.take m = d'.take m := by
  rw [simulateDetailed_eq_ok] at h h'
  obtain ⟨⟨hl, -⟩, rfl, rfl⟩ := h
  obtain ⟨⟨hl', -⟩, rfl, rfl⟩ := h'
  have at_take : ∀ (l l' : List K), l.take m = l'.take m → ∀ i ≤ m, at0 l i = at0 l' i := by
    intro l l' e i hi
    cases i with
    | zero => rfl
    | succ k =>
      rw [at0_succ, at0_succ, List.getD_eq_getElem?_getD, List.getD_eq_getElem?_getD,
        ← List.getElem?_take_of_lt (show k < m by omega), e,
        List.getElem?_take_of_lt (show k < m by omega)]
  have hq : ∀ i ≤ m, at0 (Q.map (· / th.nbh)) i = at0 (Q'.map (· / th.nbh)) i := by
    intro i hi
    rw [at0_map_div, at0_map_div, at_take Q Q' hQ i hi]
  have hr : ∀ i ≤ m, rise th (resp th) Q t i = rise th (resp th) Q' t' i := by
    intro i hi
    unfold rise
    apply Finset.sum_congr rfl
    intro j hj
    rw [Finset.mem_range] at hj
    rw [hq _ (by omega), hq _ (by omega), at_take t t' ht i hi, at_take t t' ht j (by omega)]
  have hlen : min m Q.length = min m Q'.length := by
    have := congrArg List.length hQ
    simpa using this
  have key : ∀ f g : ℕ → Num K, (∀ i ≤ m, f i = g i) →
      ((List.range Q.length).map fun k => f (k + 1)).take m =
      ((List.range Q'.length).map fun k => g (k + 1)).take m := by
    intro f g hfg
    rw [← List.map_take, ← List.map_take, List.take_range, List.take_range, hlen]
    apply List.map_congr_left
    intro k hk
    rw [List.mem_range] at hk
    exact hfg _ (by omega)
  have hlate : ∀ i ≤ m, Late t i ↔ Late t' i := by
    intro i hi
    unfold Late
    constructor
    · rintro ⟨j, hj, hlt⟩
      exact ⟨j, hj, by rw [← at_take t t' ht i hi, ← at_take t t' ht j (by omega)]; exact hlt⟩
    · rintro ⟨j, hj, hlt⟩
      exact ⟨j, hj, by rw [at_take t t' ht i hi, at_take t t' ht j (by omega)]; exact hlt⟩
  refine ⟨key _ _ ?_, key _ _ ?_⟩
  · intro i hi
    unfold tempN temp
    simp only [hlate i hi]
    rw [hr i hi, hq i hi]
  · intro i hi
    unfold riseN
    simp only [hlate i hi]
    rw [hr i hi]

/-- C40: scaling the loads and the number of boreholes together changes nothing. -/
theorem C40_scaling (th : Thermal K) (c : K) (hc : c ≠ 0) (Q t : List K) :
    simulateDetailed { th with nbh := c * th.nbh } (Q.map (c * ·)) t =
      simulateDetailed th Q t := by
  unfold simulateDetailed
  simp only [List.length_map, List.map_map]
  have : ((fun x => x / (c * th.nbh)) ∘ fun x => c * x) = fun x => x / th.nbh := by
    funext x
    simp only [Function.comp]
    exact mul_div_mul_left _ _ hc
  rw [this]
  rfl

/-- an exchanger with response `g(Δ) = Δ` for the examples -/
def exThermal : Thermal ℚ :=
  { g := fun x => if x ≤ 0 then .error .valueError else .ok x, nbh := 2, H := 5, twoPiK := 2,
    Tg := 10, Rb := 1, mdot := 1, cp := 5 }

example : simulateDetailed exThermal [20, 40, 40] [1, 2, 4] = .ok ([some 12, some 15, some 19], [some 1, some 3, some 7]) := by
  decide +kernel

/-- The third load is applied before the second: its temperature is `nan`; the fourth is a number again. -/
example : simulateDetailed exThermal [20, 40, 60, 40] [1, 4, 2, 6] =
    .ok ([some 12, some 19, none, some 21], [some 1, some 7, none, some 9]) := by
  decide +kernel

/-! ## C41 — splitting an interval -/

theorem sum_insert_zero (f f' : ℕ → K) (m : ℕ) (h1 : ∀ j ≤ m, f' j = f j) (h2 : f' (m + 1) = 0)
    (h3 : ∀ j, m + 1 ≤ j → f' (j + 1) = f j) (i : ℕ) (hi : m + 1 ≤ i) :
    ∑ j ∈ Finset.range (i + 1), f' j = ∑ j ∈ Finset.range i, f j := by
  induction i, hi using Nat.le_induction with
  | base =>
    rw [Finset.sum_range_succ, h2, add_zero]
    exact Finset.sum_congr rfl fun j hj => h1 j (by rw [Finset.mem_range] at hj; omega)
  | succ k hk ih => rw [Finset.sum_range_succ, ih, Finset.sum_range_succ, h3 k hk]

theorem at0_append_left {l₁ l₂ l₃ : List K} {i : ℕ} (h : i ≤ l₁.length) :
    at0 (l₁ ++ l₂) i = at0 (l₁ ++ l₃) i := by
  cases i with
  | zero => rfl
  | succ k =>
    rw [at0_succ, at0_succ, List.getD_eq_getElem?_getD, List.getD_eq_getElem?_getD,
      List.getElem?_append_left (by omega), List.getElem?_append_left (by omega)]

theorem at0_append_right {l₁ l₂ : List K} {x : K} {i : ℕ} (h : l₁.length + 1 ≤ i) :
    at0 (l₁ ++ x :: l₂) (i + 1) = at0 (l₁ ++ l₂) i := by
  obtain ⟨k, rfl⟩ : ∃ k, i = k + 1 := ⟨i - 1, by omega⟩
  rw [at0_succ, at0_succ, List.getD_eq_getElem?_getD, List.getD_eq_getElem?_getD,
    List.getElem?_append_right (by omega), List.getElem?_append_right (by omega)]
  rw [show k + 1 - l₁.length = (k - l₁.length) + 1 by omega, List.getElem?_cons_succ]

/-- C41: splitting the interval with load `q` that ends at `b` by an extra time point `τ` (same load
before and after) changes no temperature at the other time points: the results of the split run are
those of the original run with one extra entry at the new position. -/
theorem C41_split (th : Thermal K) (Q₁ Q₂ t₁ t₂ : List K) (q b τ : K) (hτ : τ ≤ b)
    (hlen : Q₁.length = t₁.length) (T' d' : List (Num K))
    (h : simulateDetailed th (Q₁ ++ q :: q :: Q₂) (t₁ ++ τ :: b :: t₂) = .ok (T', d')) :
    ∃ (T₁ T₂ d₁ d₂ : List (Num K)) (x y : Num K),
      simulateDetailed th (Q₁ ++ q :: Q₂) (t₁ ++ b :: t₂) = .ok (T₁ ++ T₂, d₁ ++ d₂) ∧
      T₁.length = Q₁.length ∧ d₁.length = Q₁.length ∧
      T' = T₁ ++ x :: T₂ ∧ d' = d₁ ++ y :: d₂ := by
  rw [simulateDetailed_eq_ok] at h
  obtain ⟨⟨hl, hg⟩, rfl, rfl⟩ := h
  set Q := Q₁ ++ q :: Q₂ with hQ
  set Q' := Q₁ ++ q :: q :: Q₂ with hQ'
  set t := t₁ ++ b :: t₂ with ht
  set t' := t₁ ++ τ :: b :: t₂ with ht'
  set m := Q₁.length with hm
  have hQl : Q'.length = Q.length + 1 := by simp [hQ, hQ']; omega
  have htl : t'.length = t.length + 1 := by simp [ht, ht']; omega
  have hmQ : m + 1 ≤ Q.length := by simp [hQ]; omega
  -- loads
  have q1 : ∀ i ≤ m + 1, at0 Q' i = at0 Q i := by
    intro i hi
    have e1 : Q' = (Q₁ ++ [q]) ++ (q :: Q₂) := by simp [hQ']
    have e2 : Q = (Q₁ ++ [q]) ++ Q₂ := by simp [hQ]
    rw [e1, e2]
    exact at0_append_left (by simp; omega)
  have q2 : ∀ i, m + 1 ≤ i → at0 Q' (i + 1) = at0 Q i := by
    intro i hi
    exact at0_append_right (by omega)
  have t1 : ∀ i ≤ m, at0 t' i = at0 t i := fun i hi => at0_append_left (by omega)
  have t2 : ∀ i, m + 1 ≤ i → at0 t' (i + 1) = at0 t i := fun i hi => at0_append_right (by omega)
  have r1 : ∀ i ≤ m, rise th (resp th) Q' t' i = rise th (resp th) Q t i := by
    intro i hi
    unfold rise
    apply Finset.sum_congr rfl
    intro j hj
    rw [Finset.mem_range] at hj
    simp only [at0_map_div]
    rw [q1 _ (by omega), q1 _ (by omega), t1 i hi, t1 j (by omega)]
  have r2 : ∀ i, m + 1 ≤ i → rise th (resp th) Q' t' (i + 1) = rise th (resp th) Q t i := by
    intro i hi
    unfold rise
    simp only [at0_map_div]
    apply sum_insert_zero _ _ m _ _ _ i hi
    · intro j hj
      rw [q1 _ (by omega), q1 _ (by omega), t2 i hi, t1 j hj]
    · rw [q2 _ le_rfl, q1 _ le_rfl]; simp
    · intro j hj
      rw [q2 _ (by omega), q2 _ hj, t2 i hi, t2 j hj]
  have T1 : ∀ i ≤ m, temp th (resp th) Q' t' i = temp th (resp th) Q t i := by
    intro i hi
    unfold temp
    simp only [at0_map_div]
    rw [r1 i hi, q1 i (by omega)]
  have T2 : ∀ i, m + 1 ≤ i → temp th (resp th) Q' t' (i + 1) = temp th (resp th) Q t i := by
    intro i hi
    unfold temp
    simp only [at0_map_div]
    rw [r2 i hi, q2 i hi]
  have hτ' : at0 t' (m + 1) ≤ at0 t (m + 1) := by
    have a1 : at0 t' (m + 1) = τ := by
      rw [at0_succ, ht', List.getD_eq_getElem?_getD, List.getElem?_append_right (by omega),
        show m - t₁.length = 0 by omega]
      rfl
    have a2 : at0 t (m + 1) = b := by
      rw [at0_succ, ht, List.getD_eq_getElem?_getD, List.getElem?_append_right (by omega),
        show m - t₁.length = 0 by omega]
      rfl
    rw [a1, a2]; exact hτ
  have l1 : ∀ i ≤ m, (Late t' i ↔ Late t i) := by
    intro i hi
    unfold Late
    constructor
    · rintro ⟨j, hj, hlt⟩
      exact ⟨j, hj, by rw [← t1 i hi, ← t1 j (by omega)]; exact hlt⟩
    · rintro ⟨j, hj, hlt⟩
      exact ⟨j, hj, by rw [t1 i hi, t1 j (by omega)]; exact hlt⟩
  have l2 : ∀ i, m + 1 ≤ i → (Late t' (i + 1) ↔ Late t i) := by
    intro i hi
    unfold Late
    constructor
    · rintro ⟨j, hj, hlt⟩
      rw [t2 i hi] at hlt
      rcases Nat.lt_trichotomy j (m + 1) with hc | hc | hc
      · exact ⟨j, by omega, by rw [← t1 j (by omega)]; exact hlt⟩
      · rw [hc] at hlt
        have hlt' := hlt.trans_le hτ'
        rcases Nat.eq_or_lt_of_le hi with he | he
        · rw [← he] at hlt'; exact absurd hlt' (lt_irrefl _)
        · exact ⟨m + 1, he, hlt'⟩
      · obtain ⟨j', rfl⟩ : ∃ j', j = j' + 1 := ⟨j - 1, by omega⟩
        exact ⟨j', by omega, by rw [← t2 j' (by omega)]; exact hlt⟩
    · rintro ⟨j, hj, hlt⟩
      by_cases h2 : j ≤ m
      · exact ⟨j, by omega, by rw [t2 i hi, t1 j h2]; exact hlt⟩
      · exact ⟨j + 1, by omega, by rw [t2 i hi, t2 j (by omega)]; exact hlt⟩
  have hresp : Responds th t Q.length := by
    intro i hi j hj
    by_cases h1 : i ≤ m
    · rw [← t1 i h1, ← t1 j (by omega)]; exact hg i (by omega) j hj
    · rw [← t2 i (by omega)]
      by_cases h2 : j ≤ m
      · rw [← t1 j h2]; exact hg (i + 1) (by omega) j (by omega)
      · rw [← t2 j (by omega)]; exact hg (i + 1) (by omega) (j + 1) (by omega)
  have N1 : ∀ i ≤ m, tempN th (resp th) Q' t' i = tempN th (resp th) Q t i := by
    intro i hi
    unfold tempN
    simp only [l1 i hi, T1 i hi]
  have N2 : ∀ i, m + 1 ≤ i → tempN th (resp th) Q' t' (i + 1) = tempN th (resp th) Q t i := by
    intro i hi
    unfold tempN
    simp only [l2 i hi, T2 i hi]
  have R1 : ∀ i ≤ m, riseN th (resp th) Q' t' i = riseN th (resp th) Q t i := by
    intro i hi
    unfold riseN
    simp only [l1 i hi, r1 i hi]
  have R2 : ∀ i, m + 1 ≤ i → riseN th (resp th) Q' t' (i + 1) = riseN th (resp th) Q t i := by
    intro i hi
    unfold riseN
    simp only [l2 i hi, r2 i hi]
  have split : ∀ f f' : ℕ → Num K, (∀ i ≤ m, f' i = f i) → (∀ i, m + 1 ≤ i → f' (i + 1) = f i) →
      ((List.range Q.length).map fun k => f (k + 1)) =
        ((List.range m).map fun k => f (k + 1)) ++
        ((List.range (Q.length - m)).map fun k => f (m + k + 1)) ∧
      ((List.range Q'.length).map fun k => f' (k + 1)) =
        ((List.range m).map fun k => f (k + 1)) ++ f' (m + 1) ::
        ((List.range (Q.length - m)).map fun k => f (m + k + 1)) := by
    intro f f' h1 h2
    constructor
    · conv_lhs => rw [show Q.length = m + (Q.length - m) by omega, List.range_add, List.map_append,
        List.map_map]
      rfl
    · conv_lhs => rw [hQl, show Q.length + 1 = m + ((Q.length - m) + 1) by omega, List.range_add,
        List.map_append, List.map_map, List.range_succ_eq_map, List.map_cons, List.map_map]
      congr 1
      · apply List.map_congr_left
        intro k hk
        rw [List.mem_range] at hk
        exact h1 _ (by omega)
      · refine congrArg₂ _ rfl ?_
        apply List.map_congr_left
        intro k _
        simp only [Function.comp]
        have := h2 (m + k + 1) (by omega)
        rw [← this]
        congr 1
  obtain ⟨sT, sT'⟩ := split _ _ N1 N2
  obtain ⟨sr, sr'⟩ := split _ _ R1 R2
  refine ⟨_, _, _, _, _, _, ?_, ?_, ?_, sT', sr'⟩
  · rw [simulateDetailed_eq_ok]
    exact ⟨⟨by omega, hresp⟩, sT.symm, sr.symm⟩
  · simp
  · simp

example : simulateDetailed exThermal [20, 40, 40, 40] [1, 2, 3, 4] =
    .ok ([some 12, some 15, some 17, some 19], [some 1, some 3, some 5, some 7]) := by decide +kernel

/-! ## C42, C43 — `simulate` -/

section floor
variable [FloorRing K]

theorem hours_eq (n : ℤ) : ((n : K) / 12 * 8760) = ((730 * n : ℤ) : K) := by
  push_cast; ring

theorem years_eq (n : ℤ) : ⌈((730 * n : ℤ) : K) / 8760⌉ = ⌈(n : K) / 12⌉ := by
  congr 1; push_cast; ring

/-- the loads and times of the hourly method -/
theorem hourly_input (env : GheEnv K) {n : ℤ} (hn : n = env.endMonth - env.startMonth + 1) :
    simulationInput env "hourly" =
      .ok (((List.replicate ⌈(n : K) / 12⌉.toNat env.hourly).flatten.map (-1 * ·)),
        (pyRange 1 (730 * n + 1)).map fun i : ℤ => (i : K)) := by
  unfold simulationInput
  rw [if_neg (by decide), if_pos rfl]
  dsimp only
  rw [← hn, hours_eq]
  have e : (if (0 : K) ≤ ((730 * n : ℤ) : K) then ⌊((730 * n : ℤ) : K)⌋
      else ⌈((730 * n : ℤ) : K)⌉) = 730 * n := by
    split
    · exact Int.floor_intCast _
    · exact Int.ceil_intCast _
  rw [e, years_eq]

theorem length_flatten_replicate (k : ℕ) (l : List K) :
    (List.replicate k l).flatten.length = k * l.length := by
  induction k with
  | zero => simp
  | succ k ih => simp [List.replicate_succ, ih]; ring

theorem at0_hours {n : ℤ} {i : ℕ} (hi : (i : ℤ) ≤ n) :
    at0 ((pyRange 1 (n + 1)).map fun i : ℤ => (i : K)) i = (i : K) := by
  cases i with
  | zero => simp
  | succ k =>
    rw [at0_succ, List.getD_eq_getElem?_getD, List.getElem?_map,
      getElem?_pyRange (by push_cast at hi; omega)]
    simp; ring

/-- the hourly method asks the g-function for whole numbers of hours only -/
theorem responds_hours {th : Thermal K} {n : ℤ} (m : ℕ) (hm : (m : ℤ) ≤ n)
    (hg : ∀ k : ℕ, 0 < k → (k : ℤ) ≤ n → ∃ v, th.g (k : K) = .ok v) :
    Responds th ((pyRange 1 (n + 1)).map fun i : ℤ => (i : K)) m := by
  intro i hi j hj _
  rw [at0_hours (by omega), at0_hours (by omega)]
  obtain ⟨v, hv⟩ := hg (i - j) (by omega) (by omega)
  refine ⟨v, ?_⟩
  rw [← hv, Nat.cast_sub hj.le]

/-- the hours are in order -/
theorem ordered_hours {n : ℤ} (m : ℕ) (hm : (m : ℤ) ≤ n) : ∀ i ≤ m, ∀ j < i,
    at0 ((pyRange 1 (n + 1)).map fun i : ℤ => (i : K)) j ≤ at0 ((pyRange 1 (n + 1)).map fun i : ℤ => (i : K)) i := by
  intro i hi j hj
  rw [at0_hours (by omega), at0_hours (by omega)]
  exact_mod_cast hj.le

theorem ceil_twelve (n : ℤ) : 12 * (⌈(n : K) / 12⌉ - 1) < n ∧ n ≤ 12 * ⌈(n : K) / 12⌉ := by
  have h1 := Int.le_ceil ((n : K) / 12)
  have h2 := Int.ceil_lt_add_one ((n : K) / 12)
  have p : (0 : K) < 12 := by norm_num
  rw [div_le_iff₀ p] at h1
  rw [← sub_lt_iff_lt_add, lt_div_iff₀ p] at h2
  constructor
  · have : ((12 * (⌈(n : K) / 12⌉ - 1) : ℤ) : K) < (n : K) := by push_cast; linarith
    exact_mod_cast this
  · have : (n : K) ≤ ((12 * ⌈(n : K) / 12⌉ : ℤ) : K) := by push_cast; linarith
    exact_mod_cast this

theorem simulate_eq (env : GheEnv K) (method : String) (s : GheState K) (th : Thermal K)
    (hH : s.H ≠ 0) (hth : env.thermal s.H = .ok th) :
    simulate env method s = (do
      let (Q, t) ← St.lift (simulationInput env method)
      let (hpeft, dTb) ← St.lift (simulateDetailed th Q t)
      St.modify fun s => { s with HPEFT := hpeft, dTb := dTb }
      let hi ← St.lift (maxNumber hpeft)
      let lo ← St.lift (minNumber hpeft)
      return (hi, lo) : St (GheState K) (K × K)) s := by
  unfold simulate
  rw [St.get_bind, St.lift_ok (pyDiv_ok hH), St.lift_ok hth]

/-- C42: with 8760 hourly loads and a g-function that answers for every whole hour of the simulated
period, the hourly simulation of `n ≥ 1` months succeeds iff `n` is a multiple of 12, with one
temperature per simulated hour; otherwise it raises `IndexError`. -/
theorem C42_hourly (env : GheEnv K) (s : GheState K) (th : Thermal K) (n : ℤ) (hn : 1 ≤ n)
    (hmonths : n = env.endMonth - env.startMonth + 1) (hlen : env.hourly.length = 8760)
    (hH : s.H ≠ 0) (hth : env.thermal s.H = .ok th)
    (hg : ∀ k : ℕ, 0 < k → (k : ℤ) ≤ 730 * n → ∃ v, th.g (k : K) = .ok v) :
    (12 ∣ n → ∃ r s', simulate env "hourly" s = (.ok r, s') ∧ (s'.HPEFT.length : ℤ) = 730 * n) ∧
    (¬ 12 ∣ n → (simulate env "hourly" s).1 = .error .indexError) := by
  rw [simulate_eq env "hourly" s th hH hth]
  rw [St.lift_ok (hourly_input env hmonths)]
  dsimp only
  obtain ⟨c1, c2⟩ := ceil_twelve (K := K) n
  set y := ⌈(n : K) / 12⌉ with hy
  have hQ : ((List.replicate y.toNat env.hourly).flatten.map (-1 * ·)).length =
      y.toNat * 8760 := by rw [List.length_map, length_flatten_replicate, hlen]
  have ht : ((pyRange 1 (730 * n + 1)).map fun i : ℤ => (i : K)).length = (730 * n).toNat := by
    rw [List.length_map, length_pyRange]; congr 1; ring
  constructor
  · rintro ⟨k, hk⟩
    have hyk : y = k := by omega
    have hrun := simulateDetailed_ordered (th := th)
      (Q := (List.replicate y.toNat env.hourly).flatten.map (-1 * ·))
      (t := (pyRange 1 (730 * n + 1)).map fun i : ℤ => (i : K)) (by rw [hQ, ht]; omega)
      (by rw [hQ]; exact ordered_hours _ (by omega))
      (by rw [hQ]; exact responds_hours _ (by omega) hg)
    rw [St.lift_ok hrun]
    dsimp only
    rw [St.modify_bind]
    have hne : (List.range ((List.replicate y.toNat env.hourly).flatten.map (-1 * ·)).length).map
        (fun k => temp th (resp th) ((List.replicate y.toNat env.hourly).flatten.map (-1 * ·))
          ((pyRange 1 (730 * n + 1)).map fun i : ℤ => (i : K)) (k + 1)) ≠ [] := by
      rw [Ne, List.map_eq_nil_iff, List.range_eq_nil, hQ]
      omega
    obtain ⟨a, ha⟩ := pyMax_ok_of_ne_nil hne
    obtain ⟨b, hb⟩ := pyMin_ok_of_ne_nil hne
    rw [← maxNumber_some, List.map_map, show (some ∘ fun k => temp th (resp th)
      ((List.replicate y.toNat env.hourly).flatten.map (-1 * ·))
      ((pyRange 1 (730 * n + 1)).map fun i : ℤ => (i : K)) (k + 1)) = fun k => some (temp th (resp th)
      ((List.replicate y.toNat env.hourly).flatten.map (-1 * ·))
      ((pyRange 1 (730 * n + 1)).map fun i : ℤ => (i : K)) (k + 1)) from rfl] at ha
    rw [← minNumber_some, List.map_map, show (some ∘ fun k => temp th (resp th)
      ((List.replicate y.toNat env.hourly).flatten.map (-1 * ·))
      ((pyRange 1 (730 * n + 1)).map fun i : ℤ => (i : K)) (k + 1)) = fun k => some (temp th (resp th)
      ((List.replicate y.toNat env.hourly).flatten.map (-1 * ·))
      ((pyRange 1 (730 * n + 1)).map fun i : ℤ => (i : K)) (k + 1)) from rfl] at hb
    rw [St.lift_ok ha, St.lift_ok hb]
    refine ⟨_, _, rfl, ?_⟩
    simp only [List.length_map, List.length_range]
    rw [length_flatten_replicate, hlen]
    push_cast
    omega
  · intro hnd
    have hlt : n < 12 * y := by
      rcases lt_or_eq_of_le c2 with h | h
      · exact h
      · exact absurd ⟨y, h⟩ hnd
    have hrun := simulateDetailed_short (th := th)
      (Q := (List.replicate y.toNat env.hourly).flatten.map (-1 * ·))
      (t := (pyRange 1 (730 * n + 1)).map fun i : ℤ => (i : K)) (by rw [hQ, ht]; omega)
      (by rw [ht]; exact responds_hours _ (by omega) hg)
    rw [St.lift_error hrun]

/-- C42: any method other than `hybrid` and `hourly` raises `ValueError`. -/
theorem C42_unknown_method (env : GheEnv K) (s : GheState K) (th : Thermal K) (method : String)
    (hm : method ≠ "hybrid" ∧ method ≠ "hourly") (hH : s.H ≠ 0)
    (hth : env.thermal s.H = .ok th) :
    (simulate env method s).1 = .error .valueError := by
  rw [simulate_eq env method s th hH hth, St.lift_error (e := .valueError)]
  unfold simulationInput
  rw [if_neg hm.1, if_neg hm.2]

/-- C43: whatever the exchanger, when `simulate` returns, it returns the largest and the smallest of
the temperatures it stored that are numbers, the height is unchanged, and the excess computed from the pair is
non-positive iff every stored temperature that is a number is within the allowable range. -/
theorem C43_extremes (env : GheEnv K) (method : String) (s s' : GheState K) (hi lo : K)
    (h : simulate env method s = (.ok (hi, lo), s')) :
    s'.H = s.H ∧ some hi ∈ s'.HPEFT ∧ some lo ∈ s'.HPEFT ∧ (∀ T, some T ∈ s'.HPEFT → lo ≤ T ∧ T ≤ hi) ∧
    s'.HPEFT.length = s'.dTb.length ∧
    ∀ maxA minA : K, cost maxA minA hi lo ≤ 0 ↔ ∀ T, some T ∈ s'.HPEFT → minA ≤ T ∧ T ≤ maxA := by
  unfold simulate at h
  rw [St.get_bind, St.lift_eq_ok] at h
  obtain ⟨_, -, h⟩ := h
  rw [St.lift_eq_ok] at h
  obtain ⟨th, -, h⟩ := h
  rw [St.lift_eq_ok] at h
  obtain ⟨⟨Q, t⟩, -, h⟩ := h
  dsimp only at h
  rw [St.lift_eq_ok] at h
  obtain ⟨⟨T, d⟩, hd, h⟩ := h
  dsimp only at h
  rw [St.modify_bind, St.lift_eq_ok] at h
  obtain ⟨a, ha, h⟩ := h
  rw [St.lift_eq_ok] at h
  obtain ⟨b, hb, h⟩ := h
  simp only [St.pure_apply, Prod.mk.injEq, Except.ok.injEq] at h
  obtain ⟨⟨rfl, rfl⟩, rfl⟩ := h
  obtain ⟨m1, m2⟩ := maxNumber_eq_ok ha
  obtain ⟨m3, m4⟩ := minNumber_eq_ok hb
  rw [simulateDetailed_eq_ok] at hd
  refine ⟨rfl, m1, m3, fun T hT => ⟨m4 T hT, m2 T hT⟩, ?_, ?_⟩
  · rw [hd.2.1, hd.2.2]; simp
  · intro maxA minA
    rw [(C39_cost maxA minA a b).1]
    constructor
    · rintro ⟨h1, h2⟩ T hT
      exact ⟨h2.trans (m4 T hT), (m2 T hT).trans h1⟩
    · intro hall
      exact ⟨(hall a m1).2, (hall b m3).1⟩

/-- an environment for the examples: two years, constant extraction of 10 W -/
def exEnvGhe (n : ℤ) : GheEnv ℚ :=
  { bSpacing := 5, thermal := fun H => .ok { exThermal with H := H }, load := [0, 0, 1, 2],
    hour := [0, 0, 5, 9], hourly := [10, 20, 30], startMonth := 1, endMonth := n, maxEFT := 35,
    minEFT := 5, minHeight := 50, maxHeight := 100 }

example : (simulate (exEnvGhe 24) "hybrid" { H := 100 }).1 = .ok (-45 / 2, -95 / 2) ∧
    (simulate (exEnvGhe 24) "weekly" { H := 100 }).1 = .error .valueError ∧
    (simulate (exEnvGhe 24) "hybrid" { H := 0 }).1 = .error .zeroDivisionError := by decide +kernel

/-! ## C45 — `solve_root` -/

theorem signDiv_eq (v : K) : signDiv v =
    if v = 0 then .error .zeroDivisionError else if 0 < v then .ok 1 else .ok (-1) := by
  unfold signDiv
  by_cases h0 : v = 0
  · simp [h0, pyDiv]
  · rw [pyDiv_ok (abs_ne_zero.2 h0), if_neg h0, Except.ok_bind]
    rcases lt_or_gt_of_ne h0 with h | h
    · rw [abs_of_neg h, div_neg, div_self h0, if_neg (not_lt.2 h.le),
        if_neg (by norm_num : ¬ (0 : K) ≤ -1)]
      have : (-1 : K) = ((-1 : ℤ) : K) := by norm_num
      rw [this, Int.ceil_intCast]; rfl
    · rw [abs_of_pos h, div_self h0, if_pos h, if_pos zero_le_one, Int.floor_one]; rfl

/-- C45: the branch table of `solve_root` for an objective `f` without side effects; `lo`, `hi` are
the bounds given, `x/100` and `10x` by default. -/
theorem C45_table {σ : Type} (brent : K → K → Finder K) (x : K) (f : K → K) (obj : K → St σ K)
    (hobj : ∀ y s, obj y s = (.ok (f y), s)) (lower upper : Option K) (s : σ) (lo hi : K)
    (hlo : lo = match lower with | some l => l | none => x / 100)
    (hhi : hi = match upper with | some u => u | none => 10 * x) :
    (f lo = 0 ∨ f hi = 0 → (solveRoot brent x obj lower upper s).1 = .error .zeroDivisionError) ∧
    (f lo * f hi < 0 → solveRoot brent x obj lower upper s = (brent lo hi).run obj s) ∧
    (f lo < 0 → f hi < 0 → solveRoot brent x obj lower upper s = (.ok hi, s)) ∧
    (0 < f lo → 0 < f hi → solveRoot brent x obj lower upper s = (.ok lo, s)) := by
  have e1 : lower.getD (x / 100) = lo := by subst hlo; cases lower <;> rfl
  have e2 : upper.getD (x * 10) = hi := by
    subst hhi; cases upper
    · exact mul_comm _ _
    · rfl
  have hrun : solveRoot brent x obj lower upper s = (do
      let minusSign ← St.lift (signDiv (f lo))
      let plusSign ← St.lift (signDiv (f hi))
      if plusSign ≠ minusSign then (brent lo hi).run obj
      else if plusSign = -1 ∧ minusSign = -1 then return hi
      else if plusSign = 1 ∧ minusSign = 1 then return lo
      else return x : St σ K) s := by
    unfold solveRoot
    rw [e1, e2, St.bind_ok (hobj lo s), St.bind_ok (hobj hi s)]
  rw [hrun]
  refine ⟨?_, ?_, ?_, ?_⟩
  · rintro (h | h)
    · rw [signDiv_eq (f lo), if_pos h]; rfl
    · by_cases h' : f lo = 0
      · rw [signDiv_eq (f lo), if_pos h']; rfl
      · rw [signDiv_eq (f lo), signDiv_eq (f hi), if_neg h', if_pos h]
        split <;> rfl
  · intro h
    rcases mul_neg_iff.1 h with ⟨h1, h2⟩ | ⟨h1, h2⟩
    · rw [signDiv_eq, signDiv_eq, if_neg h1.ne', if_neg h2.ne, if_pos h1, if_neg (not_lt.2 h2.le)]
      rfl
    · rw [signDiv_eq, signDiv_eq, if_neg h1.ne, if_neg h2.ne', if_neg (not_lt.2 h1.le), if_pos h2]
      rfl
  · intro h1 h2
    rw [signDiv_eq, signDiv_eq, if_neg h1.ne, if_neg h2.ne, if_neg (not_lt.2 h1.le),
      if_neg (not_lt.2 h2.le)]
    rfl
  · intro h1 h2
    rw [signDiv_eq, signDiv_eq, if_neg h1.ne', if_neg h2.ne', if_pos h1, if_pos h2]
    rfl

/-- bisecting once as a toy root finder -/
def exBrent (lo hi : ℚ) : Finder ℚ := .ask ((lo + hi) / 2) fun _ => .done ((lo + hi) / 2)

example : (solveRoot exBrent 3 (fun y => (pure (y - 2) : St Unit ℚ)) none none ()).1 =
      .ok (3003 / 200) ∧
    (solveRoot exBrent 3 (fun y => (pure (y - 2) : St Unit ℚ)) (some 5) (some 7) ()).1 = .ok 5 ∧
    (solveRoot exBrent 3 (fun y => (pure (y - 9) : St Unit ℚ)) (some 5) (some 7) ()).1 = .ok 7 ∧
    (solveRoot exBrent 3 (fun y => (pure (y - 7) : St Unit ℚ)) (some 5) (some 7) ()).1 =
      .error .zeroDivisionError := by decide +kernel

/-! ## C44 — `size` -/

/-- The root finder only asks for values inside `[lo, hi]`. -/
inductive Inside (lo hi : K) : Finder K → Prop
  | done (x : K) : Inside lo hi (.done x)
  | fail (e : PyErr) : Inside lo hi (.fail e)
  | ask (x : K) (next : K → Finder K) (h1 : lo ≤ x) (h2 : x ≤ hi)
      (hn : ∀ v, Inside lo hi (next v)) : Inside lo hi (.ask x next)

theorem simulate_H (env : GheEnv K) (method : String) (s s' : GheState K) (r : Py (K × K))
    (h : simulate env method s = (r, s')) : s'.H = s.H := by
  have : (simulate env method s).2.H = s.H := by
    unfold simulate
    rw [St.get_bind]
    cases h1 : pyDiv env.bSpacing s.H with
    | error e => rw [St.lift_error rfl]
    | ok _ =>
      rw [St.lift_ok rfl]
      cases h2 : env.thermal s.H with
      | error e => rw [St.lift_error rfl]
      | ok th =>
        rw [St.lift_ok rfl]
        cases h3 : simulationInput env method with
        | error e => rw [St.lift_error rfl]
        | ok q =>
          rw [St.lift_ok rfl]
          obtain ⟨Q, t⟩ := q
          dsimp only
          cases h4 : simulateDetailed th Q t with
          | error e => rw [St.lift_error rfl]
          | ok T =>
            rw [St.lift_ok rfl]
            obtain ⟨T, d⟩ := T
            dsimp only
            rw [St.modify_bind]
            cases h5 : maxNumber T with
            | error e => rw [St.lift_error rfl]
            | ok a =>
              rw [St.lift_ok rfl]
              cases h6 : minNumber T with
              | error e => rw [St.lift_error rfl]
              | ok b => rw [St.lift_ok rfl]; rfl
  rw [h] at this
  exact this

theorem localObjective_H (env : GheEnv K) (method : String) (H : K) (s s' : GheState K) (r : Py K)
    (h : localObjective env method H s = (r, s')) : s'.H = H := by
  unfold localObjective at h
  rw [St.modify_bind] at h
  rcases hs : simulate env method { s with H := H } with ⟨r', s''⟩
  have h1 := simulate_H env method _ _ _ hs
  cases r' with
  | error e => rw [St.bind_error hs] at h; cases h; exact h1
  | ok p =>
    obtain ⟨a, b⟩ := p
    rw [St.bind_ok hs] at h
    cases h; exact h1

theorem run_inside (env : GheEnv K) (method : String) {lo hi : K} {p : Finder K}
    (hp : Inside lo hi p) (s s' : GheState K) (r : Py K) (hs : lo ≤ s.H ∧ s.H ≤ hi)
    (h : p.run (localObjective env method) s = (r, s')) : lo ≤ s'.H ∧ s'.H ≤ hi := by
  induction hp generalizing s s' r with
  | done x => cases h; exact hs
  | fail e => cases h; exact hs
  | ask x next h1 h2 hn ih =>
    unfold Finder.run at h
    rcases ho : localObjective env method x s with ⟨r', s''⟩
    have hH := localObjective_H env method x s s'' r' ho
    cases r' with
    | error e =>
      rw [St.bind_error ho] at h
      cases h
      rw [hH]; exact ⟨h1, h2⟩
    | ok v =>
      rw [St.bind_ok ho] at h
      exact ih v s'' s' r (by rw [hH]; exact ⟨h1, h2⟩) h

theorem solveRoot_inside (brent : K → K → Finder K) (env : GheEnv K) (method : String) (x : K)
    {lo hi : K} (hle : lo ≤ hi) (hb : Inside lo hi (brent lo hi)) (s s' : GheState K) (r : K)
    (h : solveRoot brent x (localObjective env method) (some lo) (some hi) s = (.ok r, s')) :
    (lo ≤ s'.H ∧ s'.H ≤ hi) := by
  unfold solveRoot at h
  simp only [Option.getD_some] at h
  rw [St.bind_eq_ok] at h
  obtain ⟨a, s1, ha, h⟩ := h
  rw [St.bind_eq_ok] at h
  obtain ⟨b, s2, hb', h⟩ := h
  have h2 := localObjective_H env method hi s1 s2 _ hb'
  rw [St.lift_eq_ok] at h
  obtain ⟨sa, -, h⟩ := h
  rw [St.lift_eq_ok] at h
  obtain ⟨sb, -, h⟩ := h
  have hs2 : lo ≤ s2.H ∧ s2.H ≤ hi := by rw [h2]; exact ⟨hle, le_rfl⟩
  split at h
  · exact run_inside env method hb _ _ _ hs2 h
  · split at h
    · cases h; exact hs2
    · split at h
      · cases h; exact hs2
      · cases h; exact hs2

/-- C44: for every root finder that only probes inside its bracket and every objective, if `size`
returns, the height it leaves is within the bounds, and each warning is issued exactly when the
height equals that bound. -/
theorem C44_bounds (brent : K → K → Finder K) (env : GheEnv K) (method : String)
    (hle : env.minHeight ≤ env.maxHeight)
    (hb : Inside env.minHeight env.maxHeight (brent env.minHeight env.maxHeight))
    (s s' : GheState K) (w : List Warning) (h : size brent env method s = (.ok w, s')) :
    env.minHeight ≤ s'.H ∧ s'.H ≤ env.maxHeight ∧
    (.notShallowEnough ∈ w ↔ s'.H = env.minHeight) ∧
    (.notDeepEnough ∈ w ↔ s'.H = env.maxHeight) := by
  unfold size at h
  rw [St.modify_bind, St.get_bind, St.bind_eq_ok] at h
  obtain ⟨r, s1, h1, h⟩ := h
  rw [St.get_bind] at h
  have hin := solveRoot_inside brent env method _ hle hb _ _ _ h1
  simp only [St.pure_apply, Prod.mk.injEq, Except.ok.injEq] at h
  obtain ⟨rfl, rfl⟩ := h
  refine ⟨hin.1, hin.2, ?_, ?_⟩
  · by_cases e1 : s1.H = env.minHeight <;> by_cases e2 : s1.H = env.maxHeight <;> simp [e1, e2]
  · by_cases e1 : s1.H = env.minHeight <;> by_cases e2 : s1.H = env.maxHeight <;> simp [e1, e2]

/-- The objective of `size` at height `H`, as a function of the height alone. -/
def Excess (env : GheEnv K) (method : String) (H v : K) : Prop :=
  ∀ s, ∃ s', localObjective env method H s = (.ok v, s') ∧ s'.H = H

/-- C44: if the excess has the same sign at both bounds, `size` leaves the height at the *maximum*
and warns that the maximum is not deep enough — also when both are negative, i.e. when the exchanger
is oversized already at the minimum height; the `not shallow enough` warning is not issued. -/
theorem C44_no_sign_change (brent : K → K → Finder K) (env : GheEnv K) (method : String)
    (hlt : env.minHeight < env.maxHeight) (a b : K) (ha : Excess env method env.minHeight a)
    (hb : Excess env method env.maxHeight b) (hab : 0 < a * b) (s : GheState K) :
    ∃ s', size brent env method s = (.ok [.notDeepEnough], s') ∧ s'.H = env.maxHeight := by
  unfold size
  rw [St.modify_bind, St.get_bind]
  set s0 : GheState K := { s with H := (env.maxHeight + env.minHeight) / 2 } with hs0
  obtain ⟨s1, h1, -⟩ := ha s0
  obtain ⟨s2, h2, hH⟩ := hb s1
  have hroot : ∃ r, solveRoot brent s0.H (localObjective env method) (some env.minHeight)
      (some env.maxHeight) s0 = (.ok r, s2) := by
    unfold solveRoot
    simp only [Option.getD_some]
    rw [St.bind_ok h1, St.bind_ok h2]
    rcases pos_and_pos_or_neg_and_neg_of_mul_pos hab with ⟨p, q⟩ | ⟨p, q⟩
    · rw [signDiv_eq, signDiv_eq, if_neg p.ne', if_neg q.ne', if_pos p, if_pos q]
      exact ⟨_, rfl⟩
    · rw [signDiv_eq, signDiv_eq, if_neg p.ne, if_neg q.ne, if_neg (not_lt.2 p.le),
        if_neg (not_lt.2 q.le)]
      exact ⟨_, rfl⟩
  obtain ⟨r, hr⟩ := hroot
  rw [St.bind_ok hr, St.get_bind]
  refine ⟨s2, ?_, hH⟩
  rw [hH, if_neg hlt.ne', if_pos rfl]
  rfl

/-- C44: if an end excess is exactly zero, `size` raises `ZeroDivisionError` although that height is
a perfect answer. -/
theorem C44_exact_bound (brent : K → K → Finder K) (env : GheEnv K) (method : String)
    (a b : K) (ha : Excess env method env.minHeight a) (hb : Excess env method env.maxHeight b)
    (hab : a = 0 ∨ b = 0) (s : GheState K) :
    (size brent env method s).1 = .error .zeroDivisionError := by
  unfold size
  rw [St.modify_bind, St.get_bind]
  set s0 : GheState K := { s with H := (env.maxHeight + env.minHeight) / 2 } with hs0
  obtain ⟨s1, h1, -⟩ := ha s0
  obtain ⟨s2, h2, -⟩ := hb s1
  have hroot : solveRoot brent s0.H (localObjective env method) (some env.minHeight)
      (some env.maxHeight) s0 = (.error .zeroDivisionError, s2) := by
    unfold solveRoot
    simp only [Option.getD_some]
    rw [St.bind_ok h1, St.bind_ok h2, signDiv_eq, signDiv_eq]
    by_cases h0 : a = 0
    · rw [if_pos h0]; rfl
    · rw [if_neg h0, if_pos (hab.resolve_left h0)]
      split <;> rfl
  rw [St.bind_error hroot]

/-- The heights a root finder asks for when the objective is `f`, in order. -/
def asked (f : K → K) : Finder K → List K
  | .done _ => []
  | .fail _ => []
  | .ask x next => x :: asked f (next (f x))

theorem run_asked (env : GheEnv K) (method : String) (f : K → K) {lo hi : K}
    (hf : ∀ H, lo ≤ H → H ≤ hi → Excess env method H (f H)) (p : Finder K) (hp : Inside lo hi p)
    (s s' : GheState K) (r : Py K) (h : p.run (localObjective env method) s = (r, s')) :
    s'.H = (asked f p).getLast?.getD s.H := by
  induction hp generalizing s s' r with
  | done x => cases h; rfl
  | fail e => cases h; rfl
  | ask x next hx1 hx2 _ ih =>
    unfold Finder.run at h
    obtain ⟨s1, h1, hH⟩ := hf x hx1 hx2 s
    rw [St.bind_ok h1] at h
    rw [ih (f x) s1 s' r h, asked, hH, List.getLast?_cons]
    rfl

/-- C44: with a sign change the height left behind is the *last one the root finder asked for* (the
maximum if it asked for none) — not the root it returned, which the code discards. -/
theorem C44_last_asked (brent : K → K → Finder K) (env : GheEnv K) (method : String)
    (f : K → K) (hle : env.minHeight ≤ env.maxHeight)
    (hf : ∀ H, env.minHeight ≤ H → H ≤ env.maxHeight → Excess env method H (f H))
    (hb : Inside env.minHeight env.maxHeight (brent env.minHeight env.maxHeight))
    (hsign : f env.minHeight * f env.maxHeight < 0) (s s' : GheState K) (w : List Warning)
    (h : size brent env method s = (.ok w, s')) :
    s'.H = (asked f (brent env.minHeight env.maxHeight)).getLast?.getD env.maxHeight := by
  unfold size at h
  rw [St.modify_bind, St.get_bind, St.bind_eq_ok] at h
  obtain ⟨r, s3, h1, h⟩ := h
  rw [St.get_bind] at h
  simp only [St.pure_apply, Prod.mk.injEq, Except.ok.injEq] at h
  obtain ⟨-, rfl⟩ := h
  set s0 : GheState K := { s with H := (env.maxHeight + env.minHeight) / 2 } with hs0
  obtain ⟨s1, e1, -⟩ := hf env.minHeight le_rfl hle s0
  obtain ⟨s2, e2, hH⟩ := hf env.maxHeight hle le_rfl s1
  unfold solveRoot at h1
  simp only [Option.getD_some] at h1
  rw [St.bind_ok e1, St.bind_ok e2, signDiv_eq, signDiv_eq] at h1
  have h2 : (brent env.minHeight env.maxHeight).run (localObjective env method) s2 =
      (.ok r, s3) := by
    rcases mul_neg_iff.1 hsign with ⟨p, q⟩ | ⟨p, q⟩
    · rw [if_neg p.ne', if_neg q.ne, if_pos p, if_neg (not_lt.2 q.le)] at h1
      exact h1
    · rw [if_neg p.ne, if_neg q.ne', if_neg (not_lt.2 p.le), if_pos q] at h1
      exact h1
  rw [run_asked env method f hf _ hb _ _ _ h2, hH]

/-- one load of 1 kW after one hour: the entering temperature is `9 + 2000/H` -/
def exSizing : GheEnv ℚ :=
  { bSpacing := 5,
    thermal := fun H => .ok
      { g := fun x => if x ≤ 0 then .error .valueError else .ok x, nbh := 1, H := H, twoPiK := 1,
        Tg := 10, Rb := 1, mdot := 1, cp := 500 },
    load := [0, 0, 1], hour := [0, 0, 1], hourly := List.replicate 8760 10, startMonth := 1,
    endMonth := 24, maxEFT := 35, minEFT := 5, minHeight := 50, maxHeight := 100 }

theorem exSizing_excess (H : ℚ) (hH : 0 < H) :
    Excess exSizing "hybrid" H (cost 35 5 (9 + 2000 / H) (9 + 2000 / H)) := by
  intro s
  refine ⟨{ H := H, HPEFT := [some (9 + 2000 / H)], dTb := [some (1000 / H)] }, ?_, rfl⟩
  unfold localObjective
  rw [St.modify_bind]
  have hs : simulate exSizing "hybrid" { s with H := H } =
      (.ok (9 + 2000 / H, 9 + 2000 / H), { H := H, HPEFT := [some (9 + 2000 / H)], dTb := [some (1000 / H)] }) := by
    rw [simulate_eq exSizing "hybrid" _ _ hH.ne' rfl]
    have hi : simulationInput exSizing "hybrid" = .ok ([1 * 1000], [1]) := rfl
    have hd : simulateDetailed
        (⟨fun x => if x ≤ 0 then .error .valueError else .ok x, 1, H, 1, 10, 1, 1, 500⟩ :
          Thermal ℚ) [1 * 1000] [1] =
        .ok ([some (9 + 2000 / H)], [some (1000 / H)]) := by
      unfold simulateDetailed Thermal.answer Num.dot Num.dotBy
      norm_num [pyRange, pyGet, List.range_succ]
      ring_nf
      exact ⟨⟨H⁻¹ * 1000, ⟨by simp, by simp⟩, by ring⟩, by simp, by simp⟩
    rw [St.lift_ok hi]
    dsimp only
    rw [St.lift_ok hd]
    rfl
  rw [St.bind_ok hs]
  rfl

theorem exBrent_inside (lo hi : ℚ) (h : lo ≤ hi) : Inside lo hi (exBrent lo hi) :=
  .ask _ _ (by linarith) (by linarith) fun _ => .done _

/-- a sign change: the height left behind is the midpoint the toy finder asked for -/
example (s s' : GheState ℚ) (w : List Warning) (h : size exBrent exSizing "hybrid" s = (.ok w, s')) :
    s'.H = 75 ∧ 50 ≤ s'.H := by
  refine ⟨?_, (C44_bounds exBrent exSizing "hybrid" (by decide +kernel)
    (exBrent_inside _ _ (by decide +kernel)) s s' w h).1⟩
  rw [C44_last_asked exBrent exSizing "hybrid"
    (fun H => cost 35 5 (9 + 2000 / H) (9 + 2000 / H)) (by decide +kernel)
    (fun H h1 _ => exSizing_excess H (lt_of_lt_of_le (by decide +kernel) h1))
    (exBrent_inside _ _ (by decide +kernel)) (by decide +kernel) s s' w h]
  decide +kernel

/-- oversized at the minimum height already (both excesses negative): the maximum height is left -/
example (s : GheState ℚ) : ∃ s', size exBrent { exSizing with minHeight := 90 } "hybrid" s =
    (.ok [.notDeepEnough], s') ∧ s'.H = 100 :=
  C44_no_sign_change exBrent { exSizing with minHeight := 90 } "hybrid" (by decide +kernel) _ _
    (exSizing_excess 90 (by norm_num)) (exSizing_excess 100 (by norm_num)) (by decide +kernel) s

/-- C42: an hourly simulation of two years succeeds, one of 13 months does not -/
example : (∃ r s', simulate exSizing "hourly" { H := 60 } = (.ok r, s') ∧
      (s'.HPEFT.length : ℤ) = 730 * 24) ∧
    (simulate { exSizing with endMonth := 13 } "hourly" { H := 60 }).1 = .error .indexError := by
  have hg : ∀ k : ℕ, 0 < k → ∃ v, (fun x : ℚ => if x ≤ 0 then (.error .valueError : Py ℚ)
      else .ok x) (k : ℚ) = .ok v := by
    intro k hk
    exact ⟨k, if_neg (not_le.2 (by exact_mod_cast hk))⟩
  exact ⟨(C42_hourly exSizing { H := 60 } _ 24 (by norm_num) (by decide) List.length_replicate
      (by norm_num) rfl (fun k hk _ => hg k hk)).1 (by norm_num),
    (C42_hourly { exSizing with endMonth := 13 } { H := 60 } _ 13 (by norm_num) (by decide)
      List.length_replicate (by norm_num) rfl (fun k hk _ => hg k hk)).2 (by norm_num)⟩

example : (size exBrent (exEnvGhe 24) "hybrid" { H := 77 }).2.H = 100 ∧
    (size exBrent (exEnvGhe 24) "hybrid" { H := 77 }).1 = .ok [.notDeepEnough] := by
  decide +kernel

end floor

/-! ## C46 — combining short and long time steps -/

theorem pySlice_zero {α : Type} (l : List α) (k : ℕ) (hk : k ≤ l.length) :
    pySlice l 0 (k : ℤ) = l.take k := by
  have h : ¬ (k : ℤ) < 0 := by omega
  unfold pySlice pyClamp
  simp [h, min_eq_left hk]

theorem stopIndex_eq (m : K) : ∀ (l : List K) (i : ℕ), stopIndex m l i =
    if ∀ v ∈ l, v ≤ m then .error .indexError
    else .ok (i + (l.takeWhile (fun v => decide (v ≤ m))).length)
  | [], i => by simp [stopIndex]
  | v :: l, i => by
    unfold stopIndex
    by_cases h : v ≤ m
    · rw [if_pos h, stopIndex_eq m l (i + 1)]
      by_cases h2 : ∀ v ∈ l, v ≤ m
      · rw [if_pos h2, if_pos (by simpa [h] using h2)]
      · rw [if_neg h2, if_neg (by simpa [h] using h2), List.takeWhile_cons_of_pos (by simpa using h)]
        simp; ring
    · rw [if_neg h, if_neg (by intro h2; exact h (h2 v (by simp))),
        List.takeWhile_cons_of_neg (by simpa using h)]
      simp

theorem takeWhile_sorted (m : K) : ∀ l : List K, l.Pairwise (· ≤ ·) →
    l.takeWhile (fun v => decide (v ≤ m)) = l.filter (fun v => decide (v ≤ m))
  | [], _ => rfl
  | v :: l, h => by
    rw [List.pairwise_cons] at h
    by_cases hv : v ≤ m
    · rw [List.takeWhile_cons_of_pos (by simpa using hv), List.filter_cons_of_pos (by simpa using hv),
        takeWhile_sorted m l h.2]
    · rw [List.takeWhile_cons_of_neg (by simpa using hv), List.filter_cons_of_neg (by simpa using hv)]
      symm
      rw [List.filter_eq_nil_iff]
      intro w hw
      simpa using (not_le.1 hv).trans_le (h.1 w hw)

theorem pyMax_sorted {l : List K} (hl : l.Pairwise (· ≤ ·)) {b : K} (hb : l.getLast? = some b) :
    pyMax l = .ok b := by
  have hne : l ≠ [] := by rintro rfl; simp at hb
  obtain ⟨v, hv⟩ := pyMax_ok_of_ne_nil hne
  obtain ⟨h1, h2⟩ := pyMax_eq_ok hv
  rw [List.getLast?_eq_getLast_of_ne_nil hne, Option.some.injEq] at hb
  have h3 := h2 b (hb ▸ List.getLast_mem hne)
  have h4 : v ≤ b := by rw [← hb]; exact hl.rel_getLast h1
  rw [hv, le_antisymm h4 h3]

theorem pyMin_sorted {l : List K} (hl : l.Pairwise (· ≤ ·)) {a : K} (ha : l.head? = some a) :
    pyMin l = .ok a := by
  cases l with
  | nil => simp at ha
  | cons x l =>
    simp only [List.head?_cons, Option.some.injEq] at ha
    subst ha
    obtain ⟨v, hv⟩ := pyMin_ok_of_ne_nil (List.cons_ne_nil x l)
    obtain ⟨h1, h2⟩ := pyMin_eq_ok hv
    have h3 := h2 x (by simp)
    have h4 : x ≤ v := by
      rw [List.pairwise_cons] at hl
      rcases List.mem_cons.1 h1 with rfl | h
      · exact le_rfl
      · exact hl.1 v h
    rw [hv, le_antisymm h3 h4]

/-- C46: for strictly increasing short-time and long-time vectors, each with as many g-values as
times, `combine_sts_lts` raises `IndexError` exactly when the last short time equals the first long
time; otherwise the abscissae are the short times not above the first long time followed by all long
times, the ordinates are the corresponding g-values, the abscissae are non-decreasing, and strictly
increasing unless some short time equals the first long time. -/
theorem C46_combine (lts gl sts gs : List K) (hl : lts.Pairwise (· < ·)) (hs : sts.Pairwise (· < ·))
    (hgl : gl.length = lts.length) (hgs : gs.length = sts.length) (a b : K)
    (ha : lts.head? = some a) (hb : sts.getLast? = some b) :
    (b = a → combineStsLts lts gl sts gs = .error .indexError) ∧
    (b ≠ a → ∃ x y, combineStsLts lts gl sts gs = .ok (x, y) ∧
      x = sts.filter (fun v => decide (v ≤ a)) ++ lts ∧
      x.zip y = (sts.zip gs).filter (fun p => decide (p.1 ≤ a)) ++ lts.zip gl ∧
      x.length = y.length ∧ x.Pairwise (· ≤ ·) ∧ (x.Pairwise (· < ·) ↔ a ∉ sts)) := by
  have hl' : lts.Pairwise (· ≤ ·) := hl.imp le_of_lt
  have hs' : sts.Pairwise (· ≤ ·) := hs.imp le_of_lt
  have hlast : ∀ v ∈ sts, v ≤ b := (pyMax_eq_ok (pyMax_sorted hs' hb)).2
  have hbm : b ∈ sts := (pyMax_eq_ok (pyMax_sorted hs' hb)).1
  have halts : a ∈ lts := (pyMin_eq_ok (pyMin_sorted hl' ha)).1
  have hamin : ∀ v ∈ lts, a ≤ v := (pyMin_eq_ok (pyMin_sorted hl' ha)).2
  unfold combineStsLts
  rw [pyMax_sorted hs' hb, pyMin_sorted hl' ha, Except.ok_bind, Except.ok_bind]
  constructor
  · rintro rfl
    rw [if_neg (lt_irrefl _), stopIndex_eq, if_pos hlast]
    rfl
  · intro hne
    -- the first component of the truncated data
    set k := (sts.takeWhile (fun v => decide (v ≤ a))).length with hk
    have hprefix : sts.take k = sts.filter (fun v => decide (v ≤ a)) := by
      rw [← takeWhile_sorted a sts hs', hk]
      exact (List.prefix_iff_eq_take.1 (List.takeWhile_prefix _)).symm
    have hzip : (sts.zip gs).take k = (sts.zip gs).filter (fun p => decide (p.1 ≤ a)) := by
      have hsrt : ∀ (l m : List K), l.Pairwise (· ≤ ·) → l.length = m.length →
          (l.zip m).take (l.takeWhile (fun v => decide (v ≤ a))).length =
            (l.zip m).filter (fun p => decide (p.1 ≤ a)) := by
        intro l
        induction l with
        | nil => intro m _ _; simp
        | cons v l ih =>
          intro m hp hlen
          cases m with
          | nil => simp at hlen
          | cons w m =>
            rw [List.pairwise_cons] at hp
            by_cases hv : v ≤ a
            · rw [List.takeWhile_cons_of_pos (by simpa using hv), List.zip_cons_cons,
                List.filter_cons_of_pos (by simpa using hv), List.length_cons, List.take_succ_cons,
                ih m hp.2 (by simpa using hlen)]
            · rw [List.takeWhile_cons_of_neg (by simpa using hv), List.zip_cons_cons,
                List.filter_cons_of_neg (by simpa using hv)]
              simp only [List.length_nil, List.take_zero]
              symm
              rw [List.filter_eq_nil_iff]
              rintro ⟨p, q⟩ hpq
              simpa using (not_le.1 hv).trans_le (hp.1 p (List.of_mem_zip hpq).1)
      exact hsrt sts gs hs' hgs.symm
    have hres : (do
        let (logTime, g) ← (if b < a then pure (sts ++ lts, gs ++ gl)
          else do
            let i ← stopIndex a sts 0
            pure (pySlice sts 0 i ++ lts, pySlice gs 0 i ++ gl) : Py (List K × List K))
        if logTime.length ≠ g.length then throw .valueError
        return (logTime, g) : Py (List K × List K)) =
        .ok (sts.take k ++ lts, gs.take k ++ gl) := by
      have hfin : ∀ x y : List K, x.length = y.length → (do
          if x.length ≠ y.length then throw PyErr.valueError
          return (x, y) : Py (List K × List K)) = .ok (x, y) := by
        intro x y h; rw [if_neg (by simpa using h)]; rfl
      by_cases hba : b < a
      · rw [if_pos hba, Except.pure_eq, Except.ok_bind]
        have hk' : k = sts.length := by
          rw [hk, takeWhile_sorted a sts hs', List.filter_eq_self.2]
          intro v hv
          simpa using (hlast v hv).trans hba.le
        rw [hk', List.take_length, ← hgs, List.take_length]
        exact hfin _ _ (by simp [hgl, hgs])
      · rw [if_neg hba, stopIndex_eq, if_neg (by
          intro h
          exact hne (le_antisymm (h b hbm) (not_lt.1 hba))), Except.ok_bind, Except.pure_eq,
          Except.ok_bind]
        have hkl : k ≤ sts.length := (List.takeWhile_prefix _).length_le
        have e1 : pySlice sts 0 ((0 + k : ℕ) : ℤ) = sts.take k := by
          rw [Nat.zero_add, pySlice_zero _ _ hkl]
        have e2 : pySlice gs 0 ((0 + k : ℕ) : ℤ) = gs.take k := by
          rw [Nat.zero_add, pySlice_zero _ _ (by omega)]
        rw [← hk, e1, e2]
        exact hfin _ _ (by simp [hgl, hgs])
    refine ⟨_, _, hres, by rw [hprefix], ?_, by simp [hgl, hgs], ?_, ?_⟩
    · rw [List.zip_append (by simp [hgs]), ← hzip, List.zip_eq_zipWith, List.zip_eq_zipWith,
        List.zip_eq_zipWith, List.take_zipWith]
    · rw [hprefix, List.pairwise_append]
      refine ⟨hs'.filter _, hl', ?_⟩
      intro x hx y hy
      have := (List.mem_filter.1 hx).2
      exact (by simpa using this : x ≤ a).trans (hamin y hy)
    · rw [hprefix, List.pairwise_append]
      constructor
      · rintro ⟨-, -, h⟩ hmem
        exact lt_irrefl a (h a (List.mem_filter.2 ⟨hmem, by simp⟩) a halts)
      · intro hmem
        refine ⟨hs.filter _, hl, ?_⟩
        intro x hx y hy
        obtain ⟨h1, h2⟩ := List.mem_filter.1 hx
        have h2 : x ≤ a := by simpa using h2
        exact (lt_of_le_of_ne h2 (by rintro rfl; exact hmem h1)).trans_le (hamin y hy)

example : combineStsLts [3, 5, 8] [30, 50, 80] [1, 2, 4] [10, 20, 40] =
      (.ok ([1, 2, 3, 5, 8], [10, 20, 30, 50, 80]) : Py (List ℚ × List ℚ)) ∧
    combineStsLts [3, 5, 8] [30, 50, 80] [1, 3] [10, 30] =
      (.error .indexError : Py (List ℚ × List ℚ)) := by decide +kernel

/-! ### The theorems applied to `exThermal` and `exEnvGhe` -/

/-- C40: loads 20, 40, 60 until hours 1, 2, 3 -/
example := C40_superposition { exThermal with g := .ok } (fun x => x) 3 (fun k => 20 * (k : ℚ)) (fun k => (k : ℚ))
  (by norm_num) (by norm_num) (fun _ _ _ _ _ => rfl)
example := C40_ordered exThermal (fun x => x) 3 (fun k => 20 * (k : ℚ)) (fun k => (k : ℚ)) (by norm_num) (by norm_num)
  (fun i _ j h => by exact_mod_cast h.le) (fun i _ j h => by
    have : (j : ℚ) < i := by exact_mod_cast h
    exact if_neg (by linarith))
example := C40_zero_load exThermal 3 [1, 2, 4] [some 10, some 10, some 10] [some 0, some 0, some 0] (by decide +kernel)
example := C40_linear exThermal [20, 40, 40] [40, 80, 80] [1, 2, 4] [some 12, some 15, some 19] [some 14, some 20, some 28]
  [some 1, some 3, some 7] [some 2, some 6, some 14] 3 (-1) rfl (by decide +kernel) (by decide +kernel)
example := C40_causal exThermal [20, 40, 40] [20, 40] [1, 2, 4] [1, 2] [some 12, some 15, some 19] [some 12, some 15]
  [some 1, some 3, some 7] [some 1, some 3] 2 (by decide +kernel) (by decide +kernel) rfl rfl
example := C40_scaling exThermal 3 (by norm_num) [20, 40, 40] [1, 2, 4]
example := C41_split exThermal [20, 40] [] [1, 2] [] 40 4 3 (by norm_num) rfl [some 12, some 15, some 17, some 19]
  [some 1, some 3, some 5, some 7] (by decide +kernel)
example := C42_unknown_method (exEnvGhe 24) { H := 100 } { exThermal with H := 100 } "weekly" (by decide) (by norm_num) rfl
example := C45_table exBrent 3 (fun y => y - 2) (fun y => (pure (y - 2) : St Unit ℚ)) (fun _ _ => rfl) (some 1) none () 1 30
  rfl (by norm_num)

end Ghedt.GHE
