import Verif.Model.Ticks
import Verif.Lemmas.Loads
import Mathlib.Tactic.Linarith
import Mathlib.Tactic.FieldSimp
import Mathlib.Tactic.Ring
import Mathlib.Tactic.NormNum
import Mathlib.Algebra.Order.Round

/-!
# C114: the minor ticks of a symmetric logarithmic axis
-/

set_option linter.unusedSectionVars false

namespace Ghedt.Ticks
variable {K : Type} [Field K] [LinearOrder K] [IsStrictOrderedRing K] [FloorRing K]

/-- The inner points that divide the way from `a` to `b` in `n` equal parts. -/
def inner (n : ℕ) (a b : K) : List K := (List.range' 1 (n - 1)).map fun k : ℕ => a + k * ((b - a) / n)

/-- In how many parts a gap is divided: `n` if its middle lies in the linear part of the axis, else `n - 1`. -/
def parts (linthresh : K) (n : ℕ) (a b : K) : ℕ := if |(a + b) / 2| < linthresh then n else n - 1

theorem arangeTail_eq {a b : K} (hab : a ≠ b) {n : ℕ} (hn : 1 ≤ n) : arangeTail a b ((b - a) / n) = inner n a b := by
  have h0 : b - a ≠ 0 := sub_ne_zero.2 hab.symm
  have hn0 : (n : K) ≠ 0 := by exact_mod_cast (by omega : n ≠ 0)
  have : (b - a) / ((b - a) / (n : K)) = n := by field_simp
  unfold arangeTail inner
  rw [this, Int.ceil_natCast, Int.toNat_natCast, ← List.map_drop, List.range_eq_range', List.drop_range']

theorem gapTicks_eq {linthresh a b : K} (hab : a ≠ b) {n : ℕ} (hn : 2 ≤ n) :
    gapTicks linthresh n a b = .ok (inner (parts linthresh n a b) a b) := by
  have h0 : b - a ≠ 0 := sub_ne_zero.2 hab.symm
  unfold gapTicks parts
  dsimp only
  rw [if_neg h0, show a + (b - a) / 2 = (a + b) / 2 by ring]
  have hd : (if |(a + b) / 2| < linthresh then ((n : ℤ) : K) else ((n : ℤ) : K) - 1) =
      ((if |(a + b) / 2| < linthresh then n else n - 1 : ℕ) : K) := by
    split
    · simp
    · rw [Nat.cast_sub (by omega)]
      simp
  have h1 : 1 ≤ (if |(a + b) / 2| < linthresh then n else n - 1) := by split <;> omega
  rw [hd, if_neg (by exact_mod_cast (by omega)), arangeTail_eq hab h1]

/-- The end of the gap below the lowest major tick: ten times that tick in the logarithmic part of the axis, else the
linear width below it. -/
def below (linthresh first second lo : K) : Prop :=
  (first ≠ 0 ∧ (first ≠ linthresh ∧ linthresh < second - first ∨ second - first = linthresh ∧ first < 0) → lo = 10 * first) ∧
  (¬ (first ≠ 0 ∧ (first ≠ linthresh ∧ linthresh < second - first ∨ second - first = linthresh ∧ first < 0)) →
    lo = first - linthresh)

/-- The end of the gap above the highest major tick. -/
def above (linthresh last before hi : K) : Prop :=
  (last ≠ 0 ∧ (|last| ≠ linthresh ∧ linthresh < last - before ∨ last - before = linthresh ∧ 0 < last) → hi = 10 * last) ∧
  (¬ (last ≠ 0 ∧ (|last| ≠ linthresh ∧ linthresh < last - before ∨ last - before = linthresh ∧ 0 < last)) →
    hi = last + linthresh)

theorem lowerEnd_below (linthresh first second : K) : below linthresh first second (lowerEnd linthresh first second) := by
  unfold below lowerEnd
  dsimp only
  refine ⟨fun h => ?_, fun h => ?_⟩
  · rw [if_pos h, mul_comm]
  · rw [if_neg h]

theorem upperEnd_above (linthresh last before : K) : above linthresh last before (upperEnd linthresh last before) := by
  unfold above upperEnd
  dsimp only
  refine ⟨fun h => ?_, fun h => ?_⟩
  · rw [if_pos h, mul_comm]
  · rw [if_neg h]

theorem mul_ten_ne {x : K} (h : x ≠ 0) : 10 * x ≠ x := by
  intro e
  apply h
  linarith

theorem gaps_ok {g : K → K → Py (List K)} {f : K → K → List K} : ∀ (l : List K) (a : K),
    List.IsChain (· ≠ ·) (a :: l) → (∀ a b, a ≠ b → g a b = .ok (f a b)) →
    (pyRange 1 (a :: l).length).mapM (fun i : ℤ => (do
      let b ← pyGet (a :: l) i
      let a' ← pyGet (a :: l) (i - 1)
      g a' b : Py (List K))) = .ok (((a :: l).zip l).map fun q => f q.1 q.2) := by
  intro l a hc hg
  have hr : pyRange 1 ((a :: l).length : ℤ) = (List.range l.length).map fun k : ℕ => ((k + 1 : ℕ) : ℤ) := by
    unfold pyRange
    rw [show ((a :: l).length : ℤ) - 1 = (l.length : ℤ) by simp, Int.toNat_natCast]
    refine List.map_congr_left fun k _ => ?_
    push_cast
    ring
  rw [hr]
  rw [mapM_ok (g := fun i : ℤ => f ((a :: l).getD (i - 1).toNat 0) ((a :: l).getD i.toNat 0))]
  · congr 1
    rw [List.map_map]
    apply List.ext_getElem
    · simp
    · intro i i1 i2
      simp at i1 i2
      simp
      rw [List.getElem?_eq_getElem (by simp; omega), List.getElem?_eq_getElem (by omega)]
      simp
  · intro i hi
    obtain ⟨k, hk, rfl⟩ := List.mem_map.1 hi
    rw [List.mem_range] at hk
    have e1 : (a :: l)[k + 1]? = some ((a :: l)[k + 1]'(by simp; omega)) := List.getElem?_eq_getElem _
    have e0 : (a :: l)[k]? = some ((a :: l)[k]'(by simp; omega)) := List.getElem?_eq_getElem _
    rw [pyGet_ok' e1, Except.ok_bind, show ((k + 1 : ℕ) : ℤ) - 1 = (k : ℕ) by simp, pyGet_ok' e0, Except.ok_bind,
      Int.toNat_natCast, Int.toNat_natCast, hg _ _ (List.isChain_iff_getElem.1 hc k (by simp; omega))]
    simp [List.getD_eq_getElem?_getD, List.getElem?_eq_getElem (show k < (a :: l).length by simp; omega),
      List.getElem?_eq_getElem hk]

/-- C114: for increasing major ticks, at least two, and two parts or more: the minor ticks are the inner points of the gaps
between neighbouring major ticks and of one gap more at each end. -/
theorem C114_ticks {linthresh : K} (hl : 0 < linthresh) {n : ℕ} (hn : 2 ≤ n) (first second last before : K)
    (major : List K) (h0 : major[0]? = some first) (h1 : major[1]? = some second)
    (h2 : major[major.length - 1]? = some last) (h3 : major[major.length - 2]? = some before)
    (hinc : major.Pairwise (· < ·)) :
    ∃ lo hi, below linthresh first second lo ∧ above linthresh last before hi ∧
      minorTicks linthresh n major = .ok
        (((lo :: major).zip (major ++ [hi])).flatMap fun q => inner (parts linthresh n q.1 q.2) q.1 q.2) := by
  have hb := lowerEnd_below linthresh first second
  have ha := upperEnd_above linthresh last before
  refine ⟨_, _, hb, ha, ?_⟩
  have hlen : 2 ≤ major.length := by
    have := (List.getElem?_eq_some_iff.1 h1).1
    omega
  have hneg : ∀ (k : ℕ) (v : K), 1 ≤ k → k ≤ 2 → major[major.length - k]? = some v → pyGet major (-(k : ℤ)) = .ok v := by
    intro k v k1 k2 hv
    unfold pyGet
    simp only [show -(k : ℤ) < 0 by omega, if_true]
    rw [if_neg (by omega), show (-(k : ℤ) + major.length).toNat = major.length - k by omega, hv]
  have hlo : lowerEnd linthresh first second ≠ first := by
    by_cases h : first ≠ 0 ∧ (first ≠ linthresh ∧ linthresh < second - first ∨ second - first = linthresh ∧ first < 0)
    · rw [hb.1 h]
      exact mul_ten_ne h.1
    · rw [hb.2 h]
      intro e
      linarith
  have hhi : last ≠ upperEnd linthresh last before := by
    by_cases h : last ≠ 0 ∧ (|last| ≠ linthresh ∧ linthresh < last - before ∨ last - before = linthresh ∧ 0 < last)
    · rw [ha.1 h]
      exact (mul_ten_ne h.1).symm
    · rw [ha.2 h]
      intro e
      linarith
  have hchain : List.IsChain (· ≠ ·) (lowerEnd linthresh first second :: (major ++ [upperEnd linthresh last before])) := by
    rw [List.isChain_iff_getElem]
    intro i hi
    simp only [List.length_cons, List.length_append, List.length_nil] at hi
    rcases Nat.eq_zero_or_pos i with rfl | hi0
    · have : (major ++ [upperEnd linthresh last before])[0]? = some first := by
        rw [List.getElem?_append_left (by omega), h0]
      rw [List.getElem?_eq_getElem (by simp), Option.some.injEq] at this
      simp only [List.getElem_cons_zero, List.getElem_cons_succ, zero_add]
      rw [this]
      exact hlo
    · obtain ⟨j, rfl⟩ : ∃ j, i = j + 1 := ⟨i - 1, by omega⟩
      simp only [List.getElem_cons_succ]
      by_cases hj : j + 1 < major.length
      · rw [List.getElem_append_left (by omega), List.getElem_append_left hj]
        exact ne_of_lt (List.pairwise_iff_getElem.1 hinc j (j + 1) (by omega) hj (by omega))
      · have : j + 1 = major.length := by omega
        rw [List.getElem_append_left (by omega), List.getElem_append_right (by omega)]
        rw [List.getElem?_eq_getElem (by omega), Option.some.injEq] at h2
        simp only [List.getElem_singleton]
        rw [show major[j] = last by rw [← h2]; congr 1; omega]
        exact hhi
  unfold minorTicks
  rw [if_neg (by omega)]
  have e0 : pyGet major 0 = .ok first := pyGet_ok' (i := 0) h0
  have e1 : pyGet major 1 = .ok second := pyGet_ok' (i := 1) h1
  have e2 : pyGet major (-1) = .ok last := hneg 1 last (by omega) (by omega) h2
  have e3 : pyGet major (-2) = .ok before := hneg 2 before (by omega) (by omega) h3
  simp only [e0, e1, e2, e3, Except.ok_bind, List.cons_append]
  have hg := gaps_ok (g := gapTicks linthresh n) (f := fun a b => inner (parts linthresh n a b) a b)
    (major ++ [upperEnd linthresh last before]) (lowerEnd linthresh first second) hchain (fun a b hab => gapTicks_eq hab hn)
  simp only [pure_bind, bind_pure_comp] at hg ⊢
  rw [hg]
  have hz : (lowerEnd linthresh first second :: (major ++ [upperEnd linthresh last before])).zip
      (major ++ [upperEnd linthresh last before]) =
      (lowerEnd linthresh first second :: major).zip (major ++ [upperEnd linthresh last before]) := by
    have := List.zip_append (l₁ := lowerEnd linthresh first second :: major) (r₁ := [upperEnd linthresh last before])
      (l₂ := major ++ [upperEnd linthresh last before]) (r₂ := []) (by simp)
    simpa using this
  rw [hz, List.flatMap_def]
  rfl

theorem mem_inner {n : ℕ} {a b t : K} : t ∈ inner n a b ↔ ∃ k : ℕ, 1 ≤ k ∧ k < n ∧ t = a + k * ((b - a) / n) := by
  unfold inner
  rw [List.mem_map]
  constructor
  · rintro ⟨k, hk, rfl⟩
    rw [List.mem_range'_1] at hk
    exact ⟨k, hk.1, by omega, rfl⟩
  · rintro ⟨k, k1, k2, rfl⟩
    exact ⟨k, by rw [List.mem_range'_1]; omega, rfl⟩

/-- C114: for major ticks at the decades `c, 10 c, 100 c, …` in the logarithmic part of the axis and ten parts the minor ticks
are at 2 to 9 times each decade.  Below the first decade there are minor ticks, at its tenths, only if it is the end of the
linear part. -/
theorem C114_decades {linthresh c : K} (hl : 0 < linthresh) (hc : linthresh ≤ c) (m : ℕ) (hm : 2 ≤ m) :
    ∃ ticks, minorTicks linthresh 10 ((List.range m).map fun i => c * 10 ^ i) = .ok ticks ∧
      ∀ t, t ∈ ticks ↔ (∃ i k : ℕ, i < m ∧ 2 ≤ k ∧ k ≤ 9 ∧ t = k * (c * 10 ^ i)) ∨
        (c = linthresh ∧ ∃ k : ℕ, 1 ≤ k ∧ k ≤ 9 ∧ t = k * (c / 10)) := by
  have hc0 : 0 < c := hl.trans_le hc
  have hget : ∀ i < m, ((List.range m).map fun i => c * 10 ^ i)[i]? = some (c * 10 ^ i) := by
    intro i hi
    rw [List.getElem?_map, List.getElem?_range hi]
    rfl
  have hlen : ((List.range m).map fun i => c * 10 ^ i).length = m := by simp
  have hp : ∀ i : ℕ, c ≤ c * 10 ^ i := fun i => le_mul_of_one_le_right hc0.le (one_le_pow₀ (by norm_num))
  obtain ⟨q, rfl⟩ : ∃ q, m = q + 2 := ⟨m - 2, by omega⟩
  obtain ⟨lo, hi, hb, ha, e⟩ := C114_ticks hl (n := 10) (by norm_num) (c * 10 ^ 0) (c * 10 ^ 1) (c * 10 ^ (q + 1)) (c * 10 ^ q)
    ((List.range (q + 2)).map fun i => c * 10 ^ i) (hget 0 (by omega)) (hget 1 (by omega))
    (by rw [hlen]; exact hget (q + 1) (by omega)) (by rw [hlen]; exact hget q (by omega)) (by
      rw [List.pairwise_map]
      refine List.pairwise_lt_range.imp fun {a b} hab => ?_
      exact mul_lt_mul_of_pos_left (pow_lt_pow_right₀ (by norm_num) hab) hc0)
  refine ⟨_, e, fun t => ?_⟩
  have hhi : hi = c * 10 ^ (q + 2) := by
    have h1 := hp q
    have h2 := hp (q + 1)
    have : c * 10 ^ (q + 1) = 10 * (c * 10 ^ q) := by rw [pow_succ]; ring
    rw [ha.1 ⟨by linarith, .inl ⟨?_, by linarith⟩⟩]
    · rw [pow_succ _ (q + 1)]
      ring
    · rw [abs_of_pos (by linarith)]
      intro h
      linarith
  have hz : (lo :: (List.range (q + 2)).map fun i => c * 10 ^ i).zip (((List.range (q + 2)).map fun i => c * 10 ^ i) ++ [hi]) =
      (lo, c) :: (List.range (q + 2)).map fun i => (c * 10 ^ i, c * 10 ^ (i + 1)) := by
    have : ((List.range (q + 2)).map fun i => c * 10 ^ i) ++ [hi] = c :: (List.range (q + 2)).map fun i => c * 10 ^ (i + 1) := by
      have h : (List.range (q + 3)).map (fun i => c * 10 ^ i) = ((List.range (q + 2)).map fun i => c * 10 ^ i) ++ [hi] := by
        rw [List.range_succ, List.map_append, hhi]
        rfl
      rw [← h, List.range_succ_eq_map, List.map_cons, List.map_map, pow_zero, mul_one]
      rfl
    rw [this, List.zip_cons_cons, List.zip_map']
  have hgap : ∀ i : ℕ, t ∈ inner (parts linthresh 10 (c * 10 ^ i) (c * 10 ^ (i + 1))) (c * 10 ^ i) (c * 10 ^ (i + 1)) ↔
      ∃ k : ℕ, 2 ≤ k ∧ k ≤ 9 ∧ t = k * (c * 10 ^ i) := by
    intro i
    have h1 := hp i
    have h2 : c * 10 ^ (i + 1) = 10 * (c * 10 ^ i) := by rw [pow_succ]; ring
    rw [h2, mem_inner, parts, if_neg (by rw [abs_of_pos (by linarith)]; linarith)]
    generalize c * 10 ^ i = d
    constructor
    · rintro ⟨k, k1, k2, rfl⟩
      refine ⟨k + 1, by omega, by omega, ?_⟩
      push_cast
      ring
    · rintro ⟨k, k1, k2, rfl⟩
      obtain ⟨j, rfl⟩ : ∃ j, k = j + 1 := ⟨k - 1, by omega⟩
      refine ⟨j, by omega, by omega, ?_⟩
      push_cast
      ring
  rw [hz, List.flatMap_cons, List.mem_append, List.mem_flatMap]
  have hrest : (∃ x ∈ (List.range (q + 2)).map fun i => (c * 10 ^ i, c * 10 ^ (i + 1)),
        t ∈ inner (parts linthresh 10 x.1 x.2) x.1 x.2) ↔ ∃ i k : ℕ, i < q + 2 ∧ 2 ≤ k ∧ k ≤ 9 ∧ t = k * (c * 10 ^ i) := by
    constructor
    · rintro ⟨x, hx, ht⟩
      obtain ⟨i, hi, rfl⟩ := List.mem_map.1 hx
      obtain ⟨k, hk⟩ := (hgap i).1 ht
      exact ⟨i, k, List.mem_range.1 hi, hk⟩
    · rintro ⟨i, k, hi, hk⟩
      exact ⟨_, List.mem_map.2 ⟨i, List.mem_range.2 hi, rfl⟩, (hgap i).2 ⟨k, hk⟩⟩
  rw [hrest]
  have hb' := hb
  unfold below at hb'
  rw [pow_zero, mul_one, pow_one] at hb'
  dsimp only
  by_cases hcl : c = linthresh
  · have hlo : lo = 0 := by
      rw [hb'.2 (by rintro ⟨-, ⟨h, -⟩ | ⟨-, h⟩⟩; exact h hcl; linarith), hcl]
      ring
    rw [hlo, mem_inner, parts, if_pos (by rw [abs_of_pos (by linarith)]; linarith), or_comm]
    refine or_congr_right ⟨?_, ?_⟩
    · rintro ⟨k, k1, k2, rfl⟩
      refine ⟨hcl, k, k1, by omega, ?_⟩
      push_cast
      ring
    · rintro ⟨-, k, k1, k2, rfl⟩
      refine ⟨k, k1, by omega, ?_⟩
      push_cast
      ring
  · have hlo : lo = 10 * c := hb'.1 ⟨hc0.ne', .inl ⟨hcl, by linarith⟩⟩
    rw [hlo, mem_inner, parts, if_neg (by rw [abs_of_pos (by linarith)]; linarith)]
    constructor
    · rintro (⟨k, k1, k2, rfl⟩ | h)
      · refine .inl ⟨0, 10 - k, by omega, by omega, by omega, ?_⟩
        rw [Nat.cast_sub (show k ≤ 10 by omega)]
        push_cast
        ring
      · exact .inl h
    · rintro (h | ⟨h, -⟩)
      · exact .inr h
      · exact absurd h hcl

/-- C114: a single major tick has no minor ticks; without any major tick there is an IndexError. -/
theorem C114_few (linthresh : K) (nints : ℤ) (x : K) :
    minorTicks linthresh nints [x] = .ok [] ∧ minorTicks linthresh nints [] = .error .indexError :=
  ⟨rfl, rfl⟩

/-! ### examples -/

example : minorTicks (1 : ℚ) 10 [10, 100] = .ok [90, 80, 70, 60, 50, 40, 30, 20, 20, 30, 40, 50, 60, 70, 80, 90,
    200, 300, 400, 500, 600, 700, 800, 900] := by
  decide +kernel

/-- across zero: five parts in the linear part, four outside -/
example : minorTicks (1 : ℚ) 5 [-10, -1, 0, 1] = .ok [-155 / 2, -55, -65 / 2, -31 / 4, -11 / 2, -13 / 4,
    -4 / 5, -3 / 5, -2 / 5, -1 / 5, 1 / 5, 2 / 5, 3 / 5, 4 / 5, 13 / 4, 11 / 2, 31 / 4] := by
  decide +kernel

example : ∃ ticks, minorTicks (1 : ℚ) 10 ((List.range 3).map fun i => 1 * 10 ^ i) = .ok ticks ∧ 700 ∈ ticks ∧
    3 / 10 ∈ ticks ∧ 100 ∉ ticks := by
  obtain ⟨ticks, h, ht⟩ := C114_decades (linthresh := (1 : ℚ)) (c := 1) (by norm_num) le_rfl 3 (by norm_num)
  have := h
  refine ⟨ticks, h, (ht _).2 (.inl ⟨2, 7, by norm_num, by norm_num, by norm_num, by norm_num⟩),
    (ht _).2 (.inr ⟨rfl, 3, by norm_num, by norm_num, by norm_num⟩), fun h100 => ?_⟩
  have e : minorTicks (1 : ℚ) 10 ((List.range 3).map fun i => 1 * 10 ^ i) = .ok [1/10, 2/10, 3/10, 4/10, 5/10, 6/10, 7/10, 8/10, 9/10,
    2, 3, 4, 5, 6, 7, 8, 9, 20, 30, 40, 50, 60, 70, 80, 90, 200, 300, 400, 500, 600, 700, 800, 900] := by decide +kernel
  rw [e] at h
  cases h
  revert h100
  decide +kernel

end Ghedt.Ticks
