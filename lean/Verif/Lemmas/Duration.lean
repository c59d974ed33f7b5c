import Verif.Lemmas.Loads

set_option linter.unusedSectionVars false

namespace Ghedt
variable {K : Type} [Field K] [LinearOrder K] [IsStrictOrderedRing K]

/-! ### linear interpolation on sorted points -/

theorem interpNodes_between (pts : List (K × K)) :
    ∀ (p : K × K) (v : K), (p :: pts).IsChain (fun a b => a.1 ≤ b.1 ∧ a.2 < b.2) →
      p.1 ≤ v → v ≤ ((p :: pts).getLast (by simp)).1 →
      ∃ d, interpNodes (p :: pts) v = .ok d ∧ p.2 ≤ d ∧ d ≤ ((p :: pts).getLast (by simp)).2 ∧
        (p.1 < v → p.2 < d) := by
  induction pts with
  | nil =>
    intro p v _ h1 h2
    simp only [List.getLast_singleton] at h2 ⊢
    have : v = p.1 := le_antisymm h2 h1
    refine ⟨p.2, ?_, le_rfl, le_rfl, fun h => absurd h2 (not_le.mpr h)⟩
    unfold interpNodes; rw [if_pos this]
  | cons q rest ih =>
    intro p v hc h1 h2
    rw [List.isChain_cons_cons] at hc
    obtain ⟨⟨hx, hy⟩, hc'⟩ := hc
    have hlast : ∀ (l : List (K × K)) (q : K × K),
        (q :: l).IsChain (fun a b => a.1 ≤ b.1 ∧ a.2 < b.2) →
        q.2 ≤ ((q :: l).getLast (by simp)).2 := by
      intro l
      induction l with
      | nil => intro q _; simp
      | cons a l ihl =>
        intro q hq
        rw [List.isChain_cons_cons] at hq
        rw [List.getLast_cons (by simp)]
        exact hq.1.2.le.trans (ihl a hq.2)
    rw [List.getLast_cons (by simp)] at h2 ⊢
    unfold interpNodes
    rw [if_neg (not_lt.mpr h1)]
    by_cases hv : v < q.1
    · rw [if_pos hv]
      have hpos : 0 < q.1 - p.1 := by linarith
      have hs : 0 < (q.2 - p.2) / (q.1 - p.1) := div_pos (by linarith) hpos
      refine ⟨_, rfl, ?_, ?_, ?_⟩
      · have := mul_nonneg hs.le (show 0 ≤ v - p.1 by linarith); linarith
      · refine le_trans ?_ (hlast rest q hc')
        have h3 : (q.2 - p.2) / (q.1 - p.1) * (v - p.1) ≤ (q.2 - p.2) / (q.1 - p.1) * (q.1 - p.1) :=
          mul_le_mul_of_nonneg_left (by linarith) hs.le
        rw [div_mul_cancel₀ _ hpos.ne'] at h3
        linarith
      · intro hlt
        have := mul_pos hs (show 0 < v - p.1 by linarith); linarith
    · rw [if_neg hv]
      obtain ⟨d, e1, e2, e3, -⟩ := ih q v hc' (not_lt.mp hv) h2
      exact ⟨d, e1, hy.le.trans e2, e3, fun _ => hy.trans_le e2⟩

theorem interpNodes_above (pts : List (K × K)) : ∀ (v : K), (∀ q ∈ pts, q.1 < v) →
    interpNodes pts v = .error .valueError := by
  induction pts with
  | nil => intro v _; rfl
  | cons p pts ih =>
    intro v h
    cases pts with
    | nil =>
      unfold interpNodes
      rw [if_neg (h p List.mem_cons_self).ne']
    | cons q rest =>
      unfold interpNodes
      split
      · rfl
      · rw [if_neg (not_lt.mpr (h q (by simp)).le)]
        exact ih v fun x hx => h x (List.mem_cons_of_mem _ hx)

theorem interp1d_above {x y : List K} {v : K} (h : ∀ a ∈ x, a < v) :
    interp1d x y v = .error .valueError := by
  unfold interp1d
  split
  · rfl
  · apply interpNodes_above
    intro q hq
    rw [(List.perm_insertionSort _ _).mem_iff] at hq
    exact h q.1 (List.of_mem_zip hq).1

theorem interpNodes_cases (pts : List (K × K)) (v : K) :
    (∃ d, interpNodes pts v = .ok d) ∨ interpNodes pts v = .error .valueError := by
  induction pts with
  | nil => exact Or.inr rfl
  | cons p pts ih =>
    cases pts with
    | nil =>
      unfold interpNodes
      split
      · exact Or.inl ⟨_, rfl⟩
      · exact Or.inr rfl
    | cons q rest =>
      unfold interpNodes
      split
      · exact Or.inr rfl
      · split
        · exact Or.inl ⟨_, rfl⟩
        · exact ih

theorem interp1d_cases (x y : List K) (v : K) :
    (∃ d, interp1d x y v = .ok d) ∨ interp1d x y v = .error .valueError := by
  unfold interp1d
  split
  · exact Or.inr rfl
  · exact interpNodes_cases _ _

end Ghedt

namespace Ghedt.GL
open Spec Search
variable {K : Type} [Field K] [LinearOrder K] [IsStrictOrderedRing K]

/-! ### hourly simulation in closed form -/

/-- the response is defined for 1 to 48 hours, with values `G` -/
def Answers (r : Resp K) (G : ℕ → K) : Prop := ∀ t : ℕ, 1 ≤ t → t ≤ 48 → r.g (t : ℤ) = .ok (G t)

/-- temperature change at hour `n` under the loads `q` -/
def dT (r : Resp K) (G : ℕ → K) (q : ℕ → K) (n : ℕ) : K :=
  ∑ k ∈ Finset.range n, (q (k + 1) - q k) / r.twoPiK * G (n - k) + q n * r.Rb

theorem list_sum_range (f : ℕ → K) (n : ℕ) :
    ((List.range n).map f).sum = ∑ k ∈ Finset.range n, f k := by
  induction n with
  | zero => rfl
  | succ n ih => rw [List.range_succ, List.map_append, List.sum_append, ih, Finset.sum_range_succ]; simp

theorem pyRange_zero (n : ℕ) : pyRange 0 (n : ℤ) = (List.range n).map fun k : ℕ => (k : ℤ) := by
  unfold pyRange; simp

theorem simulateHourly_ok {r : Resp K} {G : ℕ → K} (hr : Answers r G) (q : ℕ → K) :
    simulateHourly r (pyRange 0 (2 * 24 + 1)) ((List.range 49).map q) =
      .ok (0 :: (List.range 48).map fun k => dT r G q (k + 1)) := by
  have hlen : (pyRange 0 (2 * 24 + 1)).length = 49 := by simp
  have hH : pyRange 0 (2 * 24 + 1) = (List.range 49).map fun k : ℕ => (k : ℤ) := pyRange_zero 49
  have hdt : List.zipWith (· - ·) ((List.range 49).map q).tail ((List.range 49).map q) =
      (List.range 48).map fun k => q (k + 1) - q k := by
    apply List.ext_getElem?
    intro k
    rw [List.getElem?_zipWith, List.getElem?_tail, List.getElem?_map, List.getElem?_map,
      List.getElem?_map]
    by_cases hk : k < 48
    · rw [List.getElem?_range (by omega), List.getElem?_range (by omega), List.getElem?_range hk]
      rfl
    · rw [List.getElem?_eq_none (show (List.range 49).length ≤ k + 1 by simp; omega),
        List.getElem?_eq_none (show (List.range 48).length ≤ k by simp; omega)]
      rfl
  unfold simulateHourly
  rw [hlen, hdt]
  have hmap : (pyRange 1 ((49 : ℕ) : ℤ)) = (List.range 48).map fun k : ℕ => ((k + 1 : ℕ) : ℤ) := by
    unfold pyRange
    rw [show (((49 : ℕ) : ℤ) - 1).toNat = 48 by rfl]
    apply List.map_congr_left
    intro k _; push_cast; ring
  rw [hmap]
  dsimp only
  rw [show ∀ f : ℤ → Py K, ((List.range 48).map fun k : ℕ => ((k + 1 : ℕ) : ℤ)).mapM f =
    (List.range 48).mapM fun k : ℕ => f ((k + 1 : ℕ) : ℤ) from fun f => List.mapM_map ..]
  rw [mapM_ok (g := fun k : ℕ => dT r G q (k + 1))]
  · rfl
  intro k hk
  rw [List.mem_range] at hk
  have h1 : pyGet (pyRange 0 (2 * 24 + 1)) ((k + 1 : ℕ) : ℤ) = .ok ((k + 1 : ℕ) : ℤ) := by
    apply pyGet_ok'
    rw [hH, List.getElem?_map, List.getElem?_range (by omega)]; rfl
  have h2 : ((pyRange 0 (2 * 24 + 1)).take ((k + 1 : ℕ) : ℤ).toNat).mapM
      (fun τ : ℤ => r.g (((k + 1 : ℕ) : ℤ) - τ)) =
      .ok ((List.range (k + 1)).map fun j => G (k + 1 - j)) := by
    rw [hH, Int.toNat_natCast, ← List.map_take, List.take_range, min_eq_left (by omega)]
    rw [show ∀ f : ℤ → Py K, ((List.range (k + 1)).map fun j : ℕ => (j : ℤ)).mapM f =
      (List.range (k + 1)).mapM fun j : ℕ => f (j : ℤ) from fun f => List.mapM_map ..]
    apply mapM_ok
    intro j hj
    rw [List.mem_range] at hj
    have : ((k + 1 : ℕ) : ℤ) - (j : ℤ) = ((k + 1 - j : ℕ) : ℤ) := by omega
    rw [this, hr _ (by omega) (by omega)]
  have h3 : pyGet ((List.range 49).map q) ((k + 1 : ℕ) : ℤ) = .ok (q (k + 1)) := by
    apply pyGet_ok'
    rw [List.getElem?_map, List.getElem?_range (by omega)]; rfl
  rw [h1, Except.ok_bind, h2, Except.ok_bind, h3]
  rw [Int.toNat_natCast, ← List.map_take, List.take_range, min_eq_left (by omega)]
  rw [if_neg (by simp)]
  simp only [Except.ok_bind, Except.pure_eq]
  congr 1
  unfold dT
  congr 1
  rw [List.map_map]
  rw [List.zipWith_map, List.zipWith_self, list_sum_range]
  rfl

/-- A nondecreasing response with nonnegative first value: loads below `c` heat the fluid at most as
much as the constant load `c`. -/
theorem dT_le {r : Resp K} {G : ℕ → K} (hk : 0 < r.twoPiK)
    (hG : ∀ t, 1 ≤ t → t < 48 → G t ≤ G (t + 1)) (h1 : 0 ≤ G 1 / r.twoPiK + r.Rb)
    {q : ℕ → K} (h0 : q 0 = 0) {c : K} (hq : ∀ k, 1 ≤ k → k ≤ 48 → q k ≤ c) {n : ℕ} (hn : 1 ≤ n)
    (hn2 : n ≤ 48) : dT r G q n ≤ c * (G n / r.twoPiK + r.Rb) := by
  have key : ∀ m, 1 ≤ m → m ≤ n →
      ∑ k ∈ Finset.range m, (q (k + 1) - q k) / r.twoPiK * G (n - k) ≤
        c * (G n / r.twoPiK) - (c - q m) * (G (n - m + 1) / r.twoPiK) := by
    intro m hm
    induction m, hm using Nat.le_induction with
    | base =>
      intro _
      rw [Finset.sum_range_one, h0, Nat.sub_zero, show n - 1 + 1 = n by omega]
      apply le_of_eq
      field_simp
      ring
    | succ m hm ih =>
      intro hle
      have hi := ih (by omega)
      rw [Finset.sum_range_succ]
      have hstep : G (n - m) ≤ G (n - m + 1) := hG _ (by omega) (by omega)
      have hp : 0 ≤ c - q m := by have := hq m hm (by omega); linarith
      have hmul : (c - q m) * (G (n - m) / r.twoPiK) ≤ (c - q m) * (G (n - m + 1) / r.twoPiK) :=
        mul_le_mul_of_nonneg_left (div_le_div_of_nonneg_right hstep hk.le) hp
      rw [show n - (m + 1) + 1 = n - m by omega]
      have e : (q (m + 1) - q m) / r.twoPiK * G (n - m) =
          (c - q m) * (G (n - m) / r.twoPiK) - (c - q (m + 1)) * (G (n - m) / r.twoPiK) := by
        field_simp; ring
      rw [e]
      linarith
  have h := key n hn le_rfl
  unfold dT
  rw [Nat.sub_self, Nat.zero_add] at h
  have hp : 0 ≤ c - q n := by have := hq n hn hn2; linarith
  have := mul_nonneg hp h1
  linarith [mul_add c (G n / r.twoPiK) r.Rb, mul_add (c - q n) (G 1 / r.twoPiK) r.Rb]

/-- constant load -/
theorem dT_const {r : Resp K} {G : ℕ → K} {q : ℕ → K} (h0 : q 0 = 0) {c : K}
    (hq : ∀ k, 1 ≤ k → k ≤ 48 → q k = c) {n : ℕ} (hn : 1 ≤ n) (hn2 : n ≤ 48) :
    dT r G q n = c * (G n / r.twoPiK + r.Rb) := by
  unfold dT
  obtain ⟨m, rfl⟩ : ∃ m, n = m + 1 := ⟨n - 1, by omega⟩
  rw [Finset.sum_range_succ', Finset.sum_eq_zero, h0, hq _ hn hn2, hq 1 le_rfl (by omega)]
  · simp only [Nat.sub_zero]
    ring
  · intro k hk
    rw [Finset.mem_range] at hk
    rw [hq (k + 1 + 1) (by omega) (by omega), hq (k + 1) (by omega) (by omega)]
    simp

/-- flat response -/
theorem dT_flat {r : Resp K} {G : ℕ → K} {G0 : K} (hG : ∀ t, 1 ≤ t → t ≤ 48 → G t = G0) {q : ℕ → K}
    (h0 : q 0 = 0) {n : ℕ} (hn2 : n ≤ 48) :
    dT r G q n = q n * (G0 / r.twoPiK + r.Rb) := by
  have key : ∀ m, m ≤ n → ∑ k ∈ Finset.range m, (q (k + 1) - q k) / r.twoPiK * G (n - k) =
      q m * (G0 / r.twoPiK) := by
    intro m
    induction m with
    | zero => intro _; simp [h0]
    | succ m ih =>
      intro hle
      rw [Finset.sum_range_succ, ih (by omega), hG _ (by omega) (by omega)]
      ring
  unfold dT
  rw [key n le_rfl]; ring

end Ghedt.GL

namespace Ghedt.GL
open Spec Search
variable {K : Type} [Field K] [LinearOrder K] [IsStrictOrderedRing K]

/-! ### one month -/

def qPk (c : K) (k : ℕ) : K := if k = 0 then 0 else c

def qNm (w : List K) (P a : K) (k : ℕ) : K :=
  if k = 0 then 0 else ((0 :: w).getD k 0 - a) / P * (0 :: w).getD k 0

theorem qPk_list (c : K) : 0 :: List.replicate (2 * 24) c = (List.range 49).map (qPk c) := by
  rw [List.range_succ_eq_map, List.map_cons]
  congr 1

/-- the temperature history under the sequence `q` -/
def hist (r : Resp K) (G : ℕ → K) (q : ℕ → K) : List K :=
  0 :: (List.range 48).map fun k => dT r G q (k + 1)

/-- the abscissae of the duration interpolation -/
def hours49 : List K := (pyRange 0 (2 * 24 + 1)).map fun h : ℤ => (h : K)

theorem performMonth_eq {r : Resp K} {G : ℕ → K} (hr : Answers r G) {w : List K}
    (hw : w.length = 48) {P : K} (hP : P ≠ 0) (a : K) :
    performMonth r (0 :: w) P a = (do
      let m ← pyMax (hist r G (qNm w P a))
      let d ← (if m > 0 then interp1d (hist r G (qPk (P - a))) hours49 m else .ok (1 / 1000000))
      return (d, hist r G (qPk (P - a)), hist r G (qNm w P a))) := by
  unfold performMonth
  dsimp only
  have hmap : (pyRange 1 ((0 :: List.replicate (2 * 24) (P - a)).length : ℤ)).mapM
      (fun i : ℤ => do
        let l ← pyGet (0 :: w) i
        let a ← pyDiv (l - a) P
        return a * l) = .ok ((List.range 48).map fun k => qNm w P a (k + 1)) := by
    have : pyRange 1 ((0 :: List.replicate (2 * 24) (P - a)).length : ℤ) =
        (List.range 48).map fun k : ℕ => ((k + 1 : ℕ) : ℤ) := by
      unfold pyRange
      rw [show (((0 :: List.replicate (2 * 24) (P - a)).length : ℤ) - 1).toNat = 48 by simp]
      apply List.map_congr_left
      intro k _; push_cast; ring
    rw [this]
    rw [show ∀ f : ℤ → Py K, ((List.range 48).map fun k : ℕ => ((k + 1 : ℕ) : ℤ)).mapM f =
      (List.range 48).mapM fun k : ℕ => f ((k + 1 : ℕ) : ℤ) from fun f => List.mapM_map ..]
    apply mapM_ok
    intro k hk
    rw [List.mem_range] at hk
    have hg : (0 :: w)[k + 1]? = some ((0 :: w).getD (k + 1) 0) := by
      rw [List.getD_eq_getElem?_getD, List.getElem?_eq_getElem (by simp; omega)]; rfl
    rw [pyGet_ok' hg, Except.ok_bind, pyDiv_ok hP]
    simp only [qNm, Nat.add_one_ne_zero, if_false]
    rfl
  rw [hmap, Except.ok_bind, qPk_list, simulateHourly_ok hr, Except.ok_bind]
  have hq : (0 : K) :: ((List.range 48).map fun k => qNm w P a (k + 1)) =
      (List.range 49).map (qNm w P a) := by
    rw [List.range_succ_eq_map (n := 48), List.map_cons, List.map_map]
    rfl
  rw [hq, simulateHourly_ok hr, Except.ok_bind]
  rfl

theorem hist_getElem? (r : Resp K) (G : ℕ → K) (q : ℕ → K) (n : ℕ) (hn : n ≤ 48) :
    (hist r G q)[n]? = some (if n = 0 then 0 else dT r G q n) := by
  unfold hist
  cases n with
  | zero => rfl
  | succ n =>
    rw [List.getElem?_cons_succ, List.getElem?_map, List.getElem?_range (by omega)]
    simp

theorem mem_hist {r : Resp K} {G : ℕ → K} {q : ℕ → K} {x : K} (hx : x ∈ hist r G q) :
    x = 0 ∨ ∃ n : ℕ, 1 ≤ n ∧ n ≤ 48 ∧ x = dT r G q n := by
  unfold hist at hx
  rw [List.mem_cons, List.mem_map] at hx
  rcases hx with rfl | ⟨k, hk, rfl⟩
  · exact Or.inl rfl
  · rw [List.mem_range] at hk
    exact Or.inr ⟨k + 1, by omega, by omega, rfl⟩

theorem hist_length (r : Resp K) (G : ℕ → K) (q : ℕ → K) : (hist r G q).length = 49 := by
  simp [hist]

theorem dT_mem_hist {r : Resp K} {G : ℕ → K} {q : ℕ → K} {n : ℕ} (h1 : 1 ≤ n) (h2 : n ≤ 48) :
    dT r G q n ∈ hist r G q := by
  unfold hist
  rw [List.mem_cons, List.mem_map]
  exact Or.inr ⟨n - 1, by rw [List.mem_range]; omega, by congr 1; omega⟩

theorem isChain_map_range {α : Type} (R : α → α → Prop) (f : ℕ → α) (n : ℕ)
    (h : ∀ k, k + 1 < n → R (f k) (f (k + 1))) : ((List.range n).map f).IsChain R := by
  rw [List.isChain_iff_getElem]
  intro i hi
  simp only [List.length_map, List.length_range] at hi
  simp only [List.getElem_map, List.getElem_range]
  exact h i hi

/-- Interpolating a nondecreasing history succeeds for every value it covers. -/
theorem interp_hist {r : Resp K} {G : ℕ → K} {c : K} (hc : 0 ≤ c) (hk : 0 < r.twoPiK)
    (hG : ∀ t, 1 ≤ t → t < 48 → G t ≤ G (t + 1)) (h1 : 0 ≤ G 1 / r.twoPiK + r.Rb)
    {v : K} (hv : 0 < v) (hv2 : v ≤ c * (G 48 / r.twoPiK + r.Rb)) :
    ∃ d, interp1d (hist r G (qPk c)) hours49 v = .ok d ∧ 0 < d ∧ d ≤ 48 := by
  set f : ℕ → K × K := fun n => (if n = 0 then 0 else c * (G n / r.twoPiK + r.Rb), (n : K)) with hf
  have hhist : hist r G (qPk c) = (List.range 49).map fun n => (f n).1 := by
    apply List.ext_getElem?
    intro n
    by_cases hn : n ≤ 48
    · rw [hist_getElem? r G _ n hn, List.getElem?_map, List.getElem?_range (by omega)]
      simp only [Option.map_some, hf]
      by_cases h0 : n = 0
      · simp [h0]
      · rw [if_neg h0, if_neg h0, dT_const (c := c) (by simp [qPk]) _ (by omega) hn]
        intro k hk1 _
        simp [qPk, show k ≠ 0 by omega]
    · rw [List.getElem?_eq_none (by rw [hist_length]; omega), List.getElem?_eq_none (by simp; omega)]
  have hhours : hours49 = (List.range 49).map fun n => (f n).2 := by
    unfold hours49
    rw [show pyRange 0 (2 * 24 + 1) = (List.range 49).map fun k : ℕ => (k : ℤ) from pyRange_zero 49,
      List.map_map]
    apply List.map_congr_left
    intro k _
    simp [hf]
  have hzip : (hist r G (qPk c)).zip hours49 = (List.range 49).map f := by
    rw [hhist, hhours, List.zip_map']
  have hmono : ∀ k, k + 1 < 49 → (f k).1 ≤ (f (k + 1)).1 := by
    intro k hk'
    simp only [hf]
    rw [if_neg (Nat.succ_ne_zero k)]
    by_cases h0 : k = 0
    · subst h0
      rw [if_pos rfl]
      exact mul_nonneg hc h1
    · rw [if_neg h0]
      apply mul_le_mul_of_nonneg_left _ hc
      have := div_le_div_of_nonneg_right (hG k (by omega) (by omega)) hk.le
      linarith
  have hchain : ((List.range 49).map f).IsChain (fun a b => a.1 ≤ b.1 ∧ a.2 < b.2) := by
    apply isChain_map_range
    intro k hk'
    refine ⟨hmono k hk', ?_⟩
    simp only [hf]
    push_cast; linarith
  have hsort : ((List.range 49).map f).insertionSort (fun a b => a.1 ≤ b.1) = (List.range 49).map f := by
    apply List.Pairwise.insertionSort_eq
    have : IsTrans (K × K) (fun a b => a.1 ≤ b.1) := ⟨fun a b c h h' => le_trans h h'⟩
    apply List.IsChain.pairwise
    exact hchain.imp fun _ _ h => h.1
  unfold interp1d
  rw [if_neg (by rw [hist_length]; simp [hours49]), hzip, hsort]
  have hcons : (List.range 49).map f = f 0 :: (List.range 48).map fun k => f (k + 1) := by
    rw [List.range_succ_eq_map (n := 48), List.map_cons, List.map_map]
    rfl
  have hlast : ∀ h, ((f 0 :: (List.range 48).map fun k => f (k + 1)).getLast h) = f 48 := by
    intro h
    rw [List.getLast_eq_getElem]
    simp
  rw [hcons] at hchain ⊢
  have h00 : (f 0).1 = 0 := by simp [hf]
  have h01 : (f 0).2 = 0 := by simp [hf]
  have h48 : (f 48).1 = c * (G 48 / r.twoPiK + r.Rb) := by simp [hf]
  have h481 : (f 48).2 = 48 := by simp [hf]
  obtain ⟨d, e1, -, e3, e4⟩ := interpNodes_between _ (f 0) v hchain (by rw [h00]; exact hv.le)
    (by rw [hlast, h48]; exact hv2)
  rw [hlast, h481] at e3
  rw [h00, h01] at e4
  exact ⟨d, e1, e4 hv, e3⟩

end Ghedt.GL
