import Verif.Lemmas.HybridTotal
import Verif.Props.PeakDuration

/-!
# How short a peak duration can be
-/

set_option linter.unusedSectionVars false

namespace Ghedt.GL
open Spec Search
variable {K : Type} [Field K] [LinearOrder K] [IsStrictOrderedRing K]

/-- A nondecreasing response: loads above `-b` before hour `n` cool the fluid at most as much as the constant `-b`. -/
theorem dT_ge {r : Resp K} {G : ℕ → K} (hk : 0 < r.twoPiK) (hG : ∀ t, 1 ≤ t → t < 48 → G t ≤ G (t + 1))
    {q : ℕ → K} (h0 : q 0 = 0) {b : K} {n : ℕ} (hq : ∀ k, 1 ≤ k → k < n → -b ≤ q k) (hn : 1 ≤ n) (hn2 : n ≤ 48) :
    q n * (G 1 / r.twoPiK + r.Rb) - b * (G n / r.twoPiK - G 1 / r.twoPiK) ≤ dT r G q n := by
  have key : ∀ m, 1 ≤ m → m ≤ n →
      q m * (G (n - m + 1) / r.twoPiK) - b * (G n / r.twoPiK - G (n - m + 1) / r.twoPiK) ≤
        ∑ k ∈ Finset.range m, (q (k + 1) - q k) / r.twoPiK * G (n - k) := by
    intro m hm
    induction m, hm using Nat.le_induction with
    | base =>
      intro _
      rw [Finset.sum_range_one, h0, Nat.sub_zero, show n - 1 + 1 = n by omega]
      apply le_of_eq
      field_simp
      ring
    | succ m hm ih =>
      intro hle
      have hi := ih (by omega)
      rw [Finset.sum_range_succ]
      have hstep : G (n - m) / r.twoPiK ≤ G (n - m + 1) / r.twoPiK :=
        div_le_div_of_nonneg_right (hG _ (by omega) (by omega)) hk.le
      have hp : 0 ≤ q m + b := by have := hq m hm (by omega); linarith
      have hmul := mul_le_mul_of_nonneg_left hstep hp
      rw [show n - (m + 1) + 1 = n - m by omega]
      have e : (q (m + 1) - q m) / r.twoPiK * G (n - m) =
          q (m + 1) * (G (n - m) / r.twoPiK) - q m * (G (n - m) / r.twoPiK) := by
        field_simp
      rw [e]
      linarith
  have h := key n hn le_rfl
  unfold dT
  rw [Nat.sub_self, Nat.zero_add] at h
  linarith [mul_add (q n) (G 1 / r.twoPiK) r.Rb]

/-- interpolating the history of a constant load: at least in proportion to the first hour -/
theorem interp_hist_ge {r : Resp K} {G : ℕ → K} {c : K} (hc : 0 < c) (hk : 0 < r.twoPiK)
    (hG : ∀ t, 1 ≤ t → t < 48 → G t ≤ G (t + 1)) (h1 : 0 < G 1 / r.twoPiK + r.Rb)
    {v θ : K} (hθ : θ ≤ 1) (hv : 0 < v) (hv1 : θ * (c * (G 1 / r.twoPiK + r.Rb)) ≤ v)
    {d : K} (hd : interp1d (hist r G (qPk c)) hours49 v = .ok d) : θ ≤ d := by
  set f : ℕ → K × K := fun n => (if n = 0 then 0 else c * (G n / r.twoPiK + r.Rb), (n : K)) with hf
  have hhist : hist r G (qPk c) = (List.range 49).map fun n => (f n).1 := by
    apply List.ext_getElem?
    intro n
    by_cases hn : n ≤ 48
    · rw [hist_getElem? r G _ n hn, List.getElem?_map, List.getElem?_range (by omega)]
      simp only [Option.map_some, hf]
      by_cases h0 : n = 0
      · simp [h0]
      · rw [if_neg h0, if_neg h0, dT_const (c := c) (by simp [qPk]) _ (by omega) hn]
        intro k hk1 _
        simp [qPk, show k ≠ 0 by omega]
    · rw [List.getElem?_eq_none (by rw [hist_length]; omega), List.getElem?_eq_none (by simp; omega)]
  have hhours : hours49 = (List.range 49).map fun n => (f n).2 := by
    unfold hours49
    rw [show pyRange 0 (2 * 24 + 1) = (List.range 49).map fun k : ℕ => (k : ℤ) from pyRange_zero 49,
      List.map_map]
    apply List.map_congr_left
    intro k _
    simp [hf]
  have hzip : (hist r G (qPk c)).zip hours49 = (List.range 49).map f := by
    rw [hhist, hhours, List.zip_map']
  have hmono : ∀ k, k + 1 < 49 → (f k).1 ≤ (f (k + 1)).1 := by
    intro k hk'
    simp only [hf]
    rw [if_neg (Nat.succ_ne_zero k)]
    by_cases h0 : k = 0
    · subst h0
      rw [if_pos rfl]
      exact mul_nonneg hc.le h1.le
    · rw [if_neg h0]
      apply mul_le_mul_of_nonneg_left _ hc.le
      have := div_le_div_of_nonneg_right (hG k (by omega) (by omega)) hk.le
      linarith
  have hchain : ((List.range 49).map f).IsChain (fun a b => a.1 ≤ b.1 ∧ a.2 < b.2) := by
    apply isChain_map_range
    intro k hk'
    refine ⟨hmono k hk', ?_⟩
    simp only [hf]
    push_cast; linarith
  have hsort : ((List.range 49).map f).insertionSort (fun a b => a.1 ≤ b.1) = (List.range 49).map f := by
    apply List.Pairwise.insertionSort_eq
    have : IsTrans (K × K) (fun a b => a.1 ≤ b.1) := ⟨fun a b c h h' => le_trans h h'⟩
    apply List.IsChain.pairwise
    exact hchain.imp fun _ _ h => h.1
  unfold interp1d at hd
  rw [if_neg (by rw [hist_length]; simp [hours49]), hzip, hsort] at hd
  have hcons : (List.range 49).map f = f 0 :: f 1 :: (List.range 47).map fun k => f (k + 2) := by
    rw [List.range_succ_eq_map (n := 48), List.map_cons, List.map_map, List.range_succ_eq_map (n := 47),
      List.map_cons, List.map_map]
    rfl
  rw [hcons] at hd
  have f0 : f 0 = (0, 0) := by simp [hf]
  have f1 : f 1 = (c * (G 1 / r.twoPiK + r.Rb), 1) := by simp [hf]
  have hR : 0 < c * (G 1 / r.twoPiK + r.Rb) := mul_pos hc h1
  unfold interpNodes at hd
  rw [f0, f1] at hd
  dsimp only at hd
  rw [if_neg (not_lt.mpr hv.le)] at hd
  split at hd
  · cases hd
    rw [sub_zero, sub_zero, sub_zero, add_zero, one_div, inv_mul_eq_div, le_div_iff₀ hR]
    exact hv1
  · refine hθ.trans (interpNodes_range (lo := 1) (hi := 49) _ ?_ hd).1
    intro p hp
    rcases List.mem_cons.1 hp with rfl | hp
    · exact ⟨le_rfl, by norm_num⟩
    · obtain ⟨k, hk', rfl⟩ := List.mem_map.1 hp
      have hk' := List.mem_range.1 hk'
      simp only [hf]
      constructor
      · have : (1 : ℕ) ≤ k + 2 := by omega
        exact_mod_cast this
      · have : k + 2 ≤ 49 := by omega
        exact_mod_cast this

/-- the nominal load is never far below zero -/
theorem qNm_ge {w : List K} {P a : K} (hP : 0 < P) (k : ℕ) : -(a ^ 2 / (4 * P)) ≤ qNm w P a k := by
  unfold qNm
  split
  · have : 0 ≤ a ^ 2 / (4 * P) := by positivity
    linarith
  · generalize (0 :: w).getD k 0 = l
    rw [div_mul_eq_mul_div, neg_div', div_le_div_iff₀ (by positivity) hP]
    nlinarith [sq_nonneg (2 * l - a)]

/-- the duration of one month whose peak is in the window -/
theorem month_floor {r : Resp K} {G : ℕ → K} (hr : Answers r G) (hk : 0 < r.twoPiK)
    (hG : ∀ t, 1 ≤ t → t < 48 → G t ≤ G (t + 1)) (h1 : 0 < G 1 / r.twoPiK + r.Rb)
    (hslow : ∀ t : ℕ, 1 ≤ t → t ≤ 25 → G t / r.twoPiK + r.Rb ≤ ((t : K) + 9 / 10) * (G 1 / r.twoPiK + r.Rb))
    {w : List K} (hw : w.length = 48) {P a : K} (hP : 0 < P) (haP : a ≤ P)
    (hx : ∀ x ∈ w, 0 ≤ x ∧ x ≤ P) {j : ℕ} (hj : j < 25) (hjP : w[j]? = some P)
    (hcond : a ^ 2 * ((j : K) + 1) ≤ 4 * P * (P - a) ∨ ∀ k < j, ∀ x, w[k]? = some x → x = 0 ∨ a ≤ x)
    {d : K} {x y : List K} (h : performMonth r (0 :: w) P a = .ok (d, x, y)) : 1 / 1000000 ≤ d := by
  rw [performMonth_eq hr hw hP.ne' a, bind_eq_ok] at h
  obtain ⟨m, hm, h⟩ := h
  rw [bind_eq_ok] at h
  obtain ⟨d', hd, h⟩ := h
  cases h
  by_cases hm0 : m > 0
  swap
  · rw [if_neg hm0] at hd
    cases hd
    exact le_rfl
  rw [if_pos hm0] at hd
  have hlast : qNm w P a (j + 1) = P - a := by
    unfold qNm
    rw [if_neg (Nat.succ_ne_zero j), List.getD_cons_succ, List.getD_eq_getElem?_getD, hjP, Option.getD_some]
    field_simp
  -- an average equal to the peak leaves nothing positive
  have haP' : a < P := by
    rcases lt_or_eq_of_le haP with h | h
    · exact h
    · exfalso
      rcases mem_hist (pyMax_eq_ok hm).1 with h' | ⟨n, n1, n2, h'⟩
      · exact hm0.ne' h'
      · have := dT_le hk hG h1.le (q := qNm w P a) (by simp [qNm]) (c := P - a)
          (fun k k1 k2 => qNm_le hw hP haP hx k1 k2) n1 n2
        rw [← h', h, sub_self, zero_mul] at this
        linarith
  set R := G 1 / r.twoPiK + r.Rb with hR
  have hcR : 0 < (P - a) * R := mul_pos (by linarith) h1
  have hmax : dT r G (qNm w P a) (j + 1) ≤ m := (pyMax_eq_ok hm).2 _ (dT_mem_hist (by omega) (by omega))
  have hbig : (1 / 1000000) * ((P - a) * R) ≤ m := by
    refine le_trans ?_ hmax
    rcases hcond with hc | hc
    · have hge := dT_ge hk hG (q := qNm w P a) (by simp [qNm]) (b := a ^ 2 / (4 * P)) (n := j + 1)
        (fun k _ _ => qNm_ge hP k) (by omega) (by omega)
      rw [hlast] at hge
      refine le_trans ?_ hge
      have hs := hslow (j + 1) (by omega) (by omega)
      push_cast at hs
      have hb : a ^ 2 / (4 * P) * ((j : K) + 1) ≤ P - a := by
        rw [div_mul_eq_mul_div, div_le_iff₀ (by positivity)]
        linarith [mul_comm (4 * P) (P - a)]
      have hb0 : 0 ≤ a ^ 2 / (4 * P) := by positivity
      set b := a ^ 2 / (4 * P)
      have e1 : b * (G (j + 1) / r.twoPiK - G 1 / r.twoPiK) ≤ b * ((j : K) + 9 / 10) * R := by
        rw [mul_assoc]
        apply mul_le_mul_of_nonneg_left _ hb0
        linarith
      have hj0 : (0 : K) ≤ j := Nat.cast_nonneg j
      have hj24 : (j : K) ≤ 24 := by exact_mod_cast (by omega : j ≤ 24)
      -- b (j + 1/30) ≤ (P - a) (1 - 1/1000000)
      have e2 : b * ((j : K) + 9 / 10) ≤ (1 - 1 / 1000000) * (P - a) := by
        have h2 : ((j : K) + 9 / 10) ≤ (1 - 1 / 1000000) * ((j : K) + 1) := by linarith
        have := mul_le_mul_of_nonneg_left h2 hb0
        have h3 : b * ((1 - 1 / 1000000) * ((j : K) + 1)) = (1 - 1 / 1000000) * (b * ((j : K) + 1)) := by ring
        have h4 := mul_le_mul_of_nonneg_left hb (show (0 : K) ≤ 1 - 1 / 1000000 by norm_num)
        linarith
      have e3 := mul_le_mul_of_nonneg_right e2 h1.le
      linarith [mul_assoc (1 - 1 / 1000000 : K) (P - a) R]
    · have hge := dT_ge hk hG (q := qNm w P a) (by simp [qNm]) (b := 0) (n := j + 1) (by
          intro k k1 k2
          rw [neg_zero]
          obtain ⟨i, rfl⟩ : ∃ i, k = i + 1 := ⟨k - 1, by omega⟩
          have hi : w[i]? = some w[i] := List.getElem?_eq_getElem (by omega)
          unfold qNm
          rw [if_neg (Nat.succ_ne_zero i), List.getD_cons_succ, List.getD_eq_getElem?_getD, hi, Option.getD_some]
          rcases hc i (by omega) _ hi with h | h
          · rw [h]; simp
          · have := (hx _ (List.getElem_mem (show i < w.length by omega))).1
            exact mul_nonneg (div_nonneg (by linarith) hP.le) this) (by omega) (by omega)
      rw [hlast, zero_mul, sub_zero] at hge
      refine le_trans ?_ hge
      linarith
  exact interp_hist_ge (by linarith) hk hG h1 (by norm_num) hm0 hbig hd

/-! ### the duration recorded for a month is that month's -/

theorem pySet_nat {α : Type} {l l' : List α} {i : ℕ} {v : α} (h : pySet l (i : ℤ) v = .ok l') : l' = l.set i v := by
  unfold pySet at h
  dsimp only at h
  rw [if_neg (show ¬ (i : ℤ) < 0 by omega)] at h
  split at h
  · cases h
  · split at h
    · cases h
      simp
    · cases h

theorem durationStep_other {r : Resp K} {td : List (List K)} {pk av : List K}
    {s s' : List K × List (List K) × List (List K)} {i m : ℕ} (hm : i ≠ m)
    (h : durationStep r td pk av s (i : ℤ) = .ok s') : s'.1[m]? = s.1[m]? := by
  unfold durationStep at h
  simp only [bind_eq_ok] at h
  obtain ⟨w, -, p, -, M, -, a, -, h⟩ := h
  generalize (if |p - M| < 1 / 10 then p else M) = used at h
  split at h
  · rw [bind_eq_ok] at h
    obtain ⟨⟨d, x, y⟩, hx, h⟩ := h
    dsimp only at h
    rw [bind_eq_ok] at h
    obtain ⟨l, hl, h⟩ := h
    cases h
    rw [pySet_nat hl, List.getElem?_set_ne hm]
  · rw [bind_eq_ok] at h
    obtain ⟨l, hl, h⟩ := h
    cases h
    rw [pySet_nat hl, List.getElem?_set_ne hm]

theorem durationStep_length {r : Resp K} {td : List (List K)} {pk av : List K}
    {s s' : List K × List (List K) × List (List K)} {i : ℤ}
    (h : durationStep r td pk av s i = .ok s') : s'.1.length = s.1.length := by
  unfold durationStep at h
  simp only [bind_eq_ok] at h
  obtain ⟨w, -, p, -, M, -, a, -, h⟩ := h
  generalize (if |p - M| < 1 / 10 then p else M) = used at h
  split at h
  · rw [bind_eq_ok] at h
    obtain ⟨⟨d, x, y⟩, hx, h⟩ := h
    dsimp only at h
    rw [bind_eq_ok] at h
    obtain ⟨l, hl, h⟩ := h
    cases h
    exact (pySet_inv hl).1
  · rw [bind_eq_ok] at h
    obtain ⟨l, hl, h⟩ := h
    cases h
    exact (pySet_inv hl).1

/-- in a successful pass over the months, the entry of month `m` is the one written in its step -/
theorem pass_entry {r : Resp K} {td : List (List K)} {pk av : List K} {m : ℕ} : ∀ (n a : ℕ)
    (s s' : List K × List (List K) × List (List K)),
    ((List.range n).map fun k : ℕ => ((a + k : ℕ) : ℤ)).foldlM (durationStep r td pk av) s = .ok s' →
    (m < a ∨ a + n ≤ m → s'.1[m]? = s.1[m]?) ∧
    (a ≤ m → m < a + n → ∃ s1 s2, s1.1.length = s.1.length ∧ durationStep r td pk av s1 (m : ℤ) = .ok s2 ∧
      s'.1[m]? = s2.1[m]?) := by
  intro n
  induction n with
  | zero =>
    intro a s s' h
    cases h
    exact ⟨fun _ => rfl, fun h1 h2 => by omega⟩
  | succ n ih =>
    intro a s s' h
    rw [List.range_succ_eq_map, List.map_cons, List.map_map, List.foldlM_cons, bind_eq_ok] at h
    obtain ⟨s1, h1, h2⟩ := h
    have e : ((fun k : ℕ => ((a + k : ℕ) : ℤ)) ∘ Nat.succ) = fun k : ℕ => ((a + 1 + k : ℕ) : ℤ) := by
      funext k
      simp only [Function.comp]
      push_cast; ring
    rw [e] at h2
    rw [Nat.add_zero] at h1
    obtain ⟨i1, i2⟩ := ih (a + 1) s1 s' h2
    refine ⟨fun hm => ?_, fun m1 m2 => ?_⟩
    · rw [i1 (by omega), durationStep_other (by omega) h1]
    · rcases Nat.eq_or_lt_of_le m1 with h | h
      · subst h
        exact ⟨s, s1, rfl, h1, i1 (by omega)⟩
      · obtain ⟨t1, t2, q1, q2, q3⟩ := i2 (by omega) (by omega)
        exact ⟨t1, t2, by rw [q1, durationStep_length h1], q2, q3⟩

theorem mkLoads_entry {r : Resp K} {hourly : List K} {year : ℤ} {L : Loads K}
    (h : mkLoads r hourly year = .ok L) {m : ℕ} (m1 : 1 ≤ m) (m2 : m ≤ 12) :
    ∃ s1 s2, s1.1.length = 13 ∧ durationStep r L.twoDay L.peak L.average s1 (m : ℤ) = .ok s2 ∧
      L.duration[m]? = s2.1[m]? := by
  obtain ⟨-, -, -, hf⟩ := mkLoads_inv h
  have e : pyRange 1 13 = (List.range 12).map fun k : ℕ => ((1 + k : ℕ) : ℤ) := by
    unfold pyRange
    apply List.map_congr_left
    intro k _; push_cast; ring
  rw [e] at hf
  obtain ⟨s1, s2, q1, q2, q3⟩ := (pass_entry (m := m) 12 1 _ _ hf).2 m1 (by omega)
  exact ⟨s1, s2, by simpa using q1, q2, q3⟩

end Ghedt.GL
