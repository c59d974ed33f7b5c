import Verif.Props.Loads
import Verif.Lemmas.Duration
import Verif.Spec.Peaks

/-!
# C58, C59: the monthly peak duration
-/

set_option linter.unusedSectionVars false

namespace Ghedt.GL
open Spec Search
variable {K : Type} [Field K] [LinearOrder K] [IsStrictOrderedRing K]

theorem qNm_le {w : List K} (hw : w.length = 48) {P a : K} (hP : 0 < P) (haP : a ≤ P)
    (hx : ∀ x ∈ w, 0 ≤ x ∧ x ≤ P) {k : ℕ} (h1 : 1 ≤ k) (h2 : k ≤ 48) : qNm w P a k ≤ P - a := by
  obtain ⟨j, rfl⟩ : ∃ j, k = j + 1 := ⟨k - 1, by omega⟩
  have hmem : (0 :: w).getD (j + 1) 0 ∈ w := by
    rw [List.getD_cons_succ, List.getD_eq_getElem?_getD, List.getElem?_eq_getElem (by omega), Option.getD_some]
    exact List.getElem_mem _
  unfold qNm
  rw [if_neg (Nat.succ_ne_zero j)]
  generalize (0 :: w).getD (j + 1) 0 = l at hmem ⊢
  obtain ⟨l0, l1⟩ := hx l hmem
  rw [div_mul_eq_mul_div, div_le_iff₀ hP]
  by_cases hl : a ≤ l
  · exact mul_le_mul (by linarith) l1 l0 (by linarith)
  · have e1 : (l - a) * l ≤ 0 := mul_nonpos_of_nonpos_of_nonneg (by linarith) l0
    have e2 : 0 ≤ (P - a) * P := mul_nonneg (by linarith) hP.le
    linarith

/-- C58, one month: if the 48 loads of the window are nonnegative and nowhere exceed the peak load
used for scaling, and the average does not either, then for every response that does not decrease
from hour 1 to hour 48 and is not negative at hour 1, the duration is found, is positive and is at
most 48 hours. -/
theorem C58_month {r : Resp K} {G : ℕ → K}
    (hr : ∀ t : ℕ, 1 ≤ t → t ≤ 48 → r.g (t : ℤ) = .ok (G t)) (hk : 0 < r.twoPiK)
    (hG : ∀ t, 1 ≤ t → t < 48 → G t ≤ G (t + 1)) (h1 : 0 ≤ G 1 / r.twoPiK + r.Rb)
    {window : List K} (hw : window.length = 48) {peak average : K} (hp : 0 < peak)
    (ha : average ≤ peak) (hx : ∀ x ∈ window, 0 ≤ x ∧ x ≤ peak) :
    ∃ duration tempsPk tempsNm,
      performMonth r (0 :: window) peak average = .ok (duration, tempsPk, tempsNm) ∧
      0 < duration ∧ duration ≤ 48 := by
  rw [performMonth_eq hr hw hp.ne' average]
  obtain ⟨m, hm⟩ := pyMax_ok_of_ne_nil (l := hist r G (qNm window peak average)) (by simp [hist])
  rw [hm, Except.ok_bind]
  by_cases hm0 : m > 0
  · rw [if_pos hm0]
    have hle : m ≤ (peak - average) * (G 48 / r.twoPiK + r.Rb) := by
      rcases mem_hist (pyMax_eq_ok hm).1 with h | ⟨n, n1, n2, h⟩
      · exact absurd h hm0.ne'
      · rw [h]
        refine (dT_le hk hG h1 (by simp [qNm]) (c := peak - average)
          (fun k k1 k2 => qNm_le hw hp ha hx k1 k2) n1 n2).trans ?_
        apply mul_le_mul_of_nonneg_left _ (by linarith)
        have : G n ≤ G 48 := by
          clear h
          obtain ⟨d, rfl⟩ : ∃ d, n = 48 - d := ⟨48 - n, by omega⟩
          induction d with
          | zero => exact le_rfl
          | succ d ih =>
            have hs := hG (48 - (d + 1)) (by omega) (by omega)
            rw [show 48 - (d + 1) + 1 = 48 - d by omega] at hs
            exact hs.trans (ih (by omega) (by omega))
        have := div_le_div_of_nonneg_right this hk.le
        linarith
    obtain ⟨d, e1, e2, e3⟩ := interp_hist (c := peak - average) (by linarith) hk hG h1 hm0 hle
    rw [e1]
    exact ⟨d, _, _, rfl, e2, e3⟩
  · rw [if_neg hm0]
    refine ⟨_, _, _, rfl, by norm_num, by norm_num⟩

theorem durationStep_eq {r : Resp K} {twoDay : List (List K)} {peak average : List K}
    {s : List K × List (List K) × List (List K)} {m : ℕ} (hs : m < s.1.length) {w : List K} {p a M : K}
    (e1 : twoDay[m]? = some w) (e2 : peak[m]? = some p) (e3 : average[m]? = some a)
    (e4 : pyMax (0 :: w) = .ok M) :
    durationStep r twoDay peak average s (m : ℤ) =
      if (if |p - M| < 1 / 10 then p else M) ≠ 0 then
        performMonth r (0 :: w) (if |p - M| < 1 / 10 then p else M) a >>= fun x =>
          .ok (s.1.set m x.1, s.2.1 ++ [x.2.1], s.2.2 ++ [x.2.2])
      else .ok (s.1.set m (1 / 1000000), s.2.1, s.2.2) := by
  unfold durationStep
  rw [pyGet_ok' e1, Except.ok_bind, pyGet_ok' e2, Except.ok_bind, e4, Except.ok_bind, pyGet_ok' e3,
    Except.ok_bind]
  generalize (if |p - M| < 1 / 10 then p else M) = used
  split
  · congr 1
    funext ⟨x1, x2, x3⟩
    dsimp only
    rw [pySet_ok hs]; rfl
  · rw [pySet_ok hs]; rfl

theorem window_mem {hourly : List K} (h0 : 0 < hourly.length) {start : ℤ} {w : List K}
    (h : IsWindow hourly start w) {x : K} (hx : x ∈ w) : x ∈ hourly := by
  obtain ⟨j, hj, rfl⟩ := List.mem_iff_getElem.mp hx
  have hj' : j < 48 := by rw [← h.1]; exact hj
  have := h.2 j hj'
  rw [List.getElem?_eq_getElem hj] at this
  exact List.mem_of_getElem? this.symm

theorem peak_mem_window {leap : Bool} {hourly : List K} (hlen : hourly.length = yearHours leap)
    {m : ℕ} (h2 : m ≤ 12) {t p a : K} {d : ℤ} {w : List K}
    (f : MonthFacts (monthLoads leap hourly m) t p a d)
    (g : IsWindow hourly ((monthStart leap m : ℤ) + (d - 1) * 24) w) : p ∈ w := by
  obtain ⟨i, d2, -, d5⟩ := f.day_eq
  have b1 : (d - 1) * 24 < i := by
    have := Int.ceil_lt_add_one ((i : ℚ) / 24)
    rw [← d5] at this
    have h : ((d : ℚ) - 1) * 24 < i := by
      rw [← lt_div_iff₀ (by norm_num)]; linarith
    exact_mod_cast h
  have b2 : (i : ℤ) ≤ d * 24 := by
    have := Int.le_ceil ((i : ℚ) / 24)
    rw [← d5, div_le_iff₀ (by norm_num)] at this
    exact_mod_cast this
  obtain ⟨j, hj⟩ : ∃ j : ℕ, (j : ℤ) = i - (d - 1) * 24 := ⟨(i - (d - 1) * 24 : ℤ).toNat, by omega⟩
  apply List.mem_of_getElem? (i := j)
  rw [g.2 j (by omega), ← d2]
  unfold monthLoads
  have hi : i < 24 * monthLength leap m := by
    rw [← monthLoads_length hlen h2]
    by_contra hcon
    rw [List.getElem?_eq_none (by omega)] at d2
    cases d2
  have hend := monthStart_le leap (show m + 1 ≤ 13 by omega)
  rw [monthStart_succ, ← hlen] at hend
  rw [List.getElem?_take_of_lt hi, List.getElem?_drop]
  congr 1
  have : (monthStart leap m : ℤ) + (d - 1) * 24 + j = ((monthStart leap m + i : ℕ) : ℤ) := by
    push_cast; omega
  rw [this, Int.emod_eq_of_lt (by omega) (by omega), Int.toNat_natCast]

theorem twoDays_mem {leap : Bool} {hourly : List K} {m i : ℕ} {x : K} (hx : x ∈ twoDays leap hourly m i) : x ∈ hourly := by
  obtain ⟨j, -, h⟩ := List.mem_filterMap.1 hx
  exact List.mem_of_getElem? h

theorem _root_.Ghedt.Spec.ClearPeaks.of_all {δ : K} {leap : Bool} {hourly : List K}
    (h : ∀ m : ℕ, 1 ≤ m → m ≤ 12 → ∀ peak ∈ monthLoads leap hourly m, (∀ x ∈ monthLoads leap hourly m, x ≤ peak) →
      ∀ x ∈ hourly, x ≤ peak ∨ peak + δ ≤ x) : ClearPeaks δ leap hourly :=
  fun m m1 m2 _ P hP x hx => h m m1 m2 P (List.mem_of_getElem? hP.1) hP.2.2 x (twoDays_mem hx)

theorem twoDays_map {K' : Type} [Field K'] [LinearOrder K'] (g : K → K') (leap : Bool) (hourly : List K) (m i : ℕ) :
    twoDays leap (hourly.map g) m i = (twoDays leap hourly m i).map g := by
  unfold twoDays
  rw [List.map_filterMap, List.length_map]
  congr 1
  funext j
  rw [List.getElem?_map]

/-- the window of the program is that of the specification -/
theorem window_twoDays {leap : Bool} {hourly : List K} (h24 : 24 ≤ hourly.length) {m : ℕ} {t p a : K} {d : ℤ} {w : List K}
    (f : MonthFacts (monthLoads leap hourly m) t p a d) (g : IsWindow hourly ((monthStart leap m : ℤ) + (d - 1) * 24) w) :
    ∃ i, PeaksAt (monthLoads leap hourly m) i p ∧ ∀ x ∈ w, x ∈ twoDays leap hourly m i := by
  obtain ⟨i, d2, d3, d5⟩ := f.day_eq
  refine ⟨i, ⟨d2, d3, f.peak_max⟩, fun x hx => ?_⟩
  have hd : d = dayOf i := by
    unfold dayOf
    rw [d5, Int.ceil_eq_iff]
    have e1 : i ≤ 24 * ((i + 23) / 24) := by omega
    have e2 : 24 * ((i + 23) / 24) < i + 24 := by omega
    have e1' : (i : ℚ) ≤ 24 * (((i + 23) / 24 : ℕ) : ℚ) := by exact_mod_cast e1
    have e2' : 24 * (((i + 23) / 24 : ℕ) : ℚ) < i + 24 := by exact_mod_cast e2
    constructor
    · rw [lt_div_iff₀ (by norm_num)]
      rw [Int.cast_natCast]
      linarith
    · rw [div_le_iff₀ (by norm_num), Int.cast_natCast]
      linarith
  obtain ⟨j, hj, hjx⟩ := List.getElem_of_mem hx
  have hj48 : j < 48 := by rw [← g.1]; exact hj
  have hg := g.2 j hj48
  rw [List.getElem?_eq_getElem hj, hjx] at hg
  refine List.mem_filterMap.2 ⟨j, List.mem_range.2 hj48, ?_⟩
  rw [hg]
  congr 1
  have : ((monthStart leap m : ℤ) + (d - 1) * 24 + j) % (hourly.length : ℤ) =
      ((monthStart leap m + 24 * dayOf i + hourly.length - 24 + j : ℕ) : ℤ) % (hourly.length : ℤ) := by
    rw [hd, ← Int.add_emod_right]
    congr 1
    omega
  rw [this, ← Int.natCast_mod, Int.toNat_natCast]

/-- C58, whole year: take any year of nonnegative hourly loads in which no load of the two days looked at for the peak of a
month exceeds that peak by a positive amount below 0.1 kW, and any response that does not decrease from hour 1
to hour 48 and is not negative at hour 1.  Then constructing `Loads` succeeds and every one of
the twelve peak durations is positive and at most 48 hours. -/
theorem C58_year {r : Resp K} {G : ℕ → K}
    (hr : ∀ t : ℕ, 1 ≤ t → t ≤ 48 → r.g (t : ℤ) = .ok (G t)) (hk : 0 < r.twoPiK)
    (hG : ∀ t, 1 ≤ t → t < 48 → G t ≤ G (t + 1)) (h1 : 0 ≤ G 1 / r.twoPiK + r.Rb)
    {hourly : List K} {year : ℤ} (hlen : hourly.length = if LeapYear year then 8784 else 8760)
    (hpos : ∀ x ∈ hourly, 0 ≤ x)
    (hgap : ClearPeaks (1 / 10) (decide (LeapYear year)) hourly) :
    ∃ L, mkLoads r hourly year = .ok L ∧ L.duration.length = 13 ∧
      ∀ m : ℕ, 1 ≤ m → m ≤ 12 → ∃ d, L.duration[m]? = some d ∧ 0 < d ∧ d ≤ 48 := by
  have e : (if LeapYear year then 8784 else 8760) = yearHours (decide (LeapYear year)) := by
    unfold yearHours; simp
  rw [e] at hlen
  obtain ⟨total, peak, average, peakDay, twoDay, hM, hmk⟩ := mkLoads_good r hlen
  have h0 : 0 < hourly.length := by rw [hlen]; cases decide (LeapYear year) <;> decide
  have key := foldlM_pyRange_inv (f := durationStep r twoDay peak average)
    (fun (n : ℤ) (s : List K × List (List K) × List (List K)) => s.1.length = 13 ∧
      ∀ m : ℕ, 1 ≤ m → (m : ℤ) < n → ∃ d, s.1[m]? = some d ∧ 0 < d ∧ d ≤ 48)
    (a := 1) (b := 13) (by norm_num) (s := (List.replicate 13 0, [[0]], [[0]])) ?_ ?_
  · obtain ⟨⟨d, pk, nm⟩, hf, hl, hd⟩ := key
    rw [hmk, hf]
    exact ⟨_, rfl, hl, fun m m1 m2 => hd m m1 (by omega)⟩
  · intro n s n1 n2 ⟨hl, hs⟩
    obtain ⟨m, rfl⟩ : ∃ m : ℕ, n = m := ⟨n.toNat, by omega⟩
    have m1 : 1 ≤ m := by omega
    have m2 : m ≤ 12 := by omega
    obtain ⟨t, p, a, d, w, -, e2, e3, -, e5, f, g⟩ := hM.month m m1 m2
    obtain ⟨M, hMx⟩ := pyMax_ok_of_ne_nil (l := 0 :: w) (by simp)
    obtain ⟨hMm, hMle⟩ := pyMax_eq_ok hMx
    have hwpos : ∀ x ∈ w, 0 ≤ x := fun x hx => hpos x (window_mem h0 g hx)
    have hp0 : 0 ≤ p := hpos p (List.mem_of_mem_drop (List.mem_of_mem_take f.peak_mem))
    have hap : a ≤ p := by
      have hl := monthLoads_length hM.length m2
      have hb := (monthLength_bounds (decide (LeapYear year)) m1 m2).1
      have hpos : (0 : K) < ((monthLoads (decide (LeapYear year)) hourly m).length : K) := by
        rw [hl]; exact_mod_cast (by omega)
      rw [f.average_eq, div_le_iff₀ hpos]
      have := List.sum_le_card_nsmul _ p f.peak_max
      rw [nsmul_eq_mul] at this
      linarith [mul_comm p ((monthLoads (decide (LeapYear year)) hourly m).length : K)]
    have hM0 : 0 ≤ M := hMle 0 (by simp)
    have hused : p ≤ (if |p - M| < 1 / 10 then p else M) ∧
        ∀ x ∈ w, x ≤ (if |p - M| < 1 / 10 then p else M) := by
      rcases List.mem_cons.mp hMm with hz | hMw
      · subst hz
        split
        · exact ⟨le_rfl, fun x hx => (hMle x (List.mem_cons_of_mem _ hx)).trans hp0⟩
        · rename_i hne
          have : p ∈ w := peak_mem_window hM.length m2 f g
          exact ⟨hMle p (List.mem_cons_of_mem _ this), fun x hx => hMle x (List.mem_cons_of_mem _ hx)⟩
      · have hgp : M ≤ p ∨ p + 1 / 10 ≤ M := by
          obtain ⟨i, hi, hw⟩ := window_twoDays (by rw [hlen]; cases decide (LeapYear year) <;> decide) f g
          exact hgap m m1 m2 i p hi M (hw M hMw)
        have : p ∈ w := peak_mem_window hM.length m2 f g
        have hpM := hMle p (List.mem_cons_of_mem _ this)
        split
        · rename_i hlt
          have hMp : M ≤ p := by
            rcases hgp with h | h
            · exact h
            · exfalso
              rw [abs_lt] at hlt
              linarith
          exact ⟨le_rfl, fun x hx => (hMle x (List.mem_cons_of_mem _ hx)).trans hMp⟩
        · exact ⟨hpM, fun x hx => hMle x (List.mem_cons_of_mem _ hx)⟩
    rw [durationStep_eq (by omega) e5 e2 e3 hMx]
    generalize (if |p - M| < 1 / 10 then p else M) = used at hused ⊢
    have hset : ∀ v : K, 0 < v → v ≤ 48 → ∀ k : ℕ, 1 ≤ k → (k : ℤ) < (m : ℤ) + 1 →
        ∃ d, (s.1.set m v)[k]? = some d ∧ 0 < d ∧ d ≤ 48 := by
      intro v v0 v1 k k1 k2
      rw [List.getElem?_set]
      by_cases hkm : m = k
      · rw [if_pos hkm, if_pos (by omega)]; exact ⟨v, rfl, v0, v1⟩
      · rw [if_neg hkm]; exact hs k k1 (by omega)
    by_cases hu : used ≠ 0
    · rw [if_pos hu]
      have hup : 0 < used := lt_of_le_of_ne (hp0.trans hused.1) hu.symm
      obtain ⟨dd, pk, nm, q1, q2, q3⟩ := C58_month hr hk hG h1 g.1 hup (hap.trans hused.1)
        (fun x hx => ⟨hwpos x hx, hused.2 x hx⟩)
      rw [q1]
      exact ⟨_, rfl, by simpa using hl, hset dd q2 q3⟩
    · rw [if_neg hu]
      exact ⟨_, rfl, by simpa using hl, hset _ (by norm_num) (by norm_num)⟩
  · refine ⟨by simp, ?_⟩
    intro m m1 m2
    omega

/-- a response that grows by one per hour, `2πk = 1`, `Rb = 1/10` -/
def exResp : Resp ℚ := ⟨fun t => .ok t, 1, 1 / 10⟩

/-- a year with a daily profile, every load a whole number of kW -/
def exYear : List ℚ := (List.range 8760).map fun h => ((if h % 24 = 17 then 3 + h / 730 else h % 5 : ℕ) : ℚ)

/-- The hypotheses of C58 are met; the resulting `Loads` meets those of C54–C57. -/
theorem exYear_ok : ∃ L, mkLoads exResp exYear 2019 = .ok L ∧ L.duration.length = 13 ∧
      ∀ m : ℕ, 1 ≤ m → m ≤ 12 → ∃ d, L.duration[m]? = some d ∧ 0 < d ∧ d ≤ 48 := by
  have hmem : ∀ x ∈ exYear, ∃ n : ℕ, x = n := by
    intro x hx
    obtain ⟨h, -, rfl⟩ := List.mem_map.mp hx
    exact ⟨_, rfl⟩
  refine C58_year (G := fun t => (t : ℚ)) (fun t _ _ => by simp [exResp]) (by decide +kernel)
    (fun t _ _ => by push_cast; linarith) (by norm_num [exResp]) ?_ ?_ ?_
  · rw [if_neg (by decide), exYear, List.length_map, List.length_range]
  · intro x hx
    obtain ⟨n, rfl⟩ := hmem x hx
    positivity
  · refine ClearPeaks.of_all ?_
    intro m _ _ p hp _ x hx
    obtain ⟨n, rfl⟩ := hmem x hx
    obtain ⟨k, rfl⟩ := hmem p (List.mem_of_mem_drop (List.mem_of_mem_take hp))
    rcases Nat.lt_or_ge k n with h | h
    · right
      have : (k : ℚ) + 1 ≤ n := by exact_mod_cast h
      linarith
    · left; exact_mod_cast h

/-! ### C59 -/

theorem foldlM_error {σ τ : Type} {f : σ → τ → Py σ} {e : PyErr} (good : σ → Prop) {b : τ} :
    ∀ (l : List τ) (s : σ), b ∈ l → good s →
      (∀ a ∈ l, ∀ s, good s → f s a = .error e ∨ ∃ s', good s' ∧ f s a = .ok s') →
      (∀ s, good s → f s b = .error e) → l.foldlM f s = .error e := by
  intro l
  induction l with
  | nil => intro s h; cases h
  | cons a l ih =>
    intro s hb hs hstep hbad
    rw [List.foldlM_cons]
    by_cases hab : b = a
    · rw [← hab, hbad s hs]; rfl
    · rcases hstep a List.mem_cons_self s hs with h | ⟨s', h1, h2⟩
      · rw [h]; rfl
      · rw [h2, Except.ok_bind]
        exact ih s' ((List.mem_cons.mp hb).resolve_left hab) h1
          (fun c hc => hstep c (List.mem_cons_of_mem _ hc)) hbad

/-- C59: the failure, for any year of loads.  Suppose some month (not December) has its positive
peak, first, on its last day but not in the first hour of that day; the next day, the first of
the following month, exceeds that peak somewhere, but never by 0.1 kW or more.  Then, with any
response that is flat from hour 1 to hour 48 and positive, constructing `Loads` raises
`ValueError`. -/
theorem C59_tolerance {r : Resp K} {g0 : K}
    (hr : ∀ t : ℕ, 1 ≤ t → t ≤ 48 → r.g (t : ℤ) = .ok g0)
    (h1 : 0 < g0 / r.twoPiK + r.Rb) {hourly : List K} {year : ℤ}
    (hlen : hourly.length = if LeapYear year then 8784 else 8760)
    {m : ℕ} (m1 : 1 ≤ m) (m2 : m ≤ 11) {peak : K} (hpeak : 0 < peak) {i : ℕ}
    (hi : (monthLoads (decide (LeapYear year)) hourly m)[i]? = some peak)
    (hfirst : ∀ j < i, (monthLoads (decide (LeapYear year)) hourly m)[j]? ≠ some peak)
    (hmax : ∀ x ∈ monthLoads (decide (LeapYear year)) hourly m, x ≤ peak)
    (hlast : i / 24 + 1 = monthLength (decide (LeapYear year)) m) (hnot : i % 24 ≠ 0)
    (hsmall : ∀ x ∈ (monthLoads (decide (LeapYear year)) hourly (m + 1)).take 24, x < peak + 1 / 10)
    (hlarge : ∃ x ∈ (monthLoads (decide (LeapYear year)) hourly (m + 1)).take 24, peak < x) :
    mkLoads r hourly year = .error .valueError := by
  have e : (if LeapYear year then 8784 else 8760) = yearHours (decide (LeapYear year)) := by
    unfold yearHours; simp
  rw [e] at hlen
  obtain ⟨total, pk, average, peakDay, twoDay, hM, hmk⟩ := mkLoads_good r hlen
  have hN : 8760 ≤ hourly.length := by rw [hlen]; cases decide (LeapYear year) <;> decide
  rw [hmk]
  clear hmk e
  generalize decide (LeapYear year) = leap at *
  have hA : Answers r fun _ => g0 := hr
  rw [foldlM_error (e := .valueError)
    (fun s : List K × List (List K) × List (List K) => s.1.length = 13) (b := (m : ℤ))]
  · rfl
  · rw [mem_pyRange]; omega
  · simp
  · intro n hn s hs
    rw [mem_pyRange] at hn
    obtain ⟨k, rfl⟩ : ∃ k : ℕ, n = k := ⟨n.toNat, by omega⟩
    obtain ⟨t, p, a, d, w, -, e2, e3, -, e5, f, g⟩ := hM.month k (by omega) (by omega)
    obtain ⟨M, hMx⟩ := pyMax_ok_of_ne_nil (l := 0 :: w) (by simp)
    rw [durationStep_eq (by omega) e5 e2 e3 hMx]
    generalize (if |p - M| < 1 / 10 then p else M) = used
    by_cases hu : used ≠ 0
    · rw [if_pos hu, performMonth_eq hA g.1 hu]
      obtain ⟨x, hx⟩ := pyMax_ok_of_ne_nil (l := hist r (fun _ => g0) (qNm w used a)) (by simp [hist])
      rw [hx, Except.ok_bind]
      by_cases hx0 : x > 0
      · rw [if_pos hx0]
        rcases interp1d_cases (hist r (fun _ => g0) (qPk (used - a))) hours49 x with ⟨dd, h⟩ | h
        · right
          rw [h]
          exact ⟨_, by simpa using hs, rfl⟩
        · left
          rw [h]; rfl
      · rw [if_neg hx0]
        right
        exact ⟨_, by simpa using hs, rfl⟩
    · rw [if_neg hu]
      right
      exact ⟨_, by simpa using hs, rfl⟩
  · intro s hs
    obtain ⟨t, p, a, d, w, -, e2, e3, -, e5, f, g⟩ := hM.month m m1 (by omega)
    have hpp : p = peak := le_antisymm (hmax p f.peak_mem) (f.peak_max peak (List.mem_of_getElem? hi))
    subst hpp
    obtain ⟨i', d2, d3, d5⟩ := f.day_eq
    have hii : i' = i := by
      rcases Nat.lt_trichotomy i' i with h | h | h
      · exact absurd d2 (hfirst i' h)
      · exact h
      · exact absurd hi (d3 i h)
    subst hii
    have hd : d = (i' / 24 + 1 : ℕ) := by
      have b1 : (d - 1) * 24 < i' := by
        have := Int.ceil_lt_add_one ((i' : ℚ) / 24)
        rw [← d5] at this
        have h : ((d : ℚ) - 1) * 24 < i' := by
          rw [← lt_div_iff₀ (by norm_num)]; linarith
        exact_mod_cast h
      have b2 : (i' : ℤ) ≤ d * 24 := by
        have := Int.le_ceil ((i' : ℚ) / 24)
        rw [← d5, div_le_iff₀ (by norm_num)] at this
        exact_mod_cast this
      omega
    rw [hlast] at hd
    subst hd
    have hml := (monthLength_bounds leap m1 (show m ≤ 12 by omega)).1
    have hml' := (monthLength_bounds leap (show 1 ≤ m + 1 by omega) (show m + 1 ≤ 12 by omega)).1
    have hend := monthStart_le leap (show m + 1 + 1 ≤ 13 by omega)
    rw [monthStart_succ, ← hlen] at hend
    have hsucc := monthStart_succ leap m
    have hw1 : ∀ j : ℕ, j < 24 → w[j]? =
        (monthLoads leap hourly m)[(monthLength leap m - 1) * 24 + j]? := by
      intro j hj
      rw [g.2 j (by omega)]
      unfold monthLoads
      rw [List.getElem?_take_of_lt (by omega), List.getElem?_drop]
      congr 1
      have : (monthStart leap m : ℤ) + ((monthLength leap m : ℤ) - 1) * 24 + j =
        ((monthStart leap m + ((monthLength leap m - 1) * 24 + j) : ℕ) : ℤ) := by omega
      rw [this, Int.emod_eq_of_lt (by omega) (by omega), Int.toNat_natCast]
    have hw2 : ∀ j : ℕ, j < 24 → w[24 + j]? = ((monthLoads leap hourly (m + 1)).take 24)[j]? := by
      intro j hj
      rw [g.2 (24 + j) (by omega), List.getElem?_take_of_lt hj]
      unfold monthLoads
      rw [List.getElem?_take_of_lt (by omega), List.getElem?_drop]
      congr 1
      have : (monthStart leap m : ℤ) + ((monthLength leap m : ℤ) - 1) * 24 + (24 + j : ℕ) =
        ((monthStart leap (m + 1) + j : ℕ) : ℤ) := by omega
      rw [this, Int.emod_eq_of_lt (by omega) (by omega), Int.toNat_natCast]
    have hwx : ∀ x ∈ w, x < p + 1 / 10 := by
      intro x hx
      obtain ⟨j, hj, hjx⟩ := List.mem_iff_getElem.mp hx
      have hjx' : w[j]? = some x := by rw [List.getElem?_eq_getElem hj, hjx]
      rw [g.1] at hj
      by_cases h24 : j < 24
      · rw [hw1 j h24] at hjx'
        have := hmax x (List.mem_of_getElem? hjx')
        linarith [show (0 : K) < 1 / 10 by norm_num]
      · obtain ⟨k, rfl⟩ : ∃ k, j = 24 + k := ⟨j - 24, by omega⟩
        rw [hw2 k (by omega)] at hjx'
        exact hsmall x (List.mem_of_getElem? hjx')
    obtain ⟨x, hx, hxp⟩ := hlarge
    obtain ⟨j, hj, hjx⟩ := List.mem_iff_getElem.mp hx
    have hj24 : j < 24 := by
      rw [List.length_take] at hj; omega
    have hjx' : w[24 + j]? = some x := by rw [hw2 j hj24, List.getElem?_eq_getElem hj, hjx]
    have hxw : x ∈ w := List.mem_of_getElem? hjx'
    obtain ⟨M, hMx⟩ := pyMax_ok_of_ne_nil (l := 0 :: w) (by simp)
    obtain ⟨hMm, hMle⟩ := pyMax_eq_ok hMx
    have hxM := hMle x (List.mem_cons_of_mem _ hxw)
    have hMlt : M < p + 1 / 10 := by
      rcases List.mem_cons.mp hMm with h | h
      · rw [h]; linarith [show (0 : K) < 1 / 10 by norm_num]
      · exact hwx M h
    rw [durationStep_eq (by omega) e5 e2 e3 hMx]
    rw [if_pos (show |p - M| < 1 / 10 by rw [abs_lt]; constructor <;> linarith), if_pos hpeak.ne',
      performMonth_eq hA g.1 hpeak.ne']
    obtain ⟨v, hv⟩ := pyMax_ok_of_ne_nil (l := hist r (fun _ => g0) (qNm w p a)) (by simp [hist])
    have hap : a ≤ p := by
      have hl := monthLoads_length hM.length (show m ≤ 12 by omega)
      have hpos : (0 : K) < ((monthLoads leap hourly m).length : K) := by
        rw [hl]; exact_mod_cast (by omega)
      rw [f.average_eq, div_le_iff₀ hpos]
      have := List.sum_le_card_nsmul _ p f.peak_max
      rw [nsmul_eq_mul] at this
      linarith [mul_comm p ((monthLoads leap hourly m).length : K)]
    have hbig : (p - a) * (g0 / r.twoPiK + r.Rb) < v := by
      have hmem : dT r (fun _ => g0) (qNm w p a) (24 + j + 1) ∈ hist r (fun _ => g0) (qNm w p a) :=
        dT_mem_hist (by omega) (by omega)
      refine lt_of_lt_of_le ?_ ((pyMax_eq_ok hv).2 _ hmem)
      rw [dT_flat (G0 := g0) (fun _ _ _ => rfl) (by simp [qNm]) (by omega)]
      apply mul_lt_mul_of_pos_right _ h1
      have : (0 :: w).getD (24 + j + 1) 0 = x := by
        rw [List.getD_cons_succ, List.getD_eq_getElem?_getD, hjx', Option.getD_some]
      unfold qNm
      rw [if_neg (Nat.succ_ne_zero _), this, div_mul_eq_mul_div, lt_div_iff₀ hpeak]
      calc (p - a) * p ≤ (p - a) * x := mul_le_mul_of_nonneg_left hxp.le (by linarith)
        _ < (x - a) * x := mul_lt_mul_of_pos_right (by linarith) (hpeak.trans hxp)
    have hv0 : v > 0 := lt_of_le_of_lt (mul_nonneg (by linarith) h1.le) hbig
    rw [hv, Except.ok_bind, if_pos hv0, interp1d_above]
    · rfl
    · intro y hy
      rcases mem_hist hy with rfl | ⟨n, n1, n2, rfl⟩
      · exact hv0
      · rw [dT_flat (G0 := g0) (fun _ _ _ => rfl) (by simp [qPk]) n2]
        rw [show qPk (p - a) n = p - a by simp [qPk, show n ≠ 0 by omega]]
        exact hbig

/-- a flat response -/
def exFlat : Resp ℚ := ⟨fun _ => .ok 1, 1, 1 / 10⟩

/-- 1 kW at 5 o'clock on 31 January, 1.05 kW at 5 o'clock on 1 February, nothing else -/
def exSpike : List ℚ :=
  (List.range 8760).map fun h => if h = 725 then 1 else if h = 749 then 21 / 20 else 0

/-- The hypotheses of C59 are met. -/
example : mkLoads exFlat exSpike 2019 = .error .valueError := by
  have hleap : decide (LeapYear 2019) = false := by decide
  have hget : ∀ k : ℕ, k < 8760 → exSpike[k]? =
      some (if k = 725 then 1 else if k = 749 then 21 / 20 else 0) := by
    intro k hk
    rw [exSpike, List.getElem?_map, List.getElem?_range hk]; rfl
  have hlen : exSpike.length = 8760 := by rw [exSpike, List.length_map, List.length_range]
  have hs1 : monthStart false 1 = 0 := by decide
  have hs2 : monthStart false 2 = 744 := by decide
  have hl1 : monthLength false 1 = 31 := rfl
  have hl2 : monthLength false 2 = 28 := rfl
  have hjan : ∀ k : ℕ, k < 744 → (monthLoads false exSpike 1)[k]? = some (if k = 725 then 1 else 0) := by
    intro k hk
    unfold monthLoads
    rw [hs1, hl1, List.getElem?_take_of_lt (by omega), List.getElem?_drop, Nat.zero_add,
      hget k (by omega), if_neg (show ¬ k = 749 by omega)]
  have hfeb : ∀ k : ℕ, k < 24 → ((monthLoads false exSpike 2).take 24)[k]? =
      some (if k = 5 then 21 / 20 else 0) := by
    intro k hk
    unfold monthLoads
    rw [hs2, hl2, List.getElem?_take_of_lt (by omega), List.getElem?_take_of_lt (by omega),
      List.getElem?_drop, hget _ (by omega), if_neg (show ¬ 744 + k = 725 by omega)]
    by_cases h : k = 5
    · subst h; rfl
    · rw [if_neg h, if_neg (by omega)]
  refine C59_tolerance (g0 := 1) (m := 1) (peak := 1) (i := 725) (fun _ _ _ => rfl)
    (by norm_num [exFlat]) (by rw [if_neg (by decide), hlen]) (by norm_num) (by norm_num)
    (by norm_num) ?_ ?_ ?_ ?_ (by decide) ?_ ?_ <;> rw [hleap]
  · rw [hjan _ (by norm_num)]; rfl
  · intro j hj
    rw [hjan j (by omega), if_neg (by omega)]
    norm_num
  · intro x hx
    obtain ⟨k, hk, rfl⟩ := List.mem_iff_getElem.mp hx
    have hk' : k < 744 := by
      unfold monthLoads at hk
      rw [List.length_take, hl1] at hk; omega
    have := hjan k hk'
    rw [List.getElem?_eq_getElem hk, Option.some_inj] at this
    rw [this]
    split <;> norm_num
  · rfl
  · intro x hx
    obtain ⟨k, hk, rfl⟩ := List.mem_iff_getElem.mp hx
    have hk' : k < 24 := by rw [List.length_take] at hk; omega
    have := hfeb k hk'
    rw [List.getElem?_eq_getElem hk, Option.some_inj] at this
    rw [this]
    split <;> norm_num
  · refine ⟨21 / 20, List.mem_of_getElem? (i := 5) (by rw [hfeb 5 (by norm_num)]; rfl), by norm_num⟩

end Ghedt.GL
