import Verif.Model.RoundedLoads
import Verif.Lemmas.Duration
import Verif.Lemmas.RoundedBasic

/-!
# Lemmas on the monthly loads in floating-point arithmetic
-/

namespace Ghedt.Rounded
open GL Spec

/-- the dot product of two lists of floats, some of the ways to compute which differ in rounding: with nothing but zeros after
the first weight, it is the rounded first product, in whichever order and with or without fused operations -/
def DotLike {K : Type} [Field K] [LinearOrder K] (R : Rounding K) (dot : List K → List K → K) : Prop :=
  ∀ (a : K) (n : ℕ) (g : K) (l : List K), l.length = n → dot (a :: List.replicate n 0) (g :: l) = R.fl (a * g)

/-- adding up the rounded products from the left is one way -/
def dotLeft {K : Type} [Field K] [LinearOrder K] (R : Rounding K) (w g : List K) : K :=
  sum R (List.zipWith (mul R) w g)

theorem dotLeft_like {K : Type} [Field K] [LinearOrder K] (R : Rounding K) : DotLike R (dotLeft R) := by
  intro a n g l hl
  have h0 : R.fl 0 = 0 := by simpa using R.int 0 (by norm_num)
  have hz : ∀ (n : ℕ) (l : List K) (s : K), R.fl s = s →
      (List.zipWith (mul R) (List.replicate n 0) l).foldl (add R) s = s := by
    intro n
    induction n with
    | zero => intro l s _; rfl
    | succ n ih =>
      intro l s hs
      cases l with
      | nil => rfl
      | cons y l =>
        rw [List.replicate_succ, List.zipWith_cons_cons, List.foldl_cons]
        have : add R s (mul R 0 y) = s := by unfold add mul; rw [zero_mul, h0, add_zero, hs]
        rw [this, ih l s hs]
  unfold dotLeft sum
  rw [List.zipWith_cons_cons, List.foldl_cons]
  have : add R 0 (mul R a g) = R.fl (a * g) := by unfold add mul; rw [zero_add, R.idem]
  rw [this, hz _ _ _ (R.idem _)]

variable {K : Type} [Field K] [LinearOrder K]

/-- the temperatures under a load `e` that is switched on and kept for 48 hours -/
def kept (R : Rounding K) (r : Resp K) (G : ℕ → K) (e : K) : List K :=
  0 :: (List.range 48).map fun k => add R (R.fl (R.fl (R.fl e / r.twoPiK) * G (k + 1))) (mul R e r.Rb)

/-- whichever way the dot product is computed -/
theorem simulateHourly_flat (R : Rounding K) {dot : List K → List K → K} (hd : DotLike R dot) {r : Resp K} {G : ℕ → K}
    (hr : Answers r G) (e : K) :
    simulateHourly R dot r (pyRange 0 (2 * 24 + 1)) (0 :: List.replicate (2 * 24) e) = .ok (kept R r G e) := by
  have h0 : R.fl 0 = 0 := by simpa using R.int 0 (by norm_num)
  have hlen : (pyRange 0 (2 * 24 + 1)).length = 49 := by simp
  have hH : pyRange 0 (2 * 24 + 1) = (List.range 49).map fun k : ℕ => (k : ℤ) := pyRange_zero 49
  have hR : pyRange 1 (49 : ℤ) = (List.range 48).map fun k : ℕ => ((k + 1 : ℕ) : ℤ) := by
    unfold pyRange
    rw [show ((49 : ℤ) - 1).toNat = 48 from rfl]
    exact List.map_congr_left fun k _ => by push_cast; ring
  have hzip : List.zipWith (sub R) (0 :: List.replicate (2 * 24) e).tail (0 :: List.replicate (2 * 24) e) =
      R.fl e :: List.replicate 47 0 := by
    have h1 : sub R e 0 = R.fl e := by unfold sub; rw [sub_zero]
    have h2 : sub R e e = 0 := by unfold sub; rw [sub_self, h0]
    rw [List.tail_cons, show List.replicate (2 * 24) e = e :: List.replicate 47 e from rfl, List.zipWith_cons_cons, h1,
      show e :: List.replicate 47 e = List.replicate 48 e from rfl, List.zipWith_replicate, h2]
    rfl
  unfold simulateHourly
  rw [hzip]
  dsimp only
  rw [hlen, show ((49 : ℕ) : ℤ) = 49 from rfl, hR, List.mapM_map]
  rw [mapM_ok (g := fun k => add R (R.fl (R.fl (R.fl e / r.twoPiK) * G (k + 1))) (mul R e r.Rb)), Except.ok_bind]
  · rfl
  · intro n hn
    rw [List.mem_range] at hn
    have htn : pyGet (pyRange 0 (2 * 24 + 1)) ((n + 1 : ℕ) : ℤ) = .ok ((n + 1 : ℕ) : ℤ) :=
      pyGet_ok' (by rw [hH, List.getElem?_map, List.getElem?_range (by omega)]; rfl)
    have htake : (pyRange 0 (2 * 24 + 1)).take (n + 1) = (List.range (n + 1)).map fun k : ℕ => (k : ℤ) := by
      rw [hH, ← List.map_take, List.take_range, min_eq_left (by omega)]
    have hgv : ((pyRange 0 (2 * 24 + 1)).take (n + 1)).mapM (fun τ : ℤ => r.g (((n + 1 : ℕ) : ℤ) - τ)) =
        .ok ((List.range (n + 1)).map fun k => G (n + 1 - k)) := by
      rw [htake, List.mapM_map]
      refine mapM_ok fun k hk => ?_
      rw [List.mem_range] at hk
      have : ((n + 1 : ℕ) : ℤ) - (k : ℤ) = ((n + 1 - k : ℕ) : ℤ) := by omega
      simp only [Function.comp_apply]
      rw [this]
      exact hr _ (by omega) (by omega)
    have hqn : pyGet (0 :: List.replicate (2 * 24) e) ((n + 1 : ℕ) : ℤ) = .ok e :=
      pyGet_ok' (by rw [List.getElem?_cons_succ, List.getElem?_replicate, if_pos (by omega)])
    have hw : ((R.fl e :: List.replicate 47 0).take (n + 1)).map (fun x => R.fl (x / r.twoPiK)) =
        R.fl (R.fl e / r.twoPiK) :: List.replicate n 0 := by
      rw [List.take_succ_cons, List.take_replicate, List.map_cons, List.map_replicate, zero_div, h0, min_eq_left (by omega)]
    have hl : (List.range (n + 1)).map (fun k => G (n + 1 - k)) = G (n + 1) :: (List.range n).map fun k => G (n - k) := by
      rw [List.range_succ_eq_map, List.map_cons, List.map_map]
      congr 1
      apply List.map_congr_left
      intro k _
      simp only [Function.comp_apply]
      congr 1
      omega
    simp only [Function.comp_apply]
    rw [htn, Except.ok_bind, show ((n + 1 : ℕ) : ℤ).toNat = n + 1 from rfl, hgv, Except.ok_bind, hw, hl,
      if_neg (by simp), hd _ _ _ _ (by simp), hqn]
    rfl

/-- the month of a constant load `c` with average `a` and peak `p` -/
theorem performMonth_flat (R : Rounding K) {dot : List K → List K → K} (hd : DotLike R dot) {r : Resp K} {G : ℕ → K}
    (hr : Answers r G) {c p a x : K} (hx : div R (sub R c a) p = .ok x) :
    performMonth R dot r (0 :: List.replicate 48 c) p a = (do
      let m ← pyMax (kept R r G (mul R x c))
      let d ← (if m > 0 then interp1d R (kept R r G (sub R p a)) hours49 m else .ok (R.fl (1 / 1000000)))
      return (d, kept R r G (sub R p a), kept R r G (mul R x c))) := by
  unfold performMonth
  dsimp only
  have hq : (pyRange 1 (0 :: List.replicate (2 * 24) (sub R p a)).length).mapM (fun i : ℤ => do
      let l ← pyGet (0 :: List.replicate 48 c) i
      let x ← div R (sub R l a) p
      return mul R x l) = .ok (List.replicate (2 * 24) (mul R x c)) := by
    rw [mapM_ok (g := fun _ => mul R x c), List.map_const', length_pyRange, List.length_cons, List.length_replicate]
    · rfl
    intro i hi
    rw [mem_pyRange, List.length_cons, List.length_replicate] at hi
    obtain ⟨j, rfl⟩ : ∃ j : ℕ, i = ((j + 1 : ℕ) : ℤ) := ⟨(i - 1).toNat, by omega⟩
    rw [pyGet_ok' (v := c) (by rw [List.getElem?_cons_succ, List.getElem?_replicate, if_pos (by omega)]), Except.ok_bind, hx]
    rfl
  rw [hq, Except.ok_bind, simulateHourly_flat R hd hr, simulateHourly_flat R hd hr]
  rfl

/-! ### the monthly figures -/

variable [IsStrictOrderedRing K]

/-- what is known of a month: the total and the average are rounded, the rest is exact -/
structure RMonthFacts (R : Rounding K) (month : List K) (total peak average : K) (day : ℤ) : Prop where
  total_eq : total = sum R month
  peak_mem : peak ∈ month
  peak_max : ∀ x ∈ month, x ≤ peak
  average_eq : average = R.fl (sum R month / (month.length : K))
  day_eq : ∃ i : ℕ, month[i]? = some peak ∧ (∀ j < i, month[j]? ≠ some peak) ∧ day = ⌈(i : ℚ) / 24⌉

def RSplitInv (R : Rounding K) (leap : Bool) (hourly : List K) (k : ℕ) (s : Split K) : Prop :=
  s.prev = (monthStart leap (k + 1) : ℤ) ∧ s.total.length = 13 ∧ s.peak.length = 13 ∧
  s.average.length = 13 ∧ s.peakDay.length = 13 ∧
  ∀ m, 1 ≤ m → m ≤ k → ∃ t p a d, s.total[m]? = some t ∧ s.peak[m]? = some p ∧
    s.average[m]? = some a ∧ s.peakDay[m]? = some d ∧ RMonthFacts R (monthLoads leap hourly m) t p a d

theorem splitStep_rinv (R : Rounding K) {leap : Bool} {hourly : List K} (hlen : hourly.length = yearHours leap)
    {k : ℕ} (hk : k < 12) {s : Split K} (h : RSplitInv R leap hourly k s) :
    ∃ s', splitStep R hourly s ((monthLength leap (k + 1) : ℤ), k + 1) = .ok s' ∧
      RSplitInv R leap hourly (k + 1) s' := by
  obtain ⟨hp, l1, l2, l3, l4, hm⟩ := h
  have hslice : pySlice hourly s.prev (s.prev + 24 * (monthLength leap (k + 1) : ℤ)) =
      monthLoads leap hourly (k + 1) := by
    rw [hp]
    have : (monthStart leap (k + 1) : ℤ) + 24 * (monthLength leap (k + 1) : ℤ) =
      ((monthStart leap (k + 1) + 24 * monthLength leap (k + 1) : ℕ) : ℤ) := by push_cast; ring
    rw [this, pySlice_nat]
    unfold monthLoads
    rw [Nat.add_sub_cancel_left]
  have hml := monthLoads_length hlen (show k + 1 ≤ 12 by omega)
  have hb := monthLength_bounds leap (show 1 ≤ k + 1 by omega) (show k + 1 ≤ 12 by omega)
  have hne : monthLoads leap hourly (k + 1) ≠ [] := by
    intro h0; rw [h0] at hml; simp at hml; omega
  obtain ⟨pk, hpk⟩ := pyMax_ok_of_ne_nil hne
  obtain ⟨hpm, hpx⟩ := pyMax_eq_ok hpk
  obtain ⟨idx, hi1, hi2, hi3⟩ := pyIndexOf_ok hpm
  have hlK : ((monthLoads leap hourly (k + 1)).length : K) ≠ 0 := by
    rw [Nat.cast_ne_zero, hml]; omega
  have hdiv : div R (sum R (monthLoads leap hourly (k + 1))) ((monthLoads leap hourly (k + 1)).length : K) =
      .ok (R.fl (sum R (monthLoads leap hourly (k + 1)) / ((monthLoads leap hourly (k + 1)).length : K))) := by
    unfold div; rw [if_neg hlK]
  refine ⟨⟨s.prev + 24 * (monthLength leap (k + 1) : ℤ),
    s.total.set (k + 1) (sum R (monthLoads leap hourly (k + 1))), s.peak.set (k + 1) pk,
    s.average.set (k + 1) (R.fl (sum R (monthLoads leap hourly (k + 1)) /
      ((monthLoads leap hourly (k + 1)).length : K))),
    s.peakDay.set (k + 1) ⌈(idx : ℚ) / 24⌉⟩, ?_, ?_⟩
  · unfold splitStep
    dsimp only
    rw [hslice, pyAssert_true (by rw [hml]; push_cast; ring), hpk, hdiv]
    simp only [Except.ok_bind, hi1, pySet_ok (show k + 1 < s.total.length by omega),
      pySet_ok (show k + 1 < s.peak.length by omega),
      pySet_ok (show k + 1 < s.average.length by omega),
      pySet_ok (show k + 1 < s.peakDay.length by omega), Except.pure_eq]
    rfl
  · refine ⟨?_, by simp [l1], by simp [l2], by simp [l3], by simp [l4], ?_⟩
    · show s.prev + 24 * (monthLength leap (k + 1) : ℤ) = _
      rw [hp, monthStart_succ leap (k + 1)]; push_cast; ring
    · intro m h1 h2
      by_cases he : m = k + 1
      · subst he
        refine ⟨_, _, _, _, ?_, ?_, ?_, ?_, ⟨rfl, hpm, hpx, rfl, idx, hi2, hi3, rfl⟩⟩ <;> dsimp only <;>
        rw [List.getElem?_set_self (by omega)]
      · obtain ⟨t, p, a, d, e1, e2, e3, e4, e5⟩ := hm m h1 (by omega)
        refine ⟨t, p, a, d, ?_, ?_, ?_, ?_, e5⟩ <;> dsimp only <;>
        rw [List.getElem?_set_ne (by omega)] <;> assumption

theorem splitLoadByMonth_rok (R : Rounding K) {leap : Bool} {hourly : List K}
    (hlen : hourly.length = yearHours leap) :
    ∃ s, splitLoadByMonth R hourly (daysList leap) = .ok s ∧ RSplitInv R leap hourly 12 s := by
  unfold splitLoadByMonth
  rw [daysList_enum]
  refine foldlM_range_inv (RSplitInv R leap hourly) 12 (fun k hk s h => splitStep_rinv R hlen hk h) ?_
  refine ⟨by rw [monthStart_one]; rfl, by simp, by simp, by simp, by simp, ?_⟩
  intro m h1 h2; omega

/-- what is known of the attributes before the peak durations are computed -/
structure RMonthly (R : Rounding K) (leap : Bool) (hourly : List K) (total peak average : List K)
    (peakDay : List ℤ) (twoDay : List (List K)) : Prop where
  length : hourly.length = yearHours leap
  total_length : total.length = 13
  peak_length : peak.length = 13
  average_length : average.length = 13
  day_length : peakDay.length = 13
  twoDay_length : twoDay.length = 13
  month : ∀ m : ℕ, 1 ≤ m → m ≤ 12 → ∃ t p a d w, total[m]? = some t ∧ peak[m]? = some p ∧
    average[m]? = some a ∧ peakDay[m]? = some d ∧ twoDay[m]? = some w ∧
    RMonthFacts R (monthLoads leap hourly m) t p a d ∧
    IsWindow hourly ((monthStart leap m : ℤ) + (d - 1) * 24) w

theorem mkLoads_rgood (R : Rounding K) (dot : List K → List K → K) (r : Resp K) {hourly : List K} {year : ℤ}
    (hlen : hourly.length = yearHours (decide (LeapYear year))) :
    ∃ total peak average peakDay twoDay,
      RMonthly R (decide (LeapYear year)) hourly total peak average peakDay twoDay ∧
      mkLoads R dot r hourly year = (do
        let (duration, pk, nm) ← (pyRange 1 13).foldlM
          (durationStep R dot r twoDay peak average) (List.replicate 13 0, [[0]], [[0]])
        return ⟨hourly, daysList (decide (LeapYear year)), total, peak, average, peakDay, twoDay, nm,
          pk, duration⟩) := by
  obtain ⟨s, hs, hinv⟩ := splitLoadByMonth_rok R hlen
  obtain ⟨-, l1, l2, l3, l4, hm⟩ := hinv
  obtain ⟨td, ht, -, l5, hw⟩ := processTwoDayLoads_ok hlen (peakDay := s.peakDay) (by
    intro m h1 h2
    obtain ⟨t, p, a, d, -, -, -, e4, e5⟩ := hm m h1 h2
    exact ⟨d, e4, day_bounds ⟨rfl, e5.peak_mem, e5.peak_max, rfl, e5.day_eq⟩ (monthLoads_length hlen h2)⟩)
  refine ⟨s.total, s.peak, s.average, s.peakDay, td, ⟨hlen, l1, l2, l3, l4, l5, ?_⟩, ?_⟩
  · intro m h1 h2
    obtain ⟨t, p, a, d, e1, e2, e3, e4, e5⟩ := hm m h1 h2
    obtain ⟨d', w, f1, f2, f3⟩ := hw m h1 h2
    rw [e4] at f1; cases f1
    exact ⟨t, p, a, d, w, e1, e2, e3, e4, f2, e5, f3⟩
  · unfold mkLoads
    rw [daysInMonth_eq, Except.ok_bind, pyAssert_true (by rw [daysList_sum, hlen]), Except.ok_bind,
      hs, Except.ok_bind, ht, Except.ok_bind]
    rfl

theorem mkLoads_rbad (R : Rounding K) (dot : List K → List K → K) (r : Resp K) {hourly : List K} {year : ℤ}
    (hlen : hourly.length ≠ yearHours (decide (LeapYear year))) :
    mkLoads R dot r hourly year = .error .assertionError := by
  unfold mkLoads
  rw [daysInMonth_eq, Except.ok_bind, pyAssert_false (by rw [daysList_sum]; exact_mod_cast hlen)]
  rfl

theorem mkLoads_rinv {R : Rounding K} {dot : List K → List K → K} {r : Resp K} {hourly : List K} {year : ℤ} {L : Loads K}
    (h : mkLoads R dot r hourly year = .ok L) :
    RMonthly R (decide (LeapYear year)) hourly L.total L.peak L.average L.peakDay L.twoDay := by
  by_cases hlen : hourly.length = yearHours (decide (LeapYear year))
  · obtain ⟨total, peak, average, peakDay, twoDay, hM, hmk⟩ := mkLoads_rgood R dot r hlen
    rw [hmk] at h
    cases hf : (pyRange 1 13).foldlM (durationStep R dot r twoDay peak average) (List.replicate 13 0, [[0]], [[0]]) with
    | error e => rw [hf] at h; cases h
    | ok s =>
      rw [hf] at h
      cases h
      exact hM
  · rw [mkLoads_rbad R dot r hlen] at h; cases h

/-! ### sums -/

theorem sum_err (R : Rounding K) (l : List K) :
    |sum R l - l.sum| ≤ ((1 + 1 / 2 ^ 53) ^ l.length - 1) * (l.map fun x => |x|).sum := by
  set u : K := 1 / 2 ^ 53 with hu
  have hu0 : 0 ≤ u := by rw [hu]; positivity
  have key : ∀ (l : List K) (s s' A : K), |s| ≤ A → ∀ n : ℕ, |s' - s| ≤ ((1 + u) ^ n - 1) * A →
      |l.foldl (add R) s' - (s + l.sum)| ≤ ((1 + u) ^ (n + l.length) - 1) * (A + (l.map fun x => |x|).sum) := by
    intro l
    induction l with
    | nil => intro s s' A _ n h; simpa using h
    | cons x l ih =>
      intro s s' A hA n h
      have hp : 1 ≤ (1 + u) ^ n := one_le_pow₀ (by linarith)
      have hA' : |s + x| ≤ A + |x| := (abs_add_le _ _).trans (by linarith)
      have he := R.err (s' + x)
      have hs' : |s' + x - (s + x)| ≤ ((1 + u) ^ n - 1) * (A + |x|) := by
        rw [add_sub_add_right_eq_sub]
        refine h.trans (mul_le_mul_of_nonneg_left ?_ (by linarith))
        linarith [abs_nonneg x]
      have hb : |s' + x| ≤ (1 + u) ^ n * (A + |x|) := by
        have := abs_sub_abs_le_abs_sub (s' + x) (s + x)
        linarith
      have hstep : |add R s' x - (s + x)| ≤ ((1 + u) ^ (n + 1) - 1) * (A + |x|) := by
        have h1 : |add R s' x - (s + x)| ≤ |R.fl (s' + x) - (s' + x)| + |s' + x - (s + x)| := by
          unfold add
          rw [show R.fl (s' + x) - (s + x) = (R.fl (s' + x) - (s' + x)) + (s' + x - (s + x)) by ring]
          exact abs_add_le _ _
        have h2 : u * |s' + x| ≤ u * ((1 + u) ^ n * (A + |x|)) := mul_le_mul_of_nonneg_left hb hu0
        rw [pow_succ]
        rw [← hu] at he
        linarith [he]
      have := ih (s + x) (add R s' x) (A + |x|) hA' (n + 1) hstep
      rw [List.foldl_cons, List.sum_cons, List.length_cons, List.map_cons, List.sum_cons,
        show s + (x + l.sum) = s + x + l.sum by ring, show n + (l.length + 1) = n + 1 + l.length by ring,
        show A + (|x| + (l.map fun x => |x|).sum) = A + |x| + (l.map fun x => |x|).sum by ring]
      exact this
  have := key l 0 0 0 (by simp) 0 (by simp)
  simpa [sum] using this

/-! ### a month of constant load -/

/-- the temperature after `k` hours of a load `e` -/
def keptAt (R : Rounding K) (r : Resp K) (G : ℕ → K) (e : K) (k : ℕ) : K :=
  add R (R.fl (R.fl (R.fl e / r.twoPiK) * G k)) (mul R e r.Rb)

theorem kept_eq (R : Rounding K) (r : Resp K) (G : ℕ → K) (e : K) :
    kept R r G e = (List.range 49).map fun n => if n = 0 then 0 else keptAt R r G e n := by
  rw [List.range_succ_eq_map (n := 48), List.map_cons, List.map_map]
  rfl

section
variable (R : Rounding K) {r : Resp K} {G : ℕ → K} (hk : 0 < r.twoPiK) (hb : 0 ≤ r.Rb)
  (hG : ∀ t, 1 ≤ t → t < 48 → G t ≤ G (t + 1)) (h1 : 0 ≤ G 1)
include hG in
theorem G_mono {m n : ℕ} (hm : 1 ≤ m) (hmn : m ≤ n) (hn : n ≤ 48) : G m ≤ G n := by
  induction n, hmn using Nat.le_induction with
  | base => exact le_rfl
  | succ n hmn ih => exact (ih (by omega)).trans (hG n (by omega) (by omega))

include hk hG in
theorem keptAt_mono {e : K} (he : 0 ≤ e) {m n : ℕ} (hm : 1 ≤ m) (hmn : m ≤ n) (hn : n ≤ 48) :
    keptAt R r G e m ≤ keptAt R r G e n := by
  unfold keptAt add
  apply R.mono
  have : R.fl (R.fl (R.fl e / r.twoPiK) * G m) ≤ R.fl (R.fl (R.fl e / r.twoPiK) * G n) := by
    apply R.mono
    exact mul_le_mul_of_nonneg_left (G_mono hG hm hmn hn) (fl_nonneg R (div_nonneg (fl_nonneg R he) hk.le))
  linarith

include hk hb hG h1 in
theorem keptAt_nonneg {e : K} (he : 0 ≤ e) {n : ℕ} (h : 1 ≤ n) (hn : n ≤ 48) : 0 ≤ keptAt R r G e n := by
  unfold keptAt add mul
  have hg : 0 ≤ G n := h1.trans (G_mono hG le_rfl h hn)
  exact fl_nonneg R (add_nonneg (fl_nonneg R (mul_nonneg (fl_nonneg R (div_nonneg (fl_nonneg R he) hk.le)) hg))
    (fl_nonneg R (mul_nonneg he hb)))

theorem fl_nonpos {x : K} (h : x ≤ 0) : R.fl x ≤ 0 := by
  have := R.mono h
  rwa [fl_zero] at this

include hk hb hG h1 in
theorem keptAt_nonpos {e : K} (he : e ≤ 0) {n : ℕ} (h : 1 ≤ n) (hn : n ≤ 48) : keptAt R r G e n ≤ 0 := by
  unfold keptAt add mul
  have hg : 0 ≤ G n := h1.trans (G_mono hG le_rfl h hn)
  exact fl_nonpos R (add_nonpos (fl_nonpos R (mul_nonpos_of_nonpos_of_nonneg
    (fl_nonpos R (div_nonpos_of_nonpos_of_nonneg (fl_nonpos R he) hk.le)) hg))
    (fl_nonpos R (mul_nonpos_of_nonpos_of_nonneg he hb)))

include hk hb hG h1 in
theorem pyMax_kept (e : K) : pyMax (kept R r G e) = .ok (max 0 (keptAt R r G e 48)) := by
  obtain ⟨m, hm⟩ := pyMax_ok_of_ne_nil (l := kept R r G e) (by rw [kept]; exact List.cons_ne_nil _ _)
  obtain ⟨hmem, hub⟩ := pyMax_eq_ok hm
  rw [hm]
  congr 1
  rw [kept_eq] at hmem hub
  obtain ⟨n, hn, rfl⟩ := List.mem_map.mp hmem
  rw [List.mem_range] at hn
  apply le_antisymm
  · by_cases h0 : n = 0
    · rw [if_pos h0]; exact le_max_left _ _
    · rw [if_neg h0]
      rcases le_total 0 e with he | he
      · exact le_max_of_le_right (keptAt_mono R hk hG he (by omega) (by omega) le_rfl)
      · exact le_max_of_le_left (keptAt_nonpos R hk hb hG h1 he (by omega) (by omega))
  · apply max_le
    · exact hub 0 (List.mem_map.mpr ⟨0, by simp, by simp⟩)
    · exact hub _ (List.mem_map.mpr ⟨48, by simp, by simp⟩)
end

theorem interpNodes_sorted (R : Rounding K) (pts : List (K × K)) : ∀ (p : K × K) (v : K),
    (p :: pts).IsChain (fun a b => a.1 ≤ b.1) → p.1 ≤ v →
    (v < ((p :: pts).getLast (by simp)).1 → ∃ d, interpNodes R (p :: pts) v = .ok d) ∧
    (v = ((p :: pts).getLast (by simp)).1 → interpNodes R (p :: pts) v = .ok ((p :: pts).getLast (by simp)).2) ∧
    (((p :: pts).getLast (by simp)).1 < v → interpNodes R (p :: pts) v = .error .valueError) := by
  induction pts with
  | nil =>
    intro p v _ hp
    simp only [List.getLast_singleton]
    refine ⟨fun h => absurd hp (not_le.2 h), fun h => ?_, fun h => ?_⟩
    · unfold interpNodes; rw [if_pos h]
    · unfold interpNodes; rw [if_neg (ne_of_gt h)]
  | cons q pts ih =>
    intro p v hc hp
    rw [List.isChain_cons_cons] at hc
    have hlast : ((p :: q :: pts).getLast (by simp)) = ((q :: pts).getLast (by simp)) := List.getLast_cons _
    rw [hlast]
    have hqlast : q.1 ≤ ((q :: pts).getLast (by simp)).1 := by
      have hpw : (q :: pts).Pairwise (fun a b => a.1 ≤ b.1) := by
        have : IsTrans (K × K) (fun a b => a.1 ≤ b.1) := ⟨fun a b c h h' => le_trans h h'⟩
        exact List.IsChain.pairwise hc.2
      rcases List.mem_cons.1 (List.getLast_mem (l := q :: pts) (by simp)) with h | h
      · rw [h]
      · exact (List.pairwise_cons.1 hpw).1 _ h
    by_cases hv : v < q.1
    · have : interpNodes R (p :: q :: pts) v =
          .ok (add R (mul R (R.fl (sub R q.2 p.2 / sub R q.1 p.1)) (sub R v p.1)) p.2) := by
        rw [interpNodes, if_neg (not_lt.2 hp), if_pos hv]
      refine ⟨fun _ => ⟨_, this⟩, fun h => ?_, fun h => ?_⟩
      · exact absurd hv (not_lt.2 (h ▸ hqlast))
      · exact absurd (hv.trans_le hqlast) (not_lt.2 h.le)
    · have : interpNodes R (p :: q :: pts) v = interpNodes R (q :: pts) v := by
        rw [interpNodes, if_neg (not_lt.2 hp), if_neg hv]
      rw [this]
      exact ih q v hc.2 (not_lt.1 hv)

section
variable (R : Rounding K) {r : Resp K} {G : ℕ → K} (hk : 0 < r.twoPiK) (hb : 0 ≤ r.Rb)
  (hG : ∀ t, 1 ≤ t → t < 48 → G t ≤ G (t + 1)) (h1 : 0 ≤ G 1)

include hk hb hG h1 in
theorem interp_kept {e v : K} (he : 0 ≤ e) (hv : 0 ≤ v) :
    (v < keptAt R r G e 48 → ∃ d, interp1d R (kept R r G e) hours49 v = .ok d) ∧
    (v = keptAt R r G e 48 → interp1d R (kept R r G e) hours49 v = .ok 48) ∧
    (keptAt R r G e 48 < v → interp1d R (kept R r G e) hours49 v = .error .valueError) := by
  set f : ℕ → K × K := fun n => (if n = 0 then 0 else keptAt R r G e n, (n : K)) with hf
  have hhours : hours49 = (List.range 49).map fun n => (f n).2 := by
    unfold hours49
    rw [show pyRange 0 (2 * 24 + 1) = (List.range 49).map fun k : ℕ => (k : ℤ) from pyRange_zero 49,
      List.map_map]
    apply List.map_congr_left
    intro k _
    simp [hf]
  have hzip : (kept R r G e).zip hours49 = (List.range 49).map f := by
    rw [kept_eq, hhours, List.zip_map']
  have hchain : ((List.range 49).map f).IsChain (fun a b => a.1 ≤ b.1) := by
    apply isChain_map_range
    intro k hk'
    simp only [hf]
    rw [if_neg (Nat.succ_ne_zero k)]
    by_cases h0 : k = 0
    · subst h0
      rw [if_pos rfl]
      exact keptAt_nonneg R hk hb hG h1 he (by omega) (by omega)
    · rw [if_neg h0]
      exact keptAt_mono R hk hG he (by omega) (by omega) (by omega)
  have hsort : ((List.range 49).map f).insertionSort (fun a b => a.1 ≤ b.1) = (List.range 49).map f := by
    apply List.Pairwise.insertionSort_eq
    have : IsTrans (K × K) (fun a b => a.1 ≤ b.1) := ⟨fun a b c h h' => le_trans h h'⟩
    apply List.IsChain.pairwise
    exact hchain
  unfold interp1d
  rw [if_neg (by simp [kept, hours49]), hzip, hsort]
  have hcons : (List.range 49).map f = f 0 :: (List.range 48).map fun k => f (k + 1) := by
    rw [List.range_succ_eq_map (n := 48), List.map_cons, List.map_map]
    rfl
  have hlast : ∀ h, ((f 0 :: (List.range 48).map fun k => f (k + 1)).getLast h) = f 48 := by
    intro h
    rw [List.getLast_eq_getElem]
    simp
  rw [hcons] at hchain ⊢
  have h00 : (f 0).1 = 0 := by simp [hf]
  have h48 : (f 48).1 = keptAt R r G e 48 := by simp [hf]
  have h481 : (f 48).2 = 48 := by simp [hf]
  have := interpNodes_sorted R _ (f 0) v hchain (by rw [h00]; exact hv)
  rw [hlast, h48, h481] at this
  exact this
end

/-- what happens in a month (of `n` hours, say) of a constant load `c`, given the computed average `a` -/
inductive MonthResult (R : Rounding K) (r : Resp K) (G : ℕ → K) (c a : K) : Py K → Prop
  | none : keptAt R r G (mul R (R.fl (sub R c a / c)) c) 48 ≤ 0 → MonthResult R r G c a (.ok (R.fl (1 / 1000000)))
  | whole : 0 < keptAt R r G (mul R (R.fl (sub R c a / c)) c) 48 →
      keptAt R r G (mul R (R.fl (sub R c a / c)) c) 48 = keptAt R r G (sub R c a) 48 → MonthResult R r G c a (.ok 48)
  | part (d : K) : 0 < keptAt R r G (mul R (R.fl (sub R c a / c)) c) 48 →
      keptAt R r G (mul R (R.fl (sub R c a / c)) c) 48 < keptAt R r G (sub R c a) 48 → MonthResult R r G c a (.ok d)
  | fail : 0 < keptAt R r G (mul R (R.fl (sub R c a / c)) c) 48 →
      keptAt R r G (sub R c a) 48 < keptAt R r G (mul R (R.fl (sub R c a / c)) c) 48 →
      MonthResult R r G c a (.error .valueError)

theorem durationStep_flat (R : Rounding K) {dot : List K → List K → K} (hd : DotLike R dot) {r : Resp K} {G : ℕ → K}
    (hr : Answers r G) (hk : 0 < r.twoPiK) (hb : 0 ≤ r.Rb) (hG : ∀ t, 1 ≤ t → t < 48 → G t ≤ G (t + 1)) (h1 : 0 ≤ G 1)
    {c a : K} (hc : 0 < c) {twoDay : List (List K)} {peak average : List K} {m : ℕ}
    (hw : twoDay[m]? = some (List.replicate 48 c)) (hp : peak[m]? = some c) (ha : average[m]? = some a)
    {s : List K × List (List K) × List (List K)} (hm : m < s.1.length) :
    ∃ res, MonthResult R r G c a res ∧ ∃ pk nm, durationStep R dot r twoDay peak average s (m : ℤ) =
      res.map fun d => (s.1.set m d, s.2.1 ++ [pk], s.2.2 ++ [nm]) := by
  have hmax : pyMax (0 :: List.replicate 48 c) = .ok c := by
    obtain ⟨x, hx⟩ := pyMax_ok_of_ne_nil (l := (0 : K) :: List.replicate 48 c) (by simp)
    obtain ⟨h1, h2⟩ := pyMax_eq_ok hx
    rw [hx]
    rcases List.mem_cons.1 h1 with h | h
    · exact absurd (h2 c (by simp)) (not_le.2 (h ▸ hc))
    · rw [(List.mem_replicate.1 h).2]
  have hused : (if |sub R c c| < R.fl (1 / 10) then c else c) = c := ite_self _
  have hdiv : div R (sub R c a) c = .ok (R.fl (sub R c a / c)) := div_ok R hc.ne'
  have hstep : durationStep R dot r twoDay peak average s (m : ℤ) = (do
      let m' ← pyMax (kept R r G (mul R (R.fl (sub R c a / c)) c))
      let d ← (if m' > 0 then interp1d R (kept R r G (sub R c a)) hours49 m' else .ok (R.fl (1 / 1000000)))
      return (s.1.set m d, s.2.1 ++ [kept R r G (sub R c a)],
        s.2.2 ++ [kept R r G (mul R (R.fl (sub R c a / c)) c)])) := by
    unfold durationStep
    rw [pyGet_ok' hw, Except.ok_bind, pyGet_ok' hp, Except.ok_bind, hmax, Except.ok_bind, pyGet_ok' ha, Except.ok_bind]
    dsimp only
    rw [hused, if_pos hc.ne', performMonth_flat R hd hr hdiv]
    rw [pyMax_kept R hk hb hG h1, Except.ok_bind, Except.ok_bind]
    by_cases h : max 0 (keptAt R r G (mul R (R.fl (sub R c a / c)) c) 48) > 0
    · rw [if_pos h]
      cases interp1d R (kept R r G (sub R c a)) hours49 (max 0 (keptAt R r G (mul R (R.fl (sub R c a / c)) c) 48)) with
      | error e => rfl
      | ok d => simp only [Except.ok_bind, Except.pure_eq, pySet_ok hm]
    · rw [if_neg h]
      simp only [Except.ok_bind, Except.pure_eq, pySet_ok hm]
  rw [pyMax_kept R hk hb hG h1, Except.ok_bind] at hstep
  rw [hstep]
  set e := sub R c a with he
  set q := mul R (R.fl (e / c)) c with hq
  by_cases h : 0 < keptAt R r G q 48
  · have he0 : 0 ≤ e := by
      by_contra hneg
      have : e ≤ 0 := (not_le.1 hneg).le
      have hq0 : q ≤ 0 := fl_nonpos R (mul_nonpos_of_nonpos_of_nonneg
        (fl_nonpos R (div_nonpos_of_nonpos_of_nonneg this hc.le)) hc.le)
      exact absurd h (not_lt.2 (keptAt_nonpos R hk hb hG h1 hq0 (by omega) le_rfl))
    rw [max_eq_right h.le, if_pos h]
    obtain ⟨i1, i2, i3⟩ := interp_kept R hk hb hG h1 he0 h.le
    rcases lt_trichotomy (keptAt R r G q 48) (keptAt R r G e 48) with h' | h' | h'
    · obtain ⟨d, hd'⟩ := i1 h'
      exact ⟨_, .part d h h', _, _, by rw [hd']; rfl⟩
    · exact ⟨_, .whole h h', _, _, by rw [i2 h']; rfl⟩
    · exact ⟨_, .fail h h', [], [], by rw [i3 h']; rfl⟩
  · rw [max_eq_left (not_lt.1 h), if_neg (lt_irrefl _)]
    exact ⟨_, .none (not_lt.1 h), _, _, rfl⟩

end Ghedt.Rounded
