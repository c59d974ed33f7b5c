import Verif.Lemmas.HybridTotal
import Verif.Props.PeakDuration

/-!
# C60–C66: the hybrid load sequence

`L.side m` is the total, peak, peak duration and peak day recorded for calendar month `m`; `Full L`
says that the monthly lists have their thirteen entries, `NonZero` that the two peak durations do
not fill a month exactly.  Both hold for everything that `Loads` constructs (`C63_hybrid`).
-/

set_option linter.unusedSectionVars false

namespace Ghedt.GL
open Spec Search
variable {K : Type} [Field K] [LinearOrder K] [IsStrictOrderedRing K]

/-! ### C60 -/

/-- C60: the range returned for a peak is as long as the peak lasts and does not start before hour 0;
it is centred at hour 12 of the peak day (the month's hours counted from 1), unless that would make
it start before hour 0: then it starts at 1e-6. -/
theorem C60_range {L : Loads K} (hL : Full L) {m i : ℕ} (hm : m ≤ 12) (hi : 1 ≤ i) :
    ∃ first last mid : K, peakHourRange L (m : ℤ) (i : ℤ) = .ok (first, last) ∧
      mid = (hoursOf (i - 1) : K) + 1 + ((L.side m).day - 1) * 24 + 12 ∧
      last - first = (L.side m).duration ∧ 0 ≤ first ∧
      ((L.side m).duration / 2 ≤ mid → (first + last) / 2 = mid) ∧
      (mid < (L.side m).duration / 2 → first = 1 / 1000000) := by
  refine ⟨_, _, _, peakHourRange_eq hL hm hi, rfl, by ring, ?_, ?_, ?_⟩
  · unfold peakStart
    split
    · norm_num
    · rename_i h; exact not_lt.mp h
  · intro h
    unfold peakStart
    rw [if_neg (by linarith)]
    ring
  · intro h
    unfold peakStart
    rw [if_pos (by linarith)]

/-! ### C63, C66 -/

/-- C63: the sequence is always built. -/
theorem C63_total {cl hl : Loads K} (hc : Full cl) (hh : Full hl) (hz : NonZero cl hl)
    {start finish : ℕ} (hs : 1 ≤ start) (hsf : start ≤ finish) :
    ∃ H, processMonthlyLoads cl hl (start : ℤ) (finish : ℤ) = .ok H :=
  ⟨_, process_eq hc hh hz hs hsf⟩

/-- C63: from hourly loads, the whole `HybridLoad` object is built as soon as the two monthly
decompositions are, and these meet the assumptions of the theorems below. -/
theorem C63_hybrid {r : Resp K} {rej ext : List K} {year : ℤ} {cl hl : Loads K}
    (hc : mkLoads r rej year = .ok cl) (hh : mkLoads r ext year = .ok hl) {start finish : ℕ}
    (hs : 1 ≤ start) (hsf : start ≤ finish) :
    Full cl ∧ Full hl ∧ NonZero cl hl ∧
    ∃ H, mkHybrid r rej ext (start : ℤ) (finish : ℤ) year = .ok (cl, hl, H) ∧
      processMonthlyLoads cl hl (start : ℤ) (finish : ℤ) = .ok H := by
  obtain ⟨f1, d1⟩ := mkLoads_full hc
  obtain ⟨f2, d2⟩ := mkLoads_full hh
  have hz := nonZero_of_le f1 f2 d1 d2
  obtain ⟨H, hH⟩ := C63_total f1 f2 hz hs hsf
  refine ⟨f1, f2, hz, H, ?_, hH⟩
  unfold mkHybrid
  rw [hc, Except.ok_bind, hh, Except.ok_bind, hH]
  rfl

/-- C63: loads, hours and step loads are aligned; the sequence starts with the zero load up to the
beginning of the first month and ends with the last hour of the last month. -/
theorem C63_aligned {cl hl : Loads K} (hc : Full cl) (hh : Full hl) (hz : NonZero cl hl)
    {start finish : ℕ} (hs : 1 ≤ start) (hsf : start ≤ finish) {H : Hybrid K}
    (h : processMonthlyLoads cl hl (start : ℤ) (finish : ℤ) = .ok H) :
    H.load.length = H.hour.length ∧ H.sfload.length = H.hour.length ∧
    H.load.take 2 = [0, 0] ∧ H.hour.take 2 = [0, (hoursOf (start - 1) : K)] ∧
    H.hour.getLast? = some (hoursOf finish : K) := by
  rw [process_eq hc hh hz hs hsf] at h
  cases h
  have hpos : 1 ≤ (allEntries cl hl start finish (finish + 1 - start)).length := by simp [allEntries]
  refine ⟨by simp, by simp; omega, ?_, ?_, ?_⟩
  · simp [allEntries]
  · simp [allEntries]
  · obtain ⟨pre, rate, e⟩ := allEntries_last cl hl hs finish (finish + 1 - start)
    dsimp only
    rw [e, show start + (finish + 1 - start) - 1 = finish by omega]
    simp

/-- C63, C65: every month contributes one entry, which ends at the last hour of the month, preceded by
two entries for every peak shown; so the months' ends appear in order, at known positions, and there
is nothing after the last. -/
theorem C63_ends {cl hl : Loads K} (hc : Full cl) (hh : Full hl) (hz : NonZero cl hl)
    {start finish : ℕ} (hs : 1 ≤ start) (hsf : start ≤ finish) {H : Hybrid K}
    (h : processMonthlyLoads cl hl (start : ℤ) (finish : ℤ) = .ok H) :
    (∀ i, start ≤ i + 1 → i ≤ finish →
      H.hour[monthEndPos start finish cl.side hl.side i]? = some (hoursOf i : K)) ∧
    monthEndPos start finish cl.side hl.side (start - 1) = 1 ∧
    monthEndPos start finish cl.side hl.side finish + 1 = H.hour.length := by
  rw [process_eq hc hh hz hs hsf] at h
  cases h
  refine ⟨?_, ?_, ?_⟩
  · intro i h1 h2
    obtain ⟨post, hp⟩ := allEntries_prefix cl hl start finish
      (show i + 1 - start ≤ finish + 1 - start by omega)
    obtain ⟨pre, rate, e⟩ := allEntries_last cl hl hs finish (i + 1 - start)
    have hpos := monthEndPos_eq cl hl start finish i
    rw [e] at hpos
    have hpos' : monthEndPos start finish cl.side hl.side i = pre.length := by simpa using hpos
    dsimp only
    rw [hpos', hp, e, show start + (i + 1 - start) - 1 = i by omega, List.getElem?_map,
      List.append_assoc, List.getElem?_append_right le_rfl]
    simp
  · unfold monthEndPos
    rw [show start - 1 + 1 = start by omega]; simp
  · rw [monthEndPos_eq]; simp

/-- C66: the step loads start with 0 and are the differences of consecutive loads; summing them up gives
the loads back. -/
theorem C66_steps {cl hl : Loads K} (hc : Full cl) (hh : Full hl) (hz : NonZero cl hl)
    {start finish : ℕ} (hs : 1 ≤ start) (hsf : start ≤ finish) {H : Hybrid K}
    (h : processMonthlyLoads cl hl (start : ℤ) (finish : ℤ) = .ok H) :
    H.sfload[0]? = some 0 ∧
    (∀ k, k + 1 < H.load.length → ∃ a b, H.load[k]? = some a ∧ H.load[k + 1]? = some b ∧
      H.sfload[k + 1]? = some (b - a)) ∧
    (∀ k, k < H.load.length → H.load[k]? = some (H.sfload.take (k + 1)).sum) := by
  rw [process_eq hc hh hz hs hsf] at h
  cases h
  dsimp only
  set E := allEntries cl hl start finish (finish + 1 - start) with hE
  have hlen : (E.map Prod.fst).length = E.length := List.length_map ..
  have h0 : (E.map Prod.fst)[0]? = some 0 := by rw [hE]; simp [allEntries]
  have hget : ∀ k, k < E.length → (E.map Prod.fst)[k]? = some ((E.map Prod.fst).getD k 0) := by
    intro k hk
    rw [List.getD_eq_getElem?_getD, List.getElem?_eq_getElem (by omega), Option.getD_some]
  generalize E.map Prod.fst = load at *
  rw [hlen]
  refine ⟨rfl, ?_, ?_⟩
  · intro k hk
    refine ⟨_, _, hget k (by omega), hget (k + 1) hk, ?_⟩
    rw [List.getElem?_cons_succ, List.getElem?_map, List.getElem?_range (by omega)]
    rfl
  · intro k hk
    rw [hget k hk, List.take_succ_cons, List.sum_cons, zero_add, ← List.map_take, List.take_range,
      min_eq_left (by omega), list_sum_range, Finset.sum_range_sub (fun k => load.getD k 0)]
    have : load.getD 0 0 = 0 := by rw [List.getD_eq_getElem?_getD, h0]; rfl
    rw [this, sub_zero]

/-! ### C61, C62 -/

/-- the integral over a month, in terms of its entries -/
theorem month_integral {cl hl : Loads K} (hc : Full cl) (hh : Full hl) (hz : NonZero cl hl)
    {start finish : ℕ} (hs : 1 ≤ start) (hsf : start ≤ finish) {H : Hybrid K}
    (h : processMonthlyLoads cl hl (start : ℤ) (finish : ℤ) = .ok H) {i : ℕ} (h1 : start ≤ i)
    (h2 : i ≤ finish) :
    stepIntegral H.load H.hour (monthEndPos start finish cl.side hl.side (i - 1))
      (monthEndPos start finish cl.side hl.side i) =
      segInt (hoursOf (i - 1) : K) (monthBlock (Retained start finish i) i (cl.side (calMonth i))
        (hl.side (calMonth i))) := by
  rw [process_eq hc hh hz hs hsf] at h
  cases h
  dsimp only
  have e0 : i + 1 - start = i - start + 1 := by omega
  obtain ⟨post, hp⟩ := allEntries_prefix cl hl start finish
    (show i + 1 - start ≤ finish + 1 - start by omega)
  obtain ⟨pre, rate, e⟩ := allEntries_last cl hl hs finish (i - start)
  have p1 := monthEndPos_eq cl hl start finish (i - 1)
  have p2 := monthEndPos_eq cl hl start finish i
  rw [show i - 1 + 1 - start = i - start by omega, e] at p1
  rw [e0, allEntries_succ, e, List.length_append] at p2
  rw [e0, allEntries_succ, e, show start + (i - start) = i by omega] at hp
  rw [show start + (i - start) = i by omega] at p2
  rw [List.length_append, List.length_singleton] at p1 p2
  have q1 : monthEndPos start finish cl.side hl.side (i - 1) = pre.length := by omega
  have q2 : monthEndPos start finish cl.side hl.side i = pre.length + (monthBlock
      (Retained start finish i) i (cl.side (calMonth i)) (hl.side (calMonth i))).length := by omega
  rw [q1, q2, hp]
  have := stepIntegral_eq (monthBlock (Retained start finish i) i (cl.side (calMonth i))
      (hl.side (calMonth i))) pre post (rate, (hoursOf (i - 1) : K))
  rw [show ∀ B : List (K × K), pre ++ [(rate, (hoursOf (i - 1) : K))] ++ B ++ post =
    pre ++ (rate, (hoursOf (i - 1) : K)) :: (B ++ post) from fun B => by simp]
  exact this

theorem hours_of_month {i : ℕ} (hi : 1 ≤ i) :
    (hoursOf i : K) = (hoursOf (i - 1) : K) + 24 * (monthLength false (calMonth i) : K) := by
  obtain ⟨n, rfl⟩ : ∃ n, i = n + 1 := ⟨i - 1, by omega⟩
  rw [hoursOf_succ]
  unfold calMonth
  push_cast
  simp

theorem segInt_block (ret : Prop) [Decidable ret] {i : ℕ} (hi : 1 ≤ i) (c h : Side K) :
    segInt (hoursOf (i - 1) : K) (monthBlock ret i c h) =
      rateOf ret (calMonth i) c h * (24 * (monthLength false (calMonth i) : K)) +
      (if ret ∧ c.day ≠ h.day ∧ 0 < c.peak then (c.peak - rateOf ret (calMonth i) c h) * c.duration
        else 0) +
      (if ret ∧ c.day ≠ h.day ∧ 0 < h.peak then (-h.peak - rateOf ret (calMonth i) c h) * h.duration
        else 0) := by
  unfold monthBlock
  rw [hours_of_month hi]
  generalize rateOf ret (calMonth i) c h = rate
  have two : ∀ a b : List (K × K), ∀ x, segInt x (a ++ b ++ [(rate, (hoursOf (i - 1) : K) +
      24 * (monthLength false (calMonth i) : K))]) = segInt x (a ++ (b ++ [(rate, (hoursOf (i - 1) : K) +
      24 * (monthLength false (calMonth i) : K))])) := fun a b x => by rw [List.append_assoc]
  by_cases hr : ret
  · rcases lt_trichotomy c.day h.day with h1 | h1 | h1
    · have hne : c.day ≠ h.day := h1.ne
      simp only [hr, h1, hne, true_and, and_self, if_true, ne_eq, not_false_eq_true]
      unfold peakBlock
      by_cases hc : 0 < c.peak <;> by_cases hh : 0 < h.peak <;> simp only [hc, hh, if_true, if_false] <;>
        simp [segInt] <;> ring
    · simp only [h1, lt_irrefl, and_false, if_false, ne_eq, not_true_eq_false, false_and]
      simp [segInt]
    · have hne : c.day ≠ h.day := h1.ne'
      simp only [hr, h1, hne, true_and, and_self, if_true, ne_eq, not_false_eq_true, not_lt.mpr h1.le,
        if_false]
      unfold peakBlock
      by_cases hc : 0 < c.peak <;> by_cases hh : 0 < h.peak <;> simp only [hc, hh, if_true, if_false] <;>
        simp [segInt] <;> ring
  · simp only [hr, false_and, if_false]
    simp [segInt]

theorem rateOf_spec {cl hl : Loads K} (hz : NonZero cl hl) (ret : Prop) [Decidable ret] {m : ℕ}
    (m1 : 1 ≤ m) (m2 : m ≤ 12) (hr : ret) :
    rateOf ret m (cl.side m) (hl.side m) *
      (24 * (monthLength false m : K) - (cl.side m).duration - (hl.side m).duration) =
      (cl.side m).total - (hl.side m).total - (cl.side m).peak * (cl.side m).duration +
        (hl.side m).peak * (hl.side m).duration := by
  unfold rateOf
  rw [if_pos hr, mul_comm 24, div_mul_cancel₀ _ (hz m m1 m2)]

/-- C61: over every month whose peaks are not retained, and over every month with two positive peaks on
different days, the hybrid load integrates to rejection minus extraction. -/
theorem C61_conserved {cl hl : Loads K} (hc : Full cl) (hh : Full hl) (hz : NonZero cl hl)
    {start finish : ℕ} (hs : 1 ≤ start) (hsf : start ≤ finish) {H : Hybrid K}
    (h : processMonthlyLoads cl hl (start : ℤ) (finish : ℤ) = .ok H) {i : ℕ} (h1 : start ≤ i)
    (h2 : i ≤ finish)
    (hp : ¬ Retained start finish i ∨ (0 < (cl.side (calMonth i)).peak ∧
      0 < (hl.side (calMonth i)).peak ∧ (cl.side (calMonth i)).day ≠ (hl.side (calMonth i)).day)) :
    stepIntegral H.load H.hour (monthEndPos start finish cl.side hl.side (i - 1))
      (monthEndPos start finish cl.side hl.side i) =
      (cl.side (calMonth i)).total - (hl.side (calMonth i)).total := by
  have m1 : 1 ≤ calMonth i := by unfold calMonth; omega
  have m2 : calMonth i ≤ 12 := by unfold calMonth; omega
  rw [month_integral hc hh hz hs hsf h h1 h2, segInt_block _ (by omega)]
  by_cases hr : Retained start finish i
  · obtain ⟨p1, p2, p3⟩ := hp.resolve_left (not_not.mpr hr)
    rw [if_pos ⟨hr, p3, p1⟩, if_pos ⟨hr, p3, p2⟩]
    linarith [rateOf_spec hz (Retained start finish i) m1 m2 hr]
  · rw [if_neg (fun h => hr h.1), if_neg (fun h => hr h.1)]
    unfold rateOf
    have := (monthLength_bounds false m1 m2).1
    have hne : (monthLength false (calMonth i) : K) * 24 ≠ 0 := by
      have : (0 : K) < (monthLength false (calMonth i) : K) := by
        exact_mod_cast (by omega : 0 < monthLength false (calMonth i))
      positivity
    rw [if_neg hr, mul_comm 24, div_mul_cancel₀ _ hne]
    ring

/-- C61, C62: in a month whose peaks are retained, the integral is rejection minus extraction, plus, for
each peak that is not shown (because it is not positive or both are on the same day), its duration
times the difference between the background load and the peak load.  `rate` is the background
load of the month. -/
theorem C62_formula {cl hl : Loads K} (hc : Full cl) (hh : Full hl) (hz : NonZero cl hl)
    {start finish : ℕ} (hs : 1 ≤ start) (hsf : start ≤ finish) {H : Hybrid K}
    (h : processMonthlyLoads cl hl (start : ℤ) (finish : ℤ) = .ok H) {i : ℕ} (h1 : start ≤ i)
    (h2 : i ≤ finish) (hr : Retained start finish i) {c e : Side K} (hcs : cl.side (calMonth i) = c)
    (hes : hl.side (calMonth i) = e) :
    ∃ rate : K, H.load[monthEndPos start finish cl.side hl.side i]? = some rate ∧
      rate * (24 * (monthLength false (calMonth i) : K) - c.duration - e.duration) =
        c.total - e.total - c.peak * c.duration + e.peak * e.duration ∧
      stepIntegral H.load H.hour (monthEndPos start finish cl.side hl.side (i - 1))
        (monthEndPos start finish cl.side hl.side i) =
        c.total - e.total +
        (if c.day ≠ e.day ∧ 0 < c.peak then 0 else (rate - c.peak) * c.duration) +
        (if c.day ≠ e.day ∧ 0 < e.peak then 0 else (rate - -e.peak) * e.duration) := by
  have m1 : 1 ≤ calMonth i := by unfold calMonth; omega
  have m2 : calMonth i ≤ 12 := by unfold calMonth; omega
  subst hcs hes
  have hspec := rateOf_spec hz (Retained start finish i) m1 m2 hr
  refine ⟨rateOf (Retained start finish i) (calMonth i) (cl.side (calMonth i))
    (hl.side (calMonth i)), ?_, hspec, ?_⟩
  · rw [process_eq hc hh hz hs hsf] at h
    cases h
    dsimp only
    obtain ⟨post, hp⟩ := allEntries_prefix cl hl start finish
      (show i + 1 - start ≤ finish + 1 - start by omega)
    have p2 := monthEndPos_eq cl hl start finish i
    have e0 : i + 1 - start = i - start + 1 := by omega
    have e1 : start + (i - start) = i := by omega
    rw [e0, allEntries_succ, e1] at p2 hp
    unfold monthBlock at p2 hp
    rw [← List.append_assoc] at p2 hp
    rw [hp, List.getElem?_map]
    rw [List.length_append, List.length_singleton] at p2
    rw [show monthEndPos start finish cl.side hl.side i = _ from Nat.succ_injective p2,
      List.append_assoc, List.getElem?_append_right le_rfl]
    simp
  · rw [month_integral hc hh hz hs hsf h h1 h2, segInt_block _ (by omega)]
    generalize rateOf (Retained start finish i) (calMonth i) (cl.side (calMonth i))
      (hl.side (calMonth i)) = rate at hspec ⊢
    simp only [hr, true_and]
    by_cases q1 : (cl.side (calMonth i)).day ≠ (hl.side (calMonth i)).day ∧
        0 < (cl.side (calMonth i)).peak <;>
      by_cases q2 : (cl.side (calMonth i)).day ≠ (hl.side (calMonth i)).day ∧
        0 < (hl.side (calMonth i)).peak <;>
      first
        | rw [if_pos q1, if_pos q2, if_pos q1, if_pos q2]; linarith
        | rw [if_pos q1, if_neg q2, if_pos q1, if_neg q2]; linarith
        | rw [if_neg q1, if_pos q2, if_neg q1, if_pos q2]; linarith
        | rw [if_neg q1, if_neg q2, if_neg q1, if_neg q2]; linarith

/-- C62: with both peaks on the same day neither is shown, and the month is off by exactly this amount. -/
theorem C62_same_day {cl hl : Loads K} (hc : Full cl) (hh : Full hl) (hz : NonZero cl hl)
    {start finish : ℕ} (hs : 1 ≤ start) (hsf : start ≤ finish) {H : Hybrid K}
    (h : processMonthlyLoads cl hl (start : ℤ) (finish : ℤ) = .ok H) {i : ℕ} (h1 : start ≤ i)
    (h2 : i ≤ finish) (hr : Retained start finish i) {c e : Side K} (hcs : cl.side (calMonth i) = c)
    (hes : hl.side (calMonth i) = e) (hday : c.day = e.day) :
    ∃ rate : K, H.load[monthEndPos start finish cl.side hl.side i]? = some rate ∧
      stepIntegral H.load H.hour (monthEndPos start finish cl.side hl.side (i - 1))
        (monthEndPos start finish cl.side hl.side i) - (c.total - e.total) =
        rate * (c.duration + e.duration) - (c.peak * c.duration - e.peak * e.duration) := by
  obtain ⟨rate, e1, -, e3⟩ := C62_formula hc hh hz hs hsf h h1 h2 hr hcs hes
  refine ⟨rate, e1, ?_⟩
  rw [e3, if_neg (fun h => h.1 hday), if_neg (fun h => h.1 hday)]
  ring

theorem stepIntegral_add (load hour : List K) {a b c : ℕ} (hab : a ≤ b) (hbc : b ≤ c) :
    stepIntegral load hour a b + stepIntegral load hour b c = stepIntegral load hour a c := by
  unfold stepIntegral
  exact Finset.sum_Ico_consecutive _ hab hbc

theorem monthEndPos_mono (start finish : ℕ) (c h : ℕ → Side K) {i j : ℕ} (hij : i ≤ j) :
    monthEndPos start finish c h i ≤ monthEndPos start finish c h j := by
  unfold monthEndPos
  apply Nat.add_le_add_left
  apply Finset.sum_le_sum_of_subset
  intro x hx
  simp only [Finset.mem_Ico] at hx ⊢
  omega

/-- C61: if every simulated month is of the kind of `C61_conserved`, the whole sequence integrates to
the sum of the months' rejection minus extraction. -/
theorem C61_whole {cl hl : Loads K} (hc : Full cl) (hh : Full hl) (hz : NonZero cl hl)
    {start finish : ℕ} (hs : 1 ≤ start) (hsf : start ≤ finish) {H : Hybrid K}
    (h : processMonthlyLoads cl hl (start : ℤ) (finish : ℤ) = .ok H)
    (hp : ∀ i, start ≤ i → i ≤ finish → ¬ Retained start finish i ∨
      (0 < (cl.side (calMonth i)).peak ∧ 0 < (hl.side (calMonth i)).peak ∧
        (cl.side (calMonth i)).day ≠ (hl.side (calMonth i)).day)) :
    stepIntegral H.load H.hour 0 (H.hour.length - 1) =
      ∑ i ∈ Finset.Ico start (finish + 1),
        ((cl.side (calMonth i)).total - (hl.side (calMonth i)).total) := by
  obtain ⟨-, hp1, hp2⟩ := C63_ends hc hh hz hs hsf h
  obtain ⟨-, -, hl2, -, -⟩ := C63_aligned hc hh hz hs hsf h
  have key : ∀ n, start + n ≤ finish + 1 →
      stepIntegral H.load H.hour 1 (monthEndPos start finish cl.side hl.side (start + n - 1)) =
        ∑ i ∈ Finset.Ico start (start + n),
          ((cl.side (calMonth i)).total - (hl.side (calMonth i)).total) := by
    intro n
    induction n with
    | zero => intro _; rw [Nat.add_zero, hp1]; simp [stepIntegral]
    | succ n ih =>
      intro hn
      have e := C61_conserved hc hh hz hs hsf h (i := start + n) (by omega) (by omega)
        (hp _ (by omega) (by omega))
      rw [← Nat.add_assoc, Nat.add_sub_cancel, Finset.sum_Ico_succ_top (by omega), ← ih (by omega), ← e,
        stepIntegral_add]
      · rw [← hp1]; exact monthEndPos_mono _ _ _ _ (by omega)
      · exact monthEndPos_mono _ _ _ _ (by omega)
  have k := key (finish + 1 - start) (by omega)
  rw [show start + (finish + 1 - start) = finish + 1 by omega, Nat.add_sub_cancel] at k
  rw [← k, show H.hour.length - 1 = monthEndPos start finish cl.side hl.side finish by omega]
  rw [← stepIntegral_add H.load H.hour (show 0 ≤ 1 by omega)
    (by rw [← hp1]; exact monthEndPos_mono _ _ _ _ (by omega))]
  have : stepIntegral H.load H.hour 0 1 = 0 := by
    unfold stepIntegral
    have h1 : H.load[1]? = some 0 := by
      have := congrArg (fun l => l[1]?) hl2
      simpa using this
    simp [List.getD_eq_getElem?_getD, h1]
  rw [this, zero_add]

/-- C61, from hourly loads: the integral over the month is the sum of the calendar month's hourly
rejection loads minus that of its hourly extraction loads. -/
theorem C61_hourly {r : Resp K} {rej ext : List K} {year : ℤ} {cl hl : Loads K}
    (hc : mkLoads r rej year = .ok cl) (hh : mkLoads r ext year = .ok hl) {start finish : ℕ}
    (hs : 1 ≤ start) (hsf : start ≤ finish) {H : Hybrid K}
    (h : mkHybrid r rej ext (start : ℤ) (finish : ℤ) year = .ok (cl, hl, H)) {i : ℕ} (h1 : start ≤ i)
    (h2 : i ≤ finish)
    (hp : ¬ Retained start finish i ∨ (0 < (cl.side (calMonth i)).peak ∧
      0 < (hl.side (calMonth i)).peak ∧ (cl.side (calMonth i)).day ≠ (hl.side (calMonth i)).day)) :
    stepIntegral H.load H.hour (monthEndPos start finish cl.side hl.side (i - 1))
      (monthEndPos start finish cl.side hl.side i) =
      (monthLoads (decide (LeapYear year)) rej (calMonth i)).sum -
        (monthLoads (decide (LeapYear year)) ext (calMonth i)).sum := by
  obtain ⟨f1, f2, hz, H', e1, e2⟩ := C63_hybrid hc hh hs hsf
  rw [h] at e1
  cases e1
  rw [C61_conserved f1 f2 hz hs hsf e2 h1 h2 hp]
  have m1 : 1 ≤ calMonth i := by unfold calMonth; omega
  have m2 : calMonth i ≤ 12 := by unfold calMonth; omega
  obtain ⟨t, p, a, g1, -, -, g2, -⟩ := C54_month hc m1 m2
  obtain ⟨t', p', a', g1', -, -, g2', -⟩ := C54_month hh m1 m2
  simp only [Loads.side, List.getD_eq_getElem?_getD, g1, g1', Option.getD_some, g2, g2']

/-! ### C65 -/

theorem month_entries {cl hl : Loads K} (hc : Full cl) (hh : Full hl) (hz : NonZero cl hl)
    {start finish : ℕ} (hs : 1 ≤ start) (hsf : start ≤ finish) {H : Hybrid K}
    (h : processMonthlyLoads cl hl (start : ℤ) (finish : ℤ) = .ok H) {i : ℕ} (h1 : start ≤ i)
    (h2 : i ≤ finish) :
    ((H.load.zip H.hour).drop (monthEndPos start finish cl.side hl.side (i - 1) + 1)).take
      (monthEndPos start finish cl.side hl.side i - monthEndPos start finish cl.side hl.side (i - 1)) =
      monthBlock (Retained start finish i) i (cl.side (calMonth i)) (hl.side (calMonth i)) := by
  rw [process_eq hc hh hz hs hsf] at h
  cases h
  dsimp only
  have e0 : i + 1 - start = i - start + 1 := by omega
  obtain ⟨post, hp⟩ := allEntries_prefix cl hl start finish
    (show i + 1 - start ≤ finish + 1 - start by omega)
  have p1 := monthEndPos_eq cl hl start finish (i - 1)
  have p2 := monthEndPos_eq cl hl start finish i
  rw [show i - 1 + 1 - start = i - start by omega] at p1
  rw [e0, allEntries_succ, List.length_append] at p2
  rw [e0, allEntries_succ, show start + (i - start) = i by omega] at hp
  rw [show start + (i - start) = i by omega] at p2
  rw [List.zip_map']
  rw [show ∀ l : List (K × K), (l.map fun a => (a.1, a.2)) = l from fun l => by simp, hp, p1,
    List.append_assoc, List.drop_left, List.take_left']
  omega

/-- C65: a month that is neither among the first twelve nor among the last twelve contributes exactly
one entry, its mean load up to its last hour. -/
theorem C65_middle {cl hl : Loads K} (hc : Full cl) (hh : Full hl) (hz : NonZero cl hl)
    {start finish : ℕ} (hs : 1 ≤ start) (hsf : start ≤ finish) {H : Hybrid K}
    (h : processMonthlyLoads cl hl (start : ℤ) (finish : ℤ) = .ok H) {i : ℕ} (h1 : start + 12 ≤ i)
    (h2 : i + 12 ≤ finish) :
    ((H.load.zip H.hour).drop (monthEndPos start finish cl.side hl.side (i - 1) + 1)).take
      (monthEndPos start finish cl.side hl.side i - monthEndPos start finish cl.side hl.side (i - 1)) =
      [(((cl.side (calMonth i)).total - (hl.side (calMonth i)).total) /
        ((monthLength false (calMonth i) : K) * 24), (hoursOf i : K))] := by
  have hr : ¬ Retained start finish i := by rintro (h | h) <;> omega
  rw [month_entries hc hh hz hs hsf h (by omega) (by omega)]
  unfold monthBlock rateOf
  rw [if_neg (fun h => hr h.1), if_neg (fun h => hr h.1), if_neg hr]
  rfl

/-- C65: a month among the first or the last twelve shows its positive peaks, the earlier one first,
rejection as a positive and extraction as a negative load, unless both fall on the same day; the rest
of the month has one constant load. -/
theorem C65_peaks {cl hl : Loads K} (hc : Full cl) (hh : Full hl) (hz : NonZero cl hl)
    {start finish : ℕ} (hs : 1 ≤ start) (hsf : start ≤ finish) {H : Hybrid K}
    (h : processMonthlyLoads cl hl (start : ℤ) (finish : ℤ) = .ok H) {i : ℕ} (h1 : start ≤ i)
    (h2 : i ≤ finish) (hr : i < start + 12 ∨ finish < i + 12) {c e : Side K}
    (hcs : cl.side (calMonth i) = c) (hes : hl.side (calMonth i) = e) :
    ∃ rate : K,
      rate = (c.total - e.total - c.peak * c.duration + e.peak * e.duration) /
        ((monthLength false (calMonth i) : K) * 24 - c.duration - e.duration) ∧
      ((H.load.zip H.hour).drop (monthEndPos start finish cl.side hl.side (i - 1) + 1)).take
        (monthEndPos start finish cl.side hl.side i -
          monthEndPos start finish cl.side hl.side (i - 1)) =
        (let rejection := if 0 < c.peak then
            [(rate, peakStart i c), (c.peak, peakStart i c + c.duration)] else []
        let extraction := if 0 < e.peak then
            [(rate, peakStart i e), (-e.peak, peakStart i e + e.duration)] else []
        (if c.day < e.day then rejection ++ extraction
        else if e.day < c.day then extraction ++ rejection else []) ++ [(rate, (hoursOf i : K))]) := by
  subst hcs hes
  have hr' : Retained start finish i := hr
  refine ⟨_, rfl, ?_⟩
  rw [month_entries hc hh hz hs hsf h (by omega) (by omega)]
  unfold monthBlock rateOf peakBlock
  simp only [hr', true_and, if_true, one_mul, neg_mul]

/-! ### C64 -/

theorem peak_in_day {i : ℕ} {s : Side K} (h1 : 1 ≤ s.day) (h2 : 0 ≤ s.duration)
    (h3 : s.duration < 22) :
    (hoursOf (i - 1) : K) + 24 * ((s.day : K) - 1) < peakStart i s ∧
      peakStart i s + s.duration < (hoursOf (i - 1) : K) + 24 * (s.day : K) := by
  have hP : (0 : K) ≤ (hoursOf (i - 1) : K) := Nat.cast_nonneg _
  have hd : (1 : K) ≤ (s.day : K) := by exact_mod_cast h1
  unfold peakStart
  rw [if_neg (by linarith)]
  constructor <;> linarith

theorem block_sorted {ret : Prop} [Decidable ret] {i : ℕ} (hi : 1 ≤ i) {c h : Side K}
    (hc : 1 ≤ c.day ∧ c.day ≤ monthLength false (calMonth i) ∧ 0 < c.duration ∧ c.duration < 22)
    (hh : 1 ≤ h.day ∧ h.day ≤ monthLength false (calMonth i) ∧ 0 < h.duration ∧ h.duration < 22) :
    ((monthBlock ret i c h).map Prod.snd).Pairwise (· < ·) ∧
    ∀ t ∈ (monthBlock ret i c h).map Prod.snd, (hoursOf (i - 1) : K) < t ∧ t ≤ (hoursOf i : K) := by
  have hE := hours_of_month (K := K) hi
  have hml : (28 : K) ≤ (monthLength false (calMonth i) : K) := by
    exact_mod_cast (monthLength_bounds false (m := calMonth i) (by unfold calMonth; omega)
      (by unfold calMonth; omega)).1
  obtain ⟨c1, c2, c3, c4⟩ := hc
  obtain ⟨k1, k2, k3, k4⟩ := hh
  obtain ⟨a1, a2⟩ := peak_in_day (i := i) c1 c3.le c4
  obtain ⟨b1, b2⟩ := peak_in_day (i := i) k1 k3.le k4
  have c1' : (1 : K) ≤ (c.day : K) := by exact_mod_cast c1
  have k1' : (1 : K) ≤ (h.day : K) := by exact_mod_cast k1
  have c2' : (c.day : K) ≤ (monthLength false (calMonth i) : K) := by exact_mod_cast c2
  have k2' : (h.day : K) ≤ (monthLength false (calMonth i) : K) := by exact_mod_cast k2
  unfold monthBlock
  generalize rateOf ret (calMonth i) c h = rate
  generalize (hoursOf (i - 1) : K) = P at *
  generalize (hoursOf i : K) = E at *
  by_cases q1 : ret ∧ c.day < h.day
  · have : (c.day : K) + 1 ≤ (h.day : K) := by exact_mod_cast q1.2
    rw [if_pos q1]
    unfold peakBlock
    split <;> split <;> simp <;> (repeat' apply And.intro) <;> linarith
  · rw [if_neg q1]
    by_cases q2 : ret ∧ h.day < c.day
    · have : (h.day : K) + 1 ≤ (c.day : K) := by exact_mod_cast q2.2
      rw [if_pos q2]
      unfold peakBlock
      split <;> split <;> simp <;> (repeat' apply And.intro) <;> linarith
    · rw [if_neg q2]
      simp
      linarith

/-- C64: if all durations are positive and below 22 hours and all peak days lie in their month (of
a 365-day year), the hours strictly increase from the second entry on. -/
theorem C64_increasing {cl hl : Loads K} (hc : Full cl) (hh : Full hl) (hz : NonZero cl hl)
    {start finish : ℕ} (hs : 1 ≤ start) (hsf : start ≤ finish) {H : Hybrid K}
    (h : processMonthlyLoads cl hl (start : ℤ) (finish : ℤ) = .ok H)
    (hd : ∀ m : ℕ, 1 ≤ m → m ≤ 12 → ∀ s, s = cl.side m ∨ s = hl.side m →
      1 ≤ s.day ∧ s.day ≤ monthLength false m ∧ 0 < s.duration ∧ s.duration < 22) :
    (H.hour.drop 1).Pairwise (· < ·) := by
  rw [process_eq hc hh hz hs hsf] at h
  cases h
  dsimp only
  have key : ∀ n, (((allEntries cl hl start finish n).map Prod.snd).drop 1).Pairwise (· < ·) ∧
      ∀ t ∈ ((allEntries cl hl start finish n).map Prod.snd).drop 1,
        t ≤ (hoursOf (start + n - 1) : K) := by
    intro n
    induction n with
    | zero => simp [allEntries]
    | succ n ih =>
      obtain ⟨i1, i2⟩ := ih
      have m1 : 1 ≤ calMonth (start + n) := by unfold calMonth; omega
      have m2 : calMonth (start + n) ≤ 12 := by unfold calMonth; omega
      obtain ⟨b1, b2⟩ := block_sorted (ret := Retained start finish (start + n))
        (show 1 ≤ start + n by omega) (hd _ m1 m2 _ (Or.inl rfl)) (hd _ m1 m2 _ (Or.inr rfl))
      rw [allEntries_succ, List.map_append, List.drop_append_of_le_length (by simp [allEntries])]
      refine ⟨?_, ?_⟩
      · rw [List.pairwise_append]
        exact ⟨i1, b1, fun x hx y hy => (i2 x hx).trans_lt (b2 y hy).1⟩
      · intro t ht
        rw [show start + (n + 1) - 1 = start + n by omega]
        rcases List.mem_append.mp ht with ht | ht
        · refine (i2 t ht).trans ?_
          rw [hours_of_month (show 1 ≤ start + n by omega)]
          have : (0 : K) ≤ (monthLength false (calMonth (start + n)) : K) := Nat.cast_nonneg _
          linarith
        · exact (b2 t ht).2
  exact (key _).1

/-- C64: a peak attributed to day 0 of a month that is not the first of all, and shown first, makes the
hours go backwards. -/
theorem C64_backwards {cl hl : Loads K} (hc : Full cl) (hh : Full hl) (hz : NonZero cl hl)
    {start finish : ℕ} (hs : 1 ≤ start) (hsf : start ≤ finish) {H : Hybrid K}
    (h : processMonthlyLoads cl hl (start : ℤ) (finish : ℤ) = .ok H) {i : ℕ} (h1 : start ≤ i)
    (h2 : i ≤ finish) (hi : 2 ≤ i) (hr : i < start + 12 ∨ finish < i + 12) {c e : Side K}
    (hcs : cl.side (calMonth i) = c) (hes : hl.side (calMonth i) = e)
    (hp : (c.day = 0 ∧ 0 < c.peak ∧ 0 ≤ c.duration ∧ c.duration ≤ 48 ∧ 0 < e.day) ∨
      (e.day = 0 ∧ 0 < e.peak ∧ 0 ≤ e.duration ∧ e.duration ≤ 48 ∧ 0 < c.day)) :
    ∃ k a b, H.hour[k]? = some a ∧ H.hour[k + 1]? = some b ∧ b < a := by
  have he := (C63_ends hc hh hz hs hsf h).1 (i - 1) (by omega) (by omega)
  have hal := (C63_aligned hc hh hz hs hsf h).1
  have hm := month_entries hc hh hz hs hsf h h1 h2
  have hP : (744 : K) ≤ (hoursOf (i - 1) : K) := by
    have : 744 ≤ hoursOf (i - 1) := by
      obtain ⟨n, hn⟩ : ∃ n, i - 1 = n + 1 := ⟨i - 2, by omega⟩
      rw [hn]
      clear hn
      induction n with
      | zero => decide
      | succ n ih => rw [hoursOf_succ]; omega
    exact_mod_cast this
  have hr' : Retained start finish i := hr
  have first : ∀ s : Side K, s.day = 0 → 0 ≤ s.duration → s.duration ≤ 48 →
      peakStart i s < (hoursOf (i - 1) : K) := by
    intro s d0 d1 d2
    unfold peakStart
    rw [d0]
    push_cast
    rw [if_neg (by linarith)]
    linarith
  have hex : ∃ rate t l, monthBlock (Retained start finish i) i (cl.side (calMonth i))
      (hl.side (calMonth i)) = (rate, t) :: l ∧ t < (hoursOf (i - 1) : K) := by
    rw [hcs, hes]
    unfold monthBlock
    generalize rateOf (Retained start finish i) (calMonth i) c e = rate
    rcases hp with ⟨p1, p2, p3, p4, p5⟩ | ⟨p1, p2, p3, p4, p5⟩
    · rw [if_pos ⟨hr', by omega⟩]
      unfold peakBlock
      rw [if_pos p2]
      exact ⟨_, _, _, rfl, first c p1 p3 p4⟩
    · rw [if_neg (fun h => by omega), if_pos ⟨hr', by omega⟩]
      unfold peakBlock
      rw [if_pos p2]
      exact ⟨_, _, _, rfl, first e p1 p3 p4⟩
  obtain ⟨rate, t, l, hb, ht⟩ := hex
  rw [hb] at hm
  refine ⟨_, _, t, he, ?_, ht⟩
  have h0 := congrArg (fun l => l[0]?) hm
  simp only [List.getElem?_cons_zero] at h0
  rw [List.getElem?_take] at h0
  split at h0
  · rw [List.getElem?_drop, Nat.add_zero, List.getElem?_zip_eq_some] at h0
    exact h0.2
  · cases h0

/-- C64, from hourly loads: if in some month after January the rejection peak is positive and is first
reached in the very first hour of the month, and the extraction peak is not, then the hours of the
hybrid sequence of a simulation that starts in January go backwards. -/
theorem C64_first_hour {r : Resp K} {rej ext : List K} {year : ℤ} {cl hl : Loads K}
    (hc : mkLoads r rej year = .ok cl) (hh : mkLoads r ext year = .ok hl) {finish : ℕ} {H : Hybrid K}
    (h : mkHybrid r rej ext 1 (finish : ℤ) year = .ok (cl, hl, H)) {m : ℕ} (m1 : 2 ≤ m) (m2 : m ≤ 12)
    (hf : m ≤ finish) {x y : K}
    (hx : (monthLoads (decide (LeapYear year)) rej m)[0]? = some x) (hx0 : 0 < x)
    (hmax : ∀ z ∈ monthLoads (decide (LeapYear year)) rej m, z ≤ x)
    (hy : (monthLoads (decide (LeapYear year)) ext m)[0]? = some y)
    (hlt : ∃ z ∈ monthLoads (decide (LeapYear year)) ext m, y < z) :
    ∃ k a b, H.hour[k]? = some a ∧ H.hour[k + 1]? = some b ∧ b < a := by
  obtain ⟨f1, f2, hz, H', e1, e2⟩ := C63_hybrid hc hh (show 1 ≤ 1 from le_rfl)
    (show 1 ≤ finish by omega)
  rw [Nat.cast_one] at e1 e2
  rw [h] at e1
  cases e1
  have hcal : calMonth m = m := by unfold calMonth; omega
  obtain ⟨p, i, d, c1, c2, c3, c4, c5⟩ := C55_day hc (show 1 ≤ m by omega) m2
  obtain ⟨p', i', d', k1, k2, k3, k4, k5⟩ := C55_day hh (show 1 ≤ m by omega) m2
  obtain ⟨-, q, -, -, a2, -, -, -, a3, -⟩ := C54_month hc (show 1 ≤ m by omega) m2
  obtain ⟨-, q', -, -, b2, -, -, -, b3, -⟩ := C54_month hh (show 1 ≤ m by omega) m2
  rw [c1] at a2; cases a2
  rw [k1] at b2; cases b2
  have hpx : p = x := le_antisymm (hmax p (List.mem_of_getElem? c2)) (a3 x (List.mem_of_getElem? hx))
  subst hpx
  have hi0 : i = 0 := by
    by_contra hne
    exact c3 0 (by omega) hx
  subst hi0
  have hi1 : i' ≠ 0 := by
    rintro rfl
    rw [hy] at k2
    cases k2
    obtain ⟨z, z1, z2⟩ := hlt
    exact absurd (b3 z z1) (not_le.mpr z2)
  have hd0 : d = 0 := by rw [c5]; rfl
  have hd1 : 0 < d' := by rw [k5]; split <;> omega
  obtain ⟨-, dur1⟩ := mkLoads_full hc
  have hmem : (cl.side m).duration ∈ cl.duration := by
    have := f1.duration
    simp only [Loads.side]
    rw [List.getD_eq_getElem?_getD, List.getElem?_eq_getElem (by omega), Option.getD_some]
    exact List.getElem_mem _
  refine C64_backwards f1 f2 hz (le_refl 1) (by omega) (by rw [Nat.cast_one]; exact e2) (i := m)
    (by omega) hf m1 (Or.inl (by omega)) rfl rfl (Or.inl ⟨?_, ?_, ?_, ?_, ?_⟩) <;> rw [hcal]
  · simp only [Loads.side, List.getD_eq_getElem?_getD, c4, Option.getD_some, hd0]
  · simp only [Loads.side, List.getD_eq_getElem?_getD, c1, Option.getD_some]; exact hx0
  · exact (dur1 _ hmem).1
  · exact (dur1 _ hmem).2
  · simp only [Loads.side, List.getD_eq_getElem?_getD, k4, Option.getD_some]; exact hd1

/-! ### examples -/

/-- monthly data that are the same in every month -/
def exLoads (total peak duration : ℚ) (day : ℤ) : Loads ℚ :=
  { hourly := [], days := [], total := List.replicate 13 total, peak := List.replicate 13 peak,
    average := [], peakDay := List.replicate 13 day, twoDay := [], tempsNm := [], tempsPk := [],
    duration := List.replicate 13 duration }

theorem exLoads_full (t p d : ℚ) (k : ℤ) : Full (exLoads t p d k) := by
  constructor <;> simp [exLoads]

theorem exLoads_side (t p d : ℚ) (k : ℤ) {m : ℕ} (hm : m ≤ 12) :
    (exLoads t p d k).side m = ⟨t, p, d, k⟩ := by
  have : m < 13 := by omega
  simp only [exLoads, Loads.side, List.getD_eq_getElem?_getD, List.getElem?_replicate, this, if_true,
    Option.getD_some]

theorem exLoads_nonZero {t p d t' p' d' : ℚ} {k k' : ℤ} (h : d + d' < 600) :
    NonZero (exLoads t p d k) (exLoads t' p' d' k') := by
  intro m m1 m2
  rw [exLoads_side _ _ _ _ m2, exLoads_side _ _ _ _ m2]
  have : (28 : ℚ) ≤ (monthLength false m : ℚ) := by exact_mod_cast (monthLength_bounds false m1 m2).1
  dsimp only
  intro h0
  linarith

theorem calMonth_le (i : ℕ) : calMonth i ≤ 12 := by unfold calMonth; omega

/-- Different days: twenty years, the hypotheses of C61, C63, C64 (increasing) and C66 are met. -/
example : ∃ H, processMonthlyLoads (exLoads 1000 5 4 10) (exLoads 600 3 2 20) (1 : ℕ) (240 : ℕ) = .ok H ∧
    (H.hour.drop 1).Pairwise (· < ·) ∧
    stepIntegral H.load H.hour 0 (H.hour.length - 1) = 240 * 400 := by
  have f1 := exLoads_full 1000 5 4 10
  have f2 := exLoads_full 600 3 2 20
  have hz : NonZero (exLoads 1000 5 4 10) (exLoads 600 3 2 20) := exLoads_nonZero (by norm_num)
  obtain ⟨H, hH⟩ := C63_total f1 f2 hz (show 1 ≤ 1 from le_rfl) (show 1 ≤ 240 by norm_num)
  refine ⟨H, hH, C64_increasing f1 f2 hz le_rfl (by norm_num) hH ?_, ?_⟩
  · intro m m1 m2 s hs
    have := (monthLength_bounds false m1 m2).1
    rw [exLoads_side _ _ _ _ m2, exLoads_side _ _ _ _ m2] at hs
    rcases hs with rfl | rfl <;> refine ⟨by norm_num, ?_, by norm_num, by norm_num⟩ <;> dsimp only <;> omega
  · rw [C61_whole f1 f2 hz le_rfl (by norm_num) hH]
    · simp only [exLoads_side _ _ _ _ (calMonth_le _)]
      norm_num
    · intro i _ _
      right
      rw [exLoads_side _ _ _ _ (calMonth_le _), exLoads_side _ _ _ _ (calMonth_le _)]
      norm_num

/-- C62, existence: with both peaks on day 10 the energy of the month is not 400 kWh. -/
theorem C62_loses : ∃ H, processMonthlyLoads (exLoads 1000 5 4 10) (exLoads 600 3 2 10) (1 : ℕ) (12 : ℕ) =
      .ok H ∧
    stepIntegral H.load H.hour
      (monthEndPos 1 12 (exLoads 1000 5 4 10).side (exLoads 600 3 2 10).side 0)
      (monthEndPos 1 12 (exLoads 1000 5 4 10).side (exLoads 600 3 2 10).side 1) ≠ 1000 - 600 := by
  have f1 := exLoads_full 1000 5 4 10
  have f2 := exLoads_full 600 3 2 10
  have hz : NonZero (exLoads 1000 5 4 10) (exLoads 600 3 2 10) := exLoads_nonZero (by norm_num)
  obtain ⟨H, hH⟩ := C63_total f1 f2 hz (show 1 ≤ 1 from le_rfl) (show 1 ≤ 12 by norm_num)
  refine ⟨H, hH, ?_⟩
  obtain ⟨rate, -, e1, e2⟩ := C62_formula f1 f2 hz le_rfl (by norm_num) hH (i := 1) le_rfl (by norm_num)
    (Or.inl (by norm_num)) (exLoads_side _ _ _ _ (calMonth_le _)) (exLoads_side _ _ _ _ (calMonth_le _))
  rw [show (1 : ℕ) - 1 = 0 from rfl] at e2
  rw [e2]
  rw [show monthLength false (calMonth 1) = 31 from rfl] at e1
  norm_num at e1 ⊢
  intro h
  linarith

/-- The hypotheses of C64 (backwards) are met. -/
example : ∃ H, processMonthlyLoads (exLoads 1000 5 4 0) (exLoads 600 3 2 10) (1 : ℕ) (12 : ℕ) = .ok H ∧
    ∃ k a b, H.hour[k]? = some a ∧ H.hour[k + 1]? = some b ∧ b < a := by
  have f1 := exLoads_full 1000 5 4 0
  have f2 := exLoads_full 600 3 2 10
  have hz : NonZero (exLoads 1000 5 4 0) (exLoads 600 3 2 10) := exLoads_nonZero (by norm_num)
  obtain ⟨H, hH⟩ := C63_total f1 f2 hz (show 1 ≤ 1 from le_rfl) (show 1 ≤ 12 by norm_num)
  exact ⟨H, hH, C64_backwards f1 f2 hz le_rfl (by norm_num) hH (i := 2) (by norm_num) (by norm_num)
    le_rfl (Or.inl (by norm_num)) (exLoads_side _ _ _ _ (calMonth_le _))
    (exLoads_side _ _ _ _ (calMonth_le _)) (Or.inl (by norm_num))⟩

/-- From hourly loads: a year built by C58 gives a hybrid sequence. -/
example : ∃ L H, mkHybrid exResp exYear exYear (1 : ℕ) (240 : ℕ) 2019 = .ok (L, L, H) := by
  obtain ⟨L, hL, -⟩ := exYear_ok
  obtain ⟨-, -, -, H, hH, -⟩ := C63_hybrid hL hL (show 1 ≤ 1 from le_rfl) (show 1 ≤ 240 by norm_num)
  exact ⟨L, H, hH⟩

/-! ### The theorems applied to twenty equal years, with a rejection peak on day 10 and an extraction peak on day 20 -/

example := C60_range (exLoads_full 1000 5 4 10) (m := 2) (i := 26) (by norm_num) (by norm_num)
example : ∃ H, processMonthlyLoads (exLoads 1000 5 4 10) (exLoads 600 3 2 20) (1 : ℕ) (240 : ℕ) = .ok H := by
  have f1 := exLoads_full 1000 5 4 10
  have f2 := exLoads_full 600 3 2 20
  have hz : NonZero (exLoads 1000 5 4 10) (exLoads 600 3 2 20) := exLoads_nonZero (by norm_num)
  obtain ⟨H, hH⟩ := C63_total f1 f2 hz (show 1 ≤ 1 from le_rfl) (show 1 ≤ 240 by norm_num)
  have := C63_aligned f1 f2 hz le_rfl (by norm_num) hH
  have := C63_ends f1 f2 hz le_rfl (by norm_num) hH
  have := C66_steps f1 f2 hz le_rfl (by norm_num) hH
  have := C61_conserved f1 f2 hz le_rfl (by norm_num) hH (i := 100) (by norm_num) (by norm_num)
    (Or.inl (by unfold Retained; norm_num))
  have := C62_formula f1 f2 hz le_rfl (by norm_num) hH (i := 5) (by norm_num) (by norm_num) (Or.inl (by norm_num))
    (exLoads_side _ _ _ _ (calMonth_le _)) (exLoads_side _ _ _ _ (calMonth_le _))
  have := C65_middle f1 f2 hz le_rfl (by norm_num) hH (i := 100) (by norm_num) (by norm_num)
  have := C65_peaks f1 f2 hz le_rfl (by norm_num) hH (i := 235) (by norm_num) (by norm_num) (Or.inr (by norm_num))
    (exLoads_side _ _ _ _ (calMonth_le _)) (exLoads_side _ _ _ _ (calMonth_le _))
  exact ⟨H, hH⟩
/-- C62: both peaks on day 10 -/
example : ∃ H, processMonthlyLoads (exLoads 1000 5 4 10) (exLoads 600 3 2 10) (1 : ℕ) (12 : ℕ) = .ok H ∧
    ∃ rate : ℚ, H.load[monthEndPos 1 12 (exLoads 1000 5 4 10).side (exLoads 600 3 2 10).side 3]? = some rate := by
  have f1 := exLoads_full 1000 5 4 10
  have f2 := exLoads_full 600 3 2 10
  have hz : NonZero (exLoads 1000 5 4 10) (exLoads 600 3 2 10) := exLoads_nonZero (by norm_num)
  obtain ⟨H, hH⟩ := C63_total f1 f2 hz (show 1 ≤ 1 from le_rfl) (show 1 ≤ 12 by norm_num)
  obtain ⟨rate, h, -⟩ := C62_same_day f1 f2 hz le_rfl (by norm_num) hH (i := 3) (by norm_num) (by norm_num)
    (Or.inl (by norm_num)) (exLoads_side _ _ _ _ (calMonth_le _)) (exLoads_side _ _ _ _ (calMonth_le _)) rfl
  exact ⟨H, hH, rate, h⟩
/-- C54 to C57 and C61 from hourly loads -/
example : ∃ L H, mkHybrid exResp exYear exYear (1 : ℕ) (240 : ℕ) 2019 = .ok (L, L, H) := by
  obtain ⟨L, hL, -⟩ := exYear_ok
  obtain ⟨-, -, -, H, hH, -⟩ := C63_hybrid hL hL (show 1 ≤ 1 from le_rfl) (show 1 ≤ 240 by norm_num)
  have := C61_hourly hL hL le_rfl (by norm_num) hH (i := 100) (by norm_num) (by norm_num)
    (Or.inl (by unfold Retained; norm_num))
  have := C54_month hL (m := 2) (by norm_num) (by norm_num)
  have := C54_year hL
  have := C55_day hL (m := 2) (by norm_num) (by norm_num)
  have := C56_window hL (m := 2) (by norm_num) (by norm_num)
  have := C57_own_day hL (m := 2) (by norm_num) (by norm_num)
  exact ⟨L, H, hH⟩
example := C54_assert (r := exResp) (fun t => by simp [exResp]) [1, 2, 3] 2019

end Ghedt.GL
