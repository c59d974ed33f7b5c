import Verif.Lemmas.GroundLoads

set_option linter.unusedSectionVars false

namespace Ghedt
open Search

theorem pySlice_nat {α : Type} (l : List α) (a b : ℕ) :
    pySlice l (a : ℤ) (b : ℤ) = (l.drop a).take (b - a) := by
  unfold pySlice pyClamp
  have h1 : ¬ (a : ℤ) < 0 := by omega
  have h2 : ¬ (b : ℤ) < 0 := by omega
  simp only [h1, h2, if_false, Int.toNat_natCast]
  rw [List.drop_take]
  apply List.ext_getElem?
  intro k
  simp only [List.getElem?_take, List.getElem?_drop]
  by_cases ha : a ≤ l.length
  · rw [min_eq_left ha]
    by_cases hb : b ≤ l.length
    · rw [min_eq_left hb]
    · rw [min_eq_right (by omega)]
      by_cases hk : k < b - a
      · rw [if_pos hk]
        by_cases hk' : k < l.length - a
        · rw [if_pos hk']
        · rw [if_neg hk', List.getElem?_eq_none (by omega)]
      · rw [if_neg hk, if_neg (by omega)]
  · rw [List.getElem?_eq_none (by omega), List.getElem?_eq_none (by omega)]
    simp

theorem pyGet_ok' {α : Type} {l : List α} {i : ℕ} {v : α} (h : l[i]? = some v) :
    pyGet l (i : ℤ) = .ok v := by
  have h1 : ¬ (i : ℤ) < 0 := by omega
  simp [pyGet, h1, h]

theorem pyIndexOf_ok {K : Type} [DecidableEq K] {l : List K} {x : K} (h : x ∈ l) :
    ∃ i : ℕ, pyIndexOf l x = .ok (i : ℤ) ∧ l[i]? = some x ∧ ∀ j < i, l[j]? ≠ some x := by
  unfold pyIndexOf
  cases hf : l.findIdx? (fun y => decide (y = x)) with
  | none =>
    rw [List.findIdx?_eq_none_iff] at hf
    have := hf x h
    simp at this
  | some i =>
    rw [List.findIdx?_eq_some_iff_getElem] at hf
    obtain ⟨hi, h1, h2⟩ := hf
    refine ⟨i, rfl, ?_, ?_⟩
    · rw [List.getElem?_eq_getElem hi]; simpa using h1
    · intro j hj
      have := h2 j hj
      rw [List.getElem?_eq_getElem (by omega)]
      simpa using this

end Ghedt

namespace Ghedt.GL
open Spec Search
variable {K : Type} [Field K] [LinearOrder K] [IsStrictOrderedRing K]

/-- What `split_load_by_month` records for one month with loads `month`. -/
structure MonthFacts (month : List K) (total peak average : K) (day : ℤ) : Prop where
  total_eq : total = month.sum
  peak_mem : peak ∈ month
  peak_max : ∀ x ∈ month, x ≤ peak
  average_eq : average = month.sum / (month.length : K)
  day_eq : ∃ i : ℕ, month[i]? = some peak ∧ (∀ j < i, month[j]? ≠ some peak) ∧ day = ⌈(i : ℚ) / 24⌉

theorem monthLoads_length {leap : Bool} {hourly : List K} (hlen : hourly.length = yearHours leap)
    {m : ℕ} (h2 : m ≤ 12) :
    (monthLoads leap hourly m).length = 24 * monthLength leap m := by
  unfold monthLoads
  rw [List.length_take, List.length_drop, hlen]
  have := monthStart_le leap (show m + 1 ≤ 13 by omega)
  rw [monthStart_succ] at this
  omega

/-- entries 1..k of the record are right -/
def SplitInv (leap : Bool) (hourly : List K) (k : ℕ) (s : Split K) : Prop :=
  s.prev = (monthStart leap (k + 1) : ℤ) ∧ s.total.length = 13 ∧ s.peak.length = 13 ∧
  s.average.length = 13 ∧ s.peakDay.length = 13 ∧
  ∀ m, 1 ≤ m → m ≤ k → ∃ t p a d, s.total[m]? = some t ∧ s.peak[m]? = some p ∧
    s.average[m]? = some a ∧ s.peakDay[m]? = some d ∧ MonthFacts (monthLoads leap hourly m) t p a d

theorem splitStep_inv {leap : Bool} {hourly : List K} (hlen : hourly.length = yearHours leap)
    {k : ℕ} (hk : k < 12) {s : Split K} (h : SplitInv leap hourly k s) :
    ∃ s', splitStep hourly s ((monthLength leap (k + 1) : ℤ), k + 1) = .ok s' ∧
      SplitInv leap hourly (k + 1) s' := by
  obtain ⟨hp, l1, l2, l3, l4, hm⟩ := h
  have hslice : pySlice hourly s.prev (s.prev + 24 * (monthLength leap (k + 1) : ℤ)) =
      monthLoads leap hourly (k + 1) := by
    rw [hp]
    have : (monthStart leap (k + 1) : ℤ) + 24 * (monthLength leap (k + 1) : ℤ) =
      ((monthStart leap (k + 1) + 24 * monthLength leap (k + 1) : ℕ) : ℤ) := by push_cast; ring
    rw [this, pySlice_nat]
    unfold monthLoads
    rw [Nat.add_sub_cancel_left]
  have hml := monthLoads_length hlen (show k + 1 ≤ 12 by omega)
  have hb := monthLength_bounds leap (show 1 ≤ k + 1 by omega) (show k + 1 ≤ 12 by omega)
  have hne : monthLoads leap hourly (k + 1) ≠ [] := by
    intro h0; rw [h0] at hml; simp at hml; omega
  obtain ⟨pk, hpk⟩ := pyMax_ok_of_ne_nil hne
  obtain ⟨hpm, hpx⟩ := pyMax_eq_ok hpk
  obtain ⟨idx, hi1, hi2, hi3⟩ := pyIndexOf_ok hpm
  have hlK : ((monthLoads leap hourly (k + 1)).length : K) ≠ 0 := by
    rw [Nat.cast_ne_zero, hml]; omega
  refine ⟨⟨s.prev + 24 * (monthLength leap (k + 1) : ℤ),
    s.total.set (k + 1) (monthLoads leap hourly (k + 1)).sum, s.peak.set (k + 1) pk,
    s.average.set (k + 1) ((monthLoads leap hourly (k + 1)).sum /
      ((monthLoads leap hourly (k + 1)).length : K)),
    s.peakDay.set (k + 1) ⌈(idx : ℚ) / 24⌉⟩, ?_, ?_⟩
  · unfold splitStep
    dsimp only
    rw [hslice, pyAssert_true (by rw [hml]; push_cast; ring), hpk, pyDiv_ok hlK]
    simp only [Except.ok_bind, hi1, pySet_ok (show k + 1 < s.total.length by omega),
      pySet_ok (show k + 1 < s.peak.length by omega),
      pySet_ok (show k + 1 < s.average.length by omega),
      pySet_ok (show k + 1 < s.peakDay.length by omega), Except.pure_eq]
    rfl
  · refine ⟨?_, by simp [l1], by simp [l2], by simp [l3], by simp [l4], ?_⟩
    · show s.prev + 24 * (monthLength leap (k + 1) : ℤ) = _
      rw [hp, monthStart_succ leap (k + 1)]; push_cast; ring
    · intro m h1 h2
      by_cases he : m = k + 1
      · subst he
        refine ⟨_, _, _, _, ?_, ?_, ?_, ?_, ⟨rfl, hpm, hpx, rfl, idx, hi2, hi3, rfl⟩⟩ <;> dsimp only <;>
        rw [List.getElem?_set_self (by omega)]
      · obtain ⟨t, p, a, d, e1, e2, e3, e4, e5⟩ := hm m h1 (by omega)
        refine ⟨t, p, a, d, ?_, ?_, ?_, ?_, e5⟩ <;> dsimp only <;>
        rw [List.getElem?_set_ne (by omega)] <;> assumption

theorem splitLoadByMonth_ok {leap : Bool} {hourly : List K}
    (hlen : hourly.length = yearHours leap) :
    ∃ s, splitLoadByMonth hourly (daysList leap) = .ok s ∧ SplitInv leap hourly 12 s := by
  unfold splitLoadByMonth
  rw [daysList_enum]
  refine foldlM_range_inv (SplitInv leap hourly) 12 (fun k hk s h => splitStep_inv hlen hk h) ?_
  refine ⟨by rw [monthStart_one]; rfl, by simp, by simp, by simp, by simp, ?_⟩
  intro m h1 h2; omega

/-! ### two-day windows -/

theorem padded_getElem? {hourly : List K} (h24 : 24 ≤ hourly.length) {j : ℕ}
    (hj : j < hourly.length + 48) :
    (pySlice hourly ((hourly.length : ℤ) - 24) hourly.length ++ hourly ++ pySlice hourly 0 24)[j]? =
      hourly[(((j : ℤ) - 24) % (hourly.length : ℤ)).toNat]? := by
  have e1 : pySlice hourly ((hourly.length : ℤ) - 24) hourly.length =
      hourly.drop (hourly.length - 24) := by
    have : (hourly.length : ℤ) - 24 = ((hourly.length - 24 : ℕ) : ℤ) := by omega
    rw [this, pySlice_nat, List.take_of_length_le (by simp)]
  have e2 : pySlice hourly 0 24 = hourly.take 24 := by
    have := pySlice_nat hourly 0 24
    simpa using this
  rw [e1, e2]
  set n := hourly.length with hn
  by_cases h1 : j < 24
  · rw [List.append_assoc, List.getElem?_append_left (by simp; omega), List.getElem?_drop]
    congr 1
    have : ((j : ℤ) - 24) % (n : ℤ) = (j : ℤ) - 24 + n := by
      rw [← Int.add_emod_right, Int.emod_eq_of_lt (by omega) (by omega)]
    rw [this]; omega
  · by_cases h2 : j < 24 + n
    · rw [List.getElem?_append_left (by simp; omega), List.getElem?_append_right (by simp; omega)]
      have : ((j : ℤ) - 24) % (n : ℤ) = (j : ℤ) - 24 := Int.emod_eq_of_lt (by omega) (by omega)
      rw [this]
      congr 1
      simp; omega
    · rw [List.getElem?_append_right (by simp; omega), List.getElem?_take_of_lt (by simp; omega)]
      have : ((j : ℤ) - 24) % (n : ℤ) = (j : ℤ) - 24 - n := by
        rw [← Int.sub_emod_right, Int.emod_eq_of_lt (by omega) (by omega)]
      rw [this]
      congr 1
      simp; omega

/-- the 48 hours of the cyclic year that start at hour `start` -/
def IsWindow (hourly : List K) (start : ℤ) (w : List K) : Prop :=
  w.length = 48 ∧ ∀ j : ℕ, j < 48 → w[j]? = hourly[((start + j) % (hourly.length : ℤ)).toNat]?

def TwoDayInv (leap : Bool) (hourly : List K) (peakDay : List ℤ) (k : ℕ)
    (s : ℤ × List (List K)) : Prop :=
  s.1 = 24 + (monthStart leap (k + 1) : ℤ) ∧ s.2.length = k + 1 ∧
  ∀ m, 1 ≤ m → m ≤ k → ∃ d w, peakDay[m]? = some d ∧ s.2[m]? = some w ∧
    IsWindow hourly ((monthStart leap m : ℤ) + (d - 1) * 24) w

theorem day_bounds {month : List K} {t p a : K} {d : ℤ} {n : ℕ} (h : MonthFacts month t p a d)
    (hn : month.length = 24 * n) : 0 ≤ d ∧ d ≤ n := by
  obtain ⟨i, h1, -, h3⟩ := h.day_eq
  have hi : i < 24 * n := by
    rw [← hn]
    by_contra hcon
    rw [List.getElem?_eq_none (by omega)] at h1
    cases h1
  rw [h3]
  constructor
  · exact Int.ceil_nonneg (by positivity)
  · rw [Int.ceil_le]
    rw [div_le_iff₀ (by norm_num)]
    have : (i : ℚ) ≤ ((24 * n : ℕ) : ℚ) := by exact_mod_cast hi.le
    push_cast at this ⊢
    linarith

theorem daysList_prefix (leap : Bool) {k : ℕ} (hk : k < 12) :
    24 * (pySlice (daysList leap) 0 ((k + 1 : ℕ) : ℤ)).sum = (monthStart leap (k + 1) : ℤ) := by
  interval_cases k <;> cases leap <;> decide

theorem twoDayStep_inv {leap : Bool} {hourly : List K} (hlen : hourly.length = yearHours leap)
    {peakDay : List ℤ} {k : ℕ} (hk : k < 12) {d : ℤ} (hd : peakDay[k + 1]? = some d) (hd0 : 0 ≤ d)
    (hd1 : d ≤ monthLength leap (k + 1)) {s : ℤ × List (List K)}
    (h : TwoDayInv leap hourly peakDay k s) :
    ∃ s', twoDayStep (pySlice hourly ((hourly.length : ℤ) - 24) hourly.length ++ hourly ++
        pySlice hourly 0 24) (daysList leap) peakDay s ((monthLength leap (k + 1) : ℤ), k + 1) =
        .ok s' ∧ TwoDayInv leap hourly peakDay (k + 1) s' := by
  obtain ⟨hp, hl, hm⟩ := h
  have hN : 8760 ≤ hourly.length := by rw [hlen]; cases leap <;> decide
  have hend := monthStart_le leap (show k + 1 + 1 ≤ 13 by omega)
  rw [monthStart_succ, ← hlen] at hend
  obtain ⟨st, hst⟩ : ∃ st : ℕ, s.1 + (d - 1) * 24 = (st : ℤ) :=
    ⟨(s.1 + (d - 1) * 24).toNat, by rw [hp]; omega⟩
  have hst' : (st : ℤ) = (monthStart leap (k + 1) : ℤ) + d * 24 := by rw [← hst, hp]; ring
  set padded := pySlice hourly ((hourly.length : ℤ) - 24) hourly.length ++ hourly ++
        pySlice hourly 0 24 with hpad
  have hplen : padded.length = hourly.length + 48 := by
    rw [hpad]
    have a1 : (hourly.length : ℤ) - 24 = ((hourly.length - 24 : ℕ) : ℤ) := by omega
    have a2 := pySlice_nat hourly 0 24
    have a3 : pySlice hourly 0 24 = (hourly.drop 0).take (24 - 0) := by simpa using a2
    rw [a1, pySlice_nat, a3]
    simp
    omega
  have hwin : pySlice padded (st : ℤ) ((st : ℤ) + 2 * 24) = (padded.drop st).take 48 := by
    have : (st : ℤ) + 2 * 24 = ((st + 48 : ℕ) : ℤ) := by push_cast; ring
    rw [this, pySlice_nat, Nat.add_sub_cancel_left]
  have hwl : ((padded.drop st).take 48).length = 48 := by
    rw [List.length_take, List.length_drop, hplen]; omega
  have hday : pyInt (((((st : ℤ) - 24 : ℤ)) : ℚ) / 24) -
      (pySlice (daysList leap) 0 ((k + 1 : ℕ) : ℤ)).sum = d - 1 := by
    have hpre := daysList_prefix leap hk
    set S := (pySlice (daysList leap) 0 ((k + 1 : ℕ) : ℤ)).sum
    have : ((((st : ℤ) - 24 : ℤ)) : ℚ) / 24 = ((S + d - 1 : ℤ) : ℚ) := by
      rw [div_eq_iff (by norm_num)]
      rw [hst', ← hpre]
      push_cast; ring
    rw [this]
    have : pyInt ((S + d - 1 : ℤ) : ℚ) = S + d - 1 := by
      unfold pyInt; split <;> simp
    rw [this]; ring
  refine ⟨(s.1 + 24 * (monthLength leap (k + 1) : ℤ), s.2 ++ [(padded.drop st).take 48]), ?_, ?_⟩
  · unfold twoDayStep
    dsimp only
    rw [pyGet_ok' hd, Except.ok_bind, hst, hwin, pyAssert_true hwl, Except.ok_bind,
      pyAssert_true hday, Except.ok_bind, Except.pure_eq]
  · refine ⟨?_, by simp [hl], ?_⟩
    · show s.1 + 24 * (monthLength leap (k + 1) : ℤ) = _
      rw [hp, monthStart_succ leap (k + 1)]; push_cast; ring
    · intro m h1 h2
      by_cases he : m = k + 1
      · subst he
        refine ⟨d, _, hd, by dsimp only; rw [← hl, List.getElem?_concat_length], hwl, ?_⟩
        intro j hj
        rw [List.getElem?_take_of_lt hj, List.getElem?_drop, hpad,
          padded_getElem? (by omega) (by omega)]
        congr 3
        push_cast
        rw [hst']
        ring
      · obtain ⟨d', w, e1, e2, e3⟩ := hm m h1 (by omega)
        refine ⟨d', w, e1, ?_, e3⟩
        dsimp only
        rw [List.getElem?_append_left (by omega), e2]

theorem processTwoDayLoads_ok {leap : Bool} {hourly : List K}
    (hlen : hourly.length = yearHours leap) {peakDay : List ℤ}
    (hpd : ∀ m : ℕ, 1 ≤ m → m ≤ 12 → ∃ d : ℤ, peakDay[m]? = some d ∧ 0 ≤ d ∧
      d ≤ (monthLength leap m : ℤ)) :
    ∃ td, processTwoDayLoads hourly (daysList leap) peakDay = .ok td ∧
      TwoDayInv leap hourly peakDay 12 (24 + (yearHours leap : ℤ), td) := by
  unfold processTwoDayLoads
  dsimp only
  rw [daysList_enum]
  obtain ⟨s, h1, h2⟩ := foldlM_range_inv (TwoDayInv leap hourly peakDay) 12
    (f := twoDayStep (pySlice hourly ((hourly.length : ℤ) - 24) hourly.length ++ hourly ++
        pySlice hourly 0 24) (daysList leap) peakDay)
    (e := fun k : ℕ => ((monthLength leap (k + 1) : ℤ), k + 1)) (s := (24, [[0]]))
    (fun k hk s h => by
      obtain ⟨d, a1, a2, a3⟩ := hpd (k + 1) (by omega) (by omega)
      exact twoDayStep_inv hlen hk a1 a2 a3 h)
    ⟨by rw [monthStart_one]; rfl, rfl, fun m h1 h2 => by omega⟩
  rw [h1]
  refine ⟨s.2, rfl, ?_⟩
  obtain ⟨-, b, c⟩ := h2
  exact ⟨by rw [monthStart_end], b, c⟩

end Ghedt.GL

namespace Ghedt.GL
open Spec Search
variable {K : Type} [Field K] [LinearOrder K] [IsStrictOrderedRing K]

/-- what is known of the attributes before the peak durations are computed -/
structure Monthly (leap : Bool) (hourly : List K) (total peak average : List K)
    (peakDay : List ℤ) (twoDay : List (List K)) : Prop where
  length : hourly.length = yearHours leap
  total_length : total.length = 13
  peak_length : peak.length = 13
  average_length : average.length = 13
  day_length : peakDay.length = 13
  twoDay_length : twoDay.length = 13
  month : ∀ m : ℕ, 1 ≤ m → m ≤ 12 → ∃ t p a d w, total[m]? = some t ∧ peak[m]? = some p ∧
    average[m]? = some a ∧ peakDay[m]? = some d ∧ twoDay[m]? = some w ∧
    MonthFacts (monthLoads leap hourly m) t p a d ∧
    IsWindow hourly ((monthStart leap m : ℤ) + (d - 1) * 24) w

theorem mkLoads_good (r : Resp K) {hourly : List K} {year : ℤ}
    (hlen : hourly.length = yearHours (decide (LeapYear year))) :
    ∃ total peak average peakDay twoDay,
      Monthly (decide (LeapYear year)) hourly total peak average peakDay twoDay ∧
      mkLoads r hourly year = (do
        let (duration, pk, nm) ← (pyRange 1 13).foldlM
          (durationStep r twoDay peak average) (List.replicate 13 0, [[0]], [[0]])
        return ⟨hourly, daysList (decide (LeapYear year)), total, peak, average, peakDay, twoDay, nm,
          pk, duration⟩) := by
  obtain ⟨s, hs, hinv⟩ := splitLoadByMonth_ok hlen
  obtain ⟨-, l1, l2, l3, l4, hm⟩ := hinv
  obtain ⟨td, ht, -, l5, hw⟩ := processTwoDayLoads_ok hlen (peakDay := s.peakDay) (by
    intro m h1 h2
    obtain ⟨t, p, a, d, -, -, -, e4, e5⟩ := hm m h1 h2
    exact ⟨d, e4, day_bounds e5 (monthLoads_length hlen h2)⟩)
  refine ⟨s.total, s.peak, s.average, s.peakDay, td, ⟨hlen, l1, l2, l3, l4, l5, ?_⟩, ?_⟩
  · intro m h1 h2
    obtain ⟨t, p, a, d, e1, e2, e3, e4, e5⟩ := hm m h1 h2
    obtain ⟨d', w, f1, f2, f3⟩ := hw m h1 h2
    rw [e4] at f1; cases f1
    exact ⟨t, p, a, d, w, e1, e2, e3, e4, f2, e5, f3⟩
  · unfold mkLoads
    rw [daysInMonth_eq, Except.ok_bind, pyAssert_true (by rw [daysList_sum, hlen]), Except.ok_bind,
      hs, Except.ok_bind, ht, Except.ok_bind]
    rfl

theorem mkLoads_bad (r : Resp K) {hourly : List K} {year : ℤ}
    (hlen : hourly.length ≠ yearHours (decide (LeapYear year))) :
    mkLoads r hourly year = .error .assertionError := by
  unfold mkLoads
  rw [daysInMonth_eq, Except.ok_bind, pyAssert_false (by rw [daysList_sum]; exact_mod_cast hlen)]
  rfl

theorem mkLoads_inv {r : Resp K} {hourly : List K} {year : ℤ} {L : Loads K}
    (h : mkLoads r hourly year = .ok L) :
    Monthly (decide (LeapYear year)) hourly L.total L.peak L.average L.peakDay L.twoDay ∧
    L.hourly = hourly ∧ L.days = daysList (decide (LeapYear year)) ∧
    (pyRange 1 13).foldlM (durationStep r L.twoDay L.peak L.average)
      (List.replicate 13 0, [[0]], [[0]]) = .ok (L.duration, L.tempsPk, L.tempsNm) := by
  by_cases hlen : hourly.length = yearHours (decide (LeapYear year))
  · obtain ⟨t, p, a, d, w, h1, h2⟩ := mkLoads_good r hlen
    rw [h2] at h
    simp only [bind_eq_ok] at h
    obtain ⟨⟨x, y, z⟩, h3, h4⟩ := h
    cases h4
    exact ⟨h1, rfl, rfl, h3⟩
  · rw [mkLoads_bad r hlen] at h; cases h

/-! ### never an `AssertionError` -/

/-- the computation does not raise `AssertionError` -/
def NoAssert {α : Type} (x : Py α) : Prop := x ≠ .error .assertionError

theorem NoAssert.bind {α β : Type} {x : Py α} {f : α → Py β} (hx : NoAssert x)
    (hf : ∀ a, NoAssert (f a)) : NoAssert (x >>= f) := by
  cases x with
  | error e => exact fun h => hx (by simpa using h)
  | ok a => exact hf a

theorem NoAssert.ok {α : Type} (a : α) : NoAssert (.ok a : Py α) := fun h => by cases h

theorem NoAssert.mapM {α β : Type} {f : α → Py β} (l : List α) (hf : ∀ a, NoAssert (f a)) :
    NoAssert (l.mapM f) := by
  induction l with
  | nil => exact NoAssert.ok _
  | cons a l ih =>
    rw [List.mapM_cons]
    exact (hf a).bind fun b => ih.bind fun c => NoAssert.ok _

theorem NoAssert.foldlM {α σ : Type} {f : σ → α → Py σ} (l : List α) (s : σ)
    (hf : ∀ s a, NoAssert (f s a)) : NoAssert (l.foldlM f s) := by
  induction l generalizing s with
  | nil => exact NoAssert.ok _
  | cons a l ih =>
    rw [List.foldlM_cons]
    exact (hf s a).bind fun t => ih t

theorem NoAssert.pyGet {α : Type} (l : List α) (i : ℤ) : NoAssert (pyGet l i) := by
  unfold Ghedt.pyGet NoAssert
  dsimp only
  repeat' split
  all_goals intro h; cases h

theorem NoAssert.pySet {α : Type} (l : List α) (i : ℤ) (v : α) : NoAssert (pySet l i v) := by
  unfold Ghedt.pySet NoAssert
  dsimp only
  repeat' split
  all_goals intro h; cases h

theorem NoAssert.pyDiv (a b : K) : NoAssert (pyDiv a b) := by
  unfold Ghedt.pyDiv NoAssert
  split <;> intro h <;> cases h

theorem NoAssert.pyMax (l : List K) : NoAssert (pyMax l) := by
  cases l <;> intro h <;> cases h

theorem NoAssert.interp (l : List (K × K)) (v : K) : NoAssert (interpNodes l v) := by
  induction l with
  | nil => intro h; cases h
  | cons p l ih =>
    cases l with
    | nil =>
      unfold interpNodes NoAssert
      split <;> intro h <;> cases h
    | cons q l =>
      unfold interpNodes
      split
      · intro h; cases h
      · split
        · intro h; cases h
        · exact ih

theorem NoAssert.simulateHourly {r : Resp K} (hr : ∀ t, NoAssert (r.g t)) (ht : List ℤ) (q : List K) :
    NoAssert (simulateHourly r ht q) := by
  unfold GL.simulateHourly
  refine NoAssert.bind (NoAssert.mapM _ fun n => ?_) fun _ => NoAssert.ok _
  refine NoAssert.bind (NoAssert.pyGet _ _) fun tn => ?_
  refine NoAssert.bind (NoAssert.mapM _ fun τ => hr _) fun gv => ?_
  dsimp only
  split
  · intro h; cases h
  · exact NoAssert.bind (NoAssert.pyGet _ _) fun _ => NoAssert.ok _

theorem NoAssert.performMonth {r : Resp K} (hr : ∀ t, NoAssert (r.g t)) (w : List K) (p a : K) :
    NoAssert (performMonth r w p a) := by
  unfold GL.performMonth
  refine NoAssert.bind (NoAssert.mapM _ fun n => ?_) fun qn => ?_
  · refine NoAssert.bind (NoAssert.pyGet _ _) fun l => ?_
    exact NoAssert.bind (NoAssert.pyDiv _ _) fun _ => NoAssert.ok _
  refine NoAssert.bind (NoAssert.simulateHourly hr _ _) fun pk => ?_
  refine NoAssert.bind (NoAssert.simulateHourly hr _ _) fun nm => ?_
  refine NoAssert.bind (NoAssert.pyMax _) fun m => ?_
  refine NoAssert.bind ?_ fun d => NoAssert.ok _
  split
  · unfold interp1d
    split
    · intro h; cases h
    · exact NoAssert.interp _ _
  · exact NoAssert.ok _

theorem NoAssert.durationStep {r : Resp K} (hr : ∀ t, NoAssert (r.g t)) (td : List (List K))
    (p a : List K) (s : List K × List (List K) × List (List K)) (i : ℤ) :
    NoAssert (durationStep r td p a s i) := by
  unfold GL.durationStep
  refine NoAssert.bind (NoAssert.pyGet _ _) fun w => ?_
  refine NoAssert.bind (NoAssert.pyGet _ _) fun pk => ?_
  refine NoAssert.bind (NoAssert.pyMax _) fun m => ?_
  refine NoAssert.bind (NoAssert.pyGet _ _) fun avg => ?_
  dsimp only
  generalize (if |pk - m| < 1 / 10 then pk else m) = used
  split
  · refine NoAssert.bind (NoAssert.performMonth hr _ _ _) fun x => ?_
    exact NoAssert.bind (NoAssert.pySet _ _ _) fun _ => NoAssert.ok _
  · exact NoAssert.bind (NoAssert.pySet _ _ _) fun _ => NoAssert.ok _

end Ghedt.GL
