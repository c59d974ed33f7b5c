import Verif.Lemmas.Synthetic
import Verif.Props.Hybrid

/-!
# C67, C68: synthetic years
-/

set_option linter.unusedSectionVars false

namespace Ghedt.GL
open Ghedt.Spec
variable {K : Type} [Field K] [LinearOrder K] [IsStrictOrderedRing K]

/-! ### C67: one month -/

/-- C67: the writer keeps the number of hours iff the month block and the peak block both lie inside
the list (peak block not starting before hour 0). -/
theorem C67_writer (l : List K) (avg peak : K) {d day prev hours : ℕ} (hd : 0 < d) (hh : 0 < hours)
    (hs : (d + 1) / 2 ≤ 24 * day + prev + 12) :
    (syntheticLoad l avg peak d day prev hours).length = l.length ↔
      prev + hours ≤ l.length ∧ prev + 24 * day + 12 + d / 2 ≤ l.length := by
  rw [syntheticLoad_eq]
  have e : (((day * 24 + prev + 12 : ℕ) : ℤ) - ((d + 1) / 2 : ℕ)) =
      ((day * 24 + prev + 12 - (d + 1) / 2 : ℕ) : ℤ) := by omega
  rw [e, sliceAssign_length]
  unfold monthFlat
  rw [sliceAssign_length]
  split_ifs <;> constructor <;> intro h <;> omega

/-- C67: what it then writes: the average over the month, the peak over `d` hours around noon of the
day (days counted from 0), nothing else. -/
theorem C67_block (l : List K) (avg peak : K) {d day prev hours : ℕ} (h : prev + hours ≤ l.length)
    (hs : (d + 1) / 2 ≤ 24 * day + prev + 12) {j : ℕ} (hj : j < l.length) :
    (syntheticLoad l avg peak d day prev hours)[j]? =
      if prev + 24 * day + 12 - (d + 1) / 2 ≤ j ∧ j < prev + 24 * day + 12 - (d + 1) / 2 + d then some peak
      else if prev ≤ j ∧ j < prev + hours then some avg else l[j]? := by
  rw [syntheticLoad_get _ _ _ _ _ _ _ h (by omega) _ hj]
  congr 1
  rw [eq_iff_iff]; constructor <;> rintro ⟨h1, h2⟩ <;> constructor <;> omega

/-- C67: a peak block that would start before hour 0 is inserted near the end of the list, which grows by
the whole duration. -/
theorem C67_wraps (l : List K) (avg peak : K) {d day prev hours : ℕ} (h : prev + hours ≤ l.length)
    (hs : 24 * day + prev + 12 < (d + 1) / 2) (hl : d ≤ l.length) :
    (syntheticLoad l avg peak d day prev hours).length = l.length + d :=
  syntheticLoad_length_neg _ _ _ _ _ _ _ h (by omega) hl

/-! ### the years written -/

theorem daysList_get (leap : Bool) {k : ℕ} (hk : k < 12) :
    pyGet (daysList leap) ((k + 1 : ℕ) : ℤ) = .ok (monthLength leap (k + 1) : ℤ) := by
  rw [getD_ok (by rw [daysList_length]; omega) 0]
  interval_cases k <;> cases leap <;> rfl

theorem doubling_eq {units : String} {scale : K} (hu : unitScale units = .ok scale) (year : ℤ) :
    createSyntheticDoubling units year = .ok
      (writeYear (decide (LeapYear year)) (fun m => ((13 - m : ℕ) : K))
          (fun m => 2 * ((13 - m : ℕ) : K) * scale) (fun m => 13 - m) (fun m => 20 - m) 12,
        writeYear (decide (LeapYear year)) (fun m => (m : K) * scale)
          (fun m => 2 * (m : K) * scale) (fun m => m) (fun m => m + 6) 12) := by
  unfold createSyntheticDoubling
  rw [hu, Except.ok_bind, daysInMonth_eq, Except.ok_bind]
  generalize decide (LeapYear year) = leap
  rw [daysList_length, daysList_sum, Int.toNat_natCast]
  have key := foldlM_pyRange_inv (f := doublingStep scale (daysList leap)) (a := 1) (b := 13)
    (s := { rej := List.replicate (yearHours leap) 0, ext := List.replicate (yearHours leap) 0 })
    (fun n s => ∃ k : ℕ, n = (k : ℤ) + 1 ∧
      s = ⟨writeYear leap (fun m => ((13 - m : ℕ) : K))
          (fun m => 2 * ((13 - m : ℕ) : K) * scale) (fun m => 13 - m) (fun m => 20 - m) k,
        writeYear leap (fun m => (m : K) * scale)
          (fun m => 2 * (m : K) * scale) (fun m => m) (fun m => m + 6) k, (k : ℤ) + 7, 19 - (k : ℤ),
        (monthStart leap (k + 1) : ℤ)⟩) (by norm_num) ?_ ?_
  · obtain ⟨s, h1, k, h2, h3⟩ := key
    obtain rfl : k = 12 := by omega
    subst h3
    have : ((13 : ℕ) : ℤ) = 13 := rfl
    dsimp only
    rw [this, h1]
    rfl
  · rintro n s h1 h2 ⟨k, rfl, rfl⟩
    have hk : k < 12 := by omega
    refine ⟨_, ?_, k + 1, by push_cast; ring, rfl⟩
    unfold doublingStep
    rw [show ((k : ℤ) + 1) = ((k + 1 : ℕ) : ℤ) by push_cast; rfl, daysList_get leap hk, Except.ok_bind]
    dsimp only
    rw [daysList_length]
    simp only [Except.pure_eq]
    congr 1
    rw [writeYear, writeYear, monthStart_succ leap (k + 1)]
    have e1 : (((13 : ℕ) : ℤ) - ((k + 1 : ℕ) : ℤ)) = ((13 - (k + 1) : ℕ) : ℤ) := by omega
    have e2 : (19 - (k : ℤ)) = ((20 - (k + 1) : ℕ) : ℤ) := by omega
    have e3 : ((k : ℤ) + 7) = ((k + 1 + 6 : ℕ) : ℤ) := by push_cast; ring
    have e4 : (24 * (monthLength leap (k + 1) : ℤ)) = ((24 * monthLength leap (k + 1) : ℕ) : ℤ) := by
      push_cast; ring
    rw [e1, e2, e3, e4]
    simp only [Int.cast_natCast]
    congr 1
    push_cast; omega
  · refine ⟨0, by norm_num, ?_⟩
    rw [monthStart_one]
    rfl

/-! ### C68 -/

/-- C68: for every year and both units the two lists have one value per hour of the year; any other unit
raises `ValueError`. -/
theorem C68_length (units : String) (year : ℤ) :
    (units = "W" ∨ units = "kW" → ∃ R X : List K, createSyntheticDoubling units year = .ok (R, X) ∧
      R.length = yearHours (decide (LeapYear year)) ∧ X.length = yearHours (decide (LeapYear year))) ∧
    (units ≠ "W" → units ≠ "kW" → createSyntheticDoubling (K := K) units year = .error .valueError) := by
  constructor
  · intro h
    obtain ⟨scale, hs⟩ : ∃ scale : K, unitScale units = .ok scale := by
      rcases h with rfl | rfl
      · exact ⟨1000, rfl⟩
      · exact ⟨1, rfl⟩
    refine ⟨_, _, doubling_eq hs year, ?_, ?_⟩
    · rw [writeYear_length_all]
      · constructor <;> omega
      · intro m h1 h2; omega
      · intro m h1 h2
        have := (monthLength_bounds (decide (LeapYear year)) h1 h2).1
        omega
    · rw [writeYear_length_all]
      · constructor <;> omega
      · intro m h1 h2; omega
      · intro m h1 h2
        have := (monthLength_bounds (decide (LeapYear year)) h1 h2).1
        omega
  · intro h1 h2
    unfold createSyntheticDoubling unitScale
    rw [if_neg h1, if_neg h2]
    rfl

/-- C68: the values: month `m` extracts `m` units with `m` hours at twice that, around noon of day
`m + 6` (from 0); it rejects `13 - m` with `13 - m` hours at twice that, around noon of day `20 - m`.
For `"W"` everything is multiplied by 1000 except the average rejection. -/
theorem C68_values {units : String} {scale : K}
    (hu : units = "W" ∧ scale = 1000 ∨ units = "kW" ∧ scale = 1) (year : ℤ) :
    ∃ R X : List K, createSyntheticDoubling units year = .ok (R, X) ∧
      HasMonths (decide (LeapYear year)) R (fun m =>
        monthShape ((13 - m : ℕ) : K) (2 * ((13 - m : ℕ) : K) * scale) (13 - m) (20 - m)) ∧
      HasMonths (decide (LeapYear year)) X (fun m =>
        monthShape ((m : K) * scale) (2 * (m : K) * scale) m (m + 6)) := by
  have hs : unitScale units = .ok scale := by
    rcases hu with ⟨rfl, rfl⟩ | ⟨rfl, rfl⟩ <;> rfl
  refine ⟨_, _, doubling_eq hs year, ?_, ?_⟩
  · intro m j h1 h2 hj
    refine writeYear_get ?_ ?_ 12 le_rfl m j h1 h2 hj
    · intro m h1 h2; omega
    · intro m h1 h2
      have := (monthLength_bounds (decide (LeapYear year)) h1 h2).1
      omega
  · intro m j h1 h2 hj
    refine writeYear_get ?_ ?_ 12 le_rfl m j h1 h2 hj
    · intro m h1 h2; omega
    · intro m h1 h2
      have := (monthLength_bounds (decide (LeapYear year)) h1 h2).1
      omega

/-! ### C67: the year -/

/-- What is known of the monthly attributes of one side. -/
structure Placed [FloorRing K] (leap : Bool) (L : Loads K) : Prop where
  full : Full L
  average_length : L.average.length = 13
  day : ∀ m, 1 ≤ m → m ≤ 12 → 0 ≤ (L.side m).day ∧ (L.side m).day ≤ monthLength leap m
  duration : ∀ m, 1 ≤ m → m ≤ 12 → 0 ≤ pyRound (L.side m).duration ∧ pyRound (L.side m).duration ≤ 48

theorem pyRound_bounds [FloorRing K] {x : K} (h0 : 0 ≤ x) {n : ℕ} (h1 : x ≤ n) :
    0 ≤ pyRound x ∧ pyRound x ≤ n := by
  have f0 : 0 ≤ ⌊x⌋ := Int.floor_nonneg.2 h0
  have f1 : ⌊x⌋ ≤ n := by
    have := Int.floor_le x
    have h : ((⌊x⌋ : ℤ) : K) ≤ ((n : ℤ) : K) := by push_cast; linarith
    exact_mod_cast h
  have f2 : ⌊x⌋ = n → x - (⌊x⌋ : K) ≤ 0 := by
    intro h; rw [h]; push_cast; linarith
  unfold pyRound
  dsimp only
  split_ifs with a b c
  · exact ⟨f0, f1⟩
  · refine ⟨by omega, ?_⟩
    rcases lt_or_eq_of_le f1 with h | h
    · omega
    · exfalso
      have h2 := f2 h
      have : (0 : K) < 1 / 2 := by norm_num
      linarith
  · exact ⟨f0, f1⟩
  · refine ⟨by omega, ?_⟩
    rcases lt_or_eq_of_le f1 with h | h
    · omega
    · exfalso
      have h2 := f2 h
      have : (0 : K) < 1 / 2 := by norm_num
      have := not_lt.1 a
      linarith

/-- Every monthly decomposition has these attributes. -/
theorem mkLoads_placed [FloorRing K] {r : Resp K} {hourly : List K} {year : ℤ} {L : Loads K}
    (h : mkLoads r hourly year = .ok L) : Placed (decide (LeapYear year)) L := by
  obtain ⟨hM, -, -, -⟩ := mkLoads_inv h
  obtain ⟨hF, hD⟩ := mkLoads_full h
  refine ⟨hF, hM.average_length, ?_, ?_⟩
  · intro m h1 h2
    obtain ⟨t, p, a, d, w, -, -, -, e, -, f, -⟩ := hM.month m h1 h2
    have := day_bounds f (monthLoads_length hM.length h2)
    unfold Loads.side
    dsimp only
    rw [List.getD_eq_getElem?_getD, e]
    exact this
  · intro m h1 h2
    apply pyRound_bounds (n := 48)
    · unfold Loads.side
      dsimp only
      have hm : m < L.duration.length := by rw [hF.duration]; omega
      rw [List.getD_eq_getElem?_getD, List.getElem?_eq_getElem hm, Option.getD_some]
      exact (hD _ (List.getElem_mem hm)).1
    · unfold Loads.side
      dsimp only
      have hm : m < L.duration.length := by rw [hF.duration]; omega
      rw [List.getD_eq_getElem?_getD, List.getElem?_eq_getElem hm, Option.getD_some]
      exact_mod_cast (hD _ (List.getElem_mem hm)).2

theorem represent_eq [FloorRing K] {cl hl : Loads K} {year : ℤ}
    (hc : Placed (decide (LeapYear year)) cl) (hh : Placed (decide (LeapYear year)) hl) :
    hourlyLoadRepresentation cl hl year = .ok
      (writeYear (decide (LeapYear year)) (fun m => cl.average.getD m 0) (fun m => (cl.side m).peak)
          (fun m => (pyRound (cl.side m).duration).toNat) (fun m => (cl.side m).day.toNat) 12,
        writeYear (decide (LeapYear year)) (fun m => hl.average.getD m 0) (fun m => (hl.side m).peak)
          (fun m => (pyRound (hl.side m).duration).toNat) (fun m => (hl.side m).day.toNat) 12) := by
  unfold hourlyLoadRepresentation
  rw [daysInMonth_eq, Except.ok_bind]
  revert hc hh
  generalize decide (LeapYear year) = leap
  intro hc hh
  rw [daysList_length, daysList_sum, Int.toNat_natCast]
  have key := foldlM_pyRange_inv (f := representStep cl hl (daysList leap)) (a := 1) (b := 13)
    (s := (List.replicate (yearHours leap) 0, List.replicate (yearHours leap) 0, 0))
    (fun n s => ∃ k : ℕ, n = (k : ℤ) + 1 ∧
      s = (writeYear leap (fun m => cl.average.getD m 0) (fun m => (cl.side m).peak)
          (fun m => (pyRound (cl.side m).duration).toNat) (fun m => (cl.side m).day.toNat) k,
        writeYear leap (fun m => hl.average.getD m 0) (fun m => (hl.side m).peak)
          (fun m => (pyRound (hl.side m).duration).toNat) (fun m => (hl.side m).day.toNat) k,
        (monthStart leap (k + 1) : ℤ))) (by norm_num) ?_ ?_
  · obtain ⟨s, h1, k, h2, h3⟩ := key
    obtain rfl : k = 12 := by omega
    subst h3
    have : ((13 : ℕ) : ℤ) = 13 := rfl
    dsimp only
    rw [this, h1]
    rfl
  · rintro n s h1 h2 ⟨k, rfl, rfl⟩
    have hk : k < 12 := by omega
    refine ⟨_, ?_, k + 1, by push_cast; ring, rfl⟩
    unfold representStep
    obtain ⟨c1, c2, c3, c4⟩ := hc.full
    obtain ⟨g1, g2, g3, g4⟩ := hh.full
    rw [show ((k : ℤ) + 1) = ((k + 1 : ℕ) : ℤ) by push_cast; rfl, daysList_get leap hk, Except.ok_bind,
      getD_ok (by rw [hc.average_length]; omega) 0, Except.ok_bind,
      getD_ok (by rw [hh.average_length]; omega) 0, Except.ok_bind,
      getD_ok (by omega) 0, Except.ok_bind, getD_ok (by omega) 0, Except.ok_bind,
      getD_ok (by omega) 0, Except.ok_bind, getD_ok (by omega) 0, Except.ok_bind,
      getD_ok (by omega) 0, Except.ok_bind, getD_ok (by omega) 0, Except.ok_bind]
    dsimp only
    simp only [Except.pure_eq]
    rw [writeYear, writeYear, monthStart_succ leap (k + 1)]
    have d1 := hc.day (k + 1) (by omega) (by omega)
    have d2 := hh.day (k + 1) (by omega) (by omega)
    have d3 := hc.duration (k + 1) (by omega) (by omega)
    have d4 := hh.duration (k + 1) (by omega) (by omega)
    rw [Int.toNat_of_nonneg d1.1, Int.toNat_of_nonneg d2.1, Int.toNat_of_nonneg d3.1,
      Int.toNat_of_nonneg d4.1]
    unfold Loads.side
    push_cast
    rfl
  · refine ⟨0, by norm_num, ?_⟩
    rw [monthStart_one]
    rfl

/-- The two conditions under which a year keeps its length: the January block does not start before
the year and the December block does not end after it. -/
def YearFits [FloorRing K] (L : Loads K) : Prop :=
  ¬ ((L.side 1).day = 0 ∧ 24 < pyRound (L.side 1).duration) ∧
    (pyRound (L.side 12).duration = 0 ∨
      24 * (L.side 12).day + 12 + pyRound (L.side 12).duration / 2 ≤ 24 * 31)

theorem writeYear_fits [FloorRing K] {leap : Bool} {L : Loads K} (h : Placed leap L) (avg : ℕ → K) :
    (writeYear leap avg (fun m => (L.side m).peak) (fun m => (pyRound (L.side m).duration).toNat)
      (fun m => (L.side m).day.toNat) 12).length = yearHours leap ↔ YearFits L := by
  rw [writeYear_length_all]
  · have d1 := h.day 1 (by omega) (by omega)
    have d2 := h.day 12 (by omega) (by omega)
    have d3 := h.duration 1 (by omega) (by omega)
    have d4 := h.duration 12 (by omega) (by omega)
    unfold YearFits
    omega
  · intro m h1 h2; have := h.duration m h1 h2; omega
  · intro m h1 h2; have := h.day m h1 h2; omega

/-- C67: for the monthly decompositions of any two hourly years, the hourly representation is always
produced; each list has one value per hour of the year iff its January and December blocks fit. -/
theorem C67_year [FloorRing K] {r : Resp K} {rej ext : List K} {year : ℤ} {cl hl : Loads K}
    (hc : mkLoads r rej year = .ok cl) (hh : mkLoads r ext year = .ok hl) :
    ∃ R X, hourlyLoadRepresentation cl hl year = .ok (R, X) ∧
      (R.length = yearHours (decide (LeapYear year)) ↔ YearFits cl) ∧
      (X.length = yearHours (decide (LeapYear year)) ↔ YearFits hl) :=
  ⟨_, _, represent_eq (mkLoads_placed hc) (mkLoads_placed hh), writeYear_fits (mkLoads_placed hc) _,
    writeYear_fits (mkLoads_placed hh) _⟩

/-- C67: a December peak on day 31 lengthens the year, by its duration when that is at most a day. -/
theorem C67_december [FloorRing K] {cl hl : Loads K} {year : ℤ}
    (hc : Placed (decide (LeapYear year)) cl) (hh : Placed (decide (LeapYear year)) hl)
    (h1 : ¬ ((cl.side 1).day = 0 ∧ 24 < pyRound (cl.side 1).duration))
    (h31 : (cl.side 12).day = 31) {R X : List K}
    (h : hourlyLoadRepresentation cl hl year = .ok (R, X)) :
    (R.length : ℤ) = yearHours (decide (LeapYear year)) +
      if pyRound (cl.side 12).duration ≤ 24 then pyRound (cl.side 12).duration
      else 12 + pyRound (cl.side 12).duration / 2 := by
  rw [represent_eq hc hh] at h
  cases h
  rw [writeYear_length_dec]
  · have d4 := hc.duration 12 (by omega) (by omega)
    split_ifs <;> push_cast <;> omega
  · intro m h1 h2; have := hc.duration m h1 h2; omega
  · intro m h1 h2; have := hc.day m h1 h2; omega
  · have d1 := hc.day 1 (by omega) (by omega)
    omega
  · omega

/-- C67: content, when no peak lasts longer than a day: every hour of a month is at the average, except
for the block around noon of the day after the recorded one. -/
theorem C67_content [FloorRing K] {cl hl : Loads K} {year : ℤ}
    (hc : Placed (decide (LeapYear year)) cl) (hh : Placed (decide (LeapYear year)) hl)
    (hd : ∀ m, 1 ≤ m → m ≤ 12 → pyRound (cl.side m).duration ≤ 24 ∧ pyRound (hl.side m).duration ≤ 24)
    {R X : List K} (h : hourlyLoadRepresentation cl hl year = .ok (R, X)) :
    HasMonths (decide (LeapYear year)) R (fun m => monthShape (cl.average.getD m 0) (cl.side m).peak
      (pyRound (cl.side m).duration).toNat (cl.side m).day.toNat) ∧
    HasMonths (decide (LeapYear year)) X (fun m => monthShape (hl.average.getD m 0) (hl.side m).peak
      (pyRound (hl.side m).duration).toNat (hl.side m).day.toNat) := by
  rw [represent_eq hc hh] at h
  cases h
  constructor
  · intro m j h1 h2 hj
    refine writeYear_get ?_ ?_ 12 le_rfl m j h1 h2 hj
    · intro m h1 h2; have := (hd m h1 h2).1; omega
    · intro m h1 h2; have := hc.day m h1 h2; omega
  · intro m j h1 h2 hj
    refine writeYear_get ?_ ?_ 12 le_rfl m j h1 h2 hj
    · intro m h1 h2; have := (hd m h1 h2).2; omega
    · intro m h1 h2; have := hh.day m h1 h2; omega

/-- C67: a peak on the last day of a month does not appear in that month at all, nor (before December)
anywhere else: the following month is at its own average and peak. -/
theorem C67_lost [FloorRing K] {cl hl : Loads K} {year : ℤ}
    (hc : Placed (decide (LeapYear year)) cl) (hh : Placed (decide (LeapYear year)) hl)
    (hd : ∀ m, 1 ≤ m → m ≤ 12 → pyRound (cl.side m).duration ≤ 24 ∧ pyRound (hl.side m).duration ≤ 24)
    {R X : List K} (h : hourlyLoadRepresentation cl hl year = .ok (R, X)) {m : ℕ} (h1 : 1 ≤ m)
    (h2 : m ≤ 12) (hlast : (cl.side m).day = monthLength (decide (LeapYear year)) m) {j : ℕ}
    (hj : j < 24 * monthLength (decide (LeapYear year)) m) :
    R[monthStart (decide (LeapYear year)) m + j]? = some (cl.average.getD m 0) := by
  rw [(C67_content hc hh hd h).1 m j h1 h2 hj]
  have := hd m h1 h2
  unfold monthShape
  dsimp only
  rw [if_neg]
  omega

/-! ### examples -/

example : (syntheticLoad (List.replicate 100 (0 : ℚ)) 1 2 (3 : ℕ) (0 : ℕ) (24 : ℕ) (48 : ℕ)).length = 100 :=
  (C67_writer _ _ _ (by norm_num) (by norm_num) (by norm_num)).2 (by simp)

example : ∃ L R X, mkLoads exResp exYear 2019 = .ok L ∧ hourlyLoadRepresentation L L 2019 = .ok (R, X) := by
  obtain ⟨L, hL, -⟩ := exYear_ok
  obtain ⟨R, X, h, -⟩ := C67_year hL hL
  exact ⟨L, R, X, hL, h⟩

/-- twelve equal months, with an average -/
def exPlaced (duration : ℚ) (day : ℤ) : Loads ℚ :=
  { exLoads 1000 5 duration day with average := List.replicate 13 1 }

theorem exPlaced_placed (leap : Bool) {duration : ℚ} {day : ℤ} (h : pyRound duration = 4)
    (h0 : 0 ≤ day) (h1 : day ≤ 28) : Placed leap (exPlaced duration day) := by
  have hs : ∀ m ≤ 12, (exPlaced duration day).side m = ⟨1000, 5, duration, day⟩ :=
    fun m hm => exLoads_side _ _ _ _ hm
  refine ⟨⟨?_, ?_, ?_, ?_⟩, ?_, ?_, ?_⟩
  · exact List.length_replicate
  · exact List.length_replicate
  · exact List.length_replicate
  · exact List.length_replicate
  · exact List.length_replicate
  · intro m m1 m2
    have := (monthLength_bounds leap m1 m2).1
    rw [hs m m2]
    dsimp only
    omega
  · intro m m1 m2
    rw [hs m m2]
    dsimp only
    omega

/-- February 28: the hypotheses of C67 (lost) are met. -/
example : ∃ R X, hourlyLoadRepresentation (exPlaced 4 28) (exPlaced 4 10) 2019 = .ok (R, X) ∧
    R.length = 8760 ∧ ∀ j < 672, R[744 + j]? = some 1 := by
  have hr : pyRound (4 : ℚ) = 4 := by decide +kernel
  have hc := exPlaced_placed (decide (LeapYear 2019)) hr (show (0 : ℤ) ≤ 28 by norm_num) le_rfl
  have hh := exPlaced_placed (decide (LeapYear 2019)) hr (show (0 : ℤ) ≤ 10 by norm_num)
    (by norm_num)
  have hs : ∀ (day : ℤ), ∀ m ≤ 12, (exPlaced 4 day).side m = ⟨1000, 5, 4, day⟩ :=
    fun day m hm => exLoads_side _ _ _ _ hm
  refine ⟨_, _, represent_eq hc hh, ?_, ?_⟩
  · have := (writeYear_fits hc (fun m => (exPlaced 4 28).average.getD m 0)).2 (by
      unfold YearFits
      rw [hs _ 1 (by norm_num), hs _ 12 le_rfl, hr]
      norm_num)
    rw [this]
    decide
  · intro j hj
    have hleap : decide (LeapYear 2019) = false := by decide
    have e : monthStart (decide (LeapYear 2019)) 2 = 744 := by rw [hleap]; decide
    have e2 : monthLength (decide (LeapYear 2019)) 2 = 28 := by rw [hleap]; decide
    rw [← e, C67_lost hc hh _ (represent_eq hc hh) (m := 2) (by norm_num) (by norm_num)]
    · rfl
    · rw [hs _ 2 (by norm_num), e2]; rfl
    · rw [e2]; omega
    · intro m m1 m2
      rw [hs _ m m2, hs _ m m2, hr]; norm_num

/-! ### The theorems applied to a hundred hours and to watts -/

example := C67_block (List.replicate 100 (0 : ℚ)) 1 2 (d := 3) (day := 1) (prev := 24) (hours := 48) (by norm_num)
  (by norm_num) (j := 60) (by norm_num)
example := C67_wraps (List.replicate 100 (0 : ℚ)) 1 2 (d := 30) (day := 0) (prev := 0) (hours := 48) (by norm_num)
  (by norm_num) (by norm_num)
example := C68_values (K := ℚ) (units := "W") (scale := 1000) (Or.inl ⟨rfl, rfl⟩) 2019

end Ghedt.GL
