import Verif.Model.Office
import Verif.Lemmas.OfficeTable
import Verif.Lemmas.OfficeLast
import Verif.Props.FindScripts
import Verif.Props.Workflow

/-!
# C154: the building and the materials of the shipped examples
-/

set_option linter.unusedSectionVars false

namespace Ghedt.Office
open Real Ghedt.Design Ghedt.GHE Ghedt.Bhe Ghedt.Radial Ghedt.Whole Ghedt.Search Ghedt.Utilities Ghedt.Spec Ghedt.Network Ghedt.WholeSearch

noncomputable section

/-! ### the loads -/

/-- a number of the table, W -/
def watts (n : ℕ) : ℝ := n / 10 ^ 13

theorem watts_le {x y : ℕ} : watts x ≤ watts y ↔ x ≤ y := by
  unfold watts
  rw [div_le_div_iff_of_pos_right (by norm_num), Nat.cast_le]

theorem watts_inj {x y : ℕ} (h : watts x = watts y) : x = y := le_antisymm (watts_le.1 h.le) (watts_le.1 h.ge)

theorem split_table : ∀ (a b : List ℕ), a.length = b.length →
    (List.zipWith (fun x y => decide (x = 0 ∨ y = 0)) a b).all id = true →
    (List.zipWith (fun (x y : ℕ) => ((x : ℝ) - y) / 10 ^ 13) a b).map (fun x => max x 0) = a.map watts ∧
    (List.zipWith (fun (x y : ℕ) => ((x : ℝ) - y) / 10 ^ 13) a b).map (fun x => max (-x) 0) = b.map watts
  | [], [], _, _ => by simp
  | x :: a, y :: b, hl, h => by
    simp only [List.zipWith_cons_cons, List.all_cons, id, Bool.and_eq_true, decide_eq_true_eq] at h
    obtain ⟨h1, h2⟩ := split_table a b (by simpa using hl) h.2
    simp only [List.zipWith_cons_cons, List.map_cons]
    rw [h1, h2]
    have hx : (0 : ℝ) ≤ x / 10 ^ 13 := by positivity
    have hy : (0 : ℝ) ≤ y / 10 ^ 13 := by positivity
    rcases h.1 with rfl | rfl
    · refine ⟨?_, ?_⟩
      · congr 1
        unfold watts
        rw [max_eq_right (by rw [Nat.cast_zero, zero_sub, neg_div]; linarith), Nat.cast_zero, zero_div]
      · congr 1
        unfold watts
        rw [Nat.cast_zero, zero_sub, neg_div, neg_neg, max_eq_left hy]
    · refine ⟨?_, ?_⟩
      · congr 1
        unfold watts
        rw [Nat.cast_zero, sub_zero, max_eq_left hx]
      · congr 1
        unfold watts
        rw [Nat.cast_zero, sub_zero, max_eq_right (by linarith), zero_div]

theorem extraction_eq : (hourly.map fun x => max x 0) = Extracted.table.map watts :=
  (split_table _ _ (by rw [extracted_length, rejected_length]) one_sided).1

theorem rejection_eq : (hourly.map fun x => max (-x) 0) = Rejected.table.map watts :=
  (split_table _ _ (by rw [extracted_length, rejected_length]) one_sided).2

theorem hourly_length : hourly.length = 8760 := by
  unfold hourly
  rw [List.length_zipWith, extracted_length, rejected_length, Nat.min_self]

theorem peaksAt_of_ok {a : List ℕ} {m i P : ℕ} (h : peakOk a m i P = true) :
    PeaksAt (monthLoads false (a.map watts) m) i (watts P) := by
  unfold peakOk at h
  simp only [Bool.and_eq_true, beq_iff_eq, List.all_eq_true, decide_eq_true_eq] at h
  obtain ⟨⟨⟨⟨⟨h1, h2⟩, h3⟩, -⟩, -⟩, -⟩ := h
  rw [monthLoads_map]
  refine ⟨by rw [List.getElem?_map, h1]; rfl, fun j hj he => ?_, fun x hx => ?_⟩
  · rw [List.getElem?_map] at he
    obtain ⟨q, hq, hqP⟩ := Option.map_eq_some_iff.1 he
    refine h2 q ?_ (watts_inj hqP)
    exact List.mem_of_getElem? (i := j) (by rw [List.getElem?_take_of_lt hj, hq])
  · obtain ⟨y, hy, rfl⟩ := List.mem_map.1 hx
    exact watts_le.2 (h3 y hy)

theorem clear_of_ok {a : List ℕ} (hlen : a.length = 8760) (peaks : List (ℕ × ℕ))
    (h : (List.range 12).all (fun k => peakOk a (k + 1) (peaks.getD k (0, 0)).1 (peaks.getD k (0, 0)).2) = true) :
    ClearPeaks 100 false (a.map watts) := by
  intro m m1 m2 i P hP x hx
  rw [List.all_eq_true] at h
  have hm := h (m - 1) (List.mem_range.2 (by omega))
  rw [Nat.sub_add_cancel m1] at hm
  obtain ⟨rfl, rfl⟩ := GL.PeaksAt.unique hP (peaksAt_of_ok hm)
  generalize (peaks.getD (m - 1) (0, 0)).1 = i at *
  generalize (peaks.getD (m - 1) (0, 0)).2 = P at *
  unfold peakOk at hm
  simp only [Bool.and_eq_true, List.all_eq_true, decide_eq_true_eq] at hm
  obtain ⟨⟨⟨-, h4⟩, h5⟩, h6⟩ := hm
  obtain ⟨j, hj, hjx⟩ := List.mem_filterMap.1 hx
  rw [List.mem_range] at hj
  rw [List.length_map, List.getElem?_map] at hjx
  obtain ⟨y, hjy, rfl⟩ := Option.map_eq_some_iff.1 hjx
  have hidx : (monthStart false m + 24 * dayOf i + a.length - 24 + j) % a.length = monthStart false m + 24 * dayOf i - 24 + j := by
    rw [hlen, show monthStart false m + 24 * dayOf i + 8760 - 24 + j = monthStart false m + 24 * dayOf i - 24 + j + 8760 by omega,
      Nat.add_mod_right, Nat.mod_eq_of_lt (by omega)]
  rw [hidx] at hjy
  have := h4 y (List.mem_of_getElem? (i := j) (by rw [List.getElem?_take_of_lt hj, List.getElem?_drop, hjy]))
  rcases this with k | k
  · exact .inl (watts_le.2 k)
  · right
    have := watts_le.2 k
    unfold watts at this ⊢
    push_cast at this
    linarith

/-- The months' peaks of the rejected and the extracted heat: in `peaks` for month `m`. -/
theorem rejection_peak {m : ℕ} (m1 : 1 ≤ m) (m2 : m ≤ 12) : PeaksAt (monthLoads false (hourly.map fun x => max (-x) 0) m)
    (rejectionPeaks.getD (m - 1) (0, 0)).1 (watts (rejectionPeaks.getD (m - 1) (0, 0)).2) := by
  rw [rejection_eq]
  have h := List.all_eq_true.1 rejected_ok (m - 1) (List.mem_range.2 (by omega))
  rw [Nat.sub_add_cancel m1] at h
  exact peaksAt_of_ok h

theorem extraction_peak {m : ℕ} (m1 : 1 ≤ m) (m2 : m ≤ 12) : PeaksAt (monthLoads false (hourly.map fun x => max x 0) m)
    (extractionPeaks.getD (m - 1) (0, 0)).1 (watts (extractionPeaks.getD (m - 1) (0, 0)).2) := by
  rw [extraction_eq]
  have h := List.all_eq_true.1 extracted_ok (m - 1) (List.mem_range.2 (by omega))
  rw [Nat.sub_add_cancel m1] at h
  exact peaksAt_of_ok h

theorem heating_separated : Separated (hourly.map fun x => max x 0) := by
  rw [extraction_eq]
  exact clear_of_ok extracted_length extractionPeaks extracted_ok

theorem cooling_separated : Separated (hourly.map fun x => max (-x) 0) := by
  rw [rejection_eq]
  exact clear_of_ok rejected_length rejectionPeaks rejected_ok

/-! ### the decomposition of the loads -/

/-- C154: for every response that does not fall from hour 1 to hour 48 and is not negative at hour 1, the rejected and the
extracted heat of the shipped building (kW) can be decomposed.  Every peak lasts more than nothing and at most 48 hours;
the days to which the peaks are attributed are these (`0`: there is no heating in June to September). -/
theorem C154_loads {r : GL.Resp ℝ} {G : ℕ → ℝ} (hr : ∀ t : ℕ, 1 ≤ t → t ≤ 48 → r.g (t : ℤ) = .ok (G t)) (hk : 0 < r.twoPiK)
    (hG : ∀ t, 1 ≤ t → t < 48 → G t ≤ G (t + 1)) (h1 : 0 ≤ G 1 / r.twoPiK + r.Rb) :
    ∃ rejection extraction R E, GL.splitHeatAndCool hourly "W" = .ok (rejection, extraction) ∧
      GL.mkLoads r rejection 2019 = .ok R ∧ GL.mkLoads r extraction 2019 = .ok E ∧
      (∀ m : ℕ, 1 ≤ m → m ≤ 12 → ∃ d e, R.duration[m]? = some d ∧ 0 < d ∧ d ≤ 48 ∧ E.duration[m]? = some e ∧ 0 < e ∧ e ≤ 48) ∧
      R.peakDay.drop 1 = [31, 28, 30, 17, 30, 27, 6, 7, 7, 10, 2, 12] ∧
      E.peakDay.drop 1 = [9, 13, 23, 6, 10, 0, 0, 0, 0, 26, 22, 18] := by
  have hleap : ¬ LeapYear 2019 := by decide
  have key : ∀ (w : List ℝ) (hw : w.length = 8760) (hpos : ∀ x ∈ w, 0 ≤ x) (hs : Separated w) (days : List ℤ)
      (hdays : days.length = 12)
      (hp : ∀ m : ℕ, 1 ≤ m → m ≤ 12 → ∃ i P, PeaksAt (monthLoads false w m) i P ∧ days[m - 1]? = some (dayOf i : ℤ)),
      ∃ L, GL.mkLoads r (w.map (· / 1000)) 2019 = .ok L ∧
        (∀ m : ℕ, 1 ≤ m → m ≤ 12 → ∃ d, L.duration[m]? = some d ∧ 0 < d ∧ d ≤ 48) ∧ L.peakDay.drop 1 = days := by
    intro w hw hpos hs days hdays hp
    obtain ⟨L, hL, -, hd⟩ := GL.C58_year hr hk hG h1 (hourly := w.map (· / 1000)) (year := 2019)
      (by rw [if_neg hleap, List.length_map, hw])
      (by
        intro x hx
        obtain ⟨y, hy, rfl⟩ := List.mem_map.1 hx
        have := hpos y hy
        positivity)
      (by
        intro m m1 m2 i pk hpk x hx
        rw [decide_eq_false hleap] at hpk hx
        rw [GL.twoDays_map] at hx
        obtain ⟨q, hq, rfl⟩ := peaksAt_div hpk
        obtain ⟨y, hy, rfl⟩ := List.mem_map.1 hx
        rcases hs m m1 m2 i q hq y hy with h | h
        · left; linarith
        · right; linarith)
    refine ⟨L, hL, hd, ?_⟩
    obtain ⟨hM, -⟩ := GL.mkLoads_inv hL
    have hl : L.peakDay.length = 13 := hM.day_length
    apply List.ext_getElem?
    intro k
    rcases Nat.lt_or_ge k 12 with hk12 | hk12
    · obtain ⟨t, p', v, d, w', -, -, -, e4, -, f, -⟩ := hM.month (k + 1) (by omega) (by omega)
      obtain ⟨i, P, hP, hday⟩ := hp (k + 1) (by omega) (by omega)
      rw [Nat.add_sub_cancel] at hday
      rw [List.getElem?_drop, Nat.add_comm, e4, hday]
      obtain ⟨j, d2, d3, d5⟩ := f.day_eq
      rw [decide_eq_false hleap] at d2 d3 f
      obtain ⟨q, hq, -⟩ := peaksAt_div ⟨d2, d3, f.peak_max⟩
      obtain ⟨rfl, -⟩ := GL.PeaksAt.unique hq hP
      rw [d5, GL.ceil_dayOf]
    · rw [List.getElem?_eq_none (by rw [List.length_drop, hl]; omega), List.getElem?_eq_none (by omega)]
  obtain ⟨R, r1, r2, r3⟩ := key (hourly.map fun x => max (-x) 0) (by rw [List.length_map, hourly_length])
    (fun x hx => by
      obtain ⟨y, -, rfl⟩ := List.mem_map.1 hx
      exact le_max_right _ _) cooling_separated [31, 28, 30, 17, 30, 27, 6, 7, 7, 10, 2, 12] rfl
    (fun m m1 m2 => ⟨_, _, rejection_peak m1 m2, by interval_cases m <;> rfl⟩)
  obtain ⟨E, e1, e2, e3⟩ := key (hourly.map fun x => max x 0) (by rw [List.length_map, hourly_length])
    (fun x hx => by
      obtain ⟨y, -, rfl⟩ := List.mem_map.1 hx
      exact le_max_right _ _) heating_separated [9, 13, 23, 6, 10, 0, 0, 0, 0, 26, 22, 18] rfl
    (fun m m1 m2 => ⟨_, _, extraction_peak m1 m2, by interval_cases m <;> rfl⟩)
  refine ⟨_, _, R, E, split_eq hourly, r1, e1, fun m m1 m2 => ?_, r3, e3⟩
  obtain ⟨d, d1, d2, d3⟩ := r2 m m1 m2
  obtain ⟨e, f1, f2, f3⟩ := e2 m m1 m2
  exact ⟨d, e, d1, d2, d3, f1, f2, f3⟩

/-- C154: the first of the conditions under which C104 orders the times of the hybrid load is not met by the shipped building: the
peaks of rejection in January and February are attributed to the last day of the month. -/
theorem C154_last_day : ¬ PeaksPlaced hourly := by
  intro h
  have hp := rejection_peak (m := 1) le_rfl (by norm_num)
  have h0 := ((h 1 le_rfl (by norm_num)).1 _ _ hp (by
    show (0 : ℝ) < (1016546456000000000 : ℕ) / 10 ^ 13
    norm_num)).2.1
  have hl : (monthLoads false (hourly.map fun x => max (-x) 0) 1).length = 24 * monthLength false 1 :=
    GL.monthLoads_length (by rw [List.length_map, hourly_length]; rfl) (by norm_num)
  rw [hl] at h0
  exact absurd h0 (by decide)

theorem sum_window {g : ℕ → ℝ} (w : List ℕ) : ∀ j, j ≤ w.length →
    ∑ k ∈ Finset.range j, g (w.getD k 0) = ((w.take j).map g).sum
  | 0, _ => by simp
  | j + 1, h => by
    rw [Finset.sum_range_succ, sum_window w j (by omega), List.take_succ, List.map_append, List.sum_append,
      List.getD_eq_getElem?_getD, List.getElem?_eq_getElem (by omega : j < w.length)]
    simp

theorem sum_map_watts (w : List ℕ) : (w.map watts).sum = watts w.sum := by
  induction w with
  | nil => simp [watts]
  | cons x w ih =>
    rw [List.map_cons, List.sum_cons, List.sum_cons, ih]
    unfold watts
    push_cast
    ring

theorem cast_sum_mul (w : List ℕ) (g : ℕ → ℕ) (c : ℝ) :
    (w.map fun x => (g x : ℝ) / c).sum = ((w.map g).sum : ℕ) / c := by
  induction w with
  | nil => simp
  | cons x w ih =>
    rw [List.map_cons, List.sum_cons, List.map_cons, List.sum_cons, ih]
    push_cast
    ring

theorem cast_tsub (a b : ℕ) : ((a - b : ℕ) : ℝ) = max ((a : ℝ) - b) 0 := by
  rcases le_total b a with h | h
  · rw [Nat.cast_sub h, max_eq_left (by have : (b : ℝ) ≤ a := by exact_mod_cast h
                                        linarith)]
  · rw [Nat.sub_eq_zero_of_le h, max_eq_right (by have : (a : ℝ) ≤ b := by exact_mod_cast h
                                                  linarith), Nat.cast_zero]

theorem lasting_of_ok {a : List ℕ} (hlen : a.length = 8760) {m i P : ℕ} (m2 : m ≤ 12) (h : peakOk a m i P = true)
    (hl : lastOk a m i P = true) : Lasting (a.map watts) m := by
  intro i' P' hP hpos
  obtain ⟨rfl, rfl⟩ := GL.PeaksAt.unique hP (peaksAt_of_ok h)
  unfold peakOk at h
  simp only [Bool.and_eq_true, List.all_eq_true, decide_eq_true_eq] at h
  obtain ⟨⟨-, h5⟩, h6⟩ := h
  have hP0 : P ≠ 0 := by
    rintro rfl
    simp [watts] at hpos
  unfold lastOk at hl
  simp only [Bool.or_eq_true, Bool.and_eq_true, List.all_eq_true, decide_eq_true_eq, hP0, false_or] at hl
  obtain ⟨⟨⟨⟨⟨⟨d1, d2⟩, d3⟩, d4⟩, d5⟩, d6⟩, d7⟩ := hl
  generalize hw : (a.drop (monthStart false m + 24 * dayOf i' - 24)).take 48 = w at *
  generalize hA : (monthLoads false a m).sum = A at *
  have hN : 0 < 24 * monthLength false m := by
    rcases Nat.eq_zero_or_pos (24 * monthLength false m) with h0 | h0
    · rw [h0] at d2; omega
    · exact h0
  have hll : (monthLoads false a m).length = 24 * monthLength false m := by
    have := GL.monthLoads_length (hourly := a.map watts) (leap := false) (by rw [List.length_map, hlen]; rfl) m2
    rwa [monthLoads_map, List.length_map] at this
  have hav : averageOf (monthLoads false (a.map watts) m) = watts A / (24 * monthLength false m : ℕ) := by
    rw [monthLoads_map]
    unfold averageOf
    rw [sum_map_watts, hA, List.length_map, hll]
  have hlook : ∀ k < 48, lookedAt (a.map watts) m i' k = watts (w.getD k 0) := by
    intro k hk
    unfold lookedAt
    rw [List.length_map, hlen, show monthStart false m + 24 * dayOf i' + 8760 - 24 + k =
      monthStart false m + 24 * dayOf i' - 24 + k + 8760 by omega, Nat.add_mod_right, Nat.mod_eq_of_lt (by omega), ← hw,
      List.getD_eq_getElem?_getD, List.getD_eq_getElem?_getD, List.getElem?_take_of_lt hk, List.getElem?_drop,
      List.getElem?_map]
    rcases a[monthStart false m + 24 * dayOf i' - 24 + k]? with - | x <;> simp [watts]
  rw [hav]
  generalize 24 * monthLength false m = N at *
  have hN' : (0 : ℝ) < N := by exact_mod_cast hN
  have hd2 : (A : ℝ) < N * P := by exact_mod_cast d2
  have hgap : watts P * (watts P - watts A / N) = ((P * (N * P - A) : ℕ) : ℝ) / (N * 10 ^ 26) := by
    rw [Nat.cast_mul, cast_tsub, Nat.cast_mul, max_eq_left (by linarith)]
    unfold watts
    field_simp
  have hc : (0 : ℝ) < N * 10 ^ 26 := by positivity
  have below : ∀ x : ℕ, max (watts A / N - watts x) 0 * watts x = (((A - N * x) * x : ℕ) : ℝ) / (N * 10 ^ 26) := by
    intro x
    have e : watts A / N - watts x = ((A : ℝ) - N * x) / (N * 10 ^ 13) := by
      unfold watts
      field_simp
    rw [Nat.cast_mul, cast_tsub, Nat.cast_mul, e, ← zero_div ((N : ℝ) * 10 ^ 13), max_div_div_right (by positivity)]
    unfold watts
    field_simp
    ring_nf
  have above : ∀ x : ℕ, max (watts x - watts A / N) 0 * watts x = (((N * x - A) * x : ℕ) : ℝ) / (N * 10 ^ 26) := by
    intro x
    have e : watts x - watts A / N = ((N : ℝ) * x - A) / (N * 10 ^ 13) := by
      unfold watts
      field_simp
    rw [Nat.cast_mul, cast_tsub, Nat.cast_mul, e, ← zero_div ((N : ℝ) * 10 ^ 13), max_div_div_right (by positivity)]
    unfold watts
    field_simp
    ring_nf
  refine ⟨d1, ?_, ?_, ?_, d7.imp_right fun d7 => ?_⟩
  · unfold watts
    rw [div_div, div_lt_div_iff₀ (by positivity) (by positivity)]
    nlinarith
  · intro k hk
    rw [hlook k hk, watts_le, List.getD_eq_getElem?_getD, List.getElem?_eq_getElem (by omega : k < w.length)]
    exact d3 _ (List.getElem_mem _)
  · rw [Finset.sum_congr rfl (g := fun k => (fun x : ℕ => (((A - N * x) * x : ℕ) : ℝ) / (N * 10 ^ 26)) (w.getD k 0))
      (fun k hk => by rw [hlook k (by rw [Finset.mem_range] at hk; omega), below]),
      sum_window (g := fun x : ℕ => (((A - N * x) * x : ℕ) : ℝ) / (N * 10 ^ 26)) w _ (by rw [d4]; exact d5),
      cast_sum_mul _ (fun x => (A - N * x) * x), hgap, mul_div_assoc', div_le_div_iff_of_pos_right hc]
    exact_mod_cast d6
  · rw [Finset.sum_congr rfl (g := fun k => (fun x : ℕ => (((N * x - A) * x : ℕ) : ℝ) / (N * 10 ^ 26)) (w.getD k 0))
      (fun k hk => by rw [hlook k (by rw [Finset.mem_range] at hk; omega), above]),
      sum_window (g := fun x : ℕ => (((N * x - A) * x : ℕ) : ℝ) / (N * 10 ^ 26)) w _ (by rw [d4]),
      cast_sum_mul _ (fun x => (N * x - A) * x), hgap, mul_div_assoc', mul_div_assoc', div_le_div_iff_of_pos_right hc,
      List.take_of_length_le (by omega)]
    exact_mod_cast d7

/-- C154: the peaks of the shipped building last, but not too long: the two on a last day are within the bound of `Lasting`,
and the peaks of rejection and extraction of a month are never on neighbouring days. -/
theorem C154_lasting : PeaksLast hourly := by
  intro m m1 m2
  have hr := List.all_eq_true.1 rejected_ok (m - 1) (List.mem_range.2 (by omega))
  have hr' := List.all_eq_true.1 rejected_last (m - 1) (List.mem_range.2 (by omega))
  have he := List.all_eq_true.1 extracted_ok (m - 1) (List.mem_range.2 (by omega))
  have he' := List.all_eq_true.1 extracted_last (m - 1) (List.mem_range.2 (by omega))
  rw [Nat.sub_add_cancel m1] at hr hr' he he'
  refine ⟨?_, ?_, ?_⟩
  · rw [rejection_eq]
    exact lasting_of_ok rejected_length m2 hr hr'
  · rw [extraction_eq]
    exact lasting_of_ok extracted_length m2 he he'
  · intro i P j Q hP hQ hP0 hQ0
    obtain ⟨rfl, rfl⟩ := GL.PeaksAt.unique hP (rejection_peak m1 m2)
    obtain ⟨rfl, rfl⟩ := GL.PeaksAt.unique hQ (extraction_peak m1 m2)
    have hQ0 : (extractionPeaks.getD (m - 1) (0, 0)).2 ≠ 0 := by
      intro h0
      rw [h0] at hQ0
      simp [watts] at hQ0
    revert hQ0
    clear * - m1 m2
    interval_cases m <;> decide

/-! ### the materials -/

/-- What is asked of `pygfunction` and `brentq` (and of the fluid it makes). -/
structure LibraryFine (world : Problem) : Prop where
  fluid : 0 < world.media.fluid.rho ∧ 0 < world.media.fluid.cp
  correlations : Correlations world.ext world.media.fluid
  curves : ∃ lib r, world.gf = liveCurve world.ext lib eskilsonLogTimes {} ∧ Network.Answers lib ∧
    lib.ratios 8 (2 / 100) = .ok r
  brent : ∀ lo hi, lo ≤ hi → Bracketed lo hi (world.brent lo hi)

/-- the three exchangers of the scripts -/
theorem pipes_ok : ∃ h1 h2 h3, single = .ok h1 ∧ double = .ok h2 ∧ coaxial = .ok h3 ∧
    ∀ h ∈ [h1, h2, h3], PipesFit (75 / 1000) h := by
  obtain ⟨p1, hp1, -⟩ := C75_circle shank rOut 1 (by norm_num)
  obtain ⟨p2, hp2, l2, -⟩ := C75_circle shank rOut 2 (by norm_num)
  have hs1 : (1 : ℝ) ≤ √2 := Real.one_le_sqrt.2 (by norm_num)
  have hs2 : √2 < 2 := by
    rw [Real.sqrt_lt' (by norm_num)]
    norm_num
  have e1 : single = .ok (.single ⟨p1, rIn, rOut, shank, 1 / 10 ^ 6, 4 / 10, 1542 * 1000⟩) := by
    unfold single
    rw [show (1 : ℤ) = ((1 : ℕ) : ℤ) from rfl, hp1]; rfl
  have e2 : double = .ok (.multiple ⟨p2, rIn, rOut, shank, 1 / 10 ^ 6, 4 / 10, 1542 * 1000⟩) := by
    unfold double
    rw [show (2 : ℤ) = ((2 : ℕ) : ℤ) from rfl, hp2]; rfl
  refine ⟨_, _, _, e1, e2, rfl, ?_⟩
  intro h hh
  simp only [List.mem_cons, List.not_mem_nil, or_false] at hh
  rcases hh with rfl | rfl | rfl
  · refine ⟨?_, ?_, ?_, ?_, ?_, ?_⟩ <;> simp only [rIn, rOut] <;> norm_num <;> linarith
  · refine ⟨?_, ?_, ?_, ?_, ?_, ?_, ?_⟩
    · show 2 ≤ p2.length
      omega
    · simp only [rIn]; norm_num
    · simp only [rIn, rOut]; norm_num
    · simp only [rIn, rOut]; norm_num; linarith
    · show ((p2.length / 2 : ℕ) : ℝ) * rOut ^ 2 ≤ 1
      rw [l2]
      simp only [rOut]; norm_num
    · norm_num
    · norm_num
  · refine ⟨?_, ?_, ?_, ?_, ?_, ?_, ?_, ?_⟩ <;> norm_num
    linarith

/-- C154: the pipes of the scripts' single and double U-tube lie inside the borehole and do not overlap. -/
theorem C154_pipes : ∀ n : ℕ, n = 1 ∨ n = 2 → ∃ pos, placePipes shank rOut n = .ok pos ∧ pos.length = 2 * n ∧
    (∀ p ∈ pos, distSq p (0, 0) ≤ (75 / 1000 - rOut) ^ 2) ∧ pos.Pairwise (fun p q => (2 * rOut) ^ 2 ≤ distSq p q) := by
  intro n hn
  have h0 : 0 < n := by omega
  obtain ⟨pos, hp, hl, hc⟩ := C75_circle shank rOut n h0
  obtain ⟨pos', hp', hd⟩ := C75_disjoint shank rOut n h0 (by norm_num [rOut]) (by norm_num [shank])
  rw [hp] at hp'
  cases hp'
  refine ⟨pos, hp, hl, fun p hpp => ?_, hd.2 ?_⟩
  · rw [hc p hpp]
    norm_num [shank, rOut]
  · rcases hn with rfl | rfl
    · rw [Nat.cast_one, mul_one, Real.sin_pi_div_two]
      norm_num [shank, rOut]
    · rw [show π / (2 * ((2 : ℕ) : ℝ)) = π / 4 by norm_num, Real.sin_pi_div_four]
      have : (1 : ℝ) ≤ √2 := Real.one_le_sqrt.2 (by norm_num)
      simp only [shank, rOut]
      norm_num
      linarith

/-- C154: whatever the fluid and the external code, provided they are fine, the arguments of the scripts are sensible in the
sense of C105, for each of the three exchangers. -/
theorem C154_sensible {world : Problem} (hw : LibraryFine world) : ∃ h1 h2 h3, single = .ok h1 ∧ double = .ok h2 ∧
    coaxial = .ok h3 ∧ ∀ h ∈ [h1, h2, h3], Sensible (problem world h) := by
  obtain ⟨h1, h2, h3, e1, e2, e3, hp⟩ := pipes_ok
  refine ⟨h1, h2, h3, e1, e2, e3, fun h hh => ?_⟩
  refine ⟨.inl rfl, ?_, ⟨?_, ?_⟩, hp h hh, hw.fluid, ⟨?_, ?_⟩, ⟨?_, ?_⟩, hourly_length, heating_separated, cooling_separated,
    ⟨?_, ?_⟩, hw.correlations, hw.curves, hw.brent⟩
  all_goals (unfold problem; norm_num)

theorem exp_bounds : (2034683688 / 10 ^ 13 : ℝ) < exp (-(85 / 10)) ∧ exp (-(85 / 10)) < 2034683692 / 10 ^ 13 := by
  have hp := exp_pos (-(85 / 10 : ℝ))
  have hq : exp (-(85 / 10)) ^ 2 * exp 1 ^ 17 = 1 := by
    rw [← exp_nat_mul, ← exp_nat_mul, ← exp_add]
    norm_num
  have h1 := Real.exp_one_gt_d9
  have h2 := Real.exp_one_lt_d9
  have l : (2.7182818283 : ℝ) ^ 17 ≤ exp 1 ^ 17 := pow_le_pow_left₀ (by norm_num) h1.le 17
  have u : exp 1 ^ 17 ≤ (2.7182818286 : ℝ) ^ 17 := pow_le_pow_left₀ (exp_pos 1).le h2.le 17
  generalize exp 1 ^ 17 = E at *
  generalize exp (-(85 / 10 : ℝ)) = y at *
  constructor
  · by_contra hn
    push Not at hn
    have : y ^ 2 ≤ (2034683688 / 10 ^ 13) ^ 2 := pow_le_pow_left₀ hp.le hn 2
    have : y ^ 2 * E ≤ (2034683688 / 10 ^ 13) ^ 2 * (2.7182818286 : ℝ) ^ 17 :=
      mul_le_mul this u (by positivity) (by positivity)
    rw [hq] at this
    norm_num at this
  · by_contra hn
    push Not at hn
    have : (2034683692 / 10 ^ 13 : ℝ) ^ 2 ≤ y ^ 2 := pow_le_pow_left₀ (by norm_num) hn 2
    have : (2034683692 / 10 ^ 13 : ℝ) ^ 2 * (2.7182818283 : ℝ) ^ 17 ≤ y ^ 2 * E :=
      mul_le_mul this l (by positivity) (by positivity)
    rw [hq] at this
    norm_num at this

theorem soilTime_eq {p : Problem} (hp : p.media.soil = ⟨2, 2343493 / 1000 * 1000, 183 / 10⟩) (H : ℝ) :
    soilTime p H = H ^ 2 * (2343493 / 18) := by
  unfold soilTime
  rw [hp]
  ring

theorem height_fine {p : Problem} (hp : p.media.soil = ⟨2, 2343493 / 1000 * 1000, 183 / 10⟩) (hfuel : 4100 ≤ p.fuel) {H : ℝ}
    (hH : H = 60 ∨ H = 96 ∨ H = 135) : HeightFine p H := by
  obtain ⟨e1, e2⟩ := exp_bounds
  have hfuel' : (4100 : ℝ) ≤ p.fuel := by exact_mod_cast hfuel
  have he : exp (-(86 / 10 : ℝ)) ≤ exp (-(85 / 10)) := exp_le_exp.2 (by norm_num)
  have hT := soilTime_eq hp H
  have h0 : 0 < H := by rcases hH with rfl | rfl | rfl <;> norm_num
  have hle : H ≤ 135 := by rcases hH with rfl | rfl | rfl <;> norm_num
  have hT0 : 0 ≤ soilTime p H := by rw [hT]; positivity
  refine ⟨h0, ?_, ?_, ?_⟩
  · have hb : soilTime p H ≤ 135 ^ 2 * (2343493 / 18) := by
      rw [hT]
      have : H ^ 2 ≤ 135 ^ 2 := pow_le_pow_left₀ h0.le hle 2
      linarith
    have h1 : soilTime p H * exp (-(86 / 10)) ≤ 135 ^ 2 * (2343493 / 18) * (2034683692 / 10 ^ 13) :=
      mul_le_mul hb (he.trans e2.le) (exp_pos _).le (by norm_num)
    have h2 : max (soilTime p H * exp (-(86 / 10))) (49 * 3600) ≤ 482788 := by
      refine max_le (h1.trans ?_) ?_ <;> norm_num
    linarith
  · rw [hT]
    rcases hH with rfl | rfl | rfl <;> norm_num at e1 ⊢ <;> linarith
  · intro k hk
    rw [hT] at hk
    generalize exp (-(85 / 10 : ℝ)) = y at *
    rcases hH with rfl | rfl | rfl
    · rcases Nat.lt_or_ge k 795 with h | h
      · have : (k : ℝ) ≤ 794 := by exact_mod_cast Nat.lt_succ_iff.1 h
        norm_num at hk e1; linarith
      · have : (795 : ℝ) ≤ k := by exact_mod_cast h
        norm_num at hk e2; linarith
    · rcases Nat.lt_or_ge k 2035 with h | h
      · have : (k : ℝ) ≤ 2034 := by exact_mod_cast Nat.lt_succ_iff.1 h
        norm_num at hk e1; linarith
      · have : (2035 : ℝ) ≤ k := by exact_mod_cast h
        norm_num at hk e2; linarith
    · rcases Nat.lt_or_ge k 4024 with h | h
      · have : (k : ℝ) ≤ 4023 := by exact_mod_cast Nat.lt_succ_iff.1 h
        norm_num at hk e1; linarith
      · have : (4024 : ℝ) ≤ k := by exact_mod_cast h
        norm_num at hk e2; linarith

/-- One of the exchangers of the scripts. -/
def Shipped (h : Hardware) : Prop := single = .ok h ∨ double = .ok h ∨ coaxial = .ok h

theorem sensible_of_shipped {world : Problem} (hw : LibraryFine world) {h : Hardware} (hh : Shipped h) :
    Sensible (problem world h) := by
  obtain ⟨h1, h2, h3, e1, e2, e3, hs⟩ := C154_sensible hw
  rcases hh with e | e | e
  · rw [e1] at e; cases e
    exact hs _ (by simp)
  · rw [e2] at e; cases e
    exact hs _ (by simp)
  · rw [e3] at e; cases e
    exact hs _ (by simp)

/-- C154: at the height of the scripts' borehole and at both limits of the height, the exchanger of every field of different
boreholes can be made, for each of the three exchangers: nothing in the numbers of the scripts makes a constructor fail.  The
hybrid load ends after 20 years of 8760 hours, and its times are at least a millionth of an hour apart. -/
theorem C154_made {world : Problem} (hw : LibraryFine world) (hfuel : 4100 ≤ world.fuel) {h : Hardware} (hh : Shipped h)
    {f : Field} (hf : f ≠ []) (hd : f.Nodup) {H : ℝ} (hH : H = 60 ∨ H = 96 ∨ H = 135) (ht : TextFine (problem world h) f H)
    (hc : Converts (problem world h) f H) :
    ∃ x, fresh (problem world h) f H = .ok x ∧ x.env.db.locations = f ∧ x.env.hourly = hourly ∧
      x.env.load.length = x.env.hour.length ∧ x.env.hour.getLast? = some (20 * 8760) ∧
      (0 :: x.env.hour.drop 2).Pairwise (fun u v => 1 / 1000000 ≤ v - u) := by
  obtain ⟨bhe, s, hu, -⟩ := C105_usable (sensible_of_shipped hw hh) hf hd (height_fine (p := problem world h) rfl hfuel hH) ht hc
  obtain ⟨x, hx, h1, -, -, -, -, -, -, -, -, -, -, h2, h3, h4⟩ := C95_made hu
  refine ⟨x, hx, h1, h2, h3, ?_, C104_ends hu C154_lasting x hx⟩
  rw [h4]
  have : hoursOf (problem world h).endMonth.toNat = 175200 := by
    show hoursOf 240 = 175200
    decide +kernel
  rw [this]
  norm_num

/-- The problem of the scripts with that simulation method. -/
def withMethod (world : Problem) (h : Hardware) (method : String) : Problem := { problem world h with method := method }

/-- The numbers naming the g-functions of the candidates are read back as written, and the exchangers have equivalents. -/
def Handled (world : Problem) (h : Hardware) (candidates : List Field) : Prop :=
  ∀ f ∈ candidates, ∀ H ∈ [96, 60, 135], TextFine (problem world h) f H ∧ Converts (problem world h) f H

/-- the 20 years end before the long-time curve does, whichever the method -/
theorem period_fine {world : Problem} {h : Hardware} {method : String} (hm : method = "hybrid" ∨ method = "hourly") :
    ∀ H, 60 ≤ H → PeriodFine (withMethod world h method) H := by
  intro H hH
  have hh : hoursOf (withMethod world h method).endMonth.toNat = 175200 := by
    show hoursOf 240 = 175200
    decide +kernel
  suffices key : 3600 * (8760 * (20 : ℝ)) ≤ soilTime (withMethod world h method) H * exp (3003 / 1000) by
    rcases hm with rfl | rfl
    · refine .inr ⟨rfl, .inr C154_lasting, ?_⟩
      rw [hh]
      refine le_trans ?_ key
      norm_num
    · exact .inl ⟨rfl, 20, by norm_num, rfl, by exact_mod_cast key⟩
  rw [soilTime_eq (p := withMethod world h method) rfl]
  have h1 : (4 : ℝ) ≤ exp (3003 / 1000) := le_trans (by norm_num) (add_one_le_exp _)
  have h2 : (60 : ℝ) ^ 2 ≤ H ^ 2 := pow_le_pow_left₀ (by norm_num) hH 2
  have h3 : (60 : ℝ) ^ 2 * (2343493 / 18) * 4 ≤ H ^ 2 * (2343493 / 18) * exp (3003 / 1000) :=
    mul_le_mul (by linarith) h1 (by norm_num) (by positivity)
  refine le_trans ?_ h3
  norm_num

theorem designable {world : Problem} (hw : LibraryFine world) (hfuel : 4100 ≤ world.fuel) {h : Hardware} (hh : Shipped h)
    {candidates : List Field} (hc : Handled world h candidates) {method : String} (hm : method = "hybrid" ∨ method = "hourly") :
    Designable (withMethod world h method) candidates := by
  have hs := sensible_of_shipped hw hh
  have hfine : ∀ H, H = 60 ∨ H = 96 ∨ H = 135 → HeightFine (withMethod world h method) H := fun H hH =>
    height_fine (p := withMethod world h method) rfl hfuel hH
  have hper := period_fine (world := world) (h := h) hm
  exact ⟨⟨hs.flow, hs.volume, hs.radius, hs.pipes, hs.fluid, hs.grout, hs.soil, hs.year, hs.heating, hs.cooling, hs.months,
    hs.correlations, hs.curves, hs.brent⟩, ⟨hfine _ (.inr (.inl rfl)), hfine _ (.inl rfl), hfine _ (.inr (.inr rfl))⟩,
    ⟨hper _ (by show (60 : ℝ) ≤ 60; norm_num), hper _ (by show (60 : ℝ) ≤ 135; norm_num)⟩,
    fun f hf H hH => (hc f hf H hH).1, fun f hf H hH => (hc f hf H hH).2⟩

/-- C154: with either simulation method (the scripts use the hybrid one), `find_design` in the land of each script ends as C107 says,
whichever of the three exchangers is used: for the shipped building no condition on the loads, the materials or the land is left. -/
theorem C154_design {world : Problem} (hw : LibraryFine world) (hfuel : 4100 ≤ world.fuel) {h : Hardware} (hh : Shipped h)
    {method : String} (hm : method = "hybrid" ∨ method = "hourly") (fuel : ℕ) (hf : 40 ≤ fuel) :
    (∃ d fl, designInit fuel FindScripts.nearSquare.constraints "near-square" = .ok (.flat d) ∧ d.getLast? = some fl ∧
      (Handled world h d → FlatOutcome (withMethod world h method) d [(0, 0)] fl
        (design (withMethod world h method) fuel FindScripts.nearSquare.constraints "near-square" {}).1)) ∧
    (∃ d fl, designInit fuel FindScripts.rectangle.constraints "rectangle" = .ok (.flat d) ∧ d.getLast? = some fl ∧
      (Handled world h d → FlatOutcome (withMethod world h method) d [(0, 0)] fl
        (design (withMethod world h method) fuel FindScripts.rectangle.constraints "rectangle" {}).1)) ∧
    (∃ n dl fl, designInit fuel FindScripts.biRectangle.constraints "bi-rectangle" = .ok (.nested n) ∧
      n.getLast? = some dl ∧ dl.getLast? = some fl ∧ fl.length = 180 ∧
      (Handled world h n.flatten → NestedOutcome (withMethod world h method) n [(0, 0)] fl
        (design (withMethod world h method) fuel FindScripts.biRectangle.constraints "bi-rectangle" {}).1)) ∧
    ∃ n dl fl, designInit fuel FindScripts.biZoned.constraints "bi-zoned" = .ok (.nested n) ∧
      n.getLast? = some dl ∧ dl.getLast? = some fl ∧ fl.length = 180 ∧
      (Handled world h n.flatten → ZonedOutcome (withMethod world h method) n [(0, 0)] fl
        (design (withMethod world h method) fuel FindScripts.biZoned.constraints "bi-zoned" {}).1) := by
  have f1 : ⌊(85 : ℝ) / (445 / 100) + 1⌋ = 20 := by rw [Int.floor_eq_iff]; norm_num
  have f2 : ⌊(365 / 10 : ℝ) / (445 / 100) + 1⌋ = 9 := by rw [Int.floor_eq_iff]; norm_num
  have g1 : ⌈(85 : ℝ) / 10 + 1⌉ ≤ ⌊(85 : ℝ) / (445 / 100) + 1⌋ := by rw [f1, Int.ceil_le]; norm_num
  have g2 : ⌈(365 / 10 : ℝ) / 12 + 1⌉ ≤ ⌊(365 / 10 : ℝ) / (445 / 100) + 1⌋ := by rw [f2, Int.ceil_le]; norm_num
  refine ⟨?_, ?_, ?_, ?_⟩
  · obtain ⟨d, fl, h1, h2, -, h3⟩ := C107_nearSquare (p := withMethod world h method) fuel FindScripts.nearSquare.constraints
      (L := lengthOfSide 32 5) (B := 5) (by norm_num [lengthOfSide]) (by norm_num) rfl rfl
    exact ⟨d, fl, h1, h2, fun hc => h3 (designable hw hfuel hh hc hm)⟩
  · obtain ⟨d, fl, h1, h2, -, h3⟩ := (C107_rectangle (p := withMethod world h method) fuel FindScripts.rectangle.constraints
      (X := 85) (Y := 365 / 10) (Bmin := 3) (BX := 10) (by norm_num) (by norm_num) (by norm_num) (by norm_num) rfl rfl rfl
      rfl).1 ⟨10, by rw [max_eq_left (by norm_num)]; norm_num, by rw [max_eq_left (by norm_num)]; norm_num⟩
    exact ⟨d, fl, h1, h2, fun hc => h3 (designable hw hfuel hh hc hm)⟩
  · obtain ⟨n, dl, fl, h1, h2, h3, h4, h5⟩ := (C107_biRectangle (p := withMethod world h method) fuel FindScripts.biRectangle.constraints
      (X := 85) (Y := 365 / 10) (Bmin := 445 / 100) (BX := 10) (BY := 12) (by norm_num) (by norm_num) (by norm_num)
      (by norm_num) (by norm_num) rfl rfl rfl rfl rfl).1 g1 g2
    rw [f1, f2] at h4
    exact ⟨n, dl, fl, h1, h2, h3, by omega, fun hc => h5 (designable hw hfuel hh hc hm)⟩
  · obtain ⟨n, dl, fl, h1, h2, h3, h4, h5⟩ := (C107_biZoned (p := withMethod world h method) fuel FindScripts.biZoned.constraints
      (X := 85) (Y := 365 / 10) (Bmin := 445 / 100) (BX := 10) (BY := 12) (by norm_num) (by norm_num) (by norm_num)
      (by norm_num) (by norm_num) rfl rfl rfl rfl rfl (by rw [f1, f2]; omega)).1 g1 g2 (by norm_num) (by norm_num)
    rw [f1, f2] at h4
    exact ⟨n, dl, fl, h1, h2, h3, by omega, fun hc => h5 (designable hw hfuel hh hc hm)⟩

/-! ### the conditions are met -/

/-- For every list of candidates and of heights there is a fine library that reads back the numbers naming their g-functions, and
that finds the equivalents of the scripts' single U-tube. -/
theorem library_reads (candidates : List Field) (heights : List ℝ) : ∃ world, LibraryFine world ∧ 4100 ≤ world.fuel ∧
    (world.spl = exNet.spl ∧ world.brent = exNet.brent) ∧ ∀ h, single = .ok h → ∀ f ∈ candidates,
      (∀ H ∈ heights, TextFine (problem world h) f H) ∧ ∀ H, Converts (problem world h) f H := by
  let numbers : List ℝ := heights ++ [75 / 1000, 2] ++ candidates.filterMap fun f => (boreholeSpacing (75 / 1000 : ℝ) f).toOption
  obtain ⟨fmt, toFloat, hround⟩ := GF.roundTrip_exists numbers
  refine ⟨{ exNet with fmt := fmt, toFloat := toFloat }, ⟨exNet_sensible.fluid, exNet_sensible.correlations, exNet_sensible.curves,
    exNet_sensible.brent⟩, by show 4100 ≤ 10 ^ 9; norm_num, ⟨rfl, rfl⟩, fun h hh f hf => ⟨fun H hH => ?_, fun H => ?_⟩⟩
  · intro B hB x hx
    apply hround
    have hx' : x = B ∨ x = H ∨ x = 75 / 1000 ∨ x = 2 := by
      have hx : x ∈ [B, H, (75 / 1000 : ℝ), 2] := hx
      simpa using hx
    rcases hx' with rfl | rfl | rfl | rfl
    · refine List.mem_append_right _ (List.mem_filterMap.2 ⟨f, hf, ?_⟩)
      have hB : boreholeSpacing (75 / 1000 : ℝ) f = .ok x := hB
      rw [hB]
      rfl
    · exact List.mem_append_left _ (List.mem_append_left _ hH)
    · exact List.mem_append_left _ (by simp)
    · exact List.mem_append_left _ (by simp)
  · refine converts_exact exSolver_exact fun bhe hb => ?_
    obtain ⟨p1, hp1, -⟩ := C75_circle shank rOut 1 (by norm_num)
    have e1 : single = .ok (.single ⟨p1, rIn, rOut, shank, 1 / 10 ^ 6, 4 / 10, 1542 * 1000⟩) := by
      unfold single
      rw [show (1 : ℤ) = ((1 : ℕ) : ℤ) from rfl, hp1]; rfl
    rw [e1] at hh
    cases hh
    cases hb
    exact ⟨_, rfl⟩

/-- For every list of candidates there is a fine library that handles the scripts' single U-tube in each of them. -/
theorem library_exists (candidates : List Field) : ∃ world, LibraryFine world ∧ 4100 ≤ world.fuel ∧
    ∀ h, single = .ok h → Handled world h candidates := by
  obtain ⟨world, h1, h2, -, h3⟩ := library_reads candidates [96, 60, 135]
  exact ⟨world, h1, h2, fun h hh f hf H hH => ⟨(h3 h hh f hf).1 H hH, (h3 h hh f hf).2 H⟩⟩

/-- C154_made applies: one borehole of 96 m -/
example : ∃ world h x, single = .ok h ∧ fresh (problem world h) [(0, 0)] 96 = .ok x ∧
    x.env.hour.getLast? = some (20 * 8760) := by
  obtain ⟨h, -, -, e1, -⟩ := pipes_ok
  obtain ⟨world, hw, hfuel, hc⟩ := library_exists [[(0, 0)]]
  obtain ⟨k1, k2⟩ := hc h e1 [(0, 0)] (by simp) 96 (by simp)
  obtain ⟨x, hx, -, -, -, hl, -⟩ := C154_made hw hfuel (.inl e1) (f := [(0, 0)]) (by simp) (by simp) (.inr (.inl rfl)) k1 k2
  exact ⟨world, h, x, e1, hx, hl⟩

/-- C154_design applies: the near-square script with its single U-tube and its (hybrid) method -/
example : ∃ world h d fl, single = .ok h ∧ FlatOutcome (problem world h) d [(0, 0)] fl
    (design (problem world h) 40 FindScripts.nearSquare.constraints "near-square" {}).1 := by
  obtain ⟨h, -, -, e1, -⟩ := pipes_ok
  obtain ⟨w0, hw0, hf0, -⟩ := library_exists []
  obtain ⟨⟨d, fl, h1, -, -⟩, -⟩ := C154_design hw0 hf0 (.inl e1) (.inl rfl) 40 le_rfl
  obtain ⟨world, hw, hfuel, hh⟩ := library_exists d
  obtain ⟨⟨d', fl', h1', -, h2⟩, -⟩ := C154_design hw hfuel (.inl e1) (.inl rfl) 40 le_rfl
  rw [h1] at h1'
  cases h1'
  exact ⟨world, h, d, fl', e1, h2 (hh h e1)⟩

/-- C154_loads applies: a response that grows with the hours -/
example : ∃ rejection extraction R, GL.splitHeatAndCool hourly "W" = .ok (rejection, extraction) ∧
    GL.mkLoads (⟨fun t => .ok t, 1, 1 / 10⟩ : GL.Resp ℝ) rejection 2019 = .ok R := by
  obtain ⟨a, b, R, -, h1, h2, -⟩ := C154_loads (r := ⟨fun t => .ok t, 1, 1 / 10⟩) (G := fun t => (t : ℝ))
    (fun t _ _ => by simp) (by norm_num) (fun t _ _ => by push_cast; linarith) (by norm_num)
  exact ⟨a, b, R, h1, h2⟩

end

end Ghedt.Office
