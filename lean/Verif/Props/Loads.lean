import Verif.Lemmas.Loads

/-!
# C54–C57: the monthly decomposition of a year of hourly loads
-/

set_option linter.unusedSectionVars false

namespace Ghedt.GL
open Spec Search
variable {K : Type} [Field K] [LinearOrder K] [IsStrictOrderedRing K]

/-! ### C54 -/

/-- C54: for every month of the year the recorded total is the sum of the month's hourly loads, the
recorded peak is attained in the month and never exceeded in it, the average times the number
of hours is the total, and the average does not exceed the peak. -/
theorem C54_month {r : Resp K} {hourly : List K} {year : ℤ} {L : Loads K}
    (h : mkLoads r hourly year = .ok L) {m : ℕ} (h1 : 1 ≤ m) (h2 : m ≤ 12) :
    ∃ total peak average : K, L.total[m]? = some total ∧ L.peak[m]? = some peak ∧
      L.average[m]? = some average ∧
      total = (monthLoads (decide (LeapYear year)) hourly m).sum ∧
      peak ∈ monthLoads (decide (LeapYear year)) hourly m ∧
      (∀ x ∈ monthLoads (decide (LeapYear year)) hourly m, x ≤ peak) ∧
      average * (24 * (monthLength (decide (LeapYear year)) m : K)) = total ∧ average ≤ peak := by
  obtain ⟨hM, -, -, -⟩ := mkLoads_inv h
  obtain ⟨t, p, a, d, w, e1, e2, e3, -, -, f, -⟩ := hM.month m h1 h2
  have hl := monthLoads_length hM.length h2
  have hb := (monthLength_bounds (decide (LeapYear year)) h1 h2).1
  have hpos : (0 : K) < ((monthLoads (decide (LeapYear year)) hourly m).length : K) := by
    rw [hl]; exact_mod_cast (by omega)
  have hcast : ((monthLoads (decide (LeapYear year)) hourly m).length : K) =
      24 * (monthLength (decide (LeapYear year)) m : K) := by rw [hl]; push_cast; ring
  refine ⟨t, p, a, e1, e2, e3, f.total_eq, f.peak_mem, f.peak_max, ?_, ?_⟩
  · rw [← hcast, f.average_eq, f.total_eq, div_mul_cancel₀ _ hpos.ne']
  · rw [f.average_eq, div_le_iff₀ hpos]
    have : ∀ (l : List K) (c : K), (∀ x ∈ l, x ≤ c) → l.sum ≤ c * (l.length : K) := by
      intro l c
      induction l with
      | nil => intro _; simp
      | cons y l ih =>
        intro hl
        have a1 := ih fun x hx => hl x (List.mem_cons_of_mem _ hx)
        have a2 := hl y List.mem_cons_self
        rw [List.sum_cons, List.length_cons]
        push_cast
        linarith
    exact this _ _ f.peak_max

theorem months_sum (leap : Bool) (hourly : List K) (n : ℕ) :
    ((List.range n).map fun k => (monthLoads leap hourly (k + 1)).sum).sum =
      (hourly.take (monthStart leap (n + 1))).sum := by
  induction n with
  | zero => rw [monthStart_one]; simp
  | succ n ih =>
    rw [List.range_succ, List.map_append, List.sum_append, ih]
    unfold monthLoads
    rw [monthStart_succ leap (n + 1)]
    simp only [List.map_cons, List.map_nil, List.sum_cons, List.sum_nil, add_zero]
    rw [List.take_add, List.sum_append]

/-- C54: the twelve monthly totals add up to the annual total. -/
theorem C54_year {r : Resp K} {hourly : List K} {year : ℤ} {L : Loads K}
    (h : mkLoads r hourly year = .ok L) :
    L.total.length = 13 ∧ (L.total.drop 1).sum = hourly.sum := by
  obtain ⟨hM, -, -, -⟩ := mkLoads_inv h
  refine ⟨hM.total_length, ?_⟩
  have e : L.total.drop 1 = (List.range 12).map fun k =>
      (monthLoads (decide (LeapYear year)) hourly (k + 1)).sum := by
    apply List.ext_getElem?
    intro k
    rw [List.getElem?_drop]
    by_cases hk : k < 12
    · obtain ⟨t, p, a, d, w, e1, -, -, -, -, f, -⟩ := hM.month (1 + k) (by omega) (by omega)
      rw [e1, List.getElem?_map, List.getElem?_range hk, f.total_eq, Nat.add_comm 1 k]
      rfl
    · have := hM.total_length
      rw [List.getElem?_eq_none (by omega), List.getElem?_eq_none (by simp; omega)]
  rw [e, months_sum, monthStart_end, ← hM.length, List.take_length]

/-- C54: constructing `Loads` raises `AssertionError` exactly when the list does not have one value
per hour of the year (8784 in a leap year, 8760 otherwise), provided the response function
itself raises none. -/
theorem C54_assert {r : Resp K} (hr : ∀ t, r.g t ≠ .error .assertionError) (hourly : List K)
    (year : ℤ) :
    mkLoads r hourly year = .error .assertionError ↔
      hourly.length ≠ (if LeapYear year then 8784 else 8760) := by
  have e : (if LeapYear year then 8784 else 8760) = yearHours (decide (LeapYear year)) := by
    unfold yearHours; simp
  rw [e]
  constructor
  · intro h hlen
    obtain ⟨t, p, a, d, w, -, h2⟩ := mkLoads_good r hlen
    rw [h2] at h
    exact (NoAssert.bind (NoAssert.foldlM _ _ fun s i => NoAssert.durationStep hr _ _ _ s i)
      fun _ => NoAssert.ok _) h
  · exact mkLoads_bad r

/-! ### C55 -/

/-- C55: let the first hour of month `m` that reaches the peak be hour `i` of the month (counted
from 0, so it lies in day `i/24 + 1`).  The recorded peak day is that day, unless `i` is the first
hour of a day: then it is the day before (0 if it is the first hour of the month). -/
theorem C55_day {r : Resp K} {hourly : List K} {year : ℤ} {L : Loads K}
    (h : mkLoads r hourly year = .ok L) {m : ℕ} (h1 : 1 ≤ m) (h2 : m ≤ 12) :
    ∃ (peak : K) (i : ℕ) (day : ℤ), L.peak[m]? = some peak ∧
      (monthLoads (decide (LeapYear year)) hourly m)[i]? = some peak ∧
      (∀ j < i, (monthLoads (decide (LeapYear year)) hourly m)[j]? ≠ some peak) ∧
      L.peakDay[m]? = some day ∧
      day = (if i % 24 = 0 then (i / 24 : ℕ) else (i / 24 + 1 : ℕ) : ℕ) := by
  obtain ⟨hM, -, -, -⟩ := mkLoads_inv h
  obtain ⟨t, p, a, d, w, -, e2, -, e4, -, f, -⟩ := hM.month m h1 h2
  obtain ⟨i, g1, g2, g3⟩ := f.day_eq
  refine ⟨p, i, d, e2, g1, g2, e4, ?_⟩
  rw [g3, Int.ceil_eq_iff]
  have hi : (i : ℚ) = 24 * ((i / 24 : ℕ) : ℚ) + ((i % 24 : ℕ) : ℚ) := by
    exact_mod_cast (Nat.div_add_mod i 24).symm
  have hlt : ((i % 24 : ℕ) : ℚ) < 24 := by exact_mod_cast Nat.mod_lt i (by norm_num)
  generalize i / 24 = q at hi ⊢
  by_cases hz : i % 24 = 0
  · rw [if_pos hz]
    rw [hz] at hi
    rw [hi]
    push_cast
    constructor
    · rw [lt_div_iff₀ (by norm_num)]; linarith
    · rw [div_le_iff₀ (by norm_num)]; linarith
  · rw [if_neg hz]
    have hge : (1 : ℚ) ≤ ((i % 24 : ℕ) : ℚ) := by exact_mod_cast (by omega : 1 ≤ i % 24)
    rw [hi]
    push_cast
    constructor
    · rw [lt_div_iff₀ (by norm_num)]; linarith
    · rw [div_le_iff₀ (by norm_num)]; linarith

/-! ### C56, C57 -/

/-- C56: the two-day window of every month consists of 48 consecutive hours of the (cyclic) year,
and contains the monthly peak among its first 25 hours. -/
theorem C56_window {r : Resp K} {hourly : List K} {year : ℤ} {L : Loads K}
    (h : mkLoads r hourly year = .ok L) {m : ℕ} (h1 : 1 ≤ m) (h2 : m ≤ 12) :
    ∃ (peak : K) (window : List K) (start : ℤ), L.peak[m]? = some peak ∧
      L.twoDay[m]? = some window ∧ window.length = 48 ∧
      (∀ j : ℕ, j < 48 → window[j]? = hourly[((start + j) % (hourly.length : ℤ)).toNat]?) ∧
      ∃ j : ℕ, j ≤ 24 ∧ window[j]? = some peak := by
  obtain ⟨hM, -, -, -⟩ := mkLoads_inv h
  obtain ⟨t, p, a, d, w, -, e2, -, e4, e5, f, g⟩ := hM.month m h1 h2
  obtain ⟨peak, i, day, d1, d2, -, d4, d5⟩ := C55_day h h1 h2
  rw [e2] at d1; cases d1
  rw [e4] at d4; cases d4
  refine ⟨p, w, _, e2, e5, g.1, g.2, ?_⟩
  obtain ⟨j, hj⟩ : ∃ j : ℕ, (j : ℤ) = i - (d - 1) * 24 := ⟨(i - (d - 1) * 24 : ℤ).toNat, by
    rw [d5]; split <;> omega⟩
  have hj24 : j ≤ 24 := by rw [d5] at hj; split at hj <;> omega
  refine ⟨j, hj24, ?_⟩
  rw [g.2 j (by omega), ← d2]
  unfold monthLoads
  have hi : i < 24 * monthLength (decide (LeapYear year)) m := by
    rw [← monthLoads_length hM.length h2]
    by_contra hcon
    rw [List.getElem?_eq_none (by omega)] at d2
    cases d2
  have hend := monthStart_le (decide (LeapYear year)) (show m + 1 ≤ 13 by omega)
  rw [monthStart_succ, ← hM.length] at hend
  rw [List.getElem?_take_of_lt hi, List.getElem?_drop]
  congr 1
  have : (monthStart (decide (LeapYear year)) m : ℤ) + (d - 1) * 24 + j =
      ((monthStart (decide (LeapYear year)) m + i : ℕ) : ℤ) := by push_cast; omega
  rw [this, Int.emod_eq_of_lt (by omega) (by omega), Int.toNat_natCast]

/-- C57: unless the month's peak first occurs in the first hour of a day, the window starts with the
first hour of the very day of the peak (so it covers that day and the day after; the day before,
which the documentation promises, is not in it). -/
theorem C57_own_day {r : Resp K} {hourly : List K} {year : ℤ} {L : Loads K}
    (h : mkLoads r hourly year = .ok L) {m : ℕ} (h1 : 1 ≤ m) (h2 : m ≤ 12) :
    ∃ (peak : K) (i : ℕ) (window : List K), L.peak[m]? = some peak ∧
      (monthLoads (decide (LeapYear year)) hourly m)[i]? = some peak ∧
      (∀ j < i, (monthLoads (decide (LeapYear year)) hourly m)[j]? ≠ some peak) ∧
      L.twoDay[m]? = some window ∧ window.length = 48 ∧
      (i % 24 ≠ 0 → ∀ j : ℕ, j < 48 → window[j]? =
        hourly[(monthStart (decide (LeapYear year)) m + i / 24 * 24 + j) % hourly.length]?) ∧
      (i % 24 = 0 → ∀ j : ℕ, j < 48 → window[j]? =
        hourly[(hourly.length + monthStart (decide (LeapYear year)) m + i / 24 * 24 - 24 + j) %
          hourly.length]?) := by
  obtain ⟨hM, -, -, -⟩ := mkLoads_inv h
  obtain ⟨t, p, a, d, w, -, e2, -, e4, e5, f, g⟩ := hM.month m h1 h2
  obtain ⟨peak, i, day, d1, d2, d3, d4, d5⟩ := C55_day h h1 h2
  rw [e2] at d1; cases d1
  rw [e4] at d4; cases d4
  have hN : 8760 ≤ hourly.length := by
    rw [hM.length]; cases decide (LeapYear year) <;> decide
  refine ⟨p, i, w, e2, d2, d3, e5, g.1, ?_, ?_⟩
  · intro hz j hj
    rw [g.2 j hj]
    congr 1
    rw [d5, if_neg hz]
    have : (monthStart (decide (LeapYear year)) m : ℤ) + (((i / 24 + 1 : ℕ) : ℤ) - 1) * 24 + j =
      ((monthStart (decide (LeapYear year)) m + i / 24 * 24 + j : ℕ) : ℤ) := by push_cast; ring
    rw [this, ← Int.natCast_mod, Int.toNat_natCast]
  · intro hz j hj
    rw [g.2 j hj]
    congr 1
    rw [d5, if_pos hz]
    have : (monthStart (decide (LeapYear year)) m : ℤ) + (((i / 24 : ℕ) : ℤ) - 1) * 24 + j +
        (hourly.length : ℤ) =
      ((hourly.length + monthStart (decide (LeapYear year)) m + i / 24 * 24 - 24 + j : ℕ) : ℤ) := by
      omega
    rw [← Int.add_emod_right, this, ← Int.natCast_mod, Int.toNat_natCast]

end Ghedt.GL
