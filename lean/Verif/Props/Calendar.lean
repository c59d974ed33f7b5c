import Verif.Lemmas.GroundLoads

/-!
# C52, C53, C69: splitting loads, the calendar, month names
-/

set_option linter.unusedSectionVars false

namespace Ghedt.GL
open Spec
variable {K : Type} [Field K] [LinearOrder K] [IsStrictOrderedRing K]

/-! ### C52 -/

theorem splitFold {scale : K} (hs : scale ≠ 0) (l : List K) :
    l.zipIdx.foldlM (splitHourStep scale)
        (List.replicate l.length (0 : K), List.replicate l.length (0 : K)) =
      .ok (l.map fun x => if x ≥ 0 then 0 else x / -scale,
        l.map fun x => if x ≥ 0 then x / scale else 0) := by
  have key : ∀ (post pre : List K), l = pre ++ post →
      (post.zipIdx pre.length).foldlM (splitHourStep scale)
        ((pre.map fun x => if x ≥ 0 then 0 else x / -scale) ++ List.replicate post.length (0 : K),
         (pre.map fun x => if x ≥ 0 then x / scale else 0) ++ List.replicate post.length (0 : K)) =
        .ok (l.map fun x => if x ≥ 0 then 0 else x / -scale,
          l.map fun x => if x ≥ 0 then x / scale else 0) := by
    intro post
    induction post with
    | nil => intro pre h; subst h; simp
    | cons a post ih =>
      intro pre h
      have h2 := ih (pre ++ [a]) (by simp [h])
      rw [List.zipIdx_cons, List.foldlM_cons]
      have e1 : ∀ (f : K → K) (v : K), pySet ((pre.map f) ++ List.replicate (a :: post).length (0 : K))
          (pre.length : ℤ) v = .ok (pre.map f ++ v :: List.replicate post.length 0) := by
        intro f v
        rw [pySet_ok (by simp)]
        congr 1
        rw [List.set_append_right _ _ (by simp)]
        simp [List.replicate_succ]
      rw [← h2]
      by_cases ha : a ≥ 0
      · have e2 : splitHourStep scale
            ((pre.map fun x => if x ≥ 0 then 0 else x / -scale) ++
              List.replicate (a :: post).length (0 : K),
             (pre.map fun x => if x ≥ 0 then x / scale else 0) ++
              List.replicate (a :: post).length (0 : K)) (a, pre.length) =
            .ok (((pre ++ [a]).map fun x => if x ≥ 0 then 0 else x / -scale) ++
              List.replicate post.length (0 : K),
             ((pre ++ [a]).map fun x => if x ≥ 0 then x / scale else 0) ++
              List.replicate post.length (0 : K)) := by
          simp only [splitHourStep, ha, if_true, pyDiv_ok hs, Except.ok_bind, e1, Except.pure_eq]
          simp [ha, List.replicate_succ]
        rw [e2]; simp
      · have e2 : splitHourStep scale
            ((pre.map fun x => if x ≥ 0 then 0 else x / -scale) ++
              List.replicate (a :: post).length (0 : K),
             (pre.map fun x => if x ≥ 0 then x / scale else 0) ++
              List.replicate (a :: post).length (0 : K)) (a, pre.length) =
            .ok (((pre ++ [a]).map fun x => if x ≥ 0 then 0 else x / -scale) ++
              List.replicate post.length (0 : K),
             ((pre ++ [a]).map fun x => if x ≥ 0 then x / scale else 0) ++
              List.replicate post.length (0 : K)) := by
          simp only [splitHourStep, ha, if_false, pyDiv_ok (neg_ne_zero.mpr hs), Except.ok_bind, e1,
            Except.pure_eq]
          simp [ha, List.replicate_succ]
        rw [e2]; simp
  have := key l [] rfl
  simpa using this

/-- C52: splitting in `'W'` (scale 1000) or `'kW'` (scale 1) always succeeds; hour by hour both
parts are nonnegative, at most one of them is nonzero, and `scale * (extraction - rejection)` gives back
the input. -/
theorem C52_split (hourly : List K) (units : String) (scale : K)
    (hu : units = "W" ∧ scale = 1000 ∨ units = "kW" ∧ scale = 1) :
    ∃ rej ext, splitHeatAndCool hourly units = .ok (rej, ext) ∧
      rej.length = hourly.length ∧ ext.length = hourly.length ∧
      (∀ (i : ℕ) (x : K), hourly[i]? = some x → ∃ r e, rej[i]? = some r ∧ ext[i]? = some e ∧
        0 ≤ r ∧ 0 ≤ e ∧ (r = 0 ∨ e = 0) ∧ scale * (e - r) = x) := by
  have hpos : 0 < scale := by
    rcases hu with ⟨-, rfl⟩ | ⟨-, rfl⟩ <;> norm_num
  have hscale : unitScale units = .ok scale := by
    rcases hu with ⟨rfl, rfl⟩ | ⟨rfl, rfl⟩
    · rfl
    · simp [unitScale]
  refine ⟨hourly.map fun x => if x ≥ 0 then 0 else x / -scale,
    hourly.map fun x => if x ≥ 0 then x / scale else 0, ?_, ?_, ?_, ?_⟩
  · unfold splitHeatAndCool
    rw [hscale]
    exact splitFold hpos.ne' hourly
  · simp
  · simp
  · intro i x hx
    refine ⟨_, _, by rw [List.getElem?_map, hx]; rfl, by rw [List.getElem?_map, hx]; rfl, ?_⟩
    by_cases h : x ≥ 0
    · simp only [h, if_true]
      refine ⟨le_refl _, by positivity, Or.inl trivial, by field_simp; ring⟩
    · simp only [h, if_false]
      have h' : x < 0 := not_le.mp h
      refine ⟨?_, le_refl _, Or.inr trivial, by field_simp; ring⟩
      rw [div_neg, Left.nonneg_neg_iff]
      exact div_nonpos_of_nonpos_of_nonneg h'.le hpos.le

/-- C52: any other unit raises `ValueError`. -/
theorem C52_units (hourly : List K) (units : String) (h1 : units ≠ "W") (h2 : units ≠ "kW") :
    splitHeatAndCool hourly units = .error .valueError := by
  simp [splitHeatAndCool, unitScale, h1, h2]

example : splitHeatAndCool [1500, -2000, (0 : ℚ)] "W" = .ok ([0, 2, 0], [3 / 2, 0, 0]) := by
  decide +kernel

/-! ### C53 -/

/-- C53: month `m` of a simulation has between 28 and 31 days; its first hour is the hour after the
last hour of month `m-1`; and its last hour comes `24 * monthdays(m)` hours after the last hour of
month `m-1`. -/
theorem C53_month {m : ℤ} (h : 1 ≤ m) : ∃ d first last prev : ℤ,
    monthdays m = .ok d ∧ firstmonthhour m = .ok first ∧ lastmonthhour m = .ok last ∧
    lastmonthhour (m - 1) = .ok prev ∧ 28 ≤ d ∧ d ≤ 31 ∧ first = prev + 1 ∧ last = prev + 24 * d := by
  obtain ⟨n, rfl⟩ : ∃ n : ℕ, m = (n : ℤ) + 1 := ⟨(m - 1).toNat, by omega⟩
  refine ⟨_, _, _, _, monthdays_nat n, firstmonthhour_eq n,
    by rw [show (n : ℤ) + 1 = ((n + 1 : ℕ) : ℤ) by simp]; exact lastmonthhour_eq (n + 1),
    by rw [show (n : ℤ) + 1 - 1 = (n : ℤ) by ring]; exact lastmonthhour_eq n, ?_, ?_, ?_, ?_⟩
  · have := (monthLength_bounds false (m := n % 12 + 1) (by omega) (by omega)).1
    omega
  · have := (monthLength_bounds false (m := n % 12 + 1) (by omega) (by omega)).2
    omega
  · omega
  · rw [hoursOf_succ]; push_cast; ring

/-- C53: the months repeat every year, … -/
theorem C53_periodic {m : ℤ} (h : 1 ≤ m) : monthdays (m + 12) = monthdays m := by
  rw [monthdays_eq (by omega), monthdays_eq (by omega)]
  congr 4
  omega

/-- C53: … a year has 8760 hours, … -/
theorem C53_year {y : ℤ} (h : 0 ≤ y) :
    lastmonthhour (12 * y) = .ok (8760 * y) ∧ firstmonthhour (12 * y + 1) = .ok (8760 * y + 1) := by
  obtain ⟨n, rfl⟩ := Int.eq_ofNat_of_zero_le h
  have e : (12 * (n : ℤ)) = ((12 * n : ℕ) : ℤ) := by simp
  constructor
  · rw [e, lastmonthhour_eq, hoursOf_year]; simp
  · rw [e, firstmonthhour_eq, hoursOf_year]; congr 1; push_cast; ring

/-- C53: … the last hours strictly increase, … -/
theorem C53_increasing {m m' : ℤ} (h0 : 0 ≤ m) (h : m < m') : ∃ l l' : ℤ,
    lastmonthhour m = .ok l ∧ lastmonthhour m' = .ok l' ∧ l < l' := by
  refine ⟨_, _, lastmonthhour_int h0, lastmonthhour_int (by omega), ?_⟩
  have key : StrictMono hoursOf := strictMono_nat_of_lt_succ fun n => by
    rw [hoursOf_succ]
    have := (monthLength_bounds false (m := n % 12 + 1) (by omega) (by omega)).1
    omega
  exact_mod_cast key (by omega : m.toNat < m'.toNat)

/-- C53: … and the month lengths are those of `calendar.monthrange` in every non-leap year. -/
theorem C53_calendar {year m : ℤ} (hy : ¬ LeapYear year) (h1 : 1 ≤ m) (h2 : m ≤ 12) :
    monthdays m = monthrange year m := by
  have : isLeap year = false := by rw [isLeap_eq]; simpa using hy
  unfold monthrange
  rw [this]
  interval_cases m <;> rfl

example : monthdays 26 = .ok 28 ∧ lastmonthhour 26 = .ok (2 * 8760 + 59 * 24) ∧
    firstmonthhour 27 = .ok (2 * 8760 + 59 * 24 + 1) := by decide
example : ¬ LeapYear 2019 ∧ ¬ LeapYear 1900 ∧ LeapYear 2000 ∧ LeapYear 2020 := by decide

/-! ### C69 -/

/-- C69: `number_to_month` gives a name exactly for 1 to 12 (else `None`) and `monthindex` takes it
back to the number. -/
theorem C69_number (m : ℤ) :
    (1 ≤ m ∧ m ≤ 12 → ∃ name, numberToMonth m = .ok (some name) ∧ monthindex name = some m) ∧
    (¬ (1 ≤ m ∧ m ≤ 12) → numberToMonth m = .ok none) := by
  constructor
  · rintro ⟨h1, h2⟩
    interval_cases m
    · exact ⟨"January", by decide, by decide⟩
    · exact ⟨"February", by decide, by decide⟩
    · exact ⟨"March", by decide, by decide⟩
    · exact ⟨"April", by decide, by decide⟩
    · exact ⟨"May", by decide, by decide⟩
    · exact ⟨"June", by decide, by decide⟩
    · exact ⟨"July", by decide, by decide⟩
    · exact ⟨"August", by decide, by decide⟩
    · exact ⟨"September", by decide, by decide⟩
    · exact ⟨"October", by decide, by decide⟩
    · exact ⟨"November", by decide, by decide⟩
    · exact ⟨"December", by decide, by decide⟩
  · intro h
    unfold numberToMonth
    rw [if_neg (by omega)]

/-- C69: every name `monthindex` knows is the name of its number; any other name gives `None`. -/
theorem C69_name (name : String) (m : ℤ) (h : monthindex name = some m) :
    (1 ≤ m ∧ m ≤ 12) ∧ numberToMonth m = .ok (some name) := by
  unfold monthindex at h
  have hmem := PyDict.mem_of_find? h
  simp only [List.mem_cons, Prod.mk.injEq, List.not_mem_nil, or_false] at hmem
  rcases hmem with ⟨rfl, rfl⟩ | ⟨rfl, rfl⟩ | ⟨rfl, rfl⟩ | ⟨rfl, rfl⟩ | ⟨rfl, rfl⟩ | ⟨rfl, rfl⟩ |
    ⟨rfl, rfl⟩ | ⟨rfl, rfl⟩ | ⟨rfl, rfl⟩ | ⟨rfl, rfl⟩ | ⟨rfl, rfl⟩ | ⟨rfl, rfl⟩ <;>
  exact ⟨by omega, by decide⟩

example : monthindex "Brumaire" = none ∧ numberToMonth 13 = .ok none ∧ monthindex "March" = some 3 := by
  decide

/-! ### Concrete cases -/

/-- C52, C53 and C69 apply: watts, an unknown unit, February of the third year, twenty years, 2019. -/
example := C52_split [1500, -2000, (0 : ℚ)] "W" 1000 (Or.inl ⟨rfl, rfl⟩)
example := C52_units [1500, (-2000 : ℚ)] "MW" (by decide) (by decide)
example := C53_month (m := 26) (by norm_num)
example := C53_periodic (m := 26) (by norm_num)
example := C53_year (y := 20) (by norm_num)
example := C53_increasing (m := 13) (m' := 26) (by norm_num) (by norm_num)
example := C53_calendar (year := 2019) (m := 2) (by decide) (by norm_num) (by norm_num)
example := C69_name "March" 3 (by decide)

end Ghedt.GL
