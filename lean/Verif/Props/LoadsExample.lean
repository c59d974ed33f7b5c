import Verif.Props.Hybrid
import Verif.Props.Synthetic

/-!
# Concrete cases for C64 and C67
-/

set_option linter.unusedSectionVars false

namespace Ghedt.GL
open Spec Search

/-- a year with 5 kW in one hour and 1 kW in all others -/
def oneHour (h : ℕ) : List ℚ := (List.range 8760).map fun k => ((if k = h then 5 else 1 : ℕ) : ℚ)

theorem oneHour_get (h i : ℕ) (hi : i < 8760) : (oneHour h)[i]? = some (if i = h then 5 else 1) := by
  unfold oneHour
  rw [List.getElem?_map, List.getElem?_range hi, Option.map_some]
  split <;> simp

theorem oneHour_ok (h : ℕ) : ∃ L, mkLoads exResp (oneHour h) 2019 = .ok L := by
  have hmem : ∀ x ∈ oneHour h, ∃ n : ℕ, x = n := by
    intro x hx
    obtain ⟨h, -, rfl⟩ := List.mem_map.mp hx
    exact ⟨_, rfl⟩
  obtain ⟨L, hL, -⟩ := C58_year (r := exResp) (hourly := oneHour h) (year := 2019) (G := fun t => (t : ℚ))
    (fun t _ _ => by simp [exResp]) (by decide +kernel)
    (fun t _ _ => by push_cast; linarith) (by norm_num [exResp])
    (by rw [if_neg (by decide), oneHour, List.length_map, List.length_range])
    (fun x hx => by
      obtain ⟨n, rfl⟩ := hmem x hx
      positivity)
    (by
      refine ClearPeaks.of_all ?_
      intro m _ _ p hp _ x hx
      obtain ⟨n, rfl⟩ := hmem x hx
      obtain ⟨k, rfl⟩ := hmem p (List.mem_of_mem_drop (List.mem_of_mem_take hp))
      rcases Nat.lt_or_ge k n with h | h
      · right
        have : (k : ℚ) + 1 ≤ n := by exact_mod_cast h
        linarith
      · left; exact_mod_cast h)
  exact ⟨L, hL⟩

theorem oneHour_february (h i : ℕ) (hi : i < 672) :
    (monthLoads (decide (LeapYear 2019)) (oneHour h) 2)[i]? = some (if 744 + i = h then 5 else 1) := by
  rw [show decide (LeapYear 2019) = false by decide]
  unfold monthLoads
  rw [List.getElem?_take_of_lt (by exact hi), List.getElem?_drop]
  exact oneHour_get h _ (by
    show 744 + i < 8760
    omega)

/-- C64 applies: rejection peaks in the first hour of February, extraction later in that month.  The times of the hybrid
load go back. -/
example : ∃ cl hl H, mkHybrid exResp (oneHour 744) (oneHour 800) 1 (240 : ℕ) 2019 = .ok (cl, hl, H) ∧
    ∃ k a b, H.hour[k]? = some a ∧ H.hour[k + 1]? = some b ∧ b < a := by
  obtain ⟨cl, hc⟩ := oneHour_ok 744
  obtain ⟨hl, hh⟩ := oneHour_ok 800
  obtain ⟨-, -, -, H, hH, -⟩ := C63_hybrid hc hh (show 1 ≤ 1 from le_rfl) (show 1 ≤ 240 by norm_num)
  refine ⟨cl, hl, H, hH, C64_first_hour hc hh hH (m := 2) (by norm_num) (by norm_num) (by norm_num) (x := 5) (y := 1) ?_
    (by norm_num) ?_ ?_ ?_⟩
  · rw [oneHour_february _ _ (by norm_num), if_pos (by norm_num)]
  · intro z hz
    have := List.mem_of_mem_drop (List.mem_of_mem_take hz)
    obtain ⟨k, -, rfl⟩ := List.mem_map.1 this
    split <;> norm_num
  · rw [oneHour_february _ _ (by norm_num), if_neg (by norm_num)]
  · refine ⟨5, List.mem_of_getElem? (i := 56) ?_, by norm_num⟩
    rw [oneHour_february _ _ (by norm_num), if_pos (by norm_num)]

/-- twelve equal months, but the peak of December on day 31 of it -/
def exDecember : Loads ℚ := { exPlaced 4 10 with peakDay := List.replicate 12 10 ++ [31] }

/-- C67 applies: the year is four hours too long. -/
example : ∃ R X, hourlyLoadRepresentation exDecember (exPlaced 4 10) 2019 = .ok (R, X) ∧ R.length = 8764 := by
  have hr : pyRound (4 : ℚ) = 4 := by decide +kernel
  have hleap : decide (LeapYear 2019) = false := by decide
  have hh := exPlaced_placed (decide (LeapYear 2019)) hr (show (0 : ℤ) ≤ 10 by norm_num) (by norm_num)
  have hside : ∀ m, 1 ≤ m → m ≤ 12 → exDecember.side m = ⟨1000, 5, 4, if m = 12 then 31 else 10⟩ := by
    intro m m1 m2
    interval_cases m <;> rfl
  have hc : Placed (decide (LeapYear 2019)) exDecember := by
    refine ⟨⟨rfl, rfl, rfl, rfl⟩, rfl, fun m m1 m2 => ?_, fun m m1 m2 => ?_⟩
    · rw [hside m m1 m2, hleap]
      interval_cases m <;> decide
    · rw [hside m m1 m2]
      dsimp only
      omega
  refine ⟨_, _, represent_eq hc hh, ?_⟩
  have e : yearHours (decide (LeapYear 2019)) = 8760 := by decide
  have := C67_december hc hh (by rw [hside 1 le_rfl (by norm_num)]; norm_num)
    (by rw [hside 12 (by norm_num) le_rfl]; rfl) (represent_eq hc hh)
  rw [hside 12 (by norm_num) le_rfl, hr, e, if_pos (by norm_num)] at this
  exact_mod_cast this

end Ghedt.GL
