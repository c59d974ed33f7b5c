import Verif.Props.Shared
import Verif.Props.HybridScaleExample

/-!
# Concrete cases for C141
-/

set_option linter.unusedSectionVars false

namespace Ghedt.Whole
open Real Ghedt.GHE Ghedt.Bhe Ghedt.Radial Ghedt.Spec

noncomputable section

/-- half of the 4 kW, narrower limits and bounds -/
def exChange : Shared := ⟨List.replicate 8760 (-2000), 1, 12, 34, 6, 60, 140⟩

theorem exChange_allowed : Allowed (exLevel 4000) 50 200 exChange := by
  refine ⟨by show (60 : ℝ) ≤ 140; norm_num, fun h h1 h2 => exLevel_within h ?_ ?_, bisect_inside _ _ _ _ _ le_rfl ?_ le_rfl⟩
  · have : (60 : ℝ) ≤ h := h1
    linarith
  · have : h ≤ (140 : ℝ) := h2
    linarith
  · show (60 : ℝ) ≤ 140; norm_num

/-- simulate, size, change, simulate, size -/
def exEvents : List Event :=
  [.use (.simulate "hourly"), .use (.size "hybrid"), .use (.height 80), .change exChange, .use (.simulate "hourly"), .use (.size "hourly")]

/-- C141_history, C141_hybrid and C141_size apply: the exchanger for 4 kW, used, then given 2 kW, then used again: the
temperature is that for 2 kW, and it can be sized for it -/
example : ∃ s0 env' s', construct (exLevel 4000) (.single (exLone 100)) = .ok s0 ∧ exEvents.foldl happen (exLevel 4000, s0) = (env', s') ∧
    (simulate env' "hourly" (s'.at 100)).1 = .ok (exTemp 2000 100, exTemp 2000 100) ∧
    (simulate (exLevel 4000) "hourly" (s0.at 100)).1 = .ok (exTemp 4000 100, exTemp 4000 100) ∧
    (simulate env' "hybrid" (s'.at 100)).1 = (simulate (exLevel 4000) "hybrid" (s0.at 100)).1 ∧
    (size env' "hourly" s').1 = (size env' "hourly" s0).1 ∧ exTemp 2000 100 < exTemp 4000 100 := by
  obtain ⟨s0, hc⟩ := exLevel_covered
  have hops : ∀ y, Event.use (.height y) ∈ exEvents → Within (exLevel 4000) 50 200 y := by
    intro y hy
    have : y = 80 := by simpa [exEvents] using hy
    rw [this]
    exact exLevel_within 80 (by norm_num) (by norm_num)
  have hch : ∀ c, Event.change c ∈ exEvents → Allowed (exLevel 4000) 50 200 c := by
    intro c h
    have : c = exChange := by simpa [exEvents] using h
    rw [this]
    exact exChange_allowed
  have w : Within (exLevel 4000) 50 200 100 := exLevel_within 100 (by norm_num) (by norm_num)
  obtain ⟨e, -, k1, -⟩ := C141_history (hc 4000) exEvents hops hch exChange rfl 100 w "hourly" _ _ rfl
  obtain ⟨k2, -⟩ := C141_hybrid (hc 4000) exEvents hops hch 100 w _ _ rfl
  obtain ⟨k3, -⟩ := C141_size (hc 4000) exEvents hops hch "hourly" _ _ rfl
  refine ⟨s0, _, _, (hc 4000).made, rfl, ?_, exLevel_gives (hc 4000) 100 (by norm_num) (by norm_num), k2, k3, ?_⟩
  · rw [k1, e]
    exact exLevel_gives (hc 2000) 100 (by norm_num) (by norm_num)
  · have hpi := Real.pi_pos
    have : 0 < 5 / π := by positivity
    unfold exTemp
    linarith

end

end Ghedt.Whole

namespace Ghedt.WholeSearch
open Real Ghedt.GHE Ghedt.Bhe Ghedt.Radial Ghedt.Whole Ghedt.Search Ghedt.Utilities Ghedt.Spec Ghedt.Network Ghedt.Design

noncomputable section

/-- C141_stale applies to the building with half of its loads: the hybrid method does not see the change, although an exchanger
made for the halved loads gives half of the difference; and C141_made, to the same two exchangers -/
example : ∃ (x x' : Held) (hi lo hi' lo' : ℝ) (c : Whole.Shared), fresh exBuilding [(0, 0)] 100 = .ok x ∧
    fresh { exBuilding with hourly := exBuilding.hourly.map (1 / 2 * ·) } [(0, 0)] 100 = .ok x' ∧
    (Whole.simulate x.env "hybrid" x.state).1 = .ok (hi, lo) ∧ (Whole.simulate x'.env "hybrid" x'.state).1 = .ok (hi', lo') ∧
    hi' - 18 = 1 / 2 * (hi - 18) ∧ (Whole.simulate (x.env.sharing c) "hybrid" x.state).1 = .ok (hi, lo) ∧
    Whole.simulate (x.env.sharing c) "hourly" (x.state.at 100) = Whole.simulate x'.env "hourly" (x'.state.at 100) := by
  obtain ⟨s, h, hct⟩ := exBuilding_usable [(0, 0)] (by simp) 100 (by tauto) (fun B hB => by cases hB; exact .inl rfl)
  obtain ⟨x, hx, -⟩ := C95_made h
  obtain ⟨hi, lo, s', -, -, -, -, -, e, -⟩ := C129_hybrid h (exSeam s 100 (.inr rfl) hct) x hx
    ((C104_input h exHourly_placed x hx).imp fun {u v} huv => by
      have := le_abs_self (v - u)
      have : (1 : ℝ) / 10 ^ 12 ≤ 3600 * (1 / 1000000) := by norm_num
      linarith) (fun u hu => by
      have h1 := hour_le_end h exHourly_placed x hx u hu
      have h2 : hoursOf exBuilding.endMonth.toNat = 8760 := by decide
      rw [h2] at h1
      rw [hct]
      have : 1 ≤ exp (3003 / 1000 : ℝ) := one_le_exp (by norm_num)
      push_cast at h1
      nlinarith) (stepLoad x) (stepTime x) rfl rfl (stepLoad_spec x)
    (stepTime_spec x (load_hour_length h x hx))
  obtain ⟨x', hx', -⟩ := C139_made h (1 / 2) (by norm_num) (exHalf_usable h) x hx
  obtain ⟨hi', lo', k1, k2, -, -, k3⟩ := C141_stale h (1 / 2) (by norm_num) (exHalf_usable h) x x' hx hx' hi lo "hybrid"
    (congrArg Prod.fst e) _ rfl
  have ep : exBuilding.sharing { x.env.shared with hourly := exBuilding.hourly.map (1 / 2 * ·) } =
      { exBuilding with hourly := exBuilding.hourly.map (1 / 2 * ·) } := by
    obtain ⟨B, db, bhe, eq, sts, cl, hl, h, -, rfl⟩ := fresh_form hx
    rfl
  exact ⟨x, x', hi, lo, hi', lo', _, hx, hx', congrArg Prod.fst e, k1, k2, k3 rfl,
    (C141_made _ x x' hx (by rw [ep]; exact hx')).2.2 100⟩

end

end Ghedt.WholeSearch
