import Verif.Props.HybridScale
import Verif.Props.HybridWitness

/-!
# Concrete cases for C139
-/

set_option linter.unusedSectionVars false

namespace Ghedt.GL
open Spec Search

/-- C139_hybrid applies: a year of whole kilowatts, doubled -/
example : ∃ L L₁ L₂ H H', mkHybrid exResp exYear exYear (1 : ℕ) (240 : ℕ) 2019 = .ok (L, L, H) ∧
    mkHybrid exResp (exYear.map (2 * ·)) (exYear.map (2 * ·)) (1 : ℕ) (240 : ℕ) 2019 = .ok (L₁, L₂, H') ∧
    H'.hour = H.hour ∧ H'.load = H.load.map (2 * ·) := by
  have hmem : ∀ x ∈ exYear, ∃ n : ℕ, x = n := by
    intro x hx
    obtain ⟨h, -, rfl⟩ := List.mem_map.mp hx
    exact ⟨_, rfl⟩
  have hpos : ∀ x ∈ exYear, 0 ≤ x := by
    intro x hx
    obtain ⟨n, rfl⟩ := hmem x hx
    positivity
  have hc : ClearOf 2 2019 exYear := by
    intro m _ _ i p hp x hx
    obtain ⟨n, rfl⟩ := hmem x (twoDays_mem hx)
    obtain ⟨k, rfl⟩ := hmem p (List.mem_of_mem_drop (List.mem_of_mem_take (List.mem_of_getElem? hp.1)))
    rcases Nat.lt_or_ge k n with h | h
    · right
      have : (k : ℚ) + 1 ≤ n := by exact_mod_cast h
      constructor <;> linarith
    · left; exact_mod_cast h
  obtain ⟨L, hL, -⟩ := exYear_ok
  obtain ⟨-, -, -, H, hH, -⟩ := C63_hybrid hL hL (show 1 ≤ 1 from le_rfl) (show 1 ≤ 240 by norm_num)
  obtain ⟨L₁, L₂, H', k1, k2, k3, -⟩ := C139_hybrid exResp exYear exYear (1 : ℕ) (240 : ℕ) 2019 2 (by norm_num) hpos hpos hc hc
    L L H hH
  exact ⟨L, L₁, L₂, H, H', hH, k1, k2, k3⟩

/-- C139_tolerance applies: 1 kW on 31 January, 1.05 kW on 1 February -/
example : ∃ a₀ a₁ : ℚ, 0 < a₀ ∧ (∀ a, 0 < a → a ≤ a₀ → mkLoads exFlat (exSpike.map (a * ·)) 2019 = .error .valueError) ∧
    ∀ a, a₁ ≤ a → ∃ L, mkLoads exFlat (exSpike.map (a * ·)) 2019 = .ok L := by
  have hleap : decide (LeapYear 2019) = false := by decide
  have hget : ∀ k : ℕ, k < 8760 → exSpike[k]? =
      some (if k = 725 then 1 else if k = 749 then 21 / 20 else 0) := by
    intro k hk
    rw [exSpike, List.getElem?_map, List.getElem?_range hk]; rfl
  have hlen : exSpike.length = 8760 := by rw [exSpike, List.length_map, List.length_range]
  have hs1 : monthStart false 1 = 0 := by decide
  have hs2 : monthStart false 2 = 744 := by decide
  have hl1 : monthLength false 1 = 31 := rfl
  have hl2 : monthLength false 2 = 28 := rfl
  have hjan : ∀ k : ℕ, k < 744 → (monthLoads false exSpike 1)[k]? = some (if k = 725 then 1 else 0) := by
    intro k hk
    unfold monthLoads
    rw [hs1, hl1, List.getElem?_take_of_lt (by omega), List.getElem?_drop, Nat.zero_add,
      hget k (by omega), if_neg (show ¬ k = 749 by omega)]
  have hfeb : ∀ k : ℕ, k < 24 → ((monthLoads false exSpike 2).take 24)[k]? =
      some (if k = 5 then 21 / 20 else 0) := by
    intro k hk
    unfold monthLoads
    rw [hs2, hl2, List.getElem?_take_of_lt (by omega), List.getElem?_take_of_lt (by omega),
      List.getElem?_drop, hget _ (by omega), if_neg (show ¬ 744 + k = 725 by omega)]
    by_cases h : k = 5
    · subst h; rfl
    · rw [if_neg h, if_neg (by omega)]
  refine C139_tolerance (g0 := 1) (m := 1) (peak := 1) (i := 725) (fun _ _ _ => rfl) (by norm_num [exFlat])
    (by norm_num [exFlat]) (by rw [if_neg (by decide), hlen]) ?_ (by norm_num) (by norm_num)
    (by norm_num) ?_ ?_ ?_ ?_ (by decide) ?_
  · intro x hx
    obtain ⟨k, -, rfl⟩ := List.mem_map.1 hx
    split_ifs <;> norm_num
  all_goals rw [hleap]
  · rw [hjan _ (by norm_num)]; rfl
  · intro j hj
    rw [hjan j (by omega), if_neg (by omega)]
    norm_num
  · intro x hx
    obtain ⟨k, hk, rfl⟩ := List.mem_iff_getElem.mp hx
    have hk' : k < 744 := by
      unfold monthLoads at hk
      rw [List.length_take, hl1] at hk; omega
    have := hjan k hk'
    rw [List.getElem?_eq_getElem hk, Option.some_inj] at this
    rw [this]
    split <;> norm_num
  · rfl
  · exact ⟨21 / 20, List.mem_of_getElem? (i := 5) (by rw [hfeb 5 (by norm_num)]; rfl), by norm_num⟩

end Ghedt.GL

namespace Ghedt.WholeSearch
open Real Ghedt.GHE Ghedt.Bhe Ghedt.Radial Ghedt.Whole Ghedt.Search Ghedt.Utilities Ghedt.Spec

noncomputable section

/-- the building with half of its loads -/
theorem exHalf_usable {f : Field} {H : ℝ} {bhe : Exchanger} {s : UTube} (h : Usable exBuilding f H bhe s) :
    Usable { exBuilding with hourly := exBuilding.hourly.map (1 / 2 * ·) } f H bhe s := by
  refine ⟨h.flow, h.field, h.height, h.radius, h.exchanger, h.converts, h.sound, h.solver, h.steps, h.text, h.curve, ?_, ?_, ?_,
    h.months⟩
  · show (exHourly.map _).length = 8760
    rw [List.length_map, exHourly_length]
  · show Separated ((exHourly.map _).map _)
    rw [List.map_map]
    refine exHourly_separated _ 468 (.inr rfl) 15000 ?_ ?_ ?_ ?_ <;> norm_num
  · show Separated ((exHourly.map _).map _)
    rw [List.map_map]
    refine exHourly_separated _ 228 (.inl rfl) 10000 ?_ ?_ ?_ ?_ <;> norm_num

/-- C139_made and C139_temperatures apply to the building, with the hybrid method -/
example : ∃ (x x' : Held) (hi lo hi' lo' : ℝ) (s' t' : Whole.State), fresh exBuilding [(0, 0)] 100 = .ok x ∧
    fresh { exBuilding with hourly := exBuilding.hourly.map (1 / 2 * ·) } [(0, 0)] 100 = .ok x' ∧
    x'.env.hour = x.env.hour ∧ x'.env.load = x.env.load.map (1 / 2 * ·) ∧
    Whole.simulate x.env "hybrid" x.state = (.ok (hi, lo), s') ∧ Whole.simulate x'.env "hybrid" x'.state = (.ok (hi', lo'), t') ∧
    hi' - 18 = 1 / 2 * (hi - 18) ∧ lo' - 18 = 1 / 2 * (lo - 18) := by
  obtain ⟨s, h, hct⟩ := exBuilding_usable [(0, 0)] (by simp) 100 (by tauto) (fun B hB => by cases hB; exact .inl rfl)
  obtain ⟨x, hx, -⟩ := C95_made h
  obtain ⟨hi, lo, s', -, -, -, -, -, e, -⟩ := C129_hybrid h (exSeam s 100 (.inr rfl) hct) x hx
    ((C104_input h exHourly_placed x hx).imp fun {u v} huv => by
      have := le_abs_self (v - u)
      have : (1 : ℝ) / 10 ^ 12 ≤ 3600 * (1 / 1000000) := by norm_num
      linarith) (fun u hu => by
      have h1 := hour_le_end h exHourly_placed x hx u hu
      have h2 : hoursOf exBuilding.endMonth.toNat = 8760 := by decide
      rw [h2] at h1
      rw [hct]
      have : 1 ≤ exp (3003 / 1000 : ℝ) := one_le_exp (by norm_num)
      push_cast at h1
      nlinarith) (stepLoad x) (stepTime x) rfl rfl (stepLoad_spec x)
    (stepTime_spec x (load_hour_length h x hx))
  obtain ⟨x', hx', k1, k2, -⟩ := C139_made h (1 / 2) (by norm_num) (exHalf_usable h) x hx
  obtain ⟨hi', lo', t', e', k3, k4, -⟩ := C139_temperatures h (1 / 2) (by norm_num) (exHalf_usable h) "hybrid" x x' hx hx' hi lo s' e
  exact ⟨x, x', hi, lo, hi', lo', s', t', hx, hx', k1, k2, e, e', k3, k4⟩

/-- C139_limits and C139_design apply: one borehole and a long row, and half of the load -/
example : ∃ g n k f k' f', (∃ hi lo, Extremes (exLoaded g 10000 1) (exRow n) 100 hi lo ∧ WithinLimits (exLoaded g 10000 1) hi lo) ∧
    (findDesign (exLoaded g 20000 1) "near-square" (.flat [exRow 1, exRow n]) {}).1 = .ok (some (k', f')) ∧
    (findDesign (exLoaded g 10000 1) "near-square" (.flat [exRow 1, exRow n]) {}).1 = .ok (some (k, f)) ∧ k ≤ k' := by
  obtain ⟨K, hK⟩ := exShort
  have hg : (20 : ℝ) ≤ max K 20 := le_max_right _ _
  generalize max K 20 = g at hg
  obtain ⟨N1, hN1⟩ := exLoaded_graded (g := g) (q := 10000) (m := 1) hK hg le_rfl le_rfl (by norm_num)
  obtain ⟨N2, hN2⟩ := exLoaded_graded (g := g) (q := 20000) (m := 1) hK hg (by norm_num) le_rfl (by norm_num)
  obtain ⟨n, hn⟩ : ∃ n, n = N1 + N2 := ⟨_, rfl⟩
  obtain ⟨hn0, G1⟩ := hN1 n (by omega)
  obtain ⟨-, G2⟩ := hN2 n (by omega)
  have eh : (1 / 2 * 20000 : ℝ) = 10000 := by norm_num
  have hgr : (exLoaded g 20000 1).minEFT ≤ (exLoaded g 20000 1).media.soil.ugt ∧
      (exLoaded g 20000 1).media.soil.ugt ≤ (exLoaded g 20000 1).maxEFT :=
    ⟨by show (5 : ℝ) ≤ 18; norm_num, by show (18 : ℝ) ≤ 35; norm_num⟩
  have all : ∀ f ∈ [exRow 1, exRow n], ∀ H, H = 50 ∨ H = 100 → ∃ s, Usable exProblem f H (.multiple (exDouble H)) s ∧
      charTime s = 100000 * H ^ 2 := by
    intro f hf H hH
    have : ∃ j, j ≠ 0 ∧ f = exRow j := by
      rcases List.mem_pair.1 hf with rfl | rfl
      · exact ⟨1, one_ne_zero, rfl⟩
      · exact ⟨n, hn0, rfl⟩
    obtain ⟨j, hj, rfl⟩ := this
    exact exUsable (exRow j) (exRow_ne hj) H (by tauto) (exRow_spacing j)
  have both : ∀ {f H s}, Usable exProblem f H (.multiple (exDouble H)) s →
      Usable (exLoaded g 20000 1) f H (.multiple (exDouble H)) s ∧
      Usable { exLoaded g 20000 1 with hourly := (exLoaded g 20000 1).hourly.map (1 / 2 * ·) } f H (.multiple (exDouble H)) s := by
    intro f H s hu
    refine ⟨exLoaded_usable le_rfl hu, ?_⟩
    rw [exLoaded_map]
    exact exLoaded_usable le_rfl hu
  have init : ∀ f, [exRow 1, exRow n].head? = some f → ∃ s, Usable exProblem f 100 (.multiple (exDouble 100)) s := by
    intro f hf
    obtain ⟨s, hu, -⟩ := all f (List.mem_of_head? hf) 100 (.inr rfl)
    exact ⟨s, hu⟩
  obtain ⟨k', f', e2, -⟩ := flat_smallest "near-square" (.inl rfl) _ G2 (by simp) (by
    intro f hf
    obtain ⟨s, hu⟩ := init f hf
    obtain ⟨x, hx, -⟩ := C95_made (both hu).1
    exact ⟨x, hx⟩)
  obtain ⟨k, f, e1, i1⟩ := C139_design (p := exLoaded g 20000 1) "near-square" (.inl rfl) (1 / 2) (by norm_num) (by norm_num) hgr
    [exRow 1, exRow n] (by rw [exLoaded_map, eh]; exact G1) (by
      intro f hf
      obtain ⟨s, hu⟩ := init f hf
      exact ⟨_, s, both hu⟩) (by
      intro f hf H hH
      obtain ⟨s, hu, hct⟩ := all f hf H hH
      exact ⟨_, s, (both hu).1, (both hu).2, exSeam s H hH hct, .inl ⟨rfl, 1, le_rfl, exLoaded_months,
        exLoaded_fits (by norm_num) hH hct⟩⟩) k' f' e2
  obtain ⟨s, hu, -⟩ := all (exRow n) (by simp) 100 (.inr rfl)
  obtain ⟨hi, lo, he⟩ := G2.simulates (exRow n) (by simp) 100 (.inr rfl)
  have hlim := C139_limits (both hu).1 (1 / 2) (by norm_num) (by norm_num) (both hu).2 hgr hi lo he (G2.last _ rfl hi lo he)
  rw [exLoaded_map, eh] at e1 hlim
  exact ⟨g, n, k, f, k', f', hlim, e2, e1, i1⟩

end

end Ghedt.WholeSearch

namespace Ghedt.Whole
open Real Ghedt.GHE Ghedt.Bhe Ghedt.Radial Ghedt.Spec Ghedt.Scaled

noncomputable section

/-- C139_size applies: half of 4 kW, with half of the hybrid load -/
example : ∃ s0 w s w' s', size (exLevel 4000) "hourly" s0 = (.ok w, s) ∧
    size { exLevel 4000 with hourly := List.replicate 8760 (-2000), load := (exLevel 4000).load.map (1 / 2 * ·) } "hourly" s0 =
      (.ok w', s') ∧
    (borehole s'.bhe).H ≤ (borehole s.bhe).H + 2 * (90 / 2 ^ 20) := by
  obtain ⟨s0, hc⟩ := exLevel_covered
  obtain ⟨out, w, s, hs⟩ := exLevel_sized hc 4000 (by norm_num) le_rfl
  generalize he : ({ exLevel 4000 with hourly := List.replicate 8760 (-2000), load := (exLevel 4000).load.map (1 / 2 * ·) } : Env) = e
  have e1 : List.replicate 8760 (-2000 : ℝ) = (exLevel 4000).hourly.map (1 / 2 * ·) := by
    show List.replicate 8760 (-2000 : ℝ) = (List.replicate 8760 (-4000)).map _
    rw [List.map_replicate]
    norm_num
  have e2 : e = Multiple.env (1 / 2) (exLevel 4000) := by
    rw [← he, e1]
    rfl
  have hc' : Covered e 50 200 (.single (exLone 100)) s0 := by
    have h := hc 4000
    rw [← he]
    exact ⟨h.made, h.settled, h.db, h.range, ⟨h.height.height, h.height.spacing, h.height.above, h.height.below⟩, h.order,
      fun y a b => ⟨(h.bounds y a b).height, (h.bounds y a b).spacing, (h.bounds y a b).above, (h.bounds y a b).below⟩, h.finder⟩
  have gives : ∀ H, 60 ≤ H → H ≤ 150 → Gives e "hourly" s0 H (exTemp 2000 H) (exTemp 2000 H) := by
    intro H h1 h2
    have := gives_mul (a := 1 / 2) (by norm_num) (hc 4000) (exLevel_gives (hc 4000) H h1 h2)
    have e3 : about (1 / 2) (soilOf (.single (exLone 100))).ugt (exTemp 4000 H) = exTemp 2000 H := by
      show 18 + 1 / 2 * (_ - 18) = _
      unfold exTemp
      ring
    rw [e3, ← e2] at this
    exact this
  obtain ⟨b1, b2⟩ := exTemp_bounds (q := 2000) (by norm_num)
  have m1 : e.minHeight = 60 := by rw [← he]; rfl
  have m2 : e.maxHeight = 150 := by rw [← he]; rfl
  have m3 : e.maxEFT = 35 := by rw [← he]; rfl
  have m4 : e.minEFT = 5 := by rw [← he]; rfl
  have out' : ¬ WithinAt e "hourly" s0 60 := by
    rintro ⟨u, v, h, h1, -⟩
    have := (gives 60 le_rfl (by norm_num)).symm.trans h
    cases this
    rw [m3] at h1
    linarith
  obtain ⟨w', s', hs'⟩ := C138_returns hc' (by rw [m1, m2]; norm_num) (fun H h1 h2 => ⟨_, _, gives H (m1 ▸ h1) (m2 ▸ h2)⟩)
    (fun f => by rw [← he]; exact bisect_returns _ _ _ f) (fun h => absurd (m1 ▸ h) out') (fun _ => by
      rw [m2]
      refine ⟨_, _, gives 150 (by norm_num) le_rfl, ?_, ?_⟩
      · rw [m3]; linarith
      · rw [m4]; exact exTemp_above (by norm_num) (by norm_num) le_rfl) [] (by simp)
  refine ⟨s0, w, s, w', s', hs, hs', C139_size "hourly" (hc 4000) (by show (60 : ℝ) < 150; norm_num) (exLevel_simulates (hc _))
    (exLevel_improves (by norm_num) (hc _)) (by positivity) exLevel_narrows (1 / 2) (by norm_num) (by norm_num)
    (by show (5 : ℝ) ≤ 18; norm_num) (by show (18 : ℝ) ≤ 35; norm_num) e (exLevel 4000).rejection
    (exLevel 4000).extraction ?_ out' [] [] (by simp) (by simp) w w' s s' hs hs'⟩
  rw [← he, e1]

end

end Ghedt.Whole
