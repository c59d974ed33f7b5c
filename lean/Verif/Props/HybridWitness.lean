import Verif.Props.Nan
import Verif.Props.Network

/-!
# Concrete cases for C102 and C129

The building of C104, with a peak of rejection and a peak of extraction in every month, for one year.
-/

set_option linter.unusedSectionVars false

namespace Ghedt.WholeSearch
open Real Ghedt.GHE Ghedt.Bhe Ghedt.Radial Ghedt.Whole Ghedt.Search Ghedt.Utilities Ghedt.Spec

noncomputable section
variable {p : Problem} {f : Field} {H : ℝ} {bhe : Exchanger} {s : UTube}

/-- placed peaks: no hour of the hybrid load is after the end of the last month -/
theorem hour_le_end (h : Usable p f H bhe s) (hp : PeaksPlaced p.hourly) (x : Held) (hx : fresh p f H = .ok x) :
    ∀ u ∈ x.env.hour, u ≤ (hoursOf p.endMonth.toNat : ℝ) := by
  have hgap := C104_input h hp x hx
  obtain ⟨B, c, sts, cl, hl, hy, hB, hc, hcl, h1, h2, h3, h4, h5, hf⟩ := fresh_ok h
  rw [hx] at hf
  cases hf
  change (0 :: hy.hour.drop 2).Pairwise _ at hgap
  show ∀ u ∈ hy.hour, _
  obtain ⟨m1, m2⟩ := h.months
  obtain ⟨a, ha⟩ : ∃ a : ℕ, p.startMonth = a := ⟨p.startMonth.toNat, by omega⟩
  obtain ⟨b, hb⟩ : ∃ b : ℕ, p.endMonth = b := ⟨p.endMonth.toNat, by omega⟩
  obtain ⟨f1, f2, f3, hy', h4', h6⟩ := GL.C63_hybrid h2 h3 (start := a) (finish := b) (by omega) (by omega)
  rw [← ha, ← hb, h4] at h4'
  cases h4'
  obtain ⟨-, -, -, l4, l2⟩ := GL.C63_aligned f1 f2 f3 (by omega) (by omega) h6
  rw [show p.endMonth.toNat = b by omega]
  have hmono : (hoursOf (a - 1) : ℝ) ≤ (hoursOf b : ℝ) := by
    exact_mod_cast monotone_nat_of_le_succ (f := hoursOf) (fun n => by rw [GL.hoursOf_succ]; omega) (show a - 1 ≤ b by omega)
  intro u hu
  rw [← List.take_append_drop 2 hy.hour, l4, List.mem_append] at hu
  rcases hu with hu | hu
  · simp only [List.mem_cons, List.not_mem_nil, or_false] at hu
    rcases hu with rfl | rfl
    · exact Nat.cast_nonneg _
    · exact hmono
  · have hne : hy.hour.drop 2 ≠ [] := List.ne_nil_of_mem hu
    have hlast : (hy.hour.drop 2).getLast hne = (hoursOf b : ℝ) := by
      rw [List.getLast_drop]
      rw [List.getLast?_eq_some_getLast (by rintro h0; simp [h0] at hne)] at l2
      exact Option.some_inj.1 l2
    obtain ⟨-, hpw⟩ := List.pairwise_cons.1 hgap
    rcases eq_or_ne u ((hy.hour.drop 2).getLast hne) with h0 | h0
    · rw [h0, hlast]
    · rw [← hlast]
      rw [← List.dropLast_append_getLast hne, List.pairwise_append] at hpw
      rw [← List.dropLast_append_getLast hne, List.mem_append] at hu
      have hu' : u ∈ (hy.hour.drop 2).dropLast := by
        rcases hu with hu | hu
        · exact hu
        · exact absurd (List.mem_singleton.1 hu) h0
      have := hpw.2.2 u hu' _ (List.mem_singleton.2 rfl)
      linarith

/-- the loads and times of a hybrid load as functions of the step -/
def stepLoad (x : Held) (k : ℕ) : ℝ := if k = 0 then 0 else 1000 * x.env.load.getD (k + 1) 0
def stepTime (x : Held) (k : ℕ) : ℝ := if k = 0 then 0 else x.env.hour.getD (k + 1) 0

theorem stepLoad_spec (x : Held) (k : ℕ) (hk : k + 2 < x.env.load.length) :
    x.env.load[k + 2]? = some (stepLoad x (k + 1) / 1000) := by
  unfold stepLoad
  rw [if_neg (by omega), List.getD_eq_getElem?_getD, List.getElem?_eq_getElem hk, Option.getD_some]
  congr 1
  ring

theorem stepTime_spec (x : Held) (hl : x.env.load.length = x.env.hour.length) (k : ℕ) (hk : k + 2 < x.env.load.length) :
    x.env.hour[k + 2]? = some (stepTime x (k + 1)) := by
  unfold stepTime
  rw [if_neg (by omega), List.getD_eq_getElem?_getD, List.getElem?_eq_getElem (by omega), Option.getD_some]

theorem load_hour_length (h : Usable p f H bhe s) (x : Held) (hx : fresh p f H = .ok x) :
    x.env.load.length = x.env.hour.length := by
  obtain ⟨B, c, sts, cl, hl, hy, hB, hc, hcl, h1, h2, h3, h4, h5, hf⟩ := fresh_ok h
  rw [hx] at hf
  cases hf
  obtain ⟨m1, m2⟩ := h.months
  obtain ⟨a, ha⟩ : ∃ a : ℕ, p.startMonth = a := ⟨p.startMonth.toNat, by omega⟩
  obtain ⟨b, hb⟩ : ∃ b : ℕ, p.endMonth = b := ⟨p.endMonth.toNat, by omega⟩
  obtain ⟨f1, f2, f3, hy', h4', h6⟩ := GL.C63_hybrid h2 h3 (start := a) (finish := b) (by omega) (by omega)
  rw [← ha, ← hb, h4] at h4'
  cases h4'
  exact (GL.C63_aligned f1 f2 f3 (by omega) (by omega) h6).1

/-- `C129_fresh`, `C129_hybrid` and `C129_extremes` apply to the building -/
example : ∃ x hi lo s', fresh exBuilding [(0, 0)] 100 = .ok x ∧ (∀ u ∈ x.env.hour, 0 ≤ u) ∧
    Whole.simulate x.env "hybrid" x.state = (.ok (hi, lo), s') ∧ some hi ∈ s'.HPEFT ∧ some lo ∈ s'.HPEFT := by
  obtain ⟨s, h, hct⟩ := exBuilding_usable [(0, 0)] (by simp) 100 (by tauto) (fun B hB => by cases hB; exact .inl rfl)
  obtain ⟨x, hx, -⟩ := C95_made h
  obtain ⟨hi, lo, s', -, -, -, -, -, e, -⟩ := C129_hybrid h (exSeam s 100 (.inr rfl) hct) x hx
    ((C104_input h exHourly_placed x hx).imp fun {u v} huv => by
      have := le_abs_self (v - u)
      have : (1 : ℝ) / 10 ^ 12 ≤ 3600 * (1 / 1000000) := by norm_num
      linarith) (fun u hu => by
      have h1 := hour_le_end h exHourly_placed x hx u hu
      have h2 : hoursOf exBuilding.endMonth.toNat = 8760 := by decide
      rw [h2] at h1
      rw [hct]
      have : 1 ≤ exp (3003 / 1000 : ℝ) := one_le_exp (by norm_num)
      push_cast at h1
      nlinarith) (stepLoad x) (stepTime x) rfl rfl (stepLoad_spec x)
    (stepTime_spec x (load_hour_length h x hx))
  have := Whole.C129_extremes "hybrid" x.state hi lo s' e
  exact ⟨x, hi, lo, s', hx, C129_fresh h x hx, e, this.1.1, this.2.1⟩

end

end Ghedt.WholeSearch

namespace Ghedt.GL
open Spec Search

/-- `C129_hours` applies: the rejection peak on day 0 of every month -/
example : ∃ H, processMonthlyLoads (exLoads 1000 5 4 0) (exLoads 600 3 2 10) (1 : ℕ) (12 : ℕ) = .ok H ∧
    ∀ u ∈ H.hour, 0 ≤ u := by
  have f1 := exLoads_full 1000 5 4 0
  have f2 := exLoads_full 600 3 2 10
  have hz : NonZero (exLoads 1000 5 4 0) (exLoads 600 3 2 10) := exLoads_nonZero (by norm_num)
  obtain ⟨H, hH⟩ := C63_total f1 f2 hz (show 1 ≤ 1 from le_rfl) (show 1 ≤ 12 by norm_num)
  have hd : ∀ t p d k, 0 ≤ d → ∀ x ∈ (exLoads t p d k).duration, 0 ≤ x := by
    intro t p d k hd x hx
    rw [(List.mem_replicate.1 hx).2]
    exact hd
  exact ⟨H, hH, C129_hours f1 f2 hz (hd _ _ _ _ (by norm_num)) (hd _ _ _ _ (by norm_num)) le_rfl (by norm_num) hH⟩

end Ghedt.GL

namespace Ghedt.Network
open Real Ghedt.GHE Ghedt.Bhe Ghedt.Radial Ghedt.Whole Ghedt.WholeSearch Ghedt.Spec Ghedt.Utilities

noncomputable section

/-- the building, with the g-function of the library `exLib` -/
def exNetBuilding : Problem := { exBuilding with gf := liveCurve exProblem.ext exLib eskilsonLogTimes {} }

theorem exNetBuilding_usable (n : ℕ) (hn : n ≠ 0) :
    ∃ s, Usable exNetBuilding (exRow n) 100 (.multiple (exDouble 100)) s ∧ charTime s = 100000 * 100 ^ 2 := by
  obtain ⟨s, hu, hct⟩ := exBuilding_usable (exRow n) (exRow_ne hn) 100 (by tauto) (exRow_spacing n)
  refine ⟨s, ⟨hu.flow, hu.field, hu.height, hu.radius, hu.exchanger, hu.converts, hu.sound, hu.solver, hu.steps, hu.text,
    ?_, hu.year, hu.heating, hu.cooling, hu.months⟩, hct⟩
  refine C102_answered exLib_answers _ rfl _ exProblem.media (exRow n) 100 (3 / 40) 2 (by intro h; cases h) ?_ ?_
    (exRow_ne hn) (exRow_nodup n) (by norm_num) (by norm_num)
  · show (0 : ℝ) < (exDouble 100).soil.k
    norm_num [exDouble]
  · show (0 : ℝ) < (exDouble 100).soil.rhoCp
    norm_num [exDouble]

/-- `C102_hybrid` applies to three boreholes -/
example : ∃ x hi lo s', fresh exNetBuilding (exRow 3) 100 = .ok x ∧
    Whole.simulate x.env "hybrid" x.state = (.ok (hi, lo), s') ∧ s'.HPEFT.length = x.env.load.length - 2 := by
  obtain ⟨s, h, hct⟩ := exNetBuilding_usable 3 (by norm_num)
  obtain ⟨x, hx, -⟩ := C95_made h
  obtain ⟨hi, lo, s', c, G, -, e, e2, -⟩ := C102_hybrid (lib := exLib) rfl (List.replicate 8 (1 / 8)) rfl h
    (exSeam s 100 (.inr rfl) hct) x hx
    ((C104_input h exHourly_placed x hx).imp fun {u v} huv => by
      have : (1 : ℝ) / 10 ^ 12 ≤ 3600 * (1 / 1000000) := by norm_num
      linarith) (by
      have h2 : hoursOf exNetBuilding.endMonth.toNat = 8760 := by decide
      rw [h2, hct]
      have : 1 ≤ exp (3003 / 1000 : ℝ) := one_le_exp (by norm_num)
      push_cast
      nlinarith) (stepLoad x) (stepTime x) rfl rfl (stepLoad_spec x)
    (stepTime_spec x (load_hour_length h x hx)) _ rfl
  refine ⟨x, hi, lo, s', hx, e, ?_⟩
  rw [e2, List.length_map, List.length_range]

end

end Ghedt.Network
