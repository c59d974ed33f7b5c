import Verif.Props.RoundedWhole
import Verif.Props.MoreLoadExample
import Verif.Props.RoundedExample
import Verif.Props.HybridWitness

/-!
# Concrete cases for C147
-/

namespace Ghedt.WholeSearch
open Real Ghedt.GHE Ghedt.Bhe Ghedt.Radial Ghedt.Whole Ghedt.Search Ghedt.Utilities Ghedt.Spec Ghedt.Network Ghedt.Design

noncomputable section

/-- a logarithm that is off by one part in 2^53, and the times of an exchanger of 100 m -/
theorem exShift {s : UTube} (hct : charTime s = 100000 * 100 ^ 2) :
    shift (1 / 2 ^ 53) (max |log (1 / 10 ^ 12 / charTime s)| (3003 / 1000)) ≤ 1 := by
  have h10 : log 10 ≤ 9 := by
    have := log_le_sub_one_of_pos (show (0 : ℝ) < 10 by norm_num)
    linarith
  have h0 : (0 : ℝ) ≤ log 10 := log_nonneg (by norm_num)
  have e : log (1 / 10 ^ 12 / charTime s) = -(21 * log 10) := by
    rw [hct, show (1 / 10 ^ 12 / (100000 * 100 ^ 2) : ℝ) = (10 ^ 21)⁻¹ by norm_num, log_inv, log_pow]
    norm_num
  have hW : max |log (1 / 10 ^ 12 / charTime s)| (3003 / 1000) ≤ 200 := by
    rw [e, abs_neg, abs_of_nonneg (by positivity)]
    exact max_le (by linarith) (by norm_num)
  unfold shift
  have : (1 / 2 ^ 53 : ℝ) * (max |log (1 / 10 ^ 12 / charTime s)| (3003 / 1000) + 1 / 2 ^ 50) ≤ 1 / 2 ^ 53 * (200 + 1 / 2 ^ 50) := by
    gcongr
  refine le_trans (add_le_add_right this _) ?_
  norm_num

theorem exAccurate : Accurate (1 / 2 ^ 53) log := by
  intro z _
  rw [sub_self, abs_zero]
  positivity

/-- three boreholes, 10 kW, two years, in double precision: C147 applies, with bounds that exist (C147_bounds) -/
example : ∃ M L T hi lo T' hi' lo' e, HourlyRun (exLoaded 20 10000 2) (exRow 3) 100 2 T hi lo ∧
    FloatRun Rounding.double (Rounded.dotFromLeft Rounding.double) log (exLoaded 20 10000 2) (exRow 3) 100 "hourly" (8760 * 2)
      T' hi' lo' e ∧
    ∀ k < 8760 * 2, |T' k - T k| ≤ (plantOf (exLoaded 20 10000 2) (exRow 3) 100 (.multiple (exDouble 100))).slack M
      (L + M / 2 ^ 47) (fun i => if i = 0 then 0 else 10000) (k + 1) := by
  obtain ⟨s, hu, hct⟩ := exUsable (exRow 3) (exRow_ne (by norm_num)) 100 (by tauto) (exRow_spacing 3)
  have h1 := exLoaded_usable (g := 20) (q := 10000) (m := 2) (by norm_num) hu
  have hs := exSeam s 100 (.inr rfl) hct
  obtain ⟨M, L, hb⟩ := C147_bounds h1 hs
  have hsh := exShift hct
  set W := max |log (1 / 10 ^ 12 / charTime s)| (3003 / 1000) with hW
  obtain ⟨T, hi, lo, T', hi', lo', e, r1, r2, r3, -⟩ := C147_hourly (Rounded.dotFromLeft Rounding.double)
    (fun w v _ => Rounded.dotFromLeft_summed _ w v) exAccurate (by positivity) h1 hs hb hsh
    (by rw [exLoaded_flow]; norm_num) (by show (0 : ℝ) < 4182; norm_num) 2 (by norm_num) (by norm_num) exLoaded_months (by
      have : 1 ≤ exp (3003 / 1000 - shift (1 / 2 ^ 53) W) := one_le_exp (by linarith)
      rw [hct]
      generalize exp (3003 / 1000 - shift (1 / 2 ^ 53) W) = z at this
      norm_num
      linarith) (by
      intro c hc v hv
      cases hc
      rw [List.eq_of_mem_replicate hv]
      have := Rounding.double.int (K := ℝ) 20 (by norm_num)
      push_cast at this
      exact this) (by
      intro q hq
      have : q = -10000 := List.eq_of_mem_replicate hq
      rw [this]
      have := Rounding.double.int (K := ℝ) (-10000) (by norm_num)
      push_cast at this
      exact this) (fun i => if i = 0 then 0 else 10000) rfl (by
      intro k
      show (List.replicate 8760 (-10000 : ℝ))[k % 8760]? = _
      rw [List.getElem?_replicate, if_pos (Nat.mod_lt _ (by norm_num))]
      simp)
  refine ⟨M, |L|, T, hi, lo, T', hi', lo', e, r1, r2, fun k hk => (r3 k hk).trans ?_⟩
  have hsh0 : 0 ≤ shift (1 / 2 ^ 53) W := by
    have : 0 ≤ W := (abs_nonneg _).trans (le_max_left _ _)
    unfold shift
    positivity
  have hL : L * shift (1 / 2 ^ 53) W ≤ |L| := by
    refine (mul_le_mul_of_nonneg_right (le_abs_self L) hsh0).trans ?_
    nlinarith [abs_nonneg L]
  unfold Plant.slack
  have hch : 0 ≤ (plantOf (exLoaded 20 10000 2) (exRow 3) 100 (.multiple (exDouble 100))).changes
      (fun i => if i = 0 then 0 else 10000) (k + 1) := by
    have hp := plantOf_sound h1 (by rw [exLoaded_flow]; norm_num) (by show (0 : ℝ) < 4182; norm_num)
    have hD := mul_pos (mul_pos hp.boreholes hp.height) hp.twoPiK
    unfold Plant.changes
    exact Finset.sum_nonneg fun j _ => div_nonneg (by positivity) hD.le
  gcongr

/-- instants that keep a distance and end by `E` are few -/
theorem gap_count {δ E : ℝ} (hδ : 0 ≤ δ) : ∀ (l : List ℝ) (a : ℝ), (a :: l).Pairwise (fun u v => δ ≤ v - u) → a ≤ E →
    (∀ u ∈ l, u ≤ E) → δ * l.length ≤ E - a := by
  intro l
  induction l with
  | nil => intro a _ ha _; simpa using ha
  | cons b l ih =>
    intro a h ha hl
    obtain ⟨h1, h2⟩ := List.pairwise_cons.1 h
    have := ih b h2 (hl b (by simp)) (fun u hu => hl u (by simp [hu]))
    have := h1 b (by simp)
    push_cast [List.length_cons]
    linarith

/-- the building with one peak of heating and one of cooling in each month: C147 applies to its hybrid loads, in double precision -/
example : ∃ (M L : ℝ) (T : ℕ → ℝ) (hi lo : ℝ) (T' : ℕ → ℝ) (hi' lo' e : ℝ) (Q : ℕ → ℝ) (x : Held), fresh exBuilding [(0, 0)] 100 = .ok x ∧
    (∃ s', Whole.simulate x.env "hybrid" x.state = (.ok (hi, lo), s') ∧
        s'.HPEFT = (List.range (x.env.load.length - 2)).map fun k => some (T k)) ∧
    FloatRun Rounding.double (Rounded.dotFromLeft Rounding.double) log exBuilding [(0, 0)] 100 "hybrid" (x.env.load.length - 2)
      T' hi' lo' e ∧
    ∀ k < x.env.load.length - 2, |T' k - T k| ≤ (plantOf exBuilding [(0, 0)] 100 (.multiple (exDouble 100))).slack M L Q (k + 1) := by
  obtain ⟨s, h, hct⟩ := exBuilding_usable [(0, 0)] (by simp) 100 (by tauto) (fun B hB => by cases hB; exact .inl rfl)
  have hs := exSeam s 100 (.inr rfl) hct
  obtain ⟨x, hx, -, -, -, -, -, -, -, -, -, -, -, -, hll, -⟩ := C95_made h
  have hgap := C104_input h exHourly_placed x hx
  have hle := hour_le_end h exHourly_placed x hx
  have hend : hoursOf exBuilding.endMonth.toNat = 8760 := by
    show hoursOf 12 = 8760
    decide
  rw [hend] at hle
  have hcount := gap_count (by norm_num) _ _ hgap (E := 8760) (by norm_num)
    (fun u hu => by have := hle u (List.mem_of_mem_drop hu); push_cast at this; exact this)
  rw [List.length_drop, ← hll] at hcount
  have hcount' : (x.env.load.length - 2 : ℕ) ≤ 8760 * 1000000 := by
    have : ((x.env.load.length - 2 : ℕ) : ℝ) ≤ 8760 * 1000000 := by linarith
    exact_mod_cast this
  obtain ⟨M, L, hb⟩ := C147_bounds h hs
  have hsh := exShift hct
  set W := max |log (1 / 10 ^ 12 / charTime s)| (3003 / 1000) with hW
  obtain ⟨T, hi, lo, T', hi', lo', e, r1, r2, r3, -⟩ := C147_hybrid (R := Rounding.double) (Rounded.dotFromLeft Rounding.double)
    (fun w v _ => Rounded.dotFromLeft_summed _ w v) exAccurate (by positivity) h hs hb hsh
    (by show (0 : ℝ) < 2000 / 998 / 1000 * 998; norm_num) (by show (0 : ℝ) < 4182; norm_num) x hx
    (hgap.imp fun h => by norm_num at h ⊢; linarith) (by
      have : 1 ≤ exp (3003 / 1000 - shift (1 / 2 ^ 53) W) := one_le_exp (by linarith)
      rw [hct, hend]
      generalize exp (3003 / 1000 - shift (1 / 2 ^ 53) W) = z at this
      norm_num
      linarith) (by
      intro c hc v hv
      cases hc
      rw [List.eq_of_mem_replicate hv]
      have := Rounding.double.int (K := ℝ) 20 (by norm_num)
      push_cast at this
      exact this) (by omega) (fun i => if i = 0 then 0 else 1000 * x.env.load.getD (i + 1) 0) rfl (by
      intro k hk
      rw [if_neg (by omega), List.getElem?_eq_getElem hk, List.getD_eq_getElem?_getD, List.getElem?_eq_getElem hk]
      simp)
  exact ⟨M, _, T, hi, lo, T', hi', lo', e, _, x, hx, r1, r2, r3⟩

end

end Ghedt.WholeSearch
