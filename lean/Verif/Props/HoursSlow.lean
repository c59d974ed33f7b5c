import Verif.Props.Inexact
import Verif.Lemmas.DurationCeil

/-!
# C131: the response at the hours slows down
-/

set_option linter.unusedSectionVars false

namespace Ghedt.Radial
open Real Ghedt.Spec Ghedt.GL

noncomputable section
variable {u : Tube}

/-- C131: if the solver is accurate enough for the tube, what one hour of load adds to the temperature in any hour is positive and
at least a third of what it adds in any later hour, of the first 48. -/
theorem C131_slows {solve : Solver} (hu : u.Sound) (hsol : AccurateFor solve u) :
    ∃ N r lntts g, (∀ fuel, N ≤ fuel → calcSts solve u none false fuel = .ok (r, lntts, g)) ∧
      ∃ G : ℕ → ℝ, (∀ t : ℕ, 1 ≤ t → t ≤ 48 → (respOf u r lntts g).g (t : ℤ) = .ok (G t)) ∧
        Slows (respOf u r lntts g) G := by
  obtain ⟨ε, hε, hnear, hs, hlast⟩ := hsol
  have hp := gridOf_pos hu
  have hH := heat_history hp (by norm_num) 1 20
  set A := heat 535 (condOf (gridOf u)) (capOf 120 (gridOf u)) 1 20 hp (by norm_num) with hAd
  have hk : 0 < 2 * π * u.kSoil := by have := hu.kSoil; positivity
  have hδ0 := tempError_nonneg hu hε
  have hlast := hlast A (by rw [← condOf_eq, ← capOf_eq]; exact hH)
  set δ := tempError ε u with hδ
  have hgain := fun k => hH.gain_core hp (by norm_num) zero_le_one k
  have hts := ts_pos hu 20
  -- the exact response
  obtain ⟨N', r', lntts', g', h', B, b1, b2, b3, b4, b5⟩ := slow_located hu exSolver_exact none (M := 48) (by
    unfold horizon
    rw [Option.getD_none]
    have := le_max_right (u.H ^ 2 / (9 * (u.ks / u.rhoCpSoil)) * exp (-(86 / 10))) (49 * 3600)
    push_cast
    linarith)
  have b5 := b5 A hH
  obtain ⟨N, h0, h1, h2⟩ := steps_exist (horizon u none)
  have hexact := calcSts_eq hu none (follows_exact exSolver_exact (gridOf_grid hu) (by rw [gridOf_length]; exact hH)) hH.1
    h0 h1 h2 (le_max_left N N')
  rw [h' _ (le_max_right N N')] at hexact
  cases hexact
  -- the computed one is close
  have hx : ∀ k, log (sampleTime k / (radialOf u 20).ts) ≤ log (sampleTime (k + 1) / (radialOf u 20).ts) := by
    intro k
    apply log_le_log
    · exact div_pos (by unfold sampleTime; positivity) hts
    · apply div_le_div_of_nonneg_right _ hts.le
      unfold sampleTime
      push_cast; linarith
  have hclose : ∀ t : ℕ, 1 ≤ t → t ≤ 48 → ∃ d, (respOf u (radialOf u 20)
      ((List.range N).map fun j => log (sampleTime j / (radialOf u 20).ts))
      ((List.range N).map fun j => 2 * π * u.kSoil * ((computed solve (gridOf u) 20 (j + 1) 0 - 20) - u.Rb))).g (t : ℤ) = .ok d ∧
      |B t - d| ≤ 2 * π * u.kSoil * δ := by
    intro t t1 t2
    refine interp1d_close (fun k _ => hx k) (fun k _ => ?_) (b1 t t1 t2)
    have := computed_close hu hε hnear hs hH (k + 1) 0 (by norm_num)
    rw [abs_sub_comm] at this
    have := mul_le_mul_of_nonneg_left this hk.le
    rw [← abs_of_pos hk, ← abs_mul, abs_of_pos hk] at this
    convert this using 2
    ring
  choose! G hG hGB using hclose
  -- in terms of the rise of the temperature
  have hrise : ∀ t : ℕ, 1 ≤ t → t ≤ 48 → (A (30 * t) 0 - 20) - δ ≤ G t / (2 * π * u.kSoil) + u.Rb ∧
      G t / (2 * π * u.kSoil) + u.Rb ≤ (A (30 * t + 1) 0 - 20) + δ ∧
      |B t / (2 * π * u.kSoil) - G t / (2 * π * u.kSoil)| ≤ δ := by
    intro t t1 t2
    have e : |B t / (2 * π * u.kSoil) - G t / (2 * π * u.kSoil)| ≤ δ := by
      rw [← sub_div, abs_div, abs_of_pos hk, div_le_iff₀ hk]
      linarith [hGB t t1 t2]
    have l := b5 t t1 t2
    have := abs_le.1 e
    exact ⟨by linarith [l.1], by linarith [l.2], e⟩
  have hD : ∀ i < 48, 60 * δ ≤ A (30 * i + 30) 0 - A (30 * i + 1) 0 ∧ 2 * δ < A (30 * i + 30) 0 - A (30 * i + 1) 0 := by
    intro i hi
    have i2 := gains (R := fun k => A k 0) hgain 29 (i := 30 * i + 1) (j := 1411) (by omega)
    norm_num at i2
    rw [show 30 * i + 1 + 29 = 30 * i + 30 by ring] at i2
    have h60 : 60 * δ ≤ A (30 * i + 30) 0 - A (30 * i + 1) 0 := by linarith
    refine ⟨h60, ?_⟩
    rcases hδ0.lt_or_eq with hd | hd
    · linarith
    · have hm : StrictMono fun k => A k 0 := strictMono_nat_of_lt_succ (hH.core_strict hp (by norm_num) one_pos)
      have := hm (show 30 * i + 1 < 30 * i + 30 by omega)
      simp only at this
      linarith
  have hm : Monotone fun k => A k 0 := monotone_nat_of_le_succ fun k => hH.mono hp zero_le_one k 0 (by norm_num)
  have hlow : ∀ i < 48, A (30 * i + 30) 0 - A (30 * i + 1) 0 - 2 * δ ≤ lag (respOf u (radialOf u 20)
      ((List.range N).map fun j => log (sampleTime j / (radialOf u 20).ts))
      ((List.range N).map fun j => 2 * π * u.kSoil * ((computed solve (gridOf u) 20 (j + 1) 0 - 20) - u.Rb))) G i := by
    intro i hi
    unfold lag
    have k1 := (hrise (i + 1) (by omega) (by omega)).1
    rw [show 30 * (i + 1) = 30 * i + 30 by ring] at k1
    split
    · rename_i h
      subst h
      have := hm (show 0 ≤ 1 by norm_num)
      simp only at this
      rw [hH.1 0 (by norm_num)] at this
      show _ ≤ G 1 / (2 * π * u.kSoil) + u.Rb
      norm_num at k1 ⊢
      linarith
    · have k2 := (hrise i (by omega) (by omega)).2.1
      show _ ≤ G (i + 1) / (2 * π * u.kSoil) - G i / (2 * π * u.kSoil)
      linarith
  have hpos : ∀ i < 48, 0 < lag (respOf u (radialOf u 20)
      ((List.range N).map fun j => log (sampleTime j / (radialOf u 20).ts))
      ((List.range N).map fun j => 2 * π * u.kSoil * ((computed solve (gridOf u) 20 (j + 1) 0 - 20) - u.Rb))) G i := by
    intro i hi
    have := hlow i hi
    have := (hD i hi).2
    linarith
  refine ⟨N, _, _, _, fun fuel hf => calcSts_eq hu none (computed_follows hnear.sized (gridOf_grid hu) 20)
      (fun _ _ => rfl) h0 h1 h2 hf, G, hG, hpos, ?_⟩
  intro i j hij hj
  rcases Nat.eq_or_lt_of_le hij with rfl | hlt
  · have := hpos i hj
    linarith
  · have a1 := hlow i (by omega)
    have a2 := (hD i (by omega)).1
    have k1 := (hrise (j + 1) (by omega) (by omega)).2.1
    have k2 := (hrise j (by omega) (by omega)).1
    rw [show 30 * (j + 1) + 1 = 30 * j + 31 by ring] at k1
    have g1 := gains (R := fun k => A k 0) hgain 29 (i := 30 * i + 1) (j := 30 * j + 2) (by omega)
    have g2 := gains (R := fun k => A k 0) hgain 29 (i := 30 * i + 1) (j := 30 * j) (by omega)
    have g3 := hm (show 30 * j + 2 ≤ 30 * j + 29 by omega)
    simp only at g1 g2 g3
    rw [show 30 * j + 2 + 29 = 30 * j + 31 by ring, show 30 * i + 1 + 29 = 30 * i + 30 by ring] at g1
    rw [show 30 * i + 1 + 29 = 30 * i + 30 by ring] at g2
    refine le_trans ?_ (mul_le_mul_of_nonneg_left a1 (by norm_num))
    unfold lag
    rw [if_neg (by omega)]
    show G (j + 1) / (2 * π * u.kSoil) - G j / (2 * π * u.kSoil) ≤ _
    linarith

end

end Ghedt.Radial
