import Verif.Props.Inputs

/-!
# Concrete cases for coaxial exchangers and single U-tubes (C88, C105)
-/

set_option linter.unusedSectionVars false

namespace Ghedt.WholeSearch
open Real Ghedt.GHE Ghedt.Bhe Ghedt.Radial Ghedt.Whole Ghedt.Search Ghedt.Utilities Ghedt.Spec Ghedt.Network

noncomputable section

/-- radii of 20, 25, 50 and 55 mm -/
def exPipeInPipe : CoaxPipe := ⟨(2 / 100, 25 / 1000), (5 / 100, 55 / 1000), 0, (2 / 5, 20 * log (11 / 10) / (2 * π)), 1542000,
  (0, 0), 0⟩

/-- coaxial exchangers instead of double U-tubes -/
def exCoaxial : Problem := { exNet with
  media := ⟨.coaxial exPipeInPipe, exWater, (exDouble 100).grout, (exDouble 100).soil⟩ }

theorem exPipeInPipe_fits : PipesFit (3 / 40) (.coaxial exPipeInPipe) := by
  have hl : 0 < log (11 / 10 : ℝ) := log_pos (by norm_num)
  have hp := Real.pi_pos
  have hs : (1 : ℝ) ≤ √2 := Real.one_le_sqrt.2 (by norm_num)
  refine ⟨?_, ?_, ?_, ?_, ?_, ?_, ?_, ?_⟩
  · show (0 : ℝ) < 2 / 100; norm_num
  · show (2 / 100 : ℝ) < 25 / 1000; norm_num
  · show (25 / 1000 : ℝ) < 5 / 100; norm_num
  · show (5 / 100 : ℝ) < 55 / 1000; norm_num
  · show (3 / 2 - √2) * (55 / 1000) ^ 2 < (2 / 100 : ℝ) ^ 2 + (5 / 100) ^ 2 - (25 / 1000) ^ 2
    nlinarith
  · show (55 / 1000 : ℝ) ≤ 1; norm_num
  · show 0 < 20 * log (11 / 10) / (2 * π)
    positivity
  · show (0 : ℝ) < 1542000; norm_num

theorem exCoaxial_sensible : Sensible exCoaxial := by
  have h := exNet_sensible
  refine ⟨h.flow, h.volume, h.radius, exPipeInPipe_fits, h.fluid, h.grout, h.soil, h.year, h.heating, h.cooling, h.months,
    h.correlations, h.curves, h.brent⟩

theorem exCoaxial_converts (f : Field) (H : ℝ) (hH : 0 < H) : Converts exCoaxial f H := by
  have hpi := Real.pi_pos
  have hl : 0 < log (11 / 10 : ℝ) := log_pos (by norm_num)
  refine converts_exact exSolver_exact fun bhe hb => ?_
  obtain ⟨c, hc⟩ : ∃ c, c = mkCoax Whole.exExt (massFlow exCoaxial f) exWater ⟨H, 2, 3 / 40⟩ exPipeInPipe
    (exDouble 100).grout (exDouble 100).soil := ⟨_, rfl⟩
  have hbhe : bhe = .coaxial c := by
    rw [hc]
    cases hb
    rfl
  subst hbhe
  obtain ⟨q0, q1, q2, q3, -⟩ := exPipeInPipe_fits
  have hs : c.Sound := by
    rw [hc]
    exact ⟨q0, q1, q2, q3, by show (0 : ℝ) < 3 / 40; norm_num⟩
  have v1 : (concentricTubeVolumes c).Rpipe = 1 / 20 := by
    rw [hc]
    show log (55 / 1000 / (5 / 100)) / (2 * π * (20 * log (11 / 10) / (2 * π))) = 1 / 20
    rw [show (55 / 1000 : ℝ) / (5 / 100) = 11 / 10 by norm_num]
    generalize log (11 / 10 : ℝ) = l at *
    field_simp
  have v2 : (concentricTubeVolumes c).Rconv = 1 / 200 := by
    rw [hc]
    show 1 / (50 / (π * (25 / 1000)) * (π * 2 * (5 / 100))) = 1 / 200
    field_simp
    norm_num
  have v3 : coaxRb Whole.exExt c = 16 / 100 := by
    rw [hc]
    show rConduction (5 / 100) (55 / 1000) (20 * log (11 / 10) / (2 * π)) + 1 / (50 / (π * (5 / 100)) * 2 * π * (5 / 100)) +
      1 / (10 * 1) = 16 / 100
    rw [exConv _ (by norm_num)]
    unfold rConduction
    rw [show (55 / 1000 : ℝ) / (5 / 100) = 11 / 10 by norm_num]
    generalize log (11 / 10 : ℝ) = l at *
    field_simp
    norm_num
  obtain ⟨t0, ht0, e1, -, -, -, -, -, -, -, -, -, -, -, -, -, -, -, -, -, en, -⟩ := initialTube_eq Whole.exExt
    ⟨c.b, c.pipe.eps, c.pipe.rhoCp, c.mBorehole, c.fluid, c.grout, c.soil⟩ (concentricTubeVolumes c)
  obtain ⟨p1, p2⟩ := concentric_pos c hs
  obtain ⟨hk, hR⟩ := initial_Rp Whole.exExt _ _ p1 p2 (by rw [v1]; norm_num) t0 ht0
  have hin : 0 < t0.pipe.rIn := by rw [e1]; positivity
  have hcv : convRes Whole.exExt t0 = 1 / 100 := exConv _ hin
  have hrb : ∀ k y, rbOf Whole.exExt (withKg Whole.exExt (withK Whole.exExt t0 k) y) =
      (1 / 100 + rConduction t0.pipe.rIn t0.pipe.rOut k) / 2 + 1 / (10 * y) := by
    intro k y
    show (convRes Whole.exExt t0 + rConduction t0.pipe.rIn t0.pipe.rOut k) / (2 * (t0.circuit.nPipes : ℝ)) + _ = _
    rw [hcv, en]
    push_cast
    rw [mul_one]
    rfl
  have hkk : ∀ k, equivalentSingle Whole.exExt exBrent ⟨c.b, c.pipe.eps, c.pipe.rhoCp, c.mBorehole, c.fluid, c.grout, c.soil⟩
      (concentricTubeVolumes c) = .ok (withK Whole.exExt t0 k) → rConduction t0.pipe.rIn t0.pipe.rOut k = 20 / 1001 := by
    intro k hq
    obtain ⟨k₀, hk₀, hR₀, -, -, h1, -⟩ := C86_conductivity Whole.exExt exBrent _ _ p1 p2 (by rw [v1]; norm_num) _ hq
    have hRf : (withK Whole.exExt t0 k).Rf = 1 / 100 := hcv
    obtain ⟨-, h2⟩ := h1 (by rw [hRf, v1, v2]; norm_num) (by rw [hRf, v1, v2]; norm_num)
    have h3 : k = (k₀ / 100 + k₀ * 10) / 2 := h2
    have h4 : rConduction t0.pipe.rIn t0.pipe.rOut k₀ = 2 * (concentricTubeVolumes c).Rpipe := hR₀
    rw [h3, show (k₀ / 100 + k₀ * 10) / 2 = k₀ * (1001 / 200) by ring, rConduction_scale, h4, v1]
    norm_num
  obtain ⟨s, hs⟩ := coaxial_ok Whole.exExt exBrent exBrent_returns c t0 ht0
    (by rw [div_eq_mul_inv, rConduction_scale, hR, v1, v2, hcv]; norm_num)
    (by rw [rConduction_scale, hR, v1, v2, hcv]; norm_num)
    (fun k h => by rw [v3, hrb, hrb, hkk k h]; norm_num)
  exact ⟨_, hs⟩

/-- C105 applies to coaxial exchangers, and so does the conclusion of C88: the equivalent tube is one the short-time model
computes with. -/
theorem exCoaxial_usable (n : ℕ) (hn : n ≠ 0) : ∃ bhe s, Usable exCoaxial (exRow n) 50 bhe s ∧ Seam s ∧
    Fits exCoaxial (exRow n) 50 s := by
  obtain ⟨bhe, s, h1, h2, h3, h4⟩ := C105_usable exCoaxial_sensible (exRow_ne hn) (exRow_nodup n)
    (exHeightFine _ rfl rfl 50 (.inl rfl)) (exText _ (exRow_spacing n) 50 (.inl rfl)).2 (exCoaxial_converts _ _ (by norm_num))
  refine ⟨bhe, s, h1, h2, h4 (.inl ⟨rfl, 1, le_rfl, rfl, ?_⟩)⟩
  rw [← h3]
  exact exFits s 50 (.inl rfl) (h3.trans (exSoilTime _ rfl 50))

/-- C88 applies to the coaxial exchanger. -/
example (f : Field) : ∃ c s, computeEquivalent Whole.exExt exBrent (.coaxial c) = .ok (s, .coaxial c) ∧
    c.pipe = exPipeInPipe ∧
    (s.circuit.Rfp / 2 ≤ Whole.exExt.rbStar s.circuit s.b s.mBorehole s.fluid.cp →
      (radialTube Whole.exExt s).Sound ∧ s.circuit.ks = 2 ∧ s.b.H = 50) := by
  obtain ⟨⟨s, x⟩, hr, -⟩ := exCoaxial_converts f 50 (by norm_num) _ rfl
  have hs2 : √2 < (3 / 2 : ℝ) := by rw [sqrt_lt' (by norm_num)]; norm_num
  have hs1 : (1 : ℝ) ≤ √2 := Real.one_le_sqrt.2 (by norm_num)
  obtain ⟨q0, q1, q2, q3, q4, q5, q6, q7⟩ := exPipeInPipe_fits
  obtain ⟨rfl, -⟩ := coaxial_form _ _ _ s x hr
  have hS := exCoaxial_sensible
  refine ⟨_, s, hr, rfl, fun hRb => ?_⟩
  have := C88_coaxial Whole.exExt exBrent exBrent_inside _ s _
    ⟨q0, q1, q2, q3, by show (0 : ℝ) < 3 / 40; norm_num⟩ q6
    ⟨q7, hS.grout.2, hS.soil.1, hS.soil.2, hS.fluid.1, hS.fluid.2⟩
    (by show (0 : ℝ) < 50; norm_num)
    (fun r hr => by
      have := Real.pi_pos
      show 0 < 50 / (π * r)
      positivity)
    (by
      show (3 - 2 * √2) * (55 / 1000) ^ 2 < 2 * ((2 / 100 : ℝ) ^ 2 + (5 / 100) ^ 2 - (25 / 1000) ^ 2)
      nlinarith)
    (by show (3 / 40 : ℝ) < 5; norm_num)
    (by
      show 6 / 5 * (2 * √2 * (55 / 1000) - 3 / 40) < (5 : ℝ)
      linarith) hr hRb
  exact this

/-- C88 applies to a single U-tube. -/
example (m : ℝ) : ∃ t s, computeEquivalent Whole.exExt exBrent (.single t) = .ok (s, .single t) ∧
    (radialTube Whole.exExt s).Sound ∧ s.circuit.ks = 2 ∧ s.b.H = 100 := by
  have hl : 0 < log (13 / 10 : ℝ) := log_pos (by norm_num)
  have hp := Real.pi_pos
  have hs1 : (1 : ℝ) ≤ √2 := Real.one_le_sqrt.2 (by norm_num)
  refine ⟨_, _, rfl, C88_single Whole.exExt exBrent m exWater ⟨100, 2, 3 / 40⟩
    ⟨[(-3 / 100, 0), (3 / 100, 0)], 1 / 100, 13 / 1000, 4 / 100, 0, 10 * log (13 / 10) / (2 * π), 1542000⟩
    (exDouble 100).grout (exDouble 100).soil _ _ _ rfl rfl ?_ ?_ ?_ ?_ ?_ ?_ ?_ ?_ ?_ ?_⟩
  · show (0 : ℝ) < 1 / 100; norm_num
  · show (1 / 100 : ℝ) < 13 / 1000; norm_num
  · show 2 * ((13 / 1000 : ℝ) - 1 / 100) < √2 * (13 / 1000)
    linarith
  · show (2 : ℝ) * (13 / 1000) < 3 / 40; norm_num
  · show (3 / 40 : ℝ) < 5; norm_num
  · show 0 < 10 * log (13 / 10) / (2 * π)
    positivity
  · refine ⟨?_, ?_, ?_, ?_, ?_, ?_⟩ <;> norm_num [exDouble, exWater]
  · show (0 : ℝ) < 100; norm_num
  · show 0 < 50 / (π * (1 / 100))
    positivity
  · refine (exCorrelations exWater).effective _ ⟨100, 2, 3 / 40⟩ 1 ?_ ?_ ?_ ?_ one_pos
    · rfl
    · show 0 < 1 / (50 / (π * (1 / 100)) * 2 * π * (1 / 100)) + rConduction (1 / 100) (13 / 1000) (10 * log (13 / 10) / (2 * π))
      rw [exDouble_Rp, exConv _ (by norm_num)]
      norm_num
    · show (0 : ℝ) < 1; norm_num
    · show (0 : ℝ) < 2; norm_num

end

end Ghedt.WholeSearch
