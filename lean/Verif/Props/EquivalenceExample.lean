import Verif.Props.Equivalence

/-!
# Concrete cases for C84–C87
-/

set_option linter.unusedSectionVars false

namespace Ghedt.Bhe
open Real Ghedt.GHE

noncomputable section

/-- A correlation in which the coefficient of a pipe is its flow. -/
def exFlowExt : Ext := { exExt with hPipe := fun m _ _ _ => m }

/-- C84 applies: two U-tubes in series with flow 1, given the flow 2, keep the coefficient 1. -/
example : ∃ t, mkUTube exFlowExt 1 exFluid ⟨100, 2, 10⟩ exPipe ⟨1, 1⟩ ⟨2, 1, 18⟩ 2 (some "series") = .ok t ∧
    (updateThermalMultiple exFlowExt (some 2) none t).2.hf = 1 ∧
    (updateThermalMultiple exFlowExt (some 2) none t).2.mBorehole = 2 ∧
    mkUTube exFlowExt 1 ⟨2, 2, 2, 2⟩ ⟨100, 2, 10⟩ exPipe ⟨1, 1⟩ ⟨2, 1, 18⟩ 2 (some "series") =
      .ok (updateThermalMultiple exFlowExt none (some ⟨2, 2, 2, 2⟩) t).2 := by
  obtain ⟨t, ht, h1⟩ : ∃ t, mkUTube exFlowExt 1 exFluid ⟨100, 2, 10⟩ exPipe ⟨1, 1⟩ ⟨2, 1, 18⟩ 2 (some "series") = .ok t ∧
      t.hf = 1 := by
    unfold mkUTube
    rw [(C83_flow 1 (some "series")).1 (Or.inr rfl)]
    exact ⟨_, rfl, rfl⟩
  have h2 := (C84_flow exFlowExt 1 2 _ _ _ _ _ _ _ t ht).2.1
  refine ⟨t, ht, ?_, ?_, (C84_fluid exFlowExt 1 _ ⟨2, 2, 2, 2⟩ _ _ _ _ _ _ t ht).2⟩
  · rw [h2]; exact h1
  · rw [h2]

/-- C84 applies to a single U-tube: the coefficient kept is 1, that of an exchanger built with the new flow is 2, and so is
the coefficient asked for, after any updates. -/
example (updates : List (Option ℝ × Option Fluid)) :
    ∃ t t', mkSingle exFlowExt 1 exFluid ⟨100, 2, 10⟩ exPipe ⟨1, 1⟩ ⟨2, 1, 18⟩ = .ok t ∧
    mkSingle exFlowExt 2 exFluid ⟨100, 2, 10⟩ exPipe ⟨1, 1⟩ ⟨2, 1, 18⟩ = .ok t' ∧
    (updateThermal exFlowExt (some 2) none t).2.hf = 1 ∧ t'.hf = 2 ∧
    convectionCoefficient exFlowExt (updates.foldl (fun t u => (updateThermal exFlowExt u.1 u.2 t).2) t) 2 = 2 := by
  have h : ∀ m fl, ∃ t, mkSingle exFlowExt m fl ⟨100, 2, 10⟩ exPipe ⟨1, 1⟩ ⟨2, 1, 18⟩ = .ok t ∧ t.hf = m := by
    intro m fl
    unfold mkSingle mkUTube
    rw [(C83_flow m none).1 (Or.inl rfl)]
    exact ⟨_, rfl, rfl⟩
  obtain ⟨t, ht, -⟩ := h 1 exFluid
  obtain ⟨t', ht', -⟩ := h 2 exFluid
  obtain ⟨t'', ht'', h2⟩ := h 2 ((updates.filterMap Prod.snd).getLast?.getD exFluid)
  obtain ⟨s1, s2⟩ := C84_stale exFlowExt 1 2 _ _ _ _ _ t t' ht ht'
  exact ⟨t, t', ht, ht', s1, s2,
    ((C84_coefficient exFlowExt 1 2 _ _ _ _ _ updates t t'' ht ht'').1).trans h2⟩

/-- C85 applies: with pipes of inner diameter 2 the target is not the parallel resistance. -/
example : (uTubeVolumes exMultiple).Rpipe = exMultiple.Rp / 4 ∧
    (uTubeVolumes exMultiple).Rconv + (uTubeVolumes exMultiple).Rpipe ≠ (exMultiple.Rf + exMultiple.Rp) / 4 := by
  have hpi := Real.pi_pos
  have h1 := (C85_multiple exExt 1 exFluid ⟨100, 2, 10⟩ exPipe ⟨1, 1⟩ ⟨2, 1, 18⟩ 2 (some "series") exMultiple
    exMultiple_made (by norm_num) (show (0 : ℝ) < 1 by norm_num)).1
  have h2 := C85_multiple_wrong exExt 1 exFluid ⟨100, 2, 10⟩ exPipe ⟨1, 1⟩ ⟨2, 1, 18⟩ 2 (some "series") exMultiple
    exMultiple_made (by norm_num) (show (0 : ℝ) < 1 by norm_num) (show (1 / (1 / (2 * π) * 2 * π * 1) : ℝ) ≠ 0 by positivity)
  norm_num at h1 h2
  refine ⟨h1, fun h => ?_⟩
  have := h2.1 h
  have : (2 : ℝ) * 1 = 1 := this
  norm_num at this

/-- C85 applies to a coaxial exchanger with the same coefficient on both walls of the annulus. -/
example : (concentricTubeVolumes exCoax).Rconv + (concentricTubeVolumes exCoax).Rpipe = exCoax.Rfp := by
  have hpi := Real.pi_pos
  exact (C85_coaxial exExt 1 exFluid _ _ _ _ (show (0 : ℝ) < 3 by norm_num) (show 0 < 1 / (2 * π) by positivity)
    (show 0 < 1 / (2 * π) by positivity)).2.2 rfl

/-- A resistance model in which the original has the resistance `R` and a single U-tube that of its grout. -/
def exRb (R : ℝ) : Ext := { exExt with rbStar := fun c _ _ _ => if c.nPipes = 2 then R else 1 / c.kg }

theorem exRb_ok (R : ℝ) (h1 : R ≠ 100) (h2 : R ≠ 1 / 7) : ∃ s,
    computeEquivalent (exRb R) exBrent (.multiple exMultiple) = .ok (s, .multiple exMultiple) ∧
    Matched (exRb R) exBrent R s ∧ ∀ y, rbOf (exRb R) (regrout s y) = 1 / y := by
  have hpi := Real.pi_pos
  obtain ⟨t0, ht0, e1, -, -, -, -, -, -, -, -, -, -, -, -, -, -, -, -, -, en, -⟩ := initialTube_eq (exRb R)
    ⟨exMultiple.b, exMultiple.pipe.eps, exMultiple.pipe.rhoCp, exMultiple.mBorehole, exMultiple.fluid,
      exMultiple.grout, exMultiple.soil⟩ (uTubeVolumes exMultiple)
  obtain ⟨v1, v2⟩ := exVolumes
  obtain ⟨p1, p2⟩ := uTubeVolumes_pos exMultiple exMultiple_sound
  obtain ⟨hk, hR⟩ := initial_Rp (exRb R) _ _ p1 p2 (by rw [v1]; norm_num) t0 ht0
  have hin : t0.pipe.rIn = √2 := by
    rw [e1]
    congr 1
    show ((2 * 2 : ℤ) : ℝ) * π * 1 ^ 2 / (2 * π) = 2
    push_cast
    field_simp
    norm_num
  have hc : convRes (exRb R) t0 = 1 / √2 := by
    show 1 / (1 / (2 * π) * 2 * π * t0.pipe.rIn) = _
    rw [hin]
    congr 1
    field_simp
  have hs1 : 0 < 1 / √2 := by positivity
  have hs2 : 1 / √2 < 4 / 5 := by
    rw [div_lt_iff₀ (by positivity)]
    have : (5 / 4 : ℝ) < √2 := Real.lt_sqrt_of_sq_lt (by norm_num)
    linarith
  have hfin : rbOf (exRb R) exMultiple = R := by
    show (if exMultiple.circuit.nPipes = 2 then R else 1 / exMultiple.circuit.kg) = R
    exact if_pos rfl
  have hone : ∀ k y, rbOf (exRb R) (withKg (exRb R) (withK (exRb R) t0 k) y) = 1 / y := by
    intro k y
    show (if t0.circuit.nPipes = 2 then R else 1 / y) = 1 / y
    rw [en]
    exact if_neg (by decide)
  obtain ⟨s, hs⟩ := multiple_ok (exRb R) exBrent exBrent_returns exMultiple t0 ht0
    (by rw [div_eq_mul_inv, rConduction_scale, hR, v1, v2, hc]; generalize 1 / √2 = y at *; intro h; norm_num at h; linarith)
    (by rw [rConduction_scale, hR, v1, v2, hc]; generalize 1 / √2 = y at *; intro h; norm_num at h; linarith)
    (fun k _ => by
      rw [hfin, hone, hone]
      norm_num
      exact ⟨by simpa [sub_eq_zero] using h1, by simpa [sub_eq_zero] using h2⟩)
  refine ⟨s, hs, ?_, fun y => ?_⟩
  · have := C87_multiple (exRb R) exBrent exMultiple s _ hs
    rwa [show (exRb R).rbStar exMultiple.circuit exMultiple.b exMultiple.mBorehole exMultiple.fluid.cp = R from hfin] at this
  · obtain ⟨-, t0', k, kg, h0, -, -, rfl⟩ := multiple_form _ _ _ _ _ hs
    rw [ht0] at h0
    cases h0
    exact hone k y

/-- C86 applies to that conversion: the search starts at twice the conductivity of the pipes, `1/(8π)`, and ends between a
hundredth and ten times of it. -/
example : ∃ s : UTube, equivalentSingle (exRb 1) exBrent
      ⟨exMultiple.b, exMultiple.pipe.eps, exMultiple.pipe.rhoCp, exMultiple.mBorehole, exMultiple.fluid, exMultiple.grout,
        exMultiple.soil⟩ (uTubeVolumes exMultiple) = .ok s ∧
    2 * (1 / (8 * π)) / 100 ≤ s.pipe.k ∧ s.pipe.k ≤ 10 * (2 * (1 / (8 * π))) := by
  obtain ⟨s, hs, -⟩ := exRb_ok 1 (by norm_num) (by norm_num)
  obtain ⟨-, t0, k, kg, h0, h1, -, hk⟩ := multiple_form _ _ _ _ _ hs
  obtain ⟨-, hf, -⟩ := C74_multiple (exRb 1) exBrent exMultiple s _ exMultiple_sound hs
  obtain ⟨p1, p2⟩ := uTubeVolumes_pos exMultiple exMultiple_sound
  obtain ⟨k₀, q1, q2, q3, q4⟩ := C86_bounds (exRb 1) exBrent exBrent_inside _ _ p1 p2 (by rw [exVolumes.1]; norm_num) _ h1
  have e : k₀ = (2 : ℤ) * (1 / (8 * π)) := C86_start exMultiple exMultiple_sound exMultiple_k s k₀ q1 hf (by rw [hk]; exact q2)
  rw [e] at q3 q4
  exact ⟨_, h1, by exact_mod_cast q3, by exact_mod_cast q4⟩

/-- C87 applies: a resistance of 1, between those at 7 and 0.01, is missed by what the root finder misses (it returns the
middle, 3.505); resistances of 1/10 and 200, out of reach, get the nearest end. -/
example : (∃ s, computeEquivalent (exRb 1) exBrent (.multiple exMultiple) = .ok (s, .multiple exMultiple) ∧
      |1 - rbOf (exRb 1) s| ≤ 1 - 200 / 701) ∧
    ∀ R, R = 1 / 10 ∨ R = 200 → ∃ s, computeEquivalent (exRb R) exBrent (.multiple exMultiple) = .ok (s, .multiple exMultiple) ∧
      ∀ k, 1 / 100 ≤ k → k ≤ 7 → |R - rbOf (exRb R) s| ≤ |R - 1 / k| := by
  refine ⟨?_, fun R hR => ?_⟩
  · obtain ⟨s, hs, hm, hy⟩ := exRb_ok 1 (by norm_num) (by norm_num)
    refine ⟨s, hs, C87_error _ _ _ _ hm _ (fun k hk => ?_) ?_⟩
    · have hk : (1 / 100 + 7) / 2 = k := Except.ok.inj hk
      rw [hy, ← hk]
      norm_num [abs_le]
    · rw [hy, hy]
      norm_num
  · obtain ⟨s, hs, hm, hy⟩ := exRb_ok R (by rcases hR with rfl | rfl <;> norm_num) (by rcases hR with rfl | rfl <;> norm_num)
    refine ⟨s, hs, fun k h1 h2 => ?_⟩
    rw [← hy k]
    refine C87_nearest _ _ _ _ hm (fun a b ha hab _ => ?_) ?_ k h1 h2
    · rw [hy, hy]
      exact one_div_le_one_div_of_le (by linarith) hab
    · rw [hy, hy]
      rcases hR with rfl | rfl
      · left; norm_num
      · right; norm_num

/-- a convection resistance that puts one end of the bracket on a zero: `ValueError` -/
example (ext : Ext) (c : Common) : ∃ v : Volumes, equivalentSingle ext exBrent c v = .error .valueError := by
  refine ⟨⟨2 * π, 1, 1 / (ext.hPipe c.m √(2 * π / (2 * π)) c.fluid c.eps * 2 * π * √(2 * π / (2 * π))) - 4 / 5, 1⟩, ?_⟩
  exact C86_zero ext exBrent c _ (by have := Real.pi_pos; show 0 < 2 * π; positivity) one_pos one_pos _ _ rfl rfl
    (.inr (by show _ - (_ - 4 / 5) = 4 / 5 * 1; ring))

/-- an object of another class raises, and so does a tube whose bracket ends on a zero; C74 says with what -/
example : ∃ e, computeEquivalent exExt exBrent .other = .error e ∧
    (e = .valueError ∨ ∃ (f : ℝ → ℝ) (lo hi : ℝ), f lo * f hi < 0 ∧ outcome f (exBrent lo hi) = .error e) :=
  ⟨_, rfl, C74_raises exExt exBrent .other _ rfl⟩

end

end Ghedt.Bhe
