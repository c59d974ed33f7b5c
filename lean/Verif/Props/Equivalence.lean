import Verif.Lemmas.Equivalence
import Verif.Spec.RadialGrid

/-!
# Properties of the borehole heat exchangers and their equivalent single U-tube (C74, C84–C87)
-/

set_option linter.unusedSectionVars false

namespace Ghedt.Bhe
open Real Ghedt.GHE

/-! ## C74 — the geometry of the equivalent tube -/

/-- A multiple U-tube with at least one U-tube and sound radii. -/
structure UTube.Sound (t : UTube) : Prop where
  nPipes : 1 ≤ t.circuit.nPipes
  rIn : 0 < t.circuit.rIn
  rOut : t.circuit.rIn < t.circuit.rOut
  rb : 0 < t.b.rb

/-- A coaxial exchanger whose four radii increase. -/
structure Coax.Sound (c : Coax) : Prop where
  r1 : 0 < c.pipe.rInner.1
  r2 : c.pipe.rInner.1 < c.pipe.rInner.2
  r3 : c.pipe.rInner.2 < c.pipe.rOuter.1
  r4 : c.pipe.rOuter.1 < c.pipe.rOuter.2
  rb : 0 < c.b.rb

/-- A single U-tube with given total fluid and wall cross-sections that fits into a borehole around a
given one. -/
structure Fitted (b : Borehole) (fluid wall : ℝ) (s : UTube) : Prop where
  /-- same cross-section of the fluid in both legs -/
  fluidArea : 2 * (π * s.pipe.rIn ^ 2) = fluid
  /-- same cross-section of the pipe walls -/
  wallArea : 2 * (π * s.pipe.rOut ^ 2 - π * s.pipe.rIn ^ 2) = wall
  rIn : 0 < s.pipe.rIn
  rOut : s.pipe.rIn < s.pipe.rOut
  /-- two legs on a line through the centre, with a gap between them, inside the borehole wall -/
  legs : ∃ d, s.pipe.pos = [(-d, 0), (d, 0)] ∧ 2 * d = s.pipe.s + 2 * s.pipe.rOut ∧ 0 < s.pipe.s ∧
    d + s.pipe.rOut < s.b.rb
  /-- depth and burial depth are kept, the borehole is not made smaller -/
  height : s.b.H = b.H
  depth : s.b.D = b.D
  radius : b.rb ≤ s.b.rb
  /-- and is enlarged exactly when the two legs side by side do not fit -/
  enlarged : s.b.rb = b.rb ↔ 2 * (2 * s.pipe.rOut) < 2 * b.rb
  enlargedTo : 2 * b.rb ≤ 2 * (2 * s.pipe.rOut) → s.b.rb = 6 / 5 * (4 * s.pipe.rOut - b.rb)
  /-- the thermal circuit uses this geometry -/
  circuit : s.circuit.pos = s.pipe.pos ∧ s.circuit.rIn = s.pipe.rIn ∧ s.circuit.rOut = s.pipe.rOut ∧
    s.circuit.nPipes = 1 ∧ s.circuit.config = none

theorem initialTube_fitted (ext : Ext) (c : Common) (v : Volumes) (hf : 0 < v.fluid) (hp : 0 < v.pipe)
    (hb : 0 < c.b.rb) (t s : UTube) (h : initialTube ext c v = .ok t) (hb' : s.b = t.b)
    (hpos : s.pipe.pos = t.pipe.pos) (hin : s.pipe.rIn = t.pipe.rIn) (hout : s.pipe.rOut = t.pipe.rOut)
    (hs : s.pipe.s = t.pipe.s) (hc1 : s.circuit.pos = t.circuit.pos) (hc2 : s.circuit.rIn = t.circuit.rIn)
    (hc3 : s.circuit.rOut = t.circuit.rOut) (hc4 : s.circuit.nPipes = t.circuit.nPipes)
    (hc5 : s.circuit.config = t.circuit.config) : Fitted c.b v.fluid v.pipe s := by
  obtain ⟨t', ht', e1, e2, e3, e4, e5, -, -, -, -, -, -, -, -, e6, e7, e8, -, -, e9, e10⟩ :=
    initialTube_eq ext c v
  rw [h] at ht'; cases ht'
  have hpi := Real.pi_pos
  have q1 : s.pipe.rIn ^ 2 = v.fluid / (2 * π) := by
    rw [hin, e1, Real.sq_sqrt (by positivity)]
  have q2 : s.pipe.rOut ^ 2 = (v.fluid + v.pipe) / (2 * π) := by
    rw [hout, e2, Real.sq_sqrt (by positivity)]
  have p1 : 0 < s.pipe.rIn := by rw [hin, e1]; positivity
  have p2 : s.pipe.rIn < s.pipe.rOut := by
    rw [hin, hout, e1, e2]
    apply Real.sqrt_lt_sqrt (by positivity)
    apply div_lt_div_of_pos_right _ (by positivity)
    linarith
  have p3 : 0 < s.pipe.rOut := p1.trans p2
  rw [← e2, ← hout] at e3 e4
  rw [← hs] at e3
  rw [← hb'] at e4
  have fit : ∀ r b : ℝ, fitBorehole b r = if 2 * b ≤ 4 * r then
      (6 / 5 * (4 * r - b), (4 * r - b) / 5) else (b, 2 * b - 4 * r) := by
    intro r b
    unfold fitBorehole
    dsimp only
    by_cases h : 2 * b ≤ 4 * r
    · rw [if_pos (by linarith), if_pos h]
      ext <;> dsimp only <;> ring
    · rw [if_neg (by linarith), if_neg h]
      ext <;> dsimp only; ring
  rw [fit] at e3 e4
  have hrb : s.b.rb = (if 2 * c.b.rb ≤ 4 * s.pipe.rOut then (6 / 5 * (4 * s.pipe.rOut - c.b.rb),
      (4 * s.pipe.rOut - c.b.rb) / 5) else (c.b.rb, 2 * c.b.rb - 4 * s.pipe.rOut)).1 := by rw [e4]
  refine ⟨?_, ?_, p1, p2, ?_, by rw [e4], by rw [e4], ?_, ?_, ?_, ?_⟩
  · rw [q1]; field_simp
  · rw [q1, q2]; field_simp; ring
  · refine ⟨s.pipe.s / 2 + s.pipe.rOut, ?_, by ring, ?_, ?_⟩
    · rw [hpos, e5, hs, hout]
    · rw [e3]
      split
      · dsimp only; linarith
      · dsimp only; linarith
    · rw [e3, hrb]
      split
      · dsimp only; linarith
      · dsimp only; linarith
  · rw [hrb]
    split
    · dsimp only; linarith
    · exact le_rfl
  · rw [hrb]
    split
    · next h =>
      dsimp only
      exact ⟨fun h => by linarith, fun h => by linarith⟩
    · next h => exact ⟨fun _ => by linarith, fun _ => rfl⟩
  · intro h
    rw [hrb, if_pos (by linarith)]
  · rw [hc1, hc2, hc3, hc4, hc5, hpos, hin, hout]
    exact ⟨e6, e7, e8, e9, e10⟩

/-- the whole conversion of a multiple U-tube, in terms of the two searches -/
theorem multiple_form (ext : Ext) (brent : ℝ → ℝ → Finder ℝ) (t s : UTube) (x : Exchanger)
    (h : computeEquivalent ext brent (.multiple t) = .ok (s, x)) :
    x = .multiple t ∧ ∃ t0 k kg, initialTube ext
      ⟨t.b, t.pipe.eps, t.pipe.rhoCp, t.mBorehole, t.fluid, t.grout, t.soil⟩ (uTubeVolumes t) = .ok t0 ∧
      equivalentSingle ext brent ⟨t.b, t.pipe.eps, t.pipe.rhoCp, t.mBorehole, t.fluid, t.grout, t.soil⟩
        (uTubeVolumes t) = .ok (withK ext t0 k) ∧
      matchResistance ext brent (computeEffective ext none none) (t, withK ext t0 k) =
        (.ok (), (t, s)) ∧ s = withKg ext (withK ext t0 k) kg := by
  unfold computeEquivalent at h
  rw [bind_eq_ok] at h
  obtain ⟨⟨s', t'⟩, h1, h2⟩ := h
  cases h2
  unfold multipleToSingle at h1
  dsimp only at h1
  rw [bind_eq_ok] at h1
  obtain ⟨single, h2, h3⟩ := h1
  obtain ⟨t0, k, ht0, rfl⟩ := equivalentSingle_form _ _ _ _ _ h2
  generalize hm : matchResistance ext brent (computeEffective ext none none) (t, withK ext t0 k) = r at h3
  obtain ⟨r, st1, st2⟩ := r
  cases r with
  | error e => cases h3
  | ok u =>
    cases h3
    obtain ⟨kg, hkg⟩ := matchResistance_form ext brent _ t _ _ (computeEffective_none ext t) _ hm
    obtain ⟨rfl, rfl⟩ := Prod.mk.inj hkg
    exact ⟨rfl, t0, k, kg, ht0, h2, hm, rfl⟩

/-- effective borehole resistance of a coaxial exchanger as it is -/
noncomputable def coaxRb (ext : Ext) (t : Coax) : ℝ :=
  ext.rbStarCoax t.pipe.rInner t.pipe.rOuter t.soil.k t.grout.k t.Rff t.Rfp t.b t.mBorehole t.fluid.cp

theorem coaxEffective_none (ext : Ext) (t : Coax) :
    coaxEffective ext none none t = (.ok (coaxRb ext t), t) := rfl

theorem coaxial_form (ext : Ext) (brent : ℝ → ℝ → Finder ℝ) (c : Coax) (s : UTube) (x : Exchanger)
    (h : computeEquivalent ext brent (.coaxial c) = .ok (s, x)) :
    x = .coaxial c ∧ ∃ t0 k kg, initialTube ext
      ⟨c.b, c.pipe.eps, c.pipe.rhoCp, c.mBorehole, c.fluid, c.grout, c.soil⟩ (concentricTubeVolumes c) =
        .ok t0 ∧
      equivalentSingle ext brent ⟨c.b, c.pipe.eps, c.pipe.rhoCp, c.mBorehole, c.fluid, c.grout, c.soil⟩
        (concentricTubeVolumes c) = .ok (withK ext t0 k) ∧
      matchResistance ext brent (coaxEffective ext none none) (c, withK ext t0 k) =
        (.ok (), (c, s)) ∧ s = withKg ext (withK ext t0 k) kg := by
  unfold computeEquivalent at h
  rw [bind_eq_ok] at h
  obtain ⟨⟨s', t'⟩, h1, h2⟩ := h
  cases h2
  unfold coaxialToSingle at h1
  dsimp only at h1
  rw [bind_eq_ok] at h1
  obtain ⟨single, h2, h3⟩ := h1
  obtain ⟨t0, k, ht0, rfl⟩ := equivalentSingle_form _ _ _ _ _ h2
  generalize hm : matchResistance ext brent (coaxEffective ext none none) (c, withK ext t0 k) = r at h3
  obtain ⟨r, st1, st2⟩ := r
  cases r with
  | error e => cases h3
  | ok u =>
    cases h3
    obtain ⟨kg, hkg⟩ := matchResistance_form ext brent _ c _ _ (coaxEffective_none ext c) _ hm
    obtain ⟨rfl, rfl⟩ := Prod.mk.inj hkg
    exact ⟨rfl, t0, k, kg, ht0, h2, hm, rfl⟩

theorem uTubeVolumes_pos (t : UTube) (h : t.Sound) : 0 < (uTubeVolumes t).fluid ∧
    0 < (uTubeVolumes t).pipe := by
  have hpi := Real.pi_pos
  have hn : (0 : ℝ) < ((2 * t.circuit.nPipes : ℤ) : ℝ) := by
    have := h.nPipes
    exact_mod_cast (by omega : 0 < 2 * t.circuit.nPipes)
  have h1 := h.rIn
  have h2 := h.rOut
  unfold uTubeVolumes
  dsimp only
  refine ⟨by positivity, ?_⟩
  rw [← mul_sub]
  apply mul_pos (by positivity)
  nlinarith

/-- C74: the equivalent of a multiple U-tube has the fluid and wall cross-section of all its pipes, two
separate legs inside a borehole that is enlarged exactly if they do not fit, and the same fluid, flow,
soil and pipe properties; the multiple U-tube itself is left as it was. -/
theorem C74_multiple (ext : Ext) (brent : ℝ → ℝ → Finder ℝ) (t s : UTube) (x : Exchanger) (ht : t.Sound)
    (h : computeEquivalent ext brent (.multiple t) = .ok (s, x)) :
    x = .multiple t ∧
    Fitted t.b (2 * t.circuit.nPipes * (π * t.circuit.rIn ^ 2))
      (2 * t.circuit.nPipes * (π * t.circuit.rOut ^ 2 - π * t.circuit.rIn ^ 2)) s ∧
    s.mBorehole = t.mBorehole ∧ s.mPipe = t.mBorehole ∧ s.fluid = t.fluid ∧ s.soil = t.soil ∧
    s.pipe.eps = t.pipe.eps ∧ s.pipe.rhoCp = t.pipe.rhoCp ∧ s.grout.rhoCp = t.grout.rhoCp := by
  obtain ⟨rfl, t0, k, kg, h0, -, -, rfl⟩ := multiple_form ext brent t s x h
  obtain ⟨v1, v2⟩ := uTubeVolumes_pos t ht
  have hF := initialTube_fitted ext _ _ v1 v2 ht.rb t0 (withKg ext (withK ext t0 k) kg) h0 rfl rfl rfl
    rfl rfl rfl rfl rfl rfl rfl
  have e1 : (uTubeVolumes t).fluid = 2 * t.circuit.nPipes * (π * t.circuit.rIn ^ 2) := by
    unfold uTubeVolumes; dsimp only; push_cast; ring
  have e2 : (uTubeVolumes t).pipe =
      2 * t.circuit.nPipes * (π * t.circuit.rOut ^ 2 - π * t.circuit.rIn ^ 2) := by
    unfold uTubeVolumes; dsimp only; push_cast; ring
  rw [e1, e2] at hF
  obtain ⟨t', ht', -, -, -, -, -, -, a1, a2, a3, a4, a5, a6, a7, -⟩ := initialTube_eq ext
    ⟨t.b, t.pipe.eps, t.pipe.rhoCp, t.mBorehole, t.fluid, t.grout, t.soil⟩ (uTubeVolumes t)
  rw [h0] at ht'; cases ht'
  refine ⟨rfl, hF, a3, a4, a5, a7, a1, a2, ?_⟩
  show t0.grout.rhoCp = t.grout.rhoCp
  rw [a6]

theorem concentric_pos (c : Coax) (h : c.Sound) : 0 < (concentricTubeVolumes c).fluid ∧
    0 < (concentricTubeVolumes c).pipe := by
  have hpi := Real.pi_pos
  have h1 := h.r1
  have h2 := h.r2
  have h3 := h.r3
  have h4 := h.r4
  unfold concentricTubeVolumes
  dsimp only
  refine ⟨mul_pos hpi ?_, mul_pos hpi ?_⟩ <;> nlinarith

/-- C74: the same for a coaxial exchanger: fluid area of the inner pipe and the annulus, wall area of
both pipes. -/
theorem C74_coaxial (ext : Ext) (brent : ℝ → ℝ → Finder ℝ) (c : Coax) (s : UTube) (x : Exchanger)
    (hc : c.Sound) (h : computeEquivalent ext brent (.coaxial c) = .ok (s, x)) :
    x = .coaxial c ∧
    Fitted c.b (π * c.pipe.rInner.1 ^ 2 + (π * c.pipe.rOuter.1 ^ 2 - π * c.pipe.rInner.2 ^ 2))
      ((π * c.pipe.rInner.2 ^ 2 - π * c.pipe.rInner.1 ^ 2) +
        (π * c.pipe.rOuter.2 ^ 2 - π * c.pipe.rOuter.1 ^ 2)) s ∧
    s.mBorehole = c.mBorehole ∧ s.mPipe = c.mBorehole ∧ s.fluid = c.fluid ∧ s.soil = c.soil ∧
    s.pipe.eps = c.pipe.eps ∧ s.pipe.rhoCp = c.pipe.rhoCp ∧ s.grout.rhoCp = c.grout.rhoCp := by
  obtain ⟨rfl, t0, k, kg, h0, -, -, rfl⟩ := coaxial_form ext brent c s x h
  obtain ⟨v1, v2⟩ := concentric_pos c hc
  have hF := initialTube_fitted ext _ _ v1 v2 hc.rb t0 (withKg ext (withK ext t0 k) kg) h0 rfl rfl rfl
    rfl rfl rfl rfl rfl rfl rfl
  have e1 : (concentricTubeVolumes c).fluid =
      π * c.pipe.rInner.1 ^ 2 + (π * c.pipe.rOuter.1 ^ 2 - π * c.pipe.rInner.2 ^ 2) := by
    unfold concentricTubeVolumes; dsimp only; ring
  have e2 : (concentricTubeVolumes c).pipe = (π * c.pipe.rInner.2 ^ 2 - π * c.pipe.rInner.1 ^ 2) +
        (π * c.pipe.rOuter.2 ^ 2 - π * c.pipe.rOuter.1 ^ 2) := by
    unfold concentricTubeVolumes; dsimp only; ring
  rw [e1, e2] at hF
  obtain ⟨t', ht', -, -, -, -, -, -, a1, a2, a3, a4, a5, a6, a7, -⟩ := initialTube_eq ext
    ⟨c.b, c.pipe.eps, c.pipe.rhoCp, c.mBorehole, c.fluid, c.grout, c.soil⟩ (concentricTubeVolumes c)
  rw [h0] at ht'; cases ht'
  refine ⟨rfl, hF, a3, a4, a5, a7, a1, a2, ?_⟩
  show t0.grout.rhoCp = c.grout.rhoCp
  rw [a6]

/-- C74: a single U-tube is its own equivalent; anything else than the three kinds is refused. -/
theorem C74_dispatch (ext : Ext) (brent : ℝ → ℝ → Finder ℝ) (t : UTube) :
    computeEquivalent ext brent (.single t) = .ok (t, .single t) ∧
    computeEquivalent ext brent .other = .error .valueError := ⟨rfl, rfl⟩

/-! ## C84 — changing the flow rate or the fluid -/

/-- C84: giving a U-tube (single or multiple) a new flow rate changes nothing but the stored flow of the
borehole: convection coefficient, pipe flow and resistances stay those of the flow it was built with.
The resistance returned is that of the old circuit at the new flow. -/
theorem C84_flow (ext : Ext) (m m' : ℝ) (fl : Fluid) (b : Borehole) (p : Pipe) (g : Grout) (so : Soil) (n : ℤ)
    (config : Option String) (t : UTube) (h : mkUTube ext m fl b p g so n config = .ok t) :
    updateThermal ext (some m') none t = (.ok (ext.rbStar t.circuit b m' fl.cp), { t with mBorehole := m' }) ∧
    updateThermalMultiple ext (some m') none t =
      (.ok (ext.rbStar t.circuit b m' fl.cp), { t with mBorehole := m' }) ∧
    computeEffective ext (some m') none t =
      (.ok (ext.rbStar t.circuit b m' fl.cp), { t with mBorehole := m' }) := by
  unfold mkUTube at h
  rw [bind_eq_ok] at h
  obtain ⟨mp, hmp, h⟩ := h
  cases h
  exact ⟨rfl, rfl, rfl⟩

/-- C84: whereas a new fluid gives exactly the U-tube built with that fluid. -/
theorem C84_fluid (ext : Ext) (m : ℝ) (fl fl' : Fluid) (b : Borehole) (p : Pipe) (g : Grout) (so : Soil)
    (n : ℤ) (config : Option String) (t : UTube) (h : mkUTube ext m fl b p g so n config = .ok t) :
    mkUTube ext m fl' b p g so n config = .ok (updateThermal ext none (some fl') t).2 ∧
    mkUTube ext m fl' b p g so n config = .ok (updateThermalMultiple ext none (some fl') t).2 := by
  unfold mkUTube at h ⊢
  rw [bind_eq_ok] at h
  obtain ⟨mp, hmp, h⟩ := h
  cases h
  rw [hmp]
  exact ⟨rfl, rfl⟩

/-- C84: so after a change of flow the convection coefficient is that of the old flow, not that of a
U-tube built with the new one. -/
theorem C84_stale (ext : Ext) (m m' : ℝ) (fl : Fluid) (b : Borehole) (p : Pipe) (g : Grout) (so : Soil)
    (t t' : UTube) (h : mkSingle ext m fl b p g so = .ok t) (h' : mkSingle ext m' fl b p g so = .ok t') :
    (updateThermal ext (some m') none t).2.hf = ext.hPipe m p.rIn fl p.eps ∧
    t'.hf = ext.hPipe m' p.rIn fl p.eps := by
  cases h; cases h'
  exact ⟨rfl, rfl⟩

/-- C84: `compute_convection_coefficient(m')` of a single U-tube, also after updates to any flows and fluids, is the
coefficient in an exchanger built with the flow `m'` and the fluid last given: unlike the stored one it does follow. -/
theorem C84_coefficient (ext : Ext) (m m' : ℝ) (fl : Fluid) (b : Borehole) (p : Pipe) (g : Grout) (so : Soil)
    (updates : List (Option ℝ × Option Fluid)) (t t' : UTube) (h : mkSingle ext m fl b p g so = .ok t)
    (h' : mkSingle ext m' ((updates.filterMap Prod.snd).getLast?.getD fl) b p g so = .ok t') :
    convectionCoefficient ext (updates.foldl (fun t u => (updateThermal ext u.1 u.2 t).2) t) m' = t'.hf ∧
    (updates.foldl (fun t u => (updateThermal ext u.1 u.2 t).2) t).hf =
      convectionCoefficient ext (updates.foldl (fun t u => (updateThermal ext u.1 u.2 t).2) t) m := by
  have key : ∀ (us : List (Option ℝ × Option Fluid)) (t : UTube), t.mPipe = m → t.pipe = p →
      t.hf = ext.hPipe m p.rIn t.fluid p.eps →
      (us.foldl (fun t u => (updateThermal ext u.1 u.2 t).2) t).pipe = p ∧
      (us.foldl (fun t u => (updateThermal ext u.1 u.2 t).2) t).fluid =
        (us.filterMap Prod.snd).getLast?.getD t.fluid ∧
      (us.foldl (fun t u => (updateThermal ext u.1 u.2 t).2) t).hf =
        ext.hPipe m p.rIn (us.foldl (fun t u => (updateThermal ext u.1 u.2 t).2) t).fluid p.eps := by
    intro us
    induction us with
    | nil => exact fun t _ h2 h3 => ⟨h2, rfl, h3⟩
    | cons u us ih =>
      intro t h1 h2 h3
      obtain ⟨i1, i2, i3⟩ := ih (updateThermal ext u.1 u.2 t).2 h1 h2 (by
        subst h1 h2
        rfl)
      refine ⟨i1, ?_, i3⟩
      rw [List.foldl_cons, i2]
      obtain ⟨um, uf⟩ := u
      cases uf with
      | none => rfl
      | some f =>
        show _ = (f :: us.filterMap Prod.snd).getLast?.getD t.fluid
        rw [List.getLast?_cons]
        rfl
  obtain ⟨c1, c2, c3, c4⟩ : t.mPipe = m ∧ t.pipe = p ∧ t.hf = ext.hPipe m p.rIn t.fluid p.eps ∧ t.fluid = fl := by
    cases h
    exact ⟨rfl, rfl, rfl, rfl⟩
  obtain ⟨k1, k2, k3⟩ := key updates t c1 c2 c3
  rw [c4] at k2
  cases h'
  refine ⟨?_, ?_⟩
  · unfold convectionCoefficient
    rw [k1, k2]
  · rw [k3]
    unfold convectionCoefficient
    rw [k1]

/-- C84: a coaxial exchanger does follow: with a new flow it is the exchanger built with that flow
(except for the stored pipe flow). -/
theorem C84_coaxial (ext : Ext) (m m' : ℝ) (fl fl' : Fluid) (b : Borehole) (p : CoaxPipe) (g : Grout)
    (so : Soil) :
    (coaxUpdateThermal ext (some m') (some fl') (mkCoax ext m fl b p g so)).2 =
      { mkCoax ext m' fl' b p g so with mPipe := m } ∧
    (coaxUpdateThermal ext (some m') (some fl') (mkCoax ext m fl b p g so)).1 =
      .ok (coaxRb ext (mkCoax ext m' fl' b p g so)) := ⟨rfl, rfl⟩

theorem last_getD {α β : Type} (g : α → Option β) (l : List α) (a : α) (d : β) :
    ((a :: l).filterMap g).getLast?.getD d = (l.filterMap g).getLast?.getD ((g a).getD d) := by
  cases h : g a with
  | none => rw [List.filterMap_cons_none h]; rfl
  | some b => rw [List.filterMap_cons_some h, List.getLast?_cons]; rfl

/-- C84: asking for the effective resistance is not only asking.  After any requests with flows and fluids, a U-tube differs in
the flow and the fluid stored, which are those last given, and a request without arguments gives the resistance for these;
convection coefficients, pipe flow and resistances are those it was built with.  So for a coaxial exchanger. -/
theorem C84_asked (ext : Ext) (t : UTube) (c : Coax) (calls : List (Option ℝ × Option Fluid)) :
    calls.foldl (fun t u => (computeEffective ext u.1 u.2 t).2) t =
      { t with mBorehole := (calls.filterMap Prod.fst).getLast?.getD t.mBorehole
               fluid := (calls.filterMap Prod.snd).getLast?.getD t.fluid } ∧
    (computeEffective ext none none (calls.foldl (fun t u => (computeEffective ext u.1 u.2 t).2) t)).1 =
      .ok (ext.rbStar t.circuit t.b ((calls.filterMap Prod.fst).getLast?.getD t.mBorehole)
        ((calls.filterMap Prod.snd).getLast?.getD t.fluid).cp) ∧
    calls.foldl (fun c u => (coaxEffective ext u.1 u.2 c).2) c =
      { c with mBorehole := (calls.filterMap Prod.fst).getLast?.getD c.mBorehole
               fluid := (calls.filterMap Prod.snd).getLast?.getD c.fluid } ∧
    (coaxEffective ext none none (calls.foldl (fun c u => (coaxEffective ext u.1 u.2 c).2) c)).1 =
      .ok (ext.rbStarCoax c.pipe.rInner c.pipe.rOuter c.soil.k c.grout.k c.Rff c.Rfp c.b
        ((calls.filterMap Prod.fst).getLast?.getD c.mBorehole) ((calls.filterMap Prod.snd).getLast?.getD c.fluid).cp) := by
  have k1 : ∀ (calls : List (Option ℝ × Option Fluid)) (t : UTube),
      calls.foldl (fun t u => (computeEffective ext u.1 u.2 t).2) t =
      { t with mBorehole := (calls.filterMap Prod.fst).getLast?.getD t.mBorehole
               fluid := (calls.filterMap Prod.snd).getLast?.getD t.fluid } := by
    intro calls
    induction calls with
    | nil => intro t; rfl
    | cons u us ih =>
      intro t
      rw [List.foldl_cons, ih, last_getD, last_getD]
      rfl
  have k2 : ∀ (calls : List (Option ℝ × Option Fluid)) (c : Coax),
      calls.foldl (fun c u => (coaxEffective ext u.1 u.2 c).2) c =
      { c with mBorehole := (calls.filterMap Prod.fst).getLast?.getD c.mBorehole
               fluid := (calls.filterMap Prod.snd).getLast?.getD c.fluid } := by
    intro calls
    induction calls with
    | nil => intro c; rfl
    | cons u us ih =>
      intro c
      rw [List.foldl_cons, ih, last_getD, last_getD]
      rfl
  refine ⟨k1 calls t, ?_, k2 calls c, ?_⟩
  · rw [k1]; rfl
  · rw [k2]; rfl

/-- two requests, the second with a fluid only: the flow of the first stays -/
example (ext : Ext) (t : UTube) (c : Coax) (f : Fluid) :
    ([(some 3, none), (none, some f)].foldl (fun t u => (computeEffective ext u.1 u.2 t).2) t).mBorehole = 3 := by
  rw [(C84_asked ext t c _).1]
  rfl

/-! ## C85 — the resistances that the equivalence aims at -/

/-- C85: for a multiple U-tube with `N` pipes as built, the pipe resistance is that of `N` pipes in
parallel, but the "convective resistance" is that of `N` pipes in parallel *divided by the inner
diameter* (an area was used for a circumference). -/
theorem C85_multiple (ext : Ext) (m : ℝ) (fl : Fluid) (b : Borehole) (p : Pipe) (g : Grout) (so : Soil) (n : ℤ)
    (config : Option String) (t : UTube) (h : mkUTube ext m fl b p g so n config = .ok t) (hn : 1 ≤ n)
    (hr : 0 < p.rIn) :
    (uTubeVolumes t).Rpipe = t.Rp / (2 * n) ∧
    (uTubeVolumes t).Rconv = t.Rf / (2 * n) / (2 * p.rIn) := by
  unfold mkUTube at h
  rw [bind_eq_ok] at h
  obtain ⟨mp, hmp, h⟩ := h
  cases h
  have hpi := Real.pi_pos
  have hn' : (0 : ℝ) < n := by exact_mod_cast (by omega : 0 < n)
  unfold uTubeVolumes rConduction
  dsimp only
  push_cast
  generalize ext.hPipe mp p.rIn fl p.eps = hf
  constructor
  · rw [div_div]; congr 1; ring
  · rw [div_div, div_div]; congr 1; ring

/-- C85: so the target of the pipe search is right, for an exchanger with convection, only for an inner
diameter of exactly one metre. -/
theorem C85_multiple_wrong (ext : Ext) (m : ℝ) (fl : Fluid) (b : Borehole) (p : Pipe) (g : Grout) (so : Soil)
    (n : ℤ) (config : Option String) (t : UTube) (h : mkUTube ext m fl b p g so n config = .ok t)
    (hn : 1 ≤ n) (hr : 0 < p.rIn) (hRf : t.Rf ≠ 0) :
    (uTubeVolumes t).Rconv + (uTubeVolumes t).Rpipe = (t.Rf + t.Rp) / (2 * n) ↔ 2 * p.rIn = 1 := by
  obtain ⟨h1, h2⟩ := C85_multiple ext m fl b p g so n config t h hn hr
  have hn' : (0 : ℝ) < n := by exact_mod_cast (by omega : 0 < n)
  rw [h1, h2, add_div, add_left_inj, div_eq_iff (by positivity)]
  have : t.Rf / (2 * (n : ℝ)) ≠ 0 := div_ne_zero hRf (by positivity)
  constructor
  · intro e
    have : t.Rf / (2 * (n : ℝ)) * 1 = t.Rf / (2 * (n : ℝ)) * (2 * p.rIn) := by rw [mul_one]; exact e
    have := mul_left_cancel₀ ‹t.Rf / (2 * (n : ℝ)) ≠ 0› this
    exact this.symm
  · intro e; rw [e, mul_one]

/-- C85: for a coaxial exchanger the target is the outer pipe resistance plus the convective
resistance computed from the coefficient at the *inner* wall of the annulus on the outer wall; it is
the fluid-to-pipe resistance of the exchanger iff the two coefficients agree. -/
theorem C85_coaxial (ext : Ext) (m : ℝ) (fl : Fluid) (b : Borehole) (p : CoaxPipe) (g : Grout) (so : Soil)
    (hr : 0 < p.rOuter.1)
    (h1 : 0 < (ext.hAnnulus m p.rInner.2 p.rOuter.1 fl p.eps).1)
    (h2 : 0 < (ext.hAnnulus m p.rInner.2 p.rOuter.1 fl p.eps).2) :
    (concentricTubeVolumes (mkCoax ext m fl b p g so)).Rpipe = (mkCoax ext m fl b p g so).RpOut ∧
    ((concentricTubeVolumes (mkCoax ext m fl b p g so)).Rconv +
        (concentricTubeVolumes (mkCoax ext m fl b p g so)).Rpipe = (mkCoax ext m fl b p g so).Rfp ↔
      (ext.hAnnulus m p.rInner.2 p.rOuter.1 fl p.eps).1 =
        (ext.hAnnulus m p.rInner.2 p.rOuter.1 fl p.eps).2) := by
  have hpi := Real.pi_pos
  have e1 : (concentricTubeVolumes (mkCoax ext m fl b p g so)).Rpipe =
      (mkCoax ext m fl b p g so).RpOut := rfl
  refine ⟨e1, ?_⟩
  rw [e1]
  show 1 / ((ext.hAnnulus m p.rInner.2 p.rOuter.1 fl p.eps).1 * (π * 2 * p.rOuter.1)) + _ =
    _ + 1 / ((ext.hAnnulus m p.rInner.2 p.rOuter.1 fl p.eps).2 * 2 * π * p.rOuter.1) ↔ _
  generalize (ext.hAnnulus m p.rInner.2 p.rOuter.1 fl p.eps).1 = x at *
  generalize (ext.hAnnulus m p.rInner.2 p.rOuter.1 fl p.eps).2 = y at *
  show _ + rConduction p.rOuter.1 p.rOuter.2 p.k.2 = rConduction p.rOuter.1 p.rOuter.2 p.k.2 + _ ↔ _
  rw [add_comm, add_right_inj, div_eq_div_iff (by positivity) (by positivity)]
  constructor
  · intro e
    have hq : 0 < 2 * π * p.rOuter.1 := by positivity
    have : (2 * π * p.rOuter.1) * x = (2 * π * p.rOuter.1) * y := by linarith
    exact mul_left_cancel₀ hq.ne' this
  · rintro rfl; ring

/-! ## C86 — the search for the pipe conductivity -/

/-- The pipe resistance at `f` times the initial conductivity. -/
theorem rConduction_scale (a b k f : ℝ) : rConduction a b (k * f) = rConduction a b k / f := by
  unfold rConduction
  rw [← mul_assoc, div_div]

/-- the pipe resistance of the initial tube is twice the one aimed at -/
theorem initial_Rp (ext : Ext) (c : Common) (v : Volumes) (hf : 0 < v.fluid) (hp : 0 < v.pipe)
    (hR : 0 < v.Rpipe) (t : UTube) (h : initialTube ext c v = .ok t) :
    0 < t.pipe.k ∧ rConduction t.pipe.rIn t.pipe.rOut t.pipe.k = 2 * v.Rpipe := by
  obtain ⟨t', ht', e1, e2, -, -, -, e3, -⟩ := initialTube_eq ext c v
  rw [h] at ht'; cases ht'
  have hpi := Real.pi_pos
  have p1 : 0 < t.pipe.rIn := by rw [e1]; positivity
  have p2 : t.pipe.rIn < t.pipe.rOut := by
    rw [e1, e2]
    apply Real.sqrt_lt_sqrt (by positivity)
    apply div_lt_div_of_pos_right _ (by positivity)
    linarith
  have hl : 0 < log (t.pipe.rOut / t.pipe.rIn) := Real.log_pos (by rwa [one_lt_div p1])
  rw [e3]
  refine ⟨by positivity, ?_⟩
  unfold rConduction
  generalize log (t.pipe.rOut / t.pipe.rIn) = l at *
  field_simp

/-- C86: the pipe conductivity of the tube that `equivalent_single_u_tube` returns.  `k₀` is the
initial one, `Rf` the convective resistance of the new pipe.  A tube is returned only if the excess is
not exactly zero at either end; then
* with a sign change, that is `-199 R_pipe < Rf - R_conv < 0.8 R_pipe`, the conductivity is the last one
  the root finder asked for (`10 k₀` if none), and the finder must not fail;
* otherwise it is `10 k₀`, and the pipe resistance a fifth of the intended one. -/
theorem C86_conductivity (ext : Ext) (brent : ℝ → ℝ → Finder ℝ) (c : Common) (v : Volumes)
    (hf : 0 < v.fluid) (hp : 0 < v.pipe) (hR : 0 < v.Rpipe) (s : UTube)
    (h : equivalentSingle ext brent c v = .ok s) :
    ∃ k₀ > 0, rConduction s.pipe.rIn s.pipe.rOut k₀ = 2 * v.Rpipe ∧
      s.Rf - v.Rconv ≠ -199 * v.Rpipe ∧ s.Rf - v.Rconv ≠ 4 / 5 * v.Rpipe ∧
      (-199 * v.Rpipe < s.Rf - v.Rconv → s.Rf - v.Rconv < 4 / 5 * v.Rpipe →
        (∃ r, outcome (fun k => s.Rf + rConduction s.pipe.rIn s.pipe.rOut k - (v.Rconv + v.Rpipe))
          (brent (k₀ / 100) (k₀ * 10)) = .ok r) ∧
        s.pipe.k = (asked (fun k => s.Rf + rConduction s.pipe.rIn s.pipe.rOut k - (v.Rconv + v.Rpipe))
          (brent (k₀ / 100) (k₀ * 10))).getLast?.getD (k₀ * 10)) ∧
      (s.Rf - v.Rconv < -199 * v.Rpipe ∨ 4 / 5 * v.Rpipe < s.Rf - v.Rconv →
        s.pipe.k = 10 * k₀ ∧ s.Rp = v.Rpipe / 5) ∧
      s.circuit.Rfp = s.Rf + s.Rp ∧ s.Rp = rConduction s.pipe.rIn s.pipe.rOut s.pipe.k := by
  obtain ⟨t, k, ht, rfl⟩ := equivalentSingle_form _ _ _ _ _ h
  obtain ⟨hk0, hRp⟩ := initial_Rp ext c v hf hp hR t ht
  have hlo : rConduction t.pipe.rIn t.pipe.rOut (t.pipe.k / 100) = 200 * v.Rpipe := by
    rw [div_eq_mul_inv, rConduction_scale, hRp]; ring
  have hhi : rConduction t.pipe.rIn t.pipe.rOut (t.pipe.k * 10) = v.Rpipe / 5 := by
    rw [rConduction_scale, hRp]; ring
  obtain ⟨h1, h2, h3⟩ := equivalentSingle_eq ext brent c v t ht _ rfl
  simp only [hlo, hhi] at h1 h2 h3
  rw [h] at h1 h2 h3
  have eRf : (withK ext t k).Rf = convRes ext t := rfl
  have ein : (withK ext t k).pipe.rIn = t.pipe.rIn := rfl
  have eout : (withK ext t k).pipe.rOut = t.pipe.rOut := rfl
  have hne : ¬ (convRes ext t + 200 * v.Rpipe - (v.Rconv + v.Rpipe) = 0 ∨
      convRes ext t + v.Rpipe / 5 - (v.Rconv + v.Rpipe) = 0) := by
    intro hh; have := h1 hh; cases this
  push Not at hne
  refine ⟨t.pipe.k, hk0, hRp, ?_, ?_, ?_, ?_, rfl, rfl⟩
  · rw [eRf]; intro hh; apply hne.1; linarith
  · rw [eRf]; intro hh; apply hne.2; linarith
  · rw [eRf, ein, eout]
    intro a b
    have := h2 (mul_neg_of_pos_of_neg (by linarith) (by linarith))
    generalize hr : outcome _ _ = r at this ⊢
    cases r with
    | error e => cases this
    | ok x =>
      refine ⟨⟨x, rfl⟩, ?_⟩
      have h' := Except.ok.inj this
      have := congrArg (fun u : UTube => u.pipe.k) h'
      exact this
  · rw [eRf]
    intro hh
    have : 0 < (convRes ext t + 200 * v.Rpipe - (v.Rconv + v.Rpipe)) *
        (convRes ext t + v.Rpipe / 5 - (v.Rconv + v.Rpipe)) := by
      rcases hh with hh | hh
      · exact mul_pos_of_neg_of_neg (by linarith) (by linarith)
      · exact mul_pos (by linarith) (by linarith)
    have h' := Except.ok.inj (h3 this)
    have hk : k = t.pipe.k * 10 := congrArg (fun u : UTube => u.pipe.k) h'
    subst hk
    exact ⟨mul_comm _ _, hhi⟩

/-- C86: an excess of exactly zero at either end of the search, where `Rf` is the convective resistance in a pipe with half
the fluid area, raises `ValueError`. -/
theorem C86_zero (ext : Ext) (brent : ℝ → ℝ → Finder ℝ) (c : Common) (v : Volumes)
    (hf : 0 < v.fluid) (hp : 0 < v.pipe) (hR : 0 < v.Rpipe) (r Rf : ℝ) (hr : r = √(v.fluid / (2 * π)))
    (hRf : Rf = 1 / (ext.hPipe c.m r c.fluid c.eps * 2 * π * r))
    (hz : Rf - v.Rconv = -199 * v.Rpipe ∨ Rf - v.Rconv = 4 / 5 * v.Rpipe) :
    equivalentSingle ext brent c v = .error .valueError := by
  obtain ⟨t, ht, e1, -, -, -, -, -, e2, -, -, e3, e4, -⟩ := initialTube_eq ext c v
  obtain ⟨hk0, hRp⟩ := initial_Rp ext c v hf hp hR t ht
  have hlo : rConduction t.pipe.rIn t.pipe.rOut (t.pipe.k / 100) = 200 * v.Rpipe := by
    rw [div_eq_mul_inv, rConduction_scale, hRp]; ring
  have hhi : rConduction t.pipe.rIn t.pipe.rOut (t.pipe.k * 10) = v.Rpipe / 5 := by
    rw [rConduction_scale, hRp]; ring
  obtain ⟨h1, -, -⟩ := equivalentSingle_eq ext brent c v t ht _ rfl
  simp only [hlo, hhi] at h1
  have hc : convRes ext t = Rf := by
    unfold convRes
    rw [hRf, e1, e2, e3, e4, hr]
  rw [hc] at h1
  apply h1
  rcases hz with h | h
  · left; linarith
  · right; linarith

/-- such volumes exist for every correlation -/
example (ext : Ext) (c : Common) : ∃ v : Volumes, 0 < v.fluid ∧ 0 < v.pipe ∧ 0 < v.Rpipe ∧
    1 / (ext.hPipe c.m √(v.fluid / (2 * π)) c.fluid c.eps * 2 * π * √(v.fluid / (2 * π))) - v.Rconv = 4 / 5 * v.Rpipe :=
  ⟨⟨1, 1, 1 / (ext.hPipe c.m √(1 / (2 * π)) c.fluid c.eps * 2 * π * √(1 / (2 * π))) - 4 / 5, 1⟩, one_pos, one_pos,
    one_pos, by ring⟩

/-- C86: with a root finder that only probes its bracket, the conductivity is within
`[k₀/100, 10 k₀]`. -/
theorem C86_bounds (ext : Ext) (brent : ℝ → ℝ → Finder ℝ) (hb : ∀ lo hi, lo ≤ hi → Inside lo hi (brent lo hi))
    (c : Common) (v : Volumes) (hf : 0 < v.fluid) (hp : 0 < v.pipe) (hR : 0 < v.Rpipe) (s : UTube)
    (h : equivalentSingle ext brent c v = .ok s) :
    ∃ k₀ > 0, rConduction s.pipe.rIn s.pipe.rOut k₀ = 2 * v.Rpipe ∧
      k₀ / 100 ≤ s.pipe.k ∧ s.pipe.k ≤ 10 * k₀ := by
  obtain ⟨k₀, hk, h0, n1, n2, h1, h2, -⟩ := C86_conductivity ext brent c v hf hp hR s h
  refine ⟨k₀, hk, h0, ?_⟩
  by_cases hs : s.Rf - v.Rconv < -199 * v.Rpipe ∨ 4 / 5 * v.Rpipe < s.Rf - v.Rconv
  · rw [(h2 hs).1]; constructor <;> linarith
  · push Not at hs
    obtain ⟨-, e⟩ := h1 (lt_of_le_of_ne hs.1 n1.symm) (lt_of_le_of_ne hs.2 n2)
    have key : ∀ (f : ℝ → ℝ) (p : Finder ℝ) (lo hi d : ℝ), Inside lo hi p → lo ≤ d → d ≤ hi →
        lo ≤ (asked f p).getLast?.getD d ∧ (asked f p).getLast?.getD d ≤ hi := by
      intro f p lo hi d hp
      induction p generalizing d with
      | done x => intro a b; exact ⟨a, b⟩
      | fail e => intro a b; exact ⟨a, b⟩
      | ask x next ih =>
        intro a b
        cases hp with
        | ask _ _ c1 c2 hn =>
          have := ih (f x) x (hn _) c1 c2
          show lo ≤ ((x :: asked f (next (f x)))).getLast?.getD d ∧ _ ≤ hi
          rw [show asked f (Finder.ask x next) = x :: asked f (next (f x)) from rfl, List.getLast?_cons]
          exact this
    rw [e, mul_comm 10 k₀]
    exact key _ _ _ _ _ (hb _ _ (by linarith)) (by linarith) le_rfl

/-- C86: for a multiple U-tube of `n` U-tubes the initial conductivity `k₀` is `n` times the pipe's. -/
theorem C86_start (t : UTube) (ht : t.Sound) (hk : 0 < t.pipe.k) (s : UTube) (k₀ : ℝ) (hk₀ : 0 < k₀)
    (hs : Fitted t.b (2 * t.circuit.nPipes * (π * t.circuit.rIn ^ 2))
      (2 * t.circuit.nPipes * (π * t.circuit.rOut ^ 2 - π * t.circuit.rIn ^ 2)) s)
    (h : rConduction s.pipe.rIn s.pipe.rOut k₀ = 2 * (uTubeVolumes t).Rpipe) :
    k₀ = t.circuit.nPipes * t.pipe.k := by
  have hpi := Real.pi_pos
  have hn : (0 : ℝ) < (t.circuit.nPipes : ℝ) := by
    have := ht.nPipes
    exact_mod_cast (by omega : 0 < t.circuit.nPipes)
  have q1 : s.pipe.rIn ^ 2 = t.circuit.nPipes * t.circuit.rIn ^ 2 := by
    have := hs.fluidArea
    have h2 : (2 * π) * s.pipe.rIn ^ 2 = (2 * π) * (t.circuit.nPipes * t.circuit.rIn ^ 2) := by linarith
    exact mul_left_cancel₀ (by positivity) h2
  have q2 : s.pipe.rOut ^ 2 = t.circuit.nPipes * t.circuit.rOut ^ 2 := by
    have := hs.wallArea
    have h1 := hs.fluidArea
    have h2 : (2 * π) * s.pipe.rOut ^ 2 = (2 * π) * (t.circuit.nPipes * t.circuit.rOut ^ 2) := by
      linarith
    exact mul_left_cancel₀ (by positivity) h2
  have hr1 := ht.rIn
  have hr2 := ht.rIn.trans ht.rOut
  have hs1 := hs.rIn
  have hs2 := hs.rIn.trans hs.rOut
  have hq : s.pipe.rOut / s.pipe.rIn = t.circuit.rOut / t.circuit.rIn := by
    rw [← sq_eq_sq₀ (by positivity) (by positivity), div_pow, div_pow, q1, q2]
    field_simp
  unfold rConduction uTubeVolumes at h
  dsimp only at h
  rw [hq] at h
  have hl : 0 < log (t.circuit.rOut / t.circuit.rIn) :=
    Real.log_pos (by rw [one_lt_div hr1]; exact ht.rOut)
  push_cast at h
  generalize log (t.circuit.rOut / t.circuit.rIn) = l at *
  field_simp at h
  linarith

/-! ## C87 — the search for the grout conductivity -/

/-- The root finder asks for and returns only values inside `[lo, hi]`. -/
inductive Bracketed (lo hi : ℝ) : Finder ℝ → Prop
  | done (x : ℝ) (h1 : lo ≤ x) (h2 : x ≤ hi) : Bracketed lo hi (.done x)
  | fail (e : PyErr) : Bracketed lo hi (.fail e)
  | ask (x : ℝ) (next : ℝ → Finder ℝ) (h1 : lo ≤ x) (h2 : x ≤ hi)
      (hn : ∀ v, Bracketed lo hi (next v)) : Bracketed lo hi (.ask x next)

theorem outcome_bracketed (f : ℝ → ℝ) (lo hi : ℝ) (p : Finder ℝ) (h : Bracketed lo hi p) (x : ℝ)
    (hx : outcome f p = .ok x) : lo ≤ x ∧ x ≤ hi := by
  induction p generalizing x with
  | done y => cases h; cases hx; exact ⟨by assumption, by assumption⟩
  | fail e => cases hx
  | ask y next ih => cases h with | ask _ _ _ _ hn => exact ih _ (hn _) x hx

/-- The tube `s` after its grout conductivity is replaced by `k`. -/
noncomputable def regrout (s : UTube) (k : ℝ) : UTube :=
  { s with circuit := { s.circuit with kg := k }, grout := { s.grout with k := k } }

/-- What the search for the grout conductivity leaves behind in the equivalent tube `s` of an exchanger
with effective resistance `R`: one conductivity in grout and circuit, between 0.01 and 7; and if the
resistance of the tube falls with the conductivity, either the resistances could not be equal and the end
value nearest to equality was taken, or the conductivity is what the root finder returned. -/
structure Matched (ext : Ext) (brent : ℝ → ℝ → Finder ℝ) (R : ℝ) (s : UTube) : Prop where
  same : s.circuit.kg = s.grout.k
  ends : R ≠ rbOf ext (regrout s (1 / 100)) ∧ R ≠ rbOf ext (regrout s 7)
  between : (R - rbOf ext (regrout s (1 / 100))) * (R - rbOf ext (regrout s 7)) < 0 →
    outcome (fun k => R - rbOf ext (regrout s k)) (brent (1 / 100) 7) = .ok s.grout.k
  low : R < rbOf ext (regrout s (1 / 100)) → R < rbOf ext (regrout s 7) → s.grout.k = 7
  high : rbOf ext (regrout s (1 / 100)) < R → rbOf ext (regrout s 7) < R → s.grout.k = 1 / 100

theorem match_matched {ρ : Type} (ext : Ext) (brent : ℝ → ℝ → Finder ℝ) (refRb : St ρ ℝ) (ref : ρ)
    (R : ℝ) (t0 : UTube) (k : ℝ) (s : UTube) (hR : refRb ref = (.ok R, ref))
    (h : matchResistance ext brent refRb (ref, withK ext t0 k) = (.ok (), (ref, s))) :
    Matched ext brent R s := by
  obtain ⟨h1, h2, h3, h4⟩ := matchResistance_eq ext brent refRb ref R (withK ext t0 k) hR _ rfl
  obtain ⟨kg, hkg⟩ := matchResistance_form ext brent refRb ref R _ hR _ h
  obtain ⟨-, rfl⟩ := Prod.mk.inj hkg
  rw [h] at h1 h2 h3 h4
  have e : ∀ x, rbOf ext (regrout (withKg ext (withK ext t0 k) kg) x) =
      rbOf ext (withKg ext (withK ext t0 k) x) := fun _ => rfl
  refine ⟨rfl, ⟨?_, ?_⟩, ?_, ?_, ?_⟩
  · intro hh
    have := h1 (Or.inl (by rw [← e]; exact sub_eq_zero.2 hh)); cases this
  · intro hh
    have := h1 (Or.inr (by rw [← e]; exact sub_eq_zero.2 hh)); cases this
  · intro hh
    rcases h2 hh with ⟨x, -, hx⟩ | ⟨x, hx, hx'⟩
    · cases hx
    · have : withKg ext (withK ext t0 k) kg = withKg ext (withK ext t0 k) x :=
        (Prod.mk.inj (Prod.mk.inj hx').2).2
      have : kg = x := congrArg (fun u : UTube => u.grout.k) this
      subst this
      exact hx
  · intro a b
    have : withKg ext (withK ext t0 k) kg = withKg ext (withK ext t0 k) 7 :=
      (Prod.mk.inj (Prod.mk.inj (h3 (sub_neg.2 a) (sub_neg.2 b))).2).2
    exact congrArg (fun u : UTube => u.grout.k) this
  · intro a b
    have : withKg ext (withK ext t0 k) kg = withKg ext (withK ext t0 k) (1 / 100) :=
      (Prod.mk.inj (Prod.mk.inj (h4 (sub_pos.2 a) (sub_pos.2 b))).2).2
    exact congrArg (fun u : UTube => u.grout.k) this

/-- C87: the grout conductivity of the equivalent of a multiple U-tube. -/
theorem C87_multiple (ext : Ext) (brent : ℝ → ℝ → Finder ℝ) (t s : UTube) (x : Exchanger)
    (h : computeEquivalent ext brent (.multiple t) = .ok (s, x)) :
    Matched ext brent (ext.rbStar t.circuit t.b t.mBorehole t.fluid.cp) s := by
  obtain ⟨-, t0, k, kg, h0, -, hm, -⟩ := multiple_form ext brent t s x h
  exact match_matched ext brent _ t _ t0 k s (computeEffective_none ext t) hm

/-- C87: the same for a coaxial exchanger. -/
theorem C87_coaxial (ext : Ext) (brent : ℝ → ℝ → Finder ℝ) (c : Coax) (s : UTube) (x : Exchanger)
    (h : computeEquivalent ext brent (.coaxial c) = .ok (s, x)) :
    Matched ext brent (ext.rbStarCoax c.pipe.rInner c.pipe.rOuter c.soil.k c.grout.k c.Rff c.Rfp c.b
      c.mBorehole c.fluid.cp) s := by
  obtain ⟨-, t0, k, kg, h0, -, hm, -⟩ := coaxial_form ext brent c s x h
  exact match_matched ext brent _ c _ t0 k s (coaxEffective_none ext c) hm

/-- C87: hence the conductivity is within `[0.01, 7]` for every root finder that stays in its
bracket. -/
theorem C87_bounds (ext : Ext) (brent : ℝ → ℝ → Finder ℝ) (R : ℝ) (s : UTube) (h : Matched ext brent R s)
    (hb : Bracketed (1 / 100) 7 (brent (1 / 100) 7)) : 1 / 100 ≤ s.grout.k ∧ s.grout.k ≤ 7 := by
  rcases lt_or_gt_of_ne h.ends.1 with a | a <;> rcases lt_or_gt_of_ne h.ends.2 with b | b
  · rw [h.low a b]; norm_num
  · exact outcome_bracketed _ _ _ _ hb _
      (h.between (mul_neg_of_neg_of_pos (sub_neg.2 a) (sub_pos.2 b)))
  · exact outcome_bracketed _ _ _ _ hb _
      (h.between (mul_neg_of_pos_of_neg (sub_pos.2 a) (sub_neg.2 b)))
  · rw [h.high a b]; norm_num

/-- C87: if the tube's resistance falls with the grout conductivity and no conductivity in the range makes
the resistances equal, the one taken is the best of the range. -/
theorem C87_nearest (ext : Ext) (brent : ℝ → ℝ → Finder ℝ) (R : ℝ) (s : UTube) (h : Matched ext brent R s)
    (hanti : ∀ a b, 1 / 100 ≤ a → a ≤ b → b ≤ 7 → rbOf ext (regrout s b) ≤ rbOf ext (regrout s a))
    (hout : R < rbOf ext (regrout s 7) ∨ rbOf ext (regrout s (1 / 100)) < R) (k : ℝ) (h1 : 1 / 100 ≤ k)
    (h2 : k ≤ 7) :
    |R - rbOf ext s| ≤ |R - rbOf ext (regrout s k)| := by
  have hs : rbOf ext s = rbOf ext (regrout s s.grout.k) := by
    have : regrout s s.grout.k = s := by
      have e := h.same
      unfold regrout
      rw [← e]
      conv_lhs => rw [show ({ s.grout with k := s.circuit.kg } : Grout) = s.grout by rw [e]]
    rw [this]
  have a1 := hanti (1 / 100) k le_rfl h1 h2
  have a2 := hanti k 7 h1 h2 le_rfl
  rcases hout with hh | hh
  · rw [hs, h.low (by linarith) hh, abs_of_neg (by linarith), abs_of_neg (by linarith)]
    linarith
  · rw [hs, h.high hh (by linarith), abs_of_pos (by linarith), abs_of_pos (by linarith)]
    linarith

/-- C87: the resistance of the tube that is returned misses the one aimed at by exactly the value of the
objective at the conductivity taken. -/
theorem C87_error (ext : Ext) (brent : ℝ → ℝ → Finder ℝ) (R : ℝ) (s : UTube) (h : Matched ext brent R s)
    (tol : ℝ) (hroot : ∀ k, outcome (fun k => R - rbOf ext (regrout s k)) (brent (1 / 100) 7) = .ok k →
      |R - rbOf ext (regrout s k)| ≤ tol)
    (hbr : (R - rbOf ext (regrout s (1 / 100))) * (R - rbOf ext (regrout s 7)) < 0) :
    |R - rbOf ext s| ≤ tol := by
  have := hroot _ (h.between hbr)
  have hs : regrout s s.grout.k = s := by
    have e := h.same
    unfold regrout
    rw [← e]
    conv_lhs => rw [show ({ s.grout with k := s.circuit.kg } : Grout) = s.grout by rw [e]]
  rwa [hs] at this

/-! ## when the conversion returns a tube -/

/-- The pipe search, for a root finder that always returns. -/
theorem equivalent_ok (ext : Ext) (brent : ℝ → ℝ → Finder ℝ)
    (hb : ∀ f lo hi, ∃ x, outcome f (brent lo hi) = .ok x) (c : Common) (v : Volumes) (t0 : UTube)
    (h0 : initialTube ext c v = .ok t0)
    (h1 : convRes ext t0 + rConduction t0.pipe.rIn t0.pipe.rOut (t0.pipe.k / 100) ≠ v.Rconv + v.Rpipe)
    (h2 : convRes ext t0 + rConduction t0.pipe.rIn t0.pipe.rOut (t0.pipe.k * 10) ≠ v.Rconv + v.Rpipe) :
    ∃ k, equivalentSingle ext brent c v = .ok (withK ext t0 k) := by
  obtain ⟨-, e2, e3⟩ := equivalentSingle_eq ext brent _ _ t0 h0 _ rfl
  rcases lt_or_gt_of_ne (mul_ne_zero (sub_ne_zero.2 h1) (sub_ne_zero.2 h2)) with hs | hs
  · obtain ⟨x, hx⟩ := hb (fun k => convRes ext t0 + rConduction t0.pipe.rIn t0.pipe.rOut k -
      (v.Rconv + v.Rpipe)) (t0.pipe.k / 100) (t0.pipe.k * 10)
    have := e2 hs
    rw [hx] at this
    exact ⟨_, this⟩
  · exact ⟨_, e3 hs⟩

/-- The grout search, for a root finder that always returns. -/
theorem match_ok {ρ : Type} (ext : Ext) (brent : ℝ → ℝ → Finder ℝ)
    (hb : ∀ f lo hi, ∃ x, outcome f (brent lo hi) = .ok x) (refRb : St ρ ℝ) (ref : ρ) (R : ℝ) (t : UTube)
    (hR : refRb ref = (.ok R, ref)) (h3 : R ≠ rbOf ext (withKg ext t (1 / 100)))
    (h4 : R ≠ rbOf ext (withKg ext t 7)) :
    ∃ kg, matchResistance ext brent refRb (ref, t) = (.ok (), (ref, withKg ext t kg)) := by
  obtain ⟨-, m2, m3, m4⟩ := matchResistance_eq ext brent refRb ref R t hR _ rfl
  obtain ⟨x, hx⟩ := hb (fun y => R - rbOf ext (withKg ext t y)) (1 / 100) 7
  rcases lt_or_gt_of_ne h3 with a | a <;> rcases lt_or_gt_of_ne h4 with b | b
  · exact ⟨_, m3 (sub_neg.2 a) (sub_neg.2 b)⟩
  · rcases m2 (mul_neg_of_neg_of_pos (sub_neg.2 a) (sub_pos.2 b)) with ⟨e, he, -⟩ | ⟨y, -, hy⟩
    · rw [hx] at he; cases he
    · exact ⟨_, hy⟩
  · rcases m2 (mul_neg_of_pos_of_neg (sub_pos.2 a) (sub_neg.2 b)) with ⟨e, he, -⟩ | ⟨y, -, hy⟩
    · rw [hx] at he; cases he
    · exact ⟨_, hy⟩
  · exact ⟨_, m4 (sub_pos.2 a) (sub_pos.2 b)⟩

theorem multiple_ok (ext : Ext) (brent : ℝ → ℝ → Finder ℝ) (hb : ∀ f lo hi, ∃ x, outcome f (brent lo hi) = .ok x)
    (t t0 : UTube) (h0 : initialTube ext
      ⟨t.b, t.pipe.eps, t.pipe.rhoCp, t.mBorehole, t.fluid, t.grout, t.soil⟩ (uTubeVolumes t) = .ok t0)
    (h1 : convRes ext t0 + rConduction t0.pipe.rIn t0.pipe.rOut (t0.pipe.k / 100) ≠
      (uTubeVolumes t).Rconv + (uTubeVolumes t).Rpipe)
    (h2 : convRes ext t0 + rConduction t0.pipe.rIn t0.pipe.rOut (t0.pipe.k * 10) ≠
      (uTubeVolumes t).Rconv + (uTubeVolumes t).Rpipe)
    (h3 : ∀ k, equivalentSingle ext brent
        ⟨t.b, t.pipe.eps, t.pipe.rhoCp, t.mBorehole, t.fluid, t.grout, t.soil⟩ (uTubeVolumes t) = .ok (withK ext t0 k) →
      rbOf ext t ≠ rbOf ext (withKg ext (withK ext t0 k) (1 / 100)) ∧
      rbOf ext t ≠ rbOf ext (withKg ext (withK ext t0 k) 7)) :
    ∃ s, computeEquivalent ext brent (.multiple t) = .ok (s, .multiple t) := by
  obtain ⟨k, hk⟩ := equivalent_ok ext brent hb _ _ t0 h0 h1 h2
  obtain ⟨kg, hm⟩ := match_ok ext brent hb (computeEffective ext none none) t (rbOf ext t)
    (withK ext t0 k) (computeEffective_none ext t) (h3 k hk).1 (h3 k hk).2
  refine ⟨withKg ext (withK ext t0 k) kg, ?_⟩
  unfold computeEquivalent multipleToSingle
  dsimp only
  rw [hk, Except.ok_bind, hm]
  rfl

theorem coaxial_ok (ext : Ext) (brent : ℝ → ℝ → Finder ℝ) (hb : ∀ f lo hi, ∃ x, outcome f (brent lo hi) = .ok x)
    (c : Coax) (t0 : UTube) (h0 : initialTube ext
      ⟨c.b, c.pipe.eps, c.pipe.rhoCp, c.mBorehole, c.fluid, c.grout, c.soil⟩ (concentricTubeVolumes c) = .ok t0)
    (h1 : convRes ext t0 + rConduction t0.pipe.rIn t0.pipe.rOut (t0.pipe.k / 100) ≠
      (concentricTubeVolumes c).Rconv + (concentricTubeVolumes c).Rpipe)
    (h2 : convRes ext t0 + rConduction t0.pipe.rIn t0.pipe.rOut (t0.pipe.k * 10) ≠
      (concentricTubeVolumes c).Rconv + (concentricTubeVolumes c).Rpipe)
    (h3 : ∀ k, equivalentSingle ext brent
        ⟨c.b, c.pipe.eps, c.pipe.rhoCp, c.mBorehole, c.fluid, c.grout, c.soil⟩ (concentricTubeVolumes c) =
          .ok (withK ext t0 k) →
      coaxRb ext c ≠ rbOf ext (withKg ext (withK ext t0 k) (1 / 100)) ∧
      coaxRb ext c ≠ rbOf ext (withKg ext (withK ext t0 k) 7)) :
    ∃ s, computeEquivalent ext brent (.coaxial c) = .ok (s, .coaxial c) := by
  obtain ⟨k, hk⟩ := equivalent_ok ext brent hb _ _ t0 h0 h1 h2
  obtain ⟨kg, hm⟩ := match_ok ext brent hb (coaxEffective ext none none) c (coaxRb ext c)
    (withK ext t0 k) (coaxEffective_none ext c) (h3 k hk).1 (h3 k hk).2
  refine ⟨withKg ext (withK ext t0 k) kg, ?_⟩
  unfold computeEquivalent coaxialToSingle
  dsimp only
  rw [hk, Except.ok_bind, hm]
  rfl

/-- C74: the conversion raises nothing but `ValueError` and what the root finder raises in a bracket with a sign change. -/
theorem C74_raises (ext : Ext) (brent : ℝ → ℝ → Finder ℝ) (x : Exchanger) (e : PyErr)
    (h : computeEquivalent ext brent x = .error e) :
    e = .valueError ∨ ∃ (f : ℝ → ℝ) (lo hi : ℝ), f lo * f hi < 0 ∧ outcome f (brent lo hi) = .error e := by
  have hs : ∀ c v e, equivalentSingle ext brent c v = .error e →
      e = .valueError ∨ ∃ (f : ℝ → ℝ) (lo hi : ℝ), f lo * f hi < 0 ∧ outcome f (brent lo hi) = .error e := by
    intro c v e he
    obtain ⟨t0, h0, -⟩ := initialTube_eq ext c v
    obtain ⟨e1, e2, e3⟩ := equivalentSingle_eq ext brent c v t0 h0 _ rfl
    rcases lt_trichotomy ((fun k => convRes ext t0 + rConduction t0.pipe.rIn t0.pipe.rOut k - (v.Rconv + v.Rpipe))
      (t0.pipe.k / 100) * (fun k => convRes ext t0 + rConduction t0.pipe.rIn t0.pipe.rOut k - (v.Rconv + v.Rpipe))
      (t0.pipe.k * 10)) 0 with hz | hz | hz
    · rw [e2 hz] at he
      rcases ho : outcome (fun k => convRes ext t0 + rConduction t0.pipe.rIn t0.pipe.rOut k - (v.Rconv + v.Rpipe))
        (brent (t0.pipe.k / 100) (t0.pipe.k * 10)) with e' | y
      · rw [ho] at he
        cases he
        exact .inr ⟨_, _, _, hz, ho⟩
      · rw [ho] at he
        cases he
    · rw [e1 (mul_eq_zero.1 hz)] at he
      exact .inl (Except.error.inj he).symm
    · rw [e3 hz] at he
      cases he
  have hm : ∀ {ρ : Type} (refRb : St ρ ℝ) (ref : ρ) (R : ℝ) (t : UTube) (e : PyErr) (s : ρ × UTube),
      refRb ref = (.ok R, ref) → matchResistance ext brent refRb (ref, t) = (.error e, s) →
      e = .valueError ∨ ∃ (f : ℝ → ℝ) (lo hi : ℝ), f lo * f hi < 0 ∧ outcome f (brent lo hi) = .error e := by
    intro ρ refRb ref R t e s hR he
    obtain ⟨m1, m2, m3, m4⟩ := matchResistance_eq ext brent refRb ref R t hR _ rfl
    rcases lt_trichotomy ((fun k => R - rbOf ext (withKg ext t k)) (1 / 100) *
      (fun k => R - rbOf ext (withKg ext t k)) 7) 0 with hz | hz | hz
    · rcases m2 hz with ⟨e', he', hr⟩ | ⟨y, -, hy⟩
      · rw [he] at hr
        cases hr
        exact .inr ⟨fun k => R - rbOf ext (withKg ext t k), 1 / 100, 7, hz, he'⟩
      · rw [hy] at he
        cases he
    · have := m1 (mul_eq_zero.1 hz)
      rw [he] at this
      exact .inl (Except.error.inj this)
    · rcases pos_and_pos_or_neg_and_neg_of_mul_pos hz with ⟨a, b⟩ | ⟨a, b⟩
      · rw [m4 a b] at he
        cases he
      · rw [m3 a b] at he
        cases he
  cases x with
  | single t => cases h
  | other => cases h; exact .inl rfl
  | multiple t =>
    unfold computeEquivalent multipleToSingle at h
    dsimp only at h
    generalize hq : equivalentSingle ext brent _ _ = q at h
    cases q with
    | error e' =>
      rw [Except.error_bind, Except.error_bind] at h
      cases h; exact hs _ _ _ hq
    | ok single =>
      rw [Except.ok_bind] at h
      generalize hr : matchResistance ext brent (computeEffective ext none none) (t, single) = r at h
      obtain ⟨r, s⟩ := r
      cases r with
      | ok u => cases h
      | error e' => cases h; exact hm _ _ _ _ _ _ (computeEffective_none ext t) hr
  | coaxial c =>
    unfold computeEquivalent coaxialToSingle at h
    dsimp only at h
    generalize hq : equivalentSingle ext brent _ _ = q at h
    cases q with
    | error e' =>
      rw [Except.error_bind, Except.error_bind] at h
      cases h; exact hs _ _ _ hq
    | ok single =>
      rw [Except.ok_bind] at h
      generalize hr : matchResistance ext brent (coaxEffective ext none none) (c, single) = r at h
      obtain ⟨r, s⟩ := r
      cases r with
      | ok u => cases h
      | error e' => cases h; exact hm _ _ _ _ _ _ (coaxEffective_none ext c) hr

/-! ## a concrete case

Two U-tubes in series with inner radius 1 and outer radius `e` in a borehole of radius 10 (the lengths are
arbitrary units): one unit of convective and two of conductive resistance per pipe. -/

noncomputable section

def exExt : Ext where
  hPipe _ _ _ _ := 1 / (2 * π)
  hAnnulus _ _ _ _ _ := (1 / (2 * π), 1 / (2 * π))
  rbStar c _ _ _ := 1 / c.kg
  rbStarCoax _ _ _ kg _ _ _ _ _ := 1 / kg

/-- a root finder that probes the middle of the bracket and returns it -/
def exBrent (lo hi : ℝ) : Finder ℝ := .ask ((lo + hi) / 2) fun _ => .done ((lo + hi) / 2)

def exFluid : Fluid := ⟨1, 1, 1, 1⟩

def exPipe : Pipe := ⟨[(5, 0), (0, 5), (-5, 0), (0, -5)], 1, exp 1, 1, 0, 1 / (8 * π), 1⟩

/-- the exchanger as `MultipleUTube(...)` constructs it -/
def exMultiple : UTube where
  mBorehole := 1
  mPipe := 1
  fluid := exFluid
  b := ⟨100, 2, 10⟩
  pipe := exPipe
  grout := ⟨1, 1⟩
  soil := ⟨2, 1, 18⟩
  hf := 1 / (2 * π)
  Rp := rConduction 1 (exp 1) (1 / (8 * π))
  Rf := 1 / (1 / (2 * π) * 2 * π * 1)
  circuit := ⟨exPipe.pos, 1, exp 1, 2, 1, 1 / (1 / (2 * π) * 2 * π * 1) + rConduction 1 (exp 1) (1 / (8 * π)),
    2, some "series"⟩

theorem exMultiple_made : mkMultiple exExt 1 exFluid ⟨100, 2, 10⟩ exPipe ⟨1, 1⟩ ⟨2, 1, 18⟩ (some "series") =
    .ok exMultiple := by
  unfold mkMultiple mkUTube
  rw [(C83_flow 1 (some "series")).1 (Or.inr rfl)]
  rfl

theorem exMultiple_sound : exMultiple.Sound := by
  refine ⟨?_, ?_, ?_, ?_⟩
  · show (1 : ℤ) ≤ 2; norm_num
  · show (0 : ℝ) < 1; norm_num
  · show (1 : ℝ) < exp 1
    exact Real.one_lt_exp_iff.2 one_pos
  · show (0 : ℝ) < 10; norm_num

theorem exMultiple_k : 0 < exMultiple.pipe.k := by
  show (0 : ℝ) < 1 / (8 * π)
  have := Real.pi_pos
  positivity

theorem exVolumes : (uTubeVolumes exMultiple).Rpipe = 1 ∧ (uTubeVolumes exMultiple).Rconv = 1 / 8 := by
  have hpi := Real.pi_pos
  constructor
  · show log (exp 1 / 1) / (((2 * 2 : ℤ) : ℝ) * 2 * π * (1 / (8 * π))) = 1
    rw [div_one, Real.log_exp]
    push_cast
    field_simp
    norm_num
  · show 1 / (1 / (2 * π) * (((2 * 2 : ℤ) : ℝ) * π * (1 * 2) ^ 2)) = 1 / 8
    push_cast
    field_simp
    norm_num

theorem exBrent_returns (f : ℝ → ℝ) (lo hi : ℝ) : ∃ x, outcome f (exBrent lo hi) = .ok x := ⟨_, rfl⟩

theorem exBrent_bracketed (lo hi : ℝ) (h : lo ≤ hi) : Bracketed lo hi (exBrent lo hi) :=
  .ask _ _ (by linarith) (by linarith) fun _ => .done _ (by linarith) (by linarith)

theorem exBrent_inside (lo hi : ℝ) (h : lo ≤ hi) : Inside lo hi (exBrent lo hi) :=
  .ask _ _ (by linarith) (by linarith) fun _ => .done _

/-- The conversion of this exchanger returns a tube, so that the statements above apply to it: the convective
resistance of the new pipe is `1/√2`, inside the range where the pipe search finds a sign change. -/
theorem exMultiple_ok : ∃ s, computeEquivalent exExt exBrent (.multiple exMultiple) =
    .ok (s, .multiple exMultiple) ∧ s.Rf = 1 / √2 ∧ s.grout.k = 701 / 200 := by
  have hpi := Real.pi_pos
  obtain ⟨t0, ht0, e1, -⟩ := initialTube_eq exExt
    ⟨exMultiple.b, exMultiple.pipe.eps, exMultiple.pipe.rhoCp, exMultiple.mBorehole, exMultiple.fluid,
      exMultiple.grout, exMultiple.soil⟩ (uTubeVolumes exMultiple)
  obtain ⟨v1, v2⟩ := exVolumes
  obtain ⟨p1, p2⟩ := uTubeVolumes_pos exMultiple exMultiple_sound
  obtain ⟨hk, hR⟩ := initial_Rp exExt _ _ p1 p2 (by rw [v1]; norm_num) t0 ht0
  have hin : t0.pipe.rIn = √2 := by
    rw [e1]
    congr 1
    show ((2 * 2 : ℤ) : ℝ) * π * 1 ^ 2 / (2 * π) = 2
    push_cast
    field_simp
    norm_num
  have hc : convRes exExt t0 = 1 / √2 := by
    show 1 / (1 / (2 * π) * 2 * π * t0.pipe.rIn) = _
    rw [hin]
    congr 1
    field_simp
  have hs1 : 0 < 1 / √2 := by positivity
  have hs2 : 1 / √2 < 4 / 5 := by
    rw [div_lt_iff₀ (by positivity)]
    have : (5 / 4 : ℝ) < √2 := Real.lt_sqrt_of_sq_lt (by norm_num)
    linarith
  have hfin : ∀ k, rbOf exExt exMultiple = 1 ∧ ∀ y, rbOf exExt (withKg exExt (withK exExt t0 k) y) = 1 / y :=
    fun k => ⟨by show (1 : ℝ) / 1 = 1; norm_num, fun y => rfl⟩
  obtain ⟨s, hs⟩ := multiple_ok exExt exBrent exBrent_returns exMultiple t0 ht0
    (by rw [div_eq_mul_inv, rConduction_scale, hR, v1, v2, hc]; generalize 1 / √2 = y at *; intro h; norm_num at h; linarith)
    (by rw [rConduction_scale, hR, v1, v2, hc]; generalize 1 / √2 = y at *; intro h; norm_num at h; linarith)
    (fun k _ => by rw [(hfin k).1, (hfin k).2, (hfin k).2]; norm_num)
  refine ⟨s, hs, ?_, ?_⟩
  · obtain ⟨-, t0', k, kg, h0, -, -, rfl⟩ := multiple_form _ _ _ _ _ hs
    rw [ht0] at h0; cases h0
    exact hc
  · have hm := C87_multiple exExt exBrent exMultiple s _ hs
    have e : ∀ y, rbOf exExt (regrout s y) = 1 / y := fun y => rfl
    have hb := hm.between
    rw [show exExt.rbStar exMultiple.circuit exMultiple.b exMultiple.mBorehole exMultiple.fluid.cp = 1 from
      (hfin 0).1, e, e] at hb
    have := hb (by norm_num)
    have h' : ((1 / 100 + 7) / 2 : ℝ) = s.grout.k := Except.ok.inj this
    rw [← h']; norm_num

/-- C74, C84–C87 apply to it. -/
example : ∃ s, computeEquivalent exExt exBrent (.multiple exMultiple) = .ok (s, .multiple exMultiple) ∧
    2 * (π * s.pipe.rIn ^ 2) = 4 * π ∧ 1 / 100 ≤ s.grout.k ∧ s.grout.k ≤ 7 := by
  obtain ⟨s, hs, -⟩ := exMultiple_ok
  obtain ⟨-, hf, -⟩ := C74_multiple exExt exBrent exMultiple s _ exMultiple_sound hs
  refine ⟨s, hs, ?_, C87_bounds _ _ _ _ (C87_multiple _ _ _ _ _ hs) (exBrent_bracketed _ _ (by norm_num))⟩
  rw [hf.fluidArea]
  show 2 * ((2 : ℤ) : ℝ) * (π * 1 ^ 2) = 4 * π
  push_cast; ring

/-- a coaxial exchanger with radii 1, 2, 3, 4 in a borehole of radius 5 -/
def exCoax : Coax := mkCoax exExt 1 exFluid ⟨100, 2, 5⟩ ⟨(1, 2), (3, 4), 0, (1, log (4 / 3) / (2 * π)), 1, (0, 0), 0⟩ ⟨1, 1⟩
  ⟨2, 1, 18⟩

theorem exCoax_sound : exCoax.Sound := by
  refine ⟨?_, ?_, ?_, ?_, ?_⟩
  · show (0 : ℝ) < 1; norm_num
  · show (1 : ℝ) < 2; norm_num
  · show (2 : ℝ) < 3; norm_num
  · show (3 : ℝ) < 4; norm_num
  · show (0 : ℝ) < 5; norm_num

/-- Here the two legs do not fit side by side and the borehole of the equivalent tube is larger. -/
theorem exCoax_ok : ∃ s, computeEquivalent exExt exBrent (.coaxial exCoax) = .ok (s, .coaxial exCoax) ∧
    5 < s.b.rb := by
  have hpi := Real.pi_pos
  have hl : 0 < log (4 / 3) := Real.log_pos (by norm_num)
  have v1 : (concentricTubeVolumes exCoax).Rpipe = 1 := by
    show log (4 / 3) / (2 * π * (log (4 / 3) / (2 * π))) = 1
    generalize log (4 / 3) = l at *
    field_simp
  have v2 : (concentricTubeVolumes exCoax).Rconv = 1 / 3 := by
    show 1 / (1 / (2 * π) * (π * 2 * 3)) = 1 / 3
    field_simp
  obtain ⟨t0, ht0, e1, -⟩ := initialTube_eq exExt
    ⟨exCoax.b, exCoax.pipe.eps, exCoax.pipe.rhoCp, exCoax.mBorehole, exCoax.fluid,
      exCoax.grout, exCoax.soil⟩ (concentricTubeVolumes exCoax)
  obtain ⟨p1, p2⟩ := concentric_pos exCoax exCoax_sound
  obtain ⟨hk, hR⟩ := initial_Rp exExt _ _ p1 p2 (by rw [v1]; norm_num) t0 ht0
  have hin : t0.pipe.rIn = √3 := by
    rw [e1]
    congr 1
    show π * (1 ^ 2 + 3 ^ 2 - 2 ^ 2) / (2 * π) = 3
    field_simp
    norm_num
  have hc : convRes exExt t0 = 1 / √3 := by
    show 1 / (1 / (2 * π) * 2 * π * t0.pipe.rIn) = _
    rw [hin]
    congr 1
    field_simp
  have hs1 : 0 < 1 / √3 := by positivity
  have hs2 : 1 / √3 < 4 / 5 := by
    rw [div_lt_iff₀ (by positivity)]
    have : (5 / 4 : ℝ) < √3 := Real.lt_sqrt_of_sq_lt (by norm_num)
    linarith
  have hfin : ∀ k, coaxRb exExt exCoax = 1 ∧ ∀ y, rbOf exExt (withKg exExt (withK exExt t0 k) y) = 1 / y :=
    fun k => ⟨by show (1 : ℝ) / 1 = 1; norm_num, fun y => rfl⟩
  obtain ⟨s, hs⟩ := coaxial_ok exExt exBrent exBrent_returns exCoax t0 ht0
    (by rw [div_eq_mul_inv, rConduction_scale, hR, v1, v2, hc]; generalize 1 / √3 = y at *
        intro h; norm_num at h; linarith)
    (by rw [rConduction_scale, hR, v1, v2, hc]; generalize 1 / √3 = y at *; intro h; norm_num at h; linarith)
    (fun k _ => by rw [(hfin k).1, (hfin k).2, (hfin k).2]; norm_num)
  refine ⟨s, hs, ?_⟩
  obtain ⟨-, hf, -⟩ := C74_coaxial exExt exBrent exCoax s _ exCoax_sound hs
  have hb : exCoax.b.rb = 5 := rfl
  refine lt_of_le_of_ne (hb ▸ hf.radius) fun h => ?_
  have h2 := hf.enlarged.1 (h ▸ hb.symm ▸ rfl)
  have hA := hf.fluidArea
  have hW := hf.wallArea
  have hA' : 2 * (π * s.pipe.rIn ^ 2) = π * 1 ^ 2 + (π * 3 ^ 2 - π * 2 ^ 2) := hA
  have hW' : 2 * (π * s.pipe.rOut ^ 2 - π * s.pipe.rIn ^ 2) =
    (π * 2 ^ 2 - π * 1 ^ 2) + (π * 4 ^ 2 - π * 3 ^ 2) := hW
  have h8 : π * s.pipe.rOut ^ 2 = π * 8 := by linarith
  have h8' := mul_left_cancel₀ hpi.ne' h8
  rw [hb] at h2
  have := hf.rIn
  have := hf.rOut
  nlinarith

end

end Ghedt.Bhe
