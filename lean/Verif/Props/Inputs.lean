import Verif.Props.Network
import Verif.Props.HybridFits
import Verif.Props.PeaksShort

/-!
# From what the user gives to an exchanger (C105)

`Usable` (C95, C96) speaks of the equivalent tube and of numbers derived from it.  Here everything is a condition on the
arguments, and on `pygfunction`, `brentq` and `dgtsv`.
-/

set_option linter.unusedSectionVars false

namespace Ghedt.WholeSearch
open Real Ghedt.GHE Ghedt.Bhe Ghedt.Radial Ghedt.Whole Ghedt.Search Ghedt.Utilities Ghedt.Spec Ghedt.Network

noncomputable section

/-- The pipes given are possible in a borehole of radius `rb`: radii in order, walls that are not too thick for the radial
model, positive properties.  A single U-tube must fit (`√2` times its outer radius, the radius of the pipe the radial model
makes of it); several U-tubes or a coaxial pipe need not, because the borehole of their equivalent is enlarged, but they
must not be gigantic (1 m). -/
def PipesFit (rb : ℝ) : Hardware → Prop
  | .single q => 0 < q.rIn ∧ q.rIn < q.rOut ∧ 2 * (q.rOut - q.rIn) < √2 * q.rOut ∧ √2 * q.rOut < rb ∧ 0 < q.k ∧ 0 < q.rhoCp
  | .multiple q => 2 ≤ q.pos.length ∧ 0 < q.rIn ∧ q.rIn < q.rOut ∧ 2 * (q.rOut - q.rIn) < √2 * q.rOut ∧
      ((q.pos.length / 2 : ℕ) : ℝ) * q.rOut ^ 2 ≤ 1 ∧ 0 < q.k ∧ 0 < q.rhoCp
  | .coaxial q => 0 < q.rInner.1 ∧ q.rInner.1 < q.rInner.2 ∧ q.rInner.2 < q.rOuter.1 ∧ q.rOuter.1 < q.rOuter.2 ∧
      (3 / 2 - √2) * q.rOuter.2 ^ 2 < q.rInner.1 ^ 2 + q.rOuter.1 ^ 2 - q.rInner.2 ^ 2 ∧ q.rOuter.2 ≤ 1 ∧ 0 < q.k.2 ∧
      0 < q.rhoCp
  | .other => False

/-- What is asked of the formulas of `pygfunction`: convection coefficients in pipes are positive, and a single U-tube with
positive flow, conductivities and pipe resistance conducts no better than its two pipes in parallel. -/
structure Correlations (ext : Ext) (fluid : Fluid) : Prop where
  pipe : ∀ m r eps, 0 < m → 0 < r → 0 < ext.hPipe m r fluid eps
  effective : ∀ (c : Circuit) b m, c.nPipes = 1 → 0 < c.Rfp → 0 < c.kg → 0 < c.ks → 0 < m →
    c.Rfp / 2 ≤ ext.rbStar c b m fluid.cp

/-- Sensible arguments, whatever the field and the height. -/
structure Sensible (p : Problem) : Prop where
  flow : p.flow = "borehole" ∨ p.flow = "system"
  volume : 0 < p.V
  radius : 0 < p.borehole.rb ∧ p.borehole.rb < 5
  pipes : PipesFit p.borehole.rb p.media.hardware
  fluid : 0 < p.media.fluid.rho ∧ 0 < p.media.fluid.cp
  grout : 0 < p.media.grout.k ∧ 0 < p.media.grout.rhoCp
  soil : 0 < p.media.soil.k ∧ 0 < p.media.soil.rhoCp
  year : p.hourly.length = 8760
  heating : Separated (p.hourly.map fun x => max x 0)
  cooling : Separated (p.hourly.map fun x => max (-x) 0)
  months : 1 ≤ p.startMonth ∧ p.startMonth ≤ p.endMonth
  /-- `pygfunction` -/
  correlations : Correlations p.ext p.media.fluid
  curves : ∃ lib r, p.gf = liveCurve p.ext lib eskilsonLogTimes {} ∧ Network.Answers lib ∧ lib.ratios 8 (2 / 100) = .ok r
  /-- `brentq` stays in its bracket -/
  brent : ∀ lo hi, lo ≤ hi → Bracketed lo hi (p.brent lo hi)

/-- The characteristic time `H² / (9 α)` of a borehole of height `H`. -/
def soilTime (p : Problem) (H : ℝ) : ℝ := H ^ 2 / (9 * (p.media.soil.k / p.media.soil.rhoCp))

/-- A height is fine: positive, few enough steps of the short-time simulation, and the long-time curve does not begin within
a picosecond of one of its samples. -/
structure HeightFine (p : Problem) (H : ℝ) : Prop where
  pos : 0 < H
  steps : max (soilTime p H * exp (-(86 / 10))) (49 * 3600) / 120 + 1 ≤ p.fuel
  late : 1 / 10 ^ 12 < soilTime p H * exp (-(85 / 10))
  seam : ∀ k : ℕ, soilTime p H * exp (-(85 / 10)) ≠ 1 / 10 ^ 12 + 120 * k

/-- The period simulated ends no later than the long-time curve at that height; for the hourly method it is a number of
years; for the hybrid method the peaks of the building are placed, or last but not too long where they are not. -/
def PeriodFine (p : Problem) (H : ℝ) : Prop :=
  (p.method = "hourly" ∧ ∃ n : ℕ, 1 ≤ n ∧ p.endMonth - p.startMonth + 1 = 12 * n ∧
    3600 * (8760 * n) ≤ soilTime p H * exp (3003 / 1000)) ∨
  (p.method = "hybrid" ∧ (PeaksPlaced p.hourly ∨ PeaksLast p.hourly) ∧
    3600 * (hoursOf p.endMonth.toNat : ℝ) ≤ soilTime p H * exp (3003 / 1000))

/-- The numbers that name the g-function of a field are read back as they were written. -/
def TextFine (p : Problem) (f : Field) (H : ℝ) : Prop :=
  ∀ B, boreholeSpacing p.borehole.rb f = .ok B → ∀ x ∈ [B, H, p.borehole.rb, p.borehole.D], p.toFloat (p.fmt x) = .ok x

/-- The exchanger has an equivalent tube: no end of the two root searches is a root (a single U-tube is its own
equivalent).  For that tube, if it is sound, `dgtsv` is accurate enough (C131). -/
def Converts (p : Problem) (f : Field) (H : ℝ) : Prop :=
  ∀ bhe, makeExchanger p.ext (massFlow p f) p.media { p.borehole with H := H } = .ok bhe →
    ∃ r, computeEquivalent p.ext p.brent bhe = .ok r ∧
      ((radialTube p.ext r.1).Sound → AccurateFor p.solve (radialTube p.ext r.1))

variable {p : Problem} {f : Field} {H : ℝ}

theorem inside_of_bracketed {lo hi : ℝ} {q : Finder ℝ} (h : Bracketed lo hi q) : Inside lo hi q := by
  induction h with
  | done x => exact .done x
  | fail e => exact .fail e
  | ask x next h1 h2 _ ih => exact .ask x next h1 h2 ih

theorem massFlow_pos (h : Sensible p) (hf : f ≠ []) : 0 < massFlow p f := by
  have h1 := h.volume
  have h2 := h.fluid.1
  have h3 : (0 : ℝ) < f.length := by exact_mod_cast List.length_pos_iff.2 hf
  unfold massFlow
  split_ifs <;> positivity

/-- a wall that is thin enough stays so when all radii are scaled -/
theorem core_scaled {a b a' b' n : ℝ} (hn : 0 < n) (ha : 0 < a) (hab : a < b) (h : 2 * (b - a) < √2 * b) (ha' : 0 < a')
    (hb' : 0 < b') (e1 : a' ^ 2 = n * a ^ 2) (e2 : b' ^ 2 = n * b ^ 2) : 2 * (b' - a') < √2 * b' := by
  have f1 : a' = √n * a := by
    rw [← abs_of_pos ha', ← Real.sqrt_sq_eq_abs, e1, Real.sqrt_mul hn.le, Real.sqrt_sq ha.le]
  have f2 : b' = √n * b := by
    rw [← abs_of_pos hb', ← Real.sqrt_sq_eq_abs, e2, Real.sqrt_mul hn.le, Real.sqrt_sq (ha.trans hab).le]
  have := mul_lt_mul_of_pos_left h (Real.sqrt_pos.2 hn)
  rw [f1, f2]
  nlinarith

theorem multiple_radii {b : Borehole} {s : UTube} {N : ℕ} {n : ℤ} (hn : n = N) {a c : ℝ}
    (hF : Fitted b (2 * n * (π * a ^ 2)) (2 * n * (π * c ^ 2 - π * a ^ 2)) s) :
    s.pipe.rIn ^ 2 = N * a ^ 2 ∧ s.pipe.rOut ^ 2 = N * c ^ 2 := by
  have hp := Real.pi_pos
  have h1 := hF.fluidArea
  have h2 := hF.wallArea
  rw [hn] at h1 h2
  push_cast at h1 h2
  have e1 : s.pipe.rIn ^ 2 = N * a ^ 2 := mul_left_cancel₀ hp.ne' (by linarith)
  refine ⟨e1, mul_left_cancel₀ hp.ne' ?_⟩
  rw [e1] at h2
  linarith

theorem coaxial_radii {b : Borehole} {s : UTube} {r1 r2 r3 r4 : ℝ}
    (hF : Fitted b (π * r1 ^ 2 + (π * r3 ^ 2 - π * r2 ^ 2)) ((π * r2 ^ 2 - π * r1 ^ 2) + (π * r4 ^ 2 - π * r3 ^ 2)) s) :
    2 * s.pipe.rIn ^ 2 = r1 ^ 2 + r3 ^ 2 - r2 ^ 2 ∧ 2 * s.pipe.rOut ^ 2 = r4 ^ 2 := by
  have hp := Real.pi_pos
  have h1 := hF.fluidArea
  have h2 := hF.wallArea
  have e1 : 2 * s.pipe.rIn ^ 2 = r1 ^ 2 + r3 ^ 2 - r2 ^ 2 := mul_left_cancel₀ hp.ne' (by linarith)
  exact ⟨e1, mul_left_cancel₀ hp.ne' (by linarith)⟩

theorem coaxial_core {a b A r : ℝ} (ha : 0 < a) (e1 : 2 * a ^ 2 = A) (e2 : 2 * b ^ 2 = r ^ 2)
    (h : (3 / 2 - √2) * r ^ 2 < A) : 2 * (b - a) < √2 * b := by
  have hsq : √2 * √2 = 2 := Real.mul_self_sqrt (by norm_num)
  have hl : ((2 - √2) * b) ^ 2 < (2 * a) ^ 2 := by
    have e : ((2 - √2) * b) ^ 2 = 2 * ((3 / 2 - √2) * r ^ 2) := by
      have : (2 - √2) ^ 2 = 6 - 4 * √2 := by nlinarith
      rw [mul_pow, this, ← e2]
      ring
    rw [e]
    nlinarith
  have := lt_of_pow_lt_pow_left₀ 2 (by linarith) hl
  linarith

/-- the equivalent tube is sound, from its geometry and its conductivities -/
theorem fitted_sound {ext : Ext} {fluid : Fluid} (hc : Correlations ext fluid) {b : Borehole} {A W : ℝ} {s : UTube}
    (hF : Fitted b A W s) (hcore : 2 * (s.pipe.rOut - s.pipe.rIn) < √2 * s.pipe.rOut) (hsmall : s.pipe.rOut ≤ 1)
    (hrb : 0 < b.rb ∧ b.rb < 5) (hH : 0 < b.H) (hk : 0 < s.pipe.k) (hkg : 0 < s.circuit.kg)
    (hks : 0 < s.circuit.ks) (hso : 0 < s.soil.k ∧ 0 < s.soil.rhoCp) (hgr : 0 < s.grout.rhoCp) (hpi : 0 < s.pipe.rhoCp)
    (hfl : s.fluid = fluid) (hfl' : 0 < fluid.rho ∧ 0 < fluid.cp) (hm : 0 < s.mBorehole) (hm' : 0 < s.mPipe)
    (hset : s = refresh ext s) : (radialTube ext s).Sound := by
  have e1 : s.Rf = convRes ext s := congrArg UTube.Rf hset
  have e2 : s.Rp = rConduction s.pipe.rIn s.pipe.rOut s.pipe.k := congrArg UTube.Rp hset
  have e3 : s.circuit.Rfp = s.Rf + s.Rp := by
    rw [e1, e2]
    exact congrArg (fun t : UTube => t.circuit.Rfp) hset
  have hp := Real.pi_pos
  have hRf : 0 < s.Rf := by
    rw [e1]
    unfold convRes
    have h1 := hc.pipe s.mPipe s.pipe.rIn s.pipe.eps hm' hF.rIn
    have h2 := hF.rIn
    rw [hfl]
    positivity
  have hRp : 0 < s.Rp := by
    rw [e2]
    unfold rConduction
    have : 0 < log (s.pipe.rOut / s.pipe.rIn) := Real.log_pos (by rw [one_lt_div hF.rIn]; exact hF.rOut)
    positivity
  obtain ⟨d, -, hd1, hd2, hd3⟩ := hF.legs
  have h2 : √2 < 2 := by
    rw [Real.sqrt_lt' (by norm_num)]
    norm_num
  have hro := hF.rIn.trans hF.rOut
  refine ⟨hF.rIn, hF.rOut, hcore, ?_, ?_, ?_, hpi, hgr, hso.1, hks, hso.2, ?_, ?_, hRf, hRp, ?_⟩
  · show √2 * s.pipe.rOut < s.b.rb
    nlinarith
  · show s.b.rb < 5
    by_cases he : 2 * (2 * s.pipe.rOut) < 2 * b.rb
    · rw [hF.enlarged.2 he]
      exact hrb.2
    · rw [hF.enlargedTo (not_lt.1 he)]
      linarith [hrb.1]
  · show 0 < s.b.H
    rw [hF.height]
    exact hH
  · show 0 < s.fluid.rho
    rw [hfl]
    exact hfl'.1
  · show 0 < s.fluid.cp
    rw [hfl]
    exact hfl'.2
  · show s.Rf / 2 < ext.rbStar s.circuit s.b s.mBorehole s.fluid.cp
    have := hc.effective s.circuit s.b s.mBorehole hF.circuit.2.2.2.1 (by rw [e3]; positivity) hkg hks hm
    rw [hfl]
    rw [e3] at this
    linarith

/-- the exchanger and its equivalent tube -/
theorem sound_tube (h : Sensible p) (hf : f ≠ []) (hH : 0 < H)
    (hc : ∀ bhe, makeExchanger p.ext (massFlow p f) p.media { p.borehole with H := H } = .ok bhe →
      ∃ r, computeEquivalent p.ext p.brent bhe = .ok r) :
    ∃ bhe s, makeExchanger p.ext (massFlow p f) p.media { p.borehole with H := H } = .ok bhe ∧
      computeEquivalent p.ext p.brent bhe = .ok (s, bhe) ∧ (radialTube p.ext s).Sound := by
  have hm := massFlow_pos h hf
  have hp := Real.pi_pos
  have hpipes := h.pipes
  cases hw : p.media.hardware with
  | single q =>
    rw [hw] at hpipes
    obtain ⟨q1, q2, q3, q4, q5, q6⟩ := hpipes
    have hmk : ∃ t, mkSingle p.ext (massFlow p f) p.media.fluid { p.borehole with H := H } q p.media.grout p.media.soil =
        .ok t ∧ t.mPipe = massFlow p f ∧ t.pipe = q ∧ t.b = { p.borehole with H := H } ∧ t.fluid = p.media.fluid ∧
        t.grout = p.media.grout ∧ t.soil = p.media.soil ∧ t.circuit.ks = p.media.soil.k ∧ t.circuit.kg = p.media.grout.k ∧
        t.circuit.nPipes = 1 ∧ t.mBorehole = massFlow p f ∧
        t.Rf = 1 / (p.ext.hPipe (massFlow p f) q.rIn p.media.fluid q.eps * 2 * π * q.rIn) ∧
        t.Rp = rConduction q.rIn q.rOut q.k ∧ t.circuit.Rfp = t.Rf + t.Rp :=
      ⟨_, rfl, rfl, rfl, rfl, rfl, rfl, rfl, rfl, rfl, rfl, rfl, rfl, rfl, rfl⟩
    obtain ⟨t, ht, e1, e2, e3, e4, e5, e6, e7, e8, e9, e10, e11, e12, e13⟩ := hmk
    have hRf : 0 < t.Rf := by
      rw [e11]
      have := h.correlations.pipe (massFlow p f) q.rIn q.eps hm q1
      positivity
    have hRp : 0 < t.Rp := by
      rw [e12]
      unfold rConduction
      have : 0 < log (q.rOut / q.rIn) := Real.log_pos (by rw [one_lt_div q1]; exact q2)
      positivity
    refine ⟨.single t, t, ?_, rfl, ?_⟩
    · unfold makeExchanger
      rw [hw]
      dsimp only
      rw [ht]
      rfl
    · refine ⟨?_, ?_, ?_, ?_, ?_, ?_, ?_, ?_, ?_, ?_, ?_, ?_, ?_, hRf, hRp, ?_⟩ <;> unfold radialTube <;> dsimp only
      · rw [e2]; exact q1
      · rw [e2]; exact q2
      · rw [e2]; exact q3
      · rw [e2, e3]; exact q4
      · rw [e3]; exact h.radius.2
      · rw [e3]; exact hH
      · rw [e2]; exact q6
      · rw [e5]; exact h.grout.2
      · rw [e6]; exact h.soil.1
      · rw [e7]; exact h.soil.1
      · rw [e6]; exact h.soil.2
      · rw [e4]; exact h.fluid.1
      · rw [e4]; exact h.fluid.2
      · have := h.correlations.effective t.circuit t.b t.mBorehole e9 (by rw [e13]; positivity) (by rw [e8]; exact h.grout.1)
          (by rw [e7]; exact h.soil.1) (by rw [e10]; exact hm)
        rw [e4]
        rw [e13] at this
        linarith
  | multiple q =>
    rw [hw] at hpipes
    obtain ⟨q0, q1, q2, q3, q4, q5, q6⟩ := hpipes
    have hmk : ∃ t, mkMultiple p.ext (massFlow p f) p.media.fluid { p.borehole with H := H } q p.media.grout p.media.soil
        (some "parallel") = .ok t ∧ t.mBorehole = massFlow p f ∧ t.pipe = q ∧ t.b = { p.borehole with H := H } ∧
        t.fluid = p.media.fluid ∧ t.grout = p.media.grout ∧ t.soil = p.media.soil ∧ t.circuit.rIn = q.rIn ∧
        t.circuit.rOut = q.rOut ∧ t.circuit.nPipes = ((q.pos.length / 2 : ℕ) : ℤ) :=
      ⟨_, rfl, rfl, rfl, rfl, rfl, rfl, rfl, rfl, rfl, rfl⟩
    obtain ⟨t, ht, e1, e2, e3, e4, e5, e6, e7, e8, e9⟩ := hmk
    have hmake : makeExchanger p.ext (massFlow p f) p.media { p.borehole with H := H } = .ok (.multiple t) := by
      unfold makeExchanger
      rw [hw]
      dsimp only
      rw [ht]
      rfl
    obtain ⟨⟨s, x⟩, hcomp⟩ := hc _ hmake
    have hn : 1 ≤ q.pos.length / 2 := by omega
    have hnr : (1 : ℝ) ≤ ((q.pos.length / 2 : ℕ) : ℝ) := by exact_mod_cast hn
    have hts : t.Sound := ⟨by rw [e9]; exact_mod_cast hn, by rw [e7]; exact q1, by rw [e7, e8]; exact q2, by
      rw [e3]; exact h.radius.1⟩
    obtain ⟨rfl, hF, g1, g2, g3, g4, -, g5, g6⟩ := C74_multiple p.ext p.brent t s x hts hcomp
    obtain ⟨-, t0, k, kg, h0, hk, -, hs⟩ := multiple_form p.ext p.brent t s _ hcomp
    refine ⟨.multiple t, s, hmake, hcomp, ?_⟩
    obtain ⟨v1, v2⟩ := uTubeVolumes_pos t hts
    have v3 : 0 < (uTubeVolumes t).Rpipe := by
      unfold uTubeVolumes
      dsimp only
      rw [e7, e8, e9, e2]
      have : 0 < log (q.rOut / q.rIn) := Real.log_pos (by rw [one_lt_div q1]; exact q2)
      push_cast
      have : (0 : ℝ) < ((q.pos.length / 2 : ℕ) : ℝ) := by linarith
      positivity
    obtain ⟨k0, k1, -, k2, -⟩ := C86_bounds p.ext p.brent (fun lo hi hlh => inside_of_bracketed (h.brent lo hi hlh)) _ _ v1 v2 v3 _ hk
    have hkg := C87_bounds p.ext p.brent _ s (C87_multiple p.ext p.brent t s _ hcomp) (h.brent _ _ (by norm_num))
    have hsame := (C87_multiple p.ext p.brent t s _ hcomp).same
    obtain ⟨t', ht', -, -, -, -, -, -, -, -, -, -, -, -, -, -, -, -, a8, -⟩ := initialTube_eq p.ext
      ⟨t.b, t.pipe.eps, t.pipe.rhoCp, t.mBorehole, t.fluid, t.grout, t.soil⟩ (uTubeVolumes t)
    rw [h0] at ht'; cases ht'
    have hk' : s.pipe.k = (withK p.ext t0 k).pipe.k := by rw [hs]; rfl
    have hks : s.circuit.ks = p.media.soil.k := by
      rw [hs]
      exact a8.trans (by rw [e6])
    rw [e7, e8] at hF
    obtain ⟨r1, r2⟩ := multiple_radii e9 hF
    have hro := hF.rIn.trans hF.rOut
    refine fitted_sound h.correlations hF (core_scaled (by linarith) q1 q2 q3 hF.rIn hro r1 r2) ?_ ?_ ?_ ?_ ?_ ?_ ?_ ?_ ?_
      ?_ h.fluid ?_ ?_ ?_
    · rw [← abs_of_pos hro]
      exact abs_le_one_iff_mul_self_le_one.2 (by nlinarith)
    · rw [e3]; exact h.radius
    · rw [e3]; exact hH
    · rw [hk']; linarith
    · rw [hsame]; linarith
    · rw [hks]; exact h.soil.1
    · rw [g4, e6]; exact h.soil
    · rw [g6, e5]; exact h.grout.2
    · rw [g5, e2]; exact q6
    · rw [g3, e4]
    · rw [g1, e1]; exact hm
    · rw [g2, e1]; exact hm
    · rw [hs]; rfl
  | coaxial q =>
    rw [hw] at hpipes
    obtain ⟨q0, q1, q2, q3, q4, q5, q6, q7⟩ := hpipes
    have hmk : ∃ t, mkCoax p.ext (massFlow p f) p.media.fluid { p.borehole with H := H } q p.media.grout p.media.soil = t ∧
        t.mBorehole = massFlow p f ∧ t.pipe = q ∧ t.b = { p.borehole with H := H } ∧
        t.fluid = p.media.fluid ∧ t.grout = p.media.grout ∧ t.soil = p.media.soil :=
      ⟨_, rfl, rfl, rfl, rfl, rfl, rfl, rfl⟩
    obtain ⟨t, ht, e1, e2, e3, e4, e5, e6⟩ := hmk
    have hmake : makeExchanger p.ext (massFlow p f) p.media { p.borehole with H := H } = .ok (.coaxial t) := by
      unfold makeExchanger
      rw [hw]
      dsimp only
      rw [ht]
    obtain ⟨⟨s, x⟩, hcomp⟩ := hc _ hmake
    have hts : t.Sound := ⟨by rw [e2]; exact q0, by rw [e2]; exact q1, by rw [e2]; exact q2, by rw [e2]; exact q3, by
      rw [e3]; exact h.radius.1⟩
    obtain ⟨rfl, hF, g1, g2, g3, g4, -, g5, g6⟩ := C74_coaxial p.ext p.brent t s x hts hcomp
    obtain ⟨-, t0, k, kg, h0, hk, -, hs⟩ := coaxial_form p.ext p.brent t s _ hcomp
    refine ⟨.coaxial t, s, hmake, hcomp, ?_⟩
    obtain ⟨v1, v2⟩ := concentric_pos t hts
    have v3 : 0 < (concentricTubeVolumes t).Rpipe := by
      unfold concentricTubeVolumes
      dsimp only
      rw [e2]
      have : 0 < log (q.rOuter.2 / q.rOuter.1) := Real.log_pos (by rw [one_lt_div (by linarith)]; exact q3)
      positivity
    obtain ⟨k0, k1, -, k2, -⟩ := C86_bounds p.ext p.brent (fun lo hi hlh => inside_of_bracketed (h.brent lo hi hlh)) _ _ v1 v2 v3 _ hk
    have hkg := C87_bounds p.ext p.brent _ s (C87_coaxial p.ext p.brent t s _ hcomp) (h.brent _ _ (by norm_num))
    have hsame := (C87_coaxial p.ext p.brent t s _ hcomp).same
    obtain ⟨t', ht', -, -, -, -, -, -, -, -, -, -, -, -, -, -, -, -, a8, -⟩ := initialTube_eq p.ext
      ⟨t.b, t.pipe.eps, t.pipe.rhoCp, t.mBorehole, t.fluid, t.grout, t.soil⟩ (concentricTubeVolumes t)
    rw [h0] at ht'; cases ht'
    have hk' : s.pipe.k = (withK p.ext t0 k).pipe.k := by rw [hs]; rfl
    have hks : s.circuit.ks = p.media.soil.k := by
      rw [hs]
      exact a8.trans (by rw [e6])
    rw [e2] at hF
    obtain ⟨r1, r2⟩ := coaxial_radii hF
    have hro := hF.rIn.trans hF.rOut
    have hcore := coaxial_core hF.rIn r1 r2 q4
    refine fitted_sound h.correlations hF hcore ?_ ?_ ?_ ?_ ?_ ?_ ?_ ?_ ?_ ?_ h.fluid ?_ ?_ ?_
    · rw [← abs_of_pos hro]
      refine abs_le_one_iff_mul_self_le_one.2 ?_
      have : 0 < q.rOuter.2 := by linarith
      nlinarith
    · rw [e3]; exact h.radius
    · rw [e3]; exact hH
    · rw [hk']; linarith
    · rw [hsame]; linarith
    · rw [hks]; exact h.soil.1
    · rw [g4, e6]; exact h.soil
    · rw [g6, e5]; exact h.grout.2
    · rw [g5, e2]; exact q7
    · rw [g3, e4]
    · rw [g1, e1]; exact hm
    · rw [g2, e1]; exact hm
    · rw [hs]; rfl
  | other =>
    rw [hw] at hpipes
    exact hpipes.elim

/-- … for which the solver is accurate enough -/
theorem sound_of_sensible (h : Sensible p) (hf : f ≠ []) (hH : 0 < H) (hc : Converts p f H) :
    ∃ bhe s, makeExchanger p.ext (massFlow p f) p.media { p.borehole with H := H } = .ok bhe ∧
      computeEquivalent p.ext p.brent bhe = .ok (s, bhe) ∧ (radialTube p.ext s).Sound ∧
      AccurateFor p.solve (radialTube p.ext s) := by
  obtain ⟨bhe, s, h1, h2, h3⟩ := sound_tube h hf hH fun b hb => let ⟨r, hr, _⟩ := hc b hb; ⟨r, hr⟩
  obtain ⟨r, hr, ha⟩ := hc bhe h1
  rw [h2] at hr
  cases hr
  exact ⟨bhe, s, h1, h2, h3, ha h3⟩

/-- an exact solver is accurate enough -/
theorem converts_exact (hsol : ExactSolver p.solve)
    (hc : ∀ bhe, makeExchanger p.ext (massFlow p f) p.media { p.borehole with H := H } = .ok bhe →
      ∃ r, computeEquivalent p.ext p.brent bhe = .ok r) : Converts p f H :=
  fun bhe hb => let ⟨r, hr⟩ := hc bhe hb; ⟨r, hr, fun hs => hsol.accurate hs⟩

/-- C105: for sensible arguments and a fine height, every field of different boreholes has an exchanger: the input is usable
in the sense of C95 and C96.  The characteristic time of the equivalent tube is that of the soil and the height. -/
theorem C105_usable (h : Sensible p) (hf : f ≠ []) (hd : f.Nodup) (hH : HeightFine p H) (ht : TextFine p f H)
    (hc : Converts p f H) :
    ∃ bhe s, Usable p f H bhe s ∧ Seam s ∧ charTime s = soilTime p H ∧ (PeriodFine p H → Fits p f H s) := by
  obtain ⟨bhe, s, h1, h2, h3, h4⟩ := sound_of_sensible h hf hH.pos hc
  have hw : p.media.hardware ≠ .other := by
    intro e
    have := h.pipes
    rw [e] at this
    exact this
  obtain ⟨lib, r, hgf, hA, hr⟩ := h.curves
  have hcurve : ∃ c, p.gf (massFlow p f) p.media f H p.borehole.rb p.borehole.D = .ok c ∧
      c.length = (eskilsonLogTimes : List ℝ).length := by
    rw [hgf]
    exact C102_answered hA r hr _ p.media f H _ _ hw h.soil.1 h.soil.2 hf hd hH.pos h.radius.1
  -- the characteristic time does not depend on the number of steps allowed
  have hct : charTime s = soilTime p H := by
    obtain ⟨N, hN⟩ := exists_nat_ge (max (charTime s * exp (-(86 / 10))) (49 * 3600) / 120 + 1)
    exact charTime_media (p := { p with fuel := N }) (f := f) (H := H) (bhe := bhe) (s := s)
      ⟨h.flow, hf, hH.pos, h.radius.1, h1, h2, h3, h4, hN, ht, hcurve, h.year, h.heating, h.cooling, h.months⟩
  have hu : Usable p f H bhe s := ⟨h.flow, hf, hH.pos, h.radius.1, h1, h2, h3, h4, by rw [hct]; exact hH.steps, ht,
    hcurve, h.year, h.heating, h.cooling, h.months⟩
  refine ⟨bhe, s, hu, ?_, hct, ?_⟩
  · unfold Seam
    rw [hct]
    exact ⟨hH.late, hH.seam⟩
  · rintro (⟨m1, n, n1, n2, n3⟩ | ⟨m1, m2, m3⟩)
    · exact .inl ⟨m1, n, n1, n2, by rw [hct]; exact n3⟩
    · rcases m2 with m2 | m2
      · exact fits_hybrid hu m1 m2 (by rw [hct]; exact m3)
      · exact fits_ends hu m1 m2 (by rw [hct]; exact m3)

/-! ### sensible arguments -/

/-- the library of the examples: pipes in parallel, plus the grout -/
theorem exCorrelations (fluid : Fluid) : Correlations Whole.exExt fluid := by
  constructor
  · intro m r eps _ hr
    have := Real.pi_pos
    show 0 < 50 / (π * r)
    positivity
  · intro c b m h1 _ h3 _ _
    show c.Rfp / 2 ≤ c.Rfp / (2 * c.nPipes) + 1 / (10 * c.kg)
    rw [h1]
    have : 0 < 1 / (10 * c.kg) := by positivity
    push_cast
    linarith

/-- two U-tubes in parallel, the hourly method -/
theorem exNet_sensible : Sensible exNet := by
  have hl : 0 < log (13 / 10 : ℝ) := log_pos (by norm_num)
  have hp := Real.pi_pos
  obtain ⟨s, hu, -⟩ := exNet_usable 1 one_ne_zero
  refine ⟨hu.flow, ?_, ?_, ?_, ?_, ?_, ?_, hu.year, hu.heating, hu.cooling, hu.months, exCorrelations _,
    ⟨exLib, List.replicate 8 (1 / 8), rfl, exLib_answers, rfl⟩, exBrent_bracketed⟩
  · show (0 : ℝ) < 2000 / 998; norm_num
  · constructor
    · show (0 : ℝ) < 3 / 40; norm_num
    · show (3 / 40 : ℝ) < 5; norm_num
  · refine ⟨?_, ?_, ?_, ?_, ?_, ?_, ?_⟩
    · show 2 ≤ 4; norm_num
    · show (0 : ℝ) < 1 / 100; norm_num
    · show (1 / 100 : ℝ) < 13 / 1000; norm_num
    · show 2 * ((13 / 1000 : ℝ) - 1 / 100) < √2 * (13 / 1000)
      have : (1 : ℝ) ≤ √2 := Real.one_le_sqrt.2 (by norm_num)
      linarith
    · show ((2 : ℕ) : ℝ) * (13 / 1000) ^ 2 ≤ 1; norm_num
    · show 0 < 10 * log (13 / 10) / (2 * π)
      positivity
    · show (0 : ℝ) < 1542000; norm_num
  · constructor
    · show (0 : ℝ) < 998; norm_num
    · show (0 : ℝ) < 4182; norm_num
  · constructor
    · show (0 : ℝ) < 1; norm_num
    · show (0 : ℝ) < 3901000; norm_num
  · constructor
    · show (0 : ℝ) < 2; norm_num
    · show (0 : ℝ) < 1800000; norm_num

/-- a building with a heating and a cooling season (C104), a single U-tube, the hybrid method -/
def exSingle : Problem := { exBuilding with
  gf := liveCurve Whole.exExt exLib eskilsonLogTimes {}
  media := ⟨.single ⟨[(-3 / 100, 0), (3 / 100, 0)], 1 / 100, 13 / 1000, 4 / 100, 0, 10 * log (13 / 10) / (2 * π), 1542000⟩,
    exWater, (exDouble 100).grout, (exDouble 100).soil⟩ }

theorem exSingle_sensible : Sensible exSingle := by
  have hl : 0 < log (13 / 10 : ℝ) := log_pos (by norm_num)
  have hp := Real.pi_pos
  obtain ⟨s, hu, -⟩ := exBuilding_usable [(0, 0)] (by simp) 100 (by tauto) (fun B hB => by cases hB; exact .inl rfl)
  refine ⟨hu.flow, ?_, ?_, ?_, ?_, ?_, ?_, hu.year, hu.heating, hu.cooling, hu.months, exCorrelations _,
    ⟨exLib, List.replicate 8 (1 / 8), rfl, exLib_answers, rfl⟩, exBrent_bracketed⟩
  · show (0 : ℝ) < 2000 / 998; norm_num
  · constructor
    · show (0 : ℝ) < 3 / 40; norm_num
    · show (3 / 40 : ℝ) < 5; norm_num
  · have h2 : √2 < 2 := by
      rw [Real.sqrt_lt' (by norm_num)]
      norm_num
    refine ⟨?_, ?_, ?_, ?_, ?_, ?_⟩
    · show (0 : ℝ) < 1 / 100; norm_num
    · show (1 / 100 : ℝ) < 13 / 1000; norm_num
    · show 2 * ((13 / 1000 : ℝ) - 1 / 100) < √2 * (13 / 1000)
      have : (1 : ℝ) ≤ √2 := Real.one_le_sqrt.2 (by norm_num)
      linarith
    · show √2 * (13 / 1000) < (3 / 40 : ℝ)
      linarith
    · show 0 < 10 * log (13 / 10) / (2 * π)
      positivity
    · show (0 : ℝ) < 1542000; norm_num
  · constructor
    · show (0 : ℝ) < 998; norm_num
    · show (0 : ℝ) < 4182; norm_num
  · constructor
    · show (0 : ℝ) < 1; norm_num
    · show (0 : ℝ) < 3901000; norm_num
  · constructor
    · show (0 : ℝ) < 2; norm_num
    · show (0 : ℝ) < 1800000; norm_num

theorem exSoilTime (q : Problem) (hq : q.media.soil = (exDouble 100).soil) (H : ℝ) : soilTime q H = 100000 * H ^ 2 := by
  unfold soilTime
  rw [hq]
  show H ^ 2 / (9 * (2 / 1800000)) = _
  ring

/-- heights of 50, 75 and 100 m are fine in that soil -/
theorem exHeightFine75 (q : Problem) (hq : q.media.soil = (exDouble 100).soil) (hfuel : q.fuel = 10 ^ 9) (H : ℝ)
    (hH : H = 50 ∨ H = 75 ∨ H = 100) : HeightFine q H := by
  obtain ⟨s, hu, hct⟩ := exUsable [(0, 0)] (by simp) H (by tauto) (fun B hB => by cases hB; exact .inl rfl)
  have hs := exSeam75 s H hH hct
  have e := exSoilTime q hq H
  unfold Seam at hs
  have hst := hu.steps
  rw [hct] at hs hst
  refine ⟨hu.height, ?_, ?_, ?_⟩
  · rw [e, hfuel]; exact hst
  · rw [e]; exact hs.1
  · rw [e]; exact hs.2

theorem exHeightFine (q : Problem) (hq : q.media.soil = (exDouble 100).soil) (hfuel : q.fuel = 10 ^ 9) (H : ℝ)
    (hH : H = 50 ∨ H = 100) : HeightFine q H := exHeightFine75 q hq hfuel H (by tauto)

theorem exText75 (f : Field) (hB : ∀ B, boreholeSpacing (3 / 40) f = .ok B → B = 3 / 40 ∨ B = 5) (H : ℝ)
    (hH : H = 50 ∨ H = 75 ∨ H = 100) : TextFine exSingle f H ∧ TextFine exNet f H := by
  have key : ∀ B, boreholeSpacing (3 / 40) f = .ok B → ∀ x ∈ [B, H, (3 / 40 : ℝ), 2],
      exProblem.toFloat (exProblem.fmt x) = .ok x := by
    intro B hBB x hx
    apply exProblem_text
    have hb := hB B hBB
    have hx' : x = B ∨ x = H ∨ x = 3 / 40 ∨ x = 2 := by simpa using hx
    unfold exNumbers
    simp only [List.mem_cons, List.not_mem_nil, or_false]
    rcases hx' with rfl | rfl | rfl | rfl
    · rcases hb with rfl | rfl <;> simp
    · rcases hH with rfl | rfl | rfl <;> simp
    · simp
    · simp
  exact ⟨key, key⟩

theorem exText (f : Field) (hB : ∀ B, boreholeSpacing (3 / 40) f = .ok B → B = 3 / 40 ∨ B = 5) (H : ℝ)
    (hH : H = 50 ∨ H = 100) : TextFine exSingle f H ∧ TextFine exNet f H := exText75 f hB H (by tauto)

/-- a single U-tube is its own equivalent -/
theorem exSingle_converts (f : Field) (H : ℝ) : Converts exSingle f H := by
  refine converts_exact exSolver_exact fun bhe hb => ?_
  cases hb
  exact ⟨_, rfl⟩

theorem exNet_converts (f : Field) (H : ℝ) (hH : 0 < H) : Converts exNet f H := by
  refine converts_exact exSolver_exact fun bhe hb => ?_
  have h := exProblem_exchanger (massFlow exNet f) H (exProblem_flow f)
  have : bhe = .multiple (exDouble H) := by
    have h' : makeExchanger exNet.ext (massFlow exNet f) exNet.media { exNet.borehole with H := H } =
      .ok (.multiple (exDouble H)) := h
    rw [h'] at hb
    cases hb
    rfl
  subst this
  obtain ⟨s, hs, -⟩ := exDouble_ok H hH
  exact ⟨_, hs⟩

/-- C105 applies: a year of the building with a row of single U-tubes, hybrid method -/
example (n : ℕ) (hn : n ≠ 0) : ∃ bhe s, Usable exSingle (exRow n) 100 bhe s ∧ Seam s ∧ charTime s = soilTime exSingle 100 ∧
    Fits exSingle (exRow n) 100 s := by
  obtain ⟨bhe, s, h1, h2, h3, h4⟩ := C105_usable exSingle_sensible (exRow_ne hn) (exRow_nodup n)
    (exHeightFine _ rfl rfl 100 (.inr rfl)) (exText _ (exRow_spacing n) 100 (.inr rfl)).1 (exSingle_converts _ _)
  refine ⟨bhe, s, h1, h2, h3, h4 (.inr ⟨rfl, .inl exHourly_placed, ?_⟩)⟩
  rw [exSoilTime _ rfl]
  have : 1 ≤ exp (3003 / 1000 : ℝ) := one_le_exp (by norm_num)
  show 3600 * ((hoursOf 12 : ℕ) : ℝ) ≤ _
  rw [show hoursOf 12 = 8760 by decide]
  push_cast
  linarith

/-- C105 applies: a year of constant load with a row of double U-tubes, hourly method -/
example (n : ℕ) (hn : n ≠ 0) : ∃ bhe s, Usable exNet (exRow n) 50 bhe s ∧ Fits exNet (exRow n) 50 s := by
  obtain ⟨bhe, s, h1, h2, h3, h4⟩ := C105_usable exNet_sensible (exRow_ne hn) (exRow_nodup n)
    (exHeightFine _ rfl rfl 50 (.inl rfl)) (exText _ (exRow_spacing n) 50 (.inl rfl)).2 (exNet_converts _ _ (by norm_num))
  refine ⟨bhe, s, h1, h4 (.inl ⟨rfl, 1, le_rfl, rfl, ?_⟩)⟩
  rw [← h3]
  exact exFits s 50 (.inl rfl) (h3.trans (exSoilTime _ rfl 50))

end

end Ghedt.WholeSearch
