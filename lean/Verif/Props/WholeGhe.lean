import Verif.Lemmas.WholeTotal
import Verif.Lemmas.Report

/-!
# The whole exchanger object (C88–C91)
-/

set_option linter.unusedSectionVars false

namespace Ghedt.Whole
open Real Ghedt.GHE Ghedt.Bhe Ghedt.Radial Ghedt.Spec

noncomputable section

/-! ## C88 — the short-time model accepts the equivalent tube -/

/-- Positive material properties. -/
structure Media (pipeRhoCp : ℝ) (g : Grout) (so : Soil) (fl : Fluid) : Prop where
  pipe : 0 < pipeRhoCp
  grout : 0 < g.rhoCp
  soil : 0 < so.k
  soilRhoCp : 0 < so.rhoCp
  rho : 0 < fl.rho
  cp : 0 < fl.cp

theorem sound_of_fitted (ext : Ext) (brent : ℝ → ℝ → Finder ℝ)
    (hfind : ∀ lo hi, lo ≤ hi → Inside lo hi (brent lo hi)) (c : Common) (v : Volumes) (s t0 : UTube) (k kg : ℝ)
    (v1 : 0 < v.fluid) (v2 : 0 < v.pipe) (v3 : 0 < v.Rpipe) (hm : Media c.rhoCp c.grout c.soil c.fluid)
    (hH : 0 < c.b.H) (hconv : ∀ r, 0 < r → 0 < ext.hPipe c.m r c.fluid c.eps)
    (h0 : initialTube ext c v = .ok t0) (h1 : equivalentSingle ext brent c v = .ok (withK ext t0 k))
    (hs : s = withKg ext (withK ext t0 k) kg) (hF : Fitted c.b v.fluid v.pipe s)
    (core : 2 * (s.pipe.rOut - s.pipe.rIn) < √2 * s.pipe.rOut) (narrow : c.b.rb < 5)
    (narrow2 : 6 / 5 * (4 * s.pipe.rOut - c.b.rb) < 5)
    (hRb : s.circuit.Rfp / 2 ≤ ext.rbStar s.circuit s.b s.mBorehole s.fluid.cp) :
    (radialTube ext s).Sound ∧ s.circuit.ks = c.soil.k ∧ s.b.H = c.b.H := by
  have hpi := Real.pi_pos
  obtain ⟨k₀, hk0, -, hk1, -⟩ := C86_bounds ext brent hfind c v v1 v2 v3 _ h1
  have hk : 0 < k := lt_of_lt_of_le (by positivity) hk1
  obtain ⟨t', ht', -, -, -, -, -, -, a1, a2, a3, a4, a5, a6, a7, -, -, -, a8, -⟩ := initialTube_eq ext c v
  rw [h0] at ht'; cases ht'
  have e1 : s.pipe.rhoCp = c.rhoCp := by rw [hs]; exact a2
  have e2 : s.grout.rhoCp = c.grout.rhoCp := by
    rw [hs]; show t0.grout.rhoCp = _; rw [a6]
  have e3 : s.soil = c.soil := by rw [hs]; exact a7
  have e4 : s.circuit.ks = c.soil.k := by rw [hs]; exact a8
  have e5 : s.fluid = c.fluid := by rw [hs]; exact a5
  have hin := hF.rIn
  have hout := hF.rIn.trans hF.rOut
  have e6 : s.Rf = 1 / (ext.hPipe c.m s.pipe.rIn c.fluid c.eps * 2 * π * s.pipe.rIn) := by
    rw [hs]
    show 1 / (ext.hPipe t0.mPipe t0.pipe.rIn t0.fluid t0.pipe.eps * 2 * π * t0.pipe.rIn) = _
    rw [a4, a5, a1]
    rfl
  have e7 : s.Rp = rConduction s.pipe.rIn s.pipe.rOut k := by rw [hs]; rfl
  have e8 : s.circuit.Rfp = s.Rf + s.Rp := by rw [hs]; rfl
  have pRf : 0 < s.Rf := by
    rw [e6]
    have := hconv _ hin
    positivity
  have pRp : 0 < s.Rp := by
    rw [e7]
    unfold rConduction
    exact div_pos (log_pos (by rw [one_lt_div hin]; exact hF.rOut)) (by positivity)
  obtain ⟨d, -, hd1, hd2, hd3⟩ := hF.legs
  have hsq : √2 < 2 := by rw [sqrt_lt' (by norm_num)]; norm_num
  refine ⟨?_, e4, hF.height⟩
  constructor
  · exact hin
  · exact hF.rOut
  · exact core
  · show √2 * s.pipe.rOut < s.b.rb
    nlinarith
  · show s.b.rb < 5
    rcases lt_or_ge (2 * (2 * s.pipe.rOut)) (2 * c.b.rb) with hl | hl
    · rw [hF.enlarged.2 hl]; exact narrow
    · rw [hF.enlargedTo hl]; exact narrow2
  · show 0 < s.b.H
    rw [hF.height]; exact hH
  · show 0 < s.pipe.rhoCp
    rw [e1]; exact hm.pipe
  · show 0 < s.grout.rhoCp
    rw [e2]; exact hm.grout
  · show 0 < s.soil.k
    rw [e3]; exact hm.soil
  · show 0 < s.circuit.ks
    rw [e4]; exact hm.soil
  · show 0 < s.soil.rhoCp
    rw [e3]; exact hm.soilRhoCp
  · show 0 < s.fluid.rho
    rw [e5]; exact hm.rho
  · show 0 < s.fluid.cp
    rw [e5]; exact hm.cp
  · exact pRf
  · exact pRp
  · show s.Rf / 2 < ext.rbStar s.circuit s.b s.mBorehole s.fluid.cp
    rw [e8] at hRb
    linarith

/-- C88: the equivalent tube of a multiple U-tube with `n` U-tubes, sound radii, thin walls, positive properties and
convection is one that the short-time model computes with (its hypotheses in C70–C73 and C82), if the borehole, enlarged if
necessary, is narrower than 5 m and the library's borehole resistance includes that of the pipes. -/
theorem C88_multiple (ext : Ext) (brent : ℝ → ℝ → Finder ℝ)
    (hfind : ∀ lo hi, lo ≤ hi → Inside lo hi (brent lo hi)) (t s : UTube) (x : Exchanger) (ht : t.Sound)
    (hk : 0 < t.pipe.k) (hm : Media t.pipe.rhoCp t.grout t.soil t.fluid) (hH : 0 < t.b.H)
    (hconv : ∀ r, 0 < r → 0 < ext.hPipe t.mBorehole r t.fluid t.pipe.eps)
    (hthin : 2 * (t.circuit.rOut - t.circuit.rIn) < √2 * t.circuit.rOut) (narrow : t.b.rb < 5)
    (narrow2 : 6 / 5 * (4 * (√t.circuit.nPipes * t.circuit.rOut) - t.b.rb) < 5)
    (h : computeEquivalent ext brent (.multiple t) = .ok (s, x))
    (hRb : s.circuit.Rfp / 2 ≤ ext.rbStar s.circuit s.b s.mBorehole s.fluid.cp) :
    (radialTube ext s).Sound ∧ s.circuit.ks = t.soil.k ∧ s.b.H = t.b.H := by
  have hpi := Real.pi_pos
  obtain ⟨-, hF, -⟩ := C74_multiple ext brent t s x ht h
  obtain ⟨-, t0, k, kg, h0, h1, -, hs⟩ := multiple_form ext brent t s x h
  obtain ⟨v1, v2⟩ := uTubeVolumes_pos t ht
  have hn : (0 : ℝ) < (t.circuit.nPipes : ℝ) := by
    have := ht.nPipes
    exact_mod_cast (by omega : 0 < t.circuit.nPipes)
  have hr1 := ht.rIn
  have hr2 := ht.rIn.trans ht.rOut
  have v3 : 0 < (uTubeVolumes t).Rpipe := by
    unfold uTubeVolumes
    dsimp only
    have : 0 < log (t.circuit.rOut / t.circuit.rIn) := log_pos (by rw [one_lt_div hr1]; exact ht.rOut)
    push_cast
    positivity
  have q1 : s.pipe.rIn = √t.circuit.nPipes * t.circuit.rIn := by
    have := hF.fluidArea
    have h2 : (2 * π) * s.pipe.rIn ^ 2 = (2 * π) * (t.circuit.nPipes * t.circuit.rIn ^ 2) := by linarith
    have h3 := mul_left_cancel₀ (by positivity) h2
    have h4 := hF.rIn
    rw [← sq_eq_sq₀ h4.le (by positivity), mul_pow, sq_sqrt hn.le, h3]
  have q2 : s.pipe.rOut = √t.circuit.nPipes * t.circuit.rOut := by
    have := hF.wallArea
    have h1 := hF.fluidArea
    have h2 : (2 * π) * s.pipe.rOut ^ 2 = (2 * π) * (t.circuit.nPipes * t.circuit.rOut ^ 2) := by
      linarith
    have h3 := mul_left_cancel₀ (by positivity) h2
    have h4 := hF.rIn.trans hF.rOut
    rw [← sq_eq_sq₀ h4.le (by positivity), mul_pow, sq_sqrt hn.le, h3]
  have e1 : (uTubeVolumes t).fluid = 2 * t.circuit.nPipes * (π * t.circuit.rIn ^ 2) := by
    unfold uTubeVolumes; dsimp only; push_cast; ring
  have e2 : (uTubeVolumes t).pipe =
      2 * t.circuit.nPipes * (π * t.circuit.rOut ^ 2 - π * t.circuit.rIn ^ 2) := by
    unfold uTubeVolumes; dsimp only; push_cast; ring
  rw [← e1, ← e2] at hF
  refine sound_of_fitted ext brent hfind
    ⟨t.b, t.pipe.eps, t.pipe.rhoCp, t.mBorehole, t.fluid, t.grout, t.soil⟩ (uTubeVolumes t) s t0 k kg v1 v2 v3 hm hH
    hconv h0 h1 hs hF ?_ narrow ?_ hRb
  · rw [q1, q2]
    have : 0 < √(t.circuit.nPipes : ℝ) := sqrt_pos.2 hn
    nlinarith [mul_lt_mul_of_pos_left hthin this]
  · rw [q2]; exact narrow2

/-- C88: the same for a coaxial exchanger with increasing radii `r₁ … r₄`; the condition of thin walls becomes
`(3 - 2√2) r₄² < 2 (r₁² + r₃² - r₂²)`. -/
theorem C88_coaxial (ext : Ext) (brent : ℝ → ℝ → Finder ℝ)
    (hfind : ∀ lo hi, lo ≤ hi → Inside lo hi (brent lo hi)) (c : Coax) (s : UTube) (x : Exchanger) (hc : c.Sound)
    (hk : 0 < c.pipe.k.2) (hm : Media c.pipe.rhoCp c.grout c.soil c.fluid) (hH : 0 < c.b.H)
    (hconv : ∀ r, 0 < r → 0 < ext.hPipe c.mBorehole r c.fluid c.pipe.eps)
    (hthin : (3 - 2 * √2) * c.pipe.rOuter.2 ^ 2 <
      2 * (c.pipe.rInner.1 ^ 2 + c.pipe.rOuter.1 ^ 2 - c.pipe.rInner.2 ^ 2))
    (narrow : c.b.rb < 5) (narrow2 : 6 / 5 * (2 * √2 * c.pipe.rOuter.2 - c.b.rb) < 5)
    (h : computeEquivalent ext brent (.coaxial c) = .ok (s, x))
    (hRb : s.circuit.Rfp / 2 ≤ ext.rbStar s.circuit s.b s.mBorehole s.fluid.cp) :
    (radialTube ext s).Sound ∧ s.circuit.ks = c.soil.k ∧ s.b.H = c.b.H := by
  have hpi := Real.pi_pos
  obtain ⟨-, hF, -⟩ := C74_coaxial ext brent c s x hc h
  obtain ⟨-, t0, k, kg, h0, h1, -, hs⟩ := coaxial_form ext brent c s x h
  obtain ⟨v1, v2⟩ := concentric_pos c hc
  have hr3 : 0 < c.pipe.rOuter.1 := hc.r1.trans (hc.r2.trans hc.r3)
  have hr4 : 0 < c.pipe.rOuter.2 := hr3.trans hc.r4
  have v3 : 0 < (concentricTubeVolumes c).Rpipe := by
    unfold concentricTubeVolumes
    dsimp only
    have : 0 < log (c.pipe.rOuter.2 / c.pipe.rOuter.1) := log_pos (by rw [one_lt_div hr3]; exact hc.r4)
    positivity
  have w2 : √2 ^ 2 = (2 : ℝ) := sq_sqrt (by norm_num)
  have w0 : 0 < √(2 : ℝ) := by positivity
  have w1 : √(2 : ℝ) < 3 / 2 := by rw [sqrt_lt' (by norm_num)]; norm_num
  have q1 : 2 * s.pipe.rIn ^ 2 = c.pipe.rInner.1 ^ 2 + c.pipe.rOuter.1 ^ 2 - c.pipe.rInner.2 ^ 2 := by
    have := hF.fluidArea
    have h2 : π * (2 * s.pipe.rIn ^ 2) =
        π * (c.pipe.rInner.1 ^ 2 + c.pipe.rOuter.1 ^ 2 - c.pipe.rInner.2 ^ 2) := by linarith
    exact mul_left_cancel₀ hpi.ne' h2
  have q2 : √2 * s.pipe.rOut = c.pipe.rOuter.2 := by
    have := hF.wallArea
    have h1 := hF.fluidArea
    have h2 : π * (2 * s.pipe.rOut ^ 2) = π * (c.pipe.rOuter.2 ^ 2) := by linarith
    have h3 := mul_left_cancel₀ hpi.ne' h2
    have h4 := hF.rIn.trans hF.rOut
    rw [← sq_eq_sq₀ (by positivity) hr4.le, mul_pow, w2, h3]
  have e1 : (concentricTubeVolumes c).fluid =
      π * c.pipe.rInner.1 ^ 2 + (π * c.pipe.rOuter.1 ^ 2 - π * c.pipe.rInner.2 ^ 2) := by
    unfold concentricTubeVolumes; dsimp only; ring
  have e2 : (concentricTubeVolumes c).pipe = (π * c.pipe.rInner.2 ^ 2 - π * c.pipe.rInner.1 ^ 2) +
        (π * c.pipe.rOuter.2 ^ 2 - π * c.pipe.rOuter.1 ^ 2) := by
    unfold concentricTubeVolumes; dsimp only; ring
  rw [← e1, ← e2] at hF
  have hin := hF.rIn
  have hout := hF.rIn.trans hF.rOut
  refine sound_of_fitted ext brent hfind
    ⟨c.b, c.pipe.eps, c.pipe.rhoCp, c.mBorehole, c.fluid, c.grout, c.soil⟩ (concentricTubeVolumes c) s t0 k kg v1 v2
    v3 hm hH hconv h0 h1 hs hF ?_ narrow ?_ hRb
  · rw [← q1, ← q2, mul_pow, w2] at hthin
    have h5 : ((2 - √2) * s.pipe.rOut) ^ 2 < (2 * s.pipe.rIn) ^ 2 := by
      rw [mul_pow, mul_pow, sub_sq, w2]
      linarith
    have := lt_of_pow_lt_pow_left₀ 2 (by positivity) h5
    linarith
  · rw [← q2] at narrow2
    have : 2 * √2 * (√2 * s.pipe.rOut) = 2 * √2 ^ 2 * s.pipe.rOut := by ring
    rw [this, w2] at narrow2
    show 6 / 5 * (4 * s.pipe.rOut - c.b.rb) < 5
    linarith

/-- C88: a single U-tube, which is its own equivalent. -/
theorem C88_single (ext : Ext) (brent : ℝ → ℝ → Finder ℝ) (m : ℝ) (fl : Fluid) (b : Borehole) (p : Pipe) (g : Grout)
    (so : Soil) (t s : UTube) (x : Exchanger) (ht : mkSingle ext m fl b p g so = .ok t)
    (h : computeEquivalent ext brent (.single t) = .ok (s, x)) (hr : 0 < p.rIn) (hw : p.rIn < p.rOut)
    (hthin : 2 * (p.rOut - p.rIn) < √2 * p.rOut) (hfit : 2 * p.rOut < b.rb) (narrow : b.rb < 5) (hk : 0 < p.k)
    (hm : Media p.rhoCp g so fl) (hH : 0 < b.H) (hconv : 0 < ext.hPipe m p.rIn fl p.eps)
    (hRb : s.circuit.Rfp / 2 ≤ ext.rbStar s.circuit s.b s.mBorehole s.fluid.cp) :
    (radialTube ext s).Sound ∧ s.circuit.ks = so.k ∧ s.b.H = b.H := by
  have hpi := Real.pi_pos
  cases h
  cases ht
  have hsq : √2 < 2 := by rw [sqrt_lt' (by norm_num)]; norm_num
  have pRp : 0 < rConduction p.rIn p.rOut p.k := by
    unfold rConduction
    exact div_pos (log_pos (by rw [one_lt_div hr]; exact hw)) (by positivity)
  refine ⟨?_, rfl, rfl⟩
  refine ⟨hr, hw, hthin, ?_, narrow, hH, hm.pipe, hm.grout, hm.soil, hm.soil, hm.soilRhoCp, hm.rho, hm.cp, ?_, pRp,
    ?_⟩
  · show √2 * p.rOut < b.rb
    nlinarith
  · show 0 < 1 / (ext.hPipe m p.rIn fl p.eps * 2 * π * p.rIn)
    positivity
  · refine lt_of_lt_of_le ?_ hRb
    show 1 / (ext.hPipe m p.rIn fl p.eps * 2 * π * p.rIn) / 2 <
      (1 / (ext.hPipe m p.rIn fl p.eps * 2 * π * p.rIn) + rConduction p.rIn p.rOut p.k) / 2
    linarith

/-! ## C89 — the simulation depends on the height only -/

/-- What a user may do with the object. -/
inductive Op
  | height (h : ℝ)
  | simulate (method : String)
  | size (method : String)
  | print (tx : Report.Text)
  | «export» (selected : List (ℝ × ℝ))

/-- Doing it, whether or not an exception is raised. -/
def perform (env : Env) : State → Op → State
  | s, .height h => s.at h
  | s, .simulate m => (Whole.simulate env m s).2
  | s, .size m => (Whole.size env m s).2
  | s, .print tx => (Report.report tx env s).2
  | s, .«export» sel => (Report.oakRidge sel env s).2

/-- The assumptions of C89: the object was made from an exchanger whose resistances are up to date (as every
constructed exchanger's are, see `settled_made`); its g-function database is valid and covers the height it was
made with and all heights between the bounds for sizing; and the root finder probes only its bracket. -/
structure Covered (env : Env) (lo hi : ℝ) (x : Exchanger) (s0 : State) : Prop where
  made : construct env x = .ok s0
  settled : Settled env.ext x
  db : GF.Valid env.db
  range : GF.Range env.db lo hi
  height : Within env lo hi (borehole x).H
  order : env.minHeight ≤ env.maxHeight
  bounds : ∀ h, env.minHeight ≤ h → h ≤ env.maxHeight → Within env lo hi h
  finder : Inside env.minHeight env.maxHeight (env.brent env.minHeight env.maxHeight)

variable {env : Env} {lo hi : ℝ} {x : Exchanger} {s0 : State}

theorem Covered.facts (h : Covered env lo hi x s0) :
    Known x ∧ s0.bhe = x ∧ TableOk env.db s0.table ∧ s0.HPEFT = [] ∧ s0.dTb = [] := by
  have hm := h.made
  unfold construct at hm
  rw [bind_eq_ok] at hm
  obtain ⟨⟨eq, x'⟩, h1, hm⟩ := hm
  dsimp only at hm
  rw [bind_eq_ok] at hm
  obtain ⟨sts, h2, hm⟩ := hm
  cases hm
  refine ⟨?_, computeEquivalent_same _ _ _ _ _ h1, Or.inl rfl, rfl, rfl⟩
  cases x with
  | other => cases h1
  | _ => trivial

theorem Covered.start (h : Covered env lo hi x s0) : Used env lo hi x s0 := by
  obtain ⟨hk, hx, ht, -⟩ := h.facts
  refine ⟨⟨_, ?_, h.height⟩, ht⟩
  rw [hx]
  cases x <;> rfl

theorem Covered.used (h : Covered env lo hi x s0) (ops : List Op)
    (hops : ∀ y, Op.height y ∈ ops → Within env lo hi y) (s : State) (hs : Used env lo hi x s) :
    Used env lo hi x (ops.foldl (perform env) s) := by
  obtain ⟨hk, hx, ht, -⟩ := h.facts
  induction ops generalizing s with
  | nil => exact hs
  | cons op ops ih =>
    rw [List.foldl_cons]
    refine ih (fun y hy => hops y (List.mem_cons_of_mem _ hy)) _ ?_
    cases op with
    | height y =>
      obtain ⟨⟨z, hz, -⟩, ht'⟩ := hs
      refine ⟨⟨y, ?_, hops y (by simp)⟩, ht'⟩
      show setHeight y s.bhe = _
      rw [hz, setHeight_setHeight]
    | simulate m => exact (simulate_refines h.settled hk h.db h.range s0 hx ht m s hs).2
    | size m => exact (size_refines h.settled hk h.db h.range s0 hx ht m h.order h.bounds h.finder s hs).2
    | print tx => exact Report.used_of_asked hk h.db h.range hs (Report.report_state tx s)
    | «export» sel => exact Report.used_of_asked hk h.db h.range hs (Report.oakRidge_state sel s)

/-- C89: whatever was simulated, sized, printed and exported before, at whatever heights within the range of the g-function
database, simulating at a height gives what the newly made object gives at that height: the same result or
exception, the same fluid temperatures and the same borehole wall temperatures. -/
theorem C89_history (h : Covered env lo hi x s0) (ops : List Op)
    (hops : ∀ y, Op.height y ∈ ops → Within env lo hi y) (y : ℝ) (hy : Within env lo hi y) (method : String) :
    (simulate env method ((ops.foldl (perform env) s0).at y)).1 = (simulate env method (s0.at y)).1 ∧
    ∀ r, (simulate env method (s0.at y)).1 = .ok r →
      (simulate env method ((ops.foldl (perform env) s0).at y)).2.HPEFT =
        (simulate env method (s0.at y)).2.HPEFT ∧
      (simulate env method ((ops.foldl (perform env) s0).at y)).2.dTb =
        (simulate env method (s0.at y)).2.dTb := by
  obtain ⟨hk, hx, ht, -⟩ := h.facts
  have key : ∀ s, Used env lo hi x s → view (s.at y) = ⟨y, s.HPEFT, s.dTb⟩ ∧ Used env lo hi x (s.at y) := by
    rintro s ⟨⟨z, hz, -⟩, ht'⟩
    have : (s.at y).bhe = setHeight y x := by
      show setHeight y s.bhe = _
      rw [hz, setHeight_setHeight]
    refine ⟨?_, ⟨y, this, hy⟩, ht'⟩
    unfold view
    rw [this, borehole_setHeight hk]
    rfl
  obtain ⟨v1, u1⟩ := key _ (h.used ops hops s0 h.start)
  obtain ⟨v2, u2⟩ := key _ h.start
  obtain ⟨r1, -⟩ := simulate_refines h.settled hk h.db h.range s0 hx ht method _ u1
  obtain ⟨r2, -⟩ := simulate_refines h.settled hk h.db h.range s0 hx ht method _ u2
  rw [v1] at r1
  rw [v2] at r2
  obtain ⟨q1, q2⟩ := simulate_results (gheEnv env fun h => (prepare env (s0.at h)).1) method y
    s0.HPEFT s0.dTb (ops.foldl (perform env) s0).HPEFT (ops.foldl (perform env) s0).dTb
  rw [r1, r2] at q1 q2
  refine ⟨q1.symm, fun r hr => ?_⟩
  have := q2 r hr
  exact ⟨(congrArg GheState.HPEFT this).symm, (congrArg GheState.dTb this).symm⟩

/-- C89: simulation and sizing of the whole object are those of `GHE.simulate` and `GHE.size`, with the function
"what the newly made object computes at that height" in the place of the thermal model: same results and
exceptions, same heights, same temperatures.  So all statements about those (C39–C46) hold of the whole
object. -/
theorem C89_refinement (h : Covered env lo hi x s0) (ops : List Op)
    (hops : ∀ y, Op.height y ∈ ops → Within env lo hi y) (method : String) (s : State)
    (hs : s = ops.foldl (perform env) s0) (e : GheEnv ℝ)
    (he : e = gheEnv env fun y => (prepare env (s0.at y)).1) :
    GHE.simulate e method (view s) = ((simulate env method s).1, view (simulate env method s).2) ∧
    GHE.size env.brent e method (view s) = ((size env method s).1, view (size env method s).2) := by
  obtain ⟨hk, hx, ht, -⟩ := h.facts
  have hu : Used env lo hi x s := hs ▸ h.used ops hops s0 h.start
  subst he
  exact ⟨(simulate_refines h.settled hk h.db h.range s0 hx ht method s hu).1,
    (size_refines h.settled hk h.db h.range s0 hx ht method h.order h.bounds h.finder s hu).1⟩

/-- C89, with C44: sizing the whole object leaves it with a height within the bounds, and warns exactly
at the bounds. -/
theorem C89_size (h : Covered env lo hi x s0) (ops : List Op)
    (hops : ∀ y, Op.height y ∈ ops → Within env lo hi y) (method : String) (w : List Warning) (s' : State)
    (hs : size env method (ops.foldl (perform env) s0) = (.ok w, s')) :
    env.minHeight ≤ (borehole s'.bhe).H ∧ (borehole s'.bhe).H ≤ env.maxHeight ∧
    (.notShallowEnough ∈ w ↔ (borehole s'.bhe).H = env.minHeight) ∧
    (.notDeepEnough ∈ w ↔ (borehole s'.bhe).H = env.maxHeight) := by
  have := (C89_refinement h ops hops method _ rfl _ rfl).2
  rw [hs] at this
  exact C44_bounds env.brent (gheEnv env fun y => (prepare env (s0.at y)).1) method h.order h.finder _ _ _ this

/-- The resistances of every constructed exchanger are up to date. -/
theorem settled_made (ext : Ext) (m : ℝ) (fl : Fluid) (b : Borehole) (p : Pipe) (cp : CoaxPipe) (g : Grout)
    (so : Soil) (config : Option String) (t t' : UTube) (ht : mkSingle ext m fl b p g so = .ok t)
    (ht' : mkMultiple ext m fl b p g so config = .ok t') :
    Settled ext (.single t) ∧ Settled ext (.multiple t') ∧ Settled ext (.coaxial (mkCoax ext m fl b cp g so)) := by
  refine ⟨?_, ?_, rfl⟩
  · cases ht; rfl
  · unfold mkMultiple mkUTube at ht'
    rw [bind_eq_ok] at ht'
    obtain ⟨mp, -, ht'⟩ := ht'
    cases ht'
    rfl

/-! ## C90 — when a simulation succeeds -/

/-- after any use, at a height where everything works: the simulation comes down to the load steps -/
theorem simulate_at {h : ℝ} {s : UTube} {a b : ℝ} (hc : Covered env lo hi x s0) (ops : List Op)
    (hops : ∀ y, Op.height y ∈ ops → Within env lo hi y) (hR : Ready env lo hi x h s) (hT : Times env s a b) :
    ∃ th e st tb, (∀ τ, (∃ v, th.g τ = .ok v) ↔ 1 / 10 ^ 12 ≤ 3600 * τ ∧ 3600 * τ ≤ charTime s * exp b) ∧
      (∀ τ, (∃ v, th.g τ = .ok v) ∨ th.g τ = .error .valueError) ∧ TableOk env.db tb ∧
      prepare env ((ops.foldl (perform env) s0).at h) = (.ok th, ⟨setHeight h x, e, st, tb,
        (ops.foldl (perform env) s0).HPEFT, (ops.foldl (perform env) s0).dTb⟩) := by
  obtain ⟨hk, hx, ht, -⟩ := hc.facts
  obtain ⟨⟨z, hz, -⟩, htb⟩ := hc.used ops hops s0 hc.start
  have hreq := request_within hc.db hc.range hR.within {} (Or.inl rfl)
  obtain ⟨th, hth, g1, g2⟩ := thermalOf_ok _ (hR.radius _ _ hreq) (by simp [GF.answerAt]) hR.toWorks hT
  obtain ⟨e, st, tb, hp, htb'⟩ := prepare_eq hc.settled hk hc.db hc.range hR.within
    ((ops.foldl (perform env) s0).at h) (by show setHeight h _ = _; rw [hz, setHeight_setHeight]) htb
  rw [hth] at hp
  exact ⟨th, e, st, tb, g1, g2, htb', hp⟩

theorem at0_get {t : List ℝ} (i : ℕ) (hi : i < (0 :: t).length) : (0 :: t)[i] = at0 t i := by
  have := at0_getElem? (l := t) (k := i) (by simpa using Nat.le_of_lt_succ hi)
  exact (List.getElem?_eq_some_iff.1 this).2

/-- a simulation gets all the responses it asks for if every time that is not before an earlier one is at least
`1e-12` s after it and at most `T` after it -/
theorem responds_iff {th : Thermal ℝ} {T : ℝ} {t : List ℝ}
    (hg : ∀ τ, (∃ v, th.g τ = .ok v) ↔ 1 / 10 ^ 12 ≤ 3600 * τ ∧ 3600 * τ ≤ T) :
    Responds th t t.length ↔
      (0 :: t).Pairwise (fun u v => u ≤ v → 1 / 10 ^ 12 ≤ 3600 * (v - u) ∧ 3600 * (v - u) ≤ T) := by
  unfold Responds
  rw [List.pairwise_iff_getElem]
  constructor
  · intro h i j hi hj hij
    rw [at0_get, at0_get]
    exact fun hle => (hg _).1 (h j (by simpa using Nat.le_of_lt_succ hj) i hij hle)
  · intro h i hi j hj hle
    rw [hg]
    have := h j i (by simp; omega) (by simp; omega) hj
    rw [at0_get, at0_get] at this
    exact this hle

theorem usable_of_gaps {T : ℝ} {t : List ℝ}
    (h1 : (0 :: t).Pairwise (fun u v => 1 / 10 ^ 12 ≤ 3600 * (v - u))) (h2 : ∀ u ∈ t, 3600 * u ≤ T) :
    (0 :: t).Pairwise (fun u v => u ≤ v → 1 / 10 ^ 12 ≤ 3600 * (v - u) ∧ 3600 * (v - u) ≤ T) := by
  have hp : (0 : ℝ) < 1 / 10 ^ 12 := by positivity
  have h0 : ∀ u ∈ (0 :: t), 0 ≤ u := by
    intro u hu
    rcases List.mem_cons.1 hu with rfl | hu
    · exact le_rfl
    · have := (List.pairwise_cons.1 h1).1 u hu
      linarith
  rw [List.pairwise_iff_getElem] at h1 ⊢
  intro i j hi hj hij _
  have a1 := h1 i j hi hj hij
  have a2 := h0 _ (List.getElem_mem hi)
  have a3 : 3600 * (0 :: t)[j] ≤ T := by
    obtain ⟨k, rfl⟩ : ∃ k, j = k + 1 := ⟨j - 1, by omega⟩
    exact h2 _ (List.getElem_mem _)
  exact ⟨a1, by linarith⟩

theorem responds_pairwise {th : Thermal ℝ} {T : ℝ} {t : List ℝ}
    (hg : ∀ τ, (∃ v, th.g τ = .ok v) ↔ 1 / 10 ^ 12 ≤ 3600 * τ ∧ 3600 * τ ≤ T)
    (h : (0 :: t).Pairwise (fun u v => 1 / 10 ^ 12 ≤ 3600 * (v - u)) ∧ ∀ u ∈ t, 3600 * u ≤ T) :
    Responds th t t.length := (responds_iff hg).2 (usable_of_gaps h.1 h.2)

theorem ordered_of_gaps {t : List ℝ} (h : (0 :: t).Pairwise (fun u v => 1 / 10 ^ 12 ≤ 3600 * (v - u))) :
    ∀ i ≤ t.length, ∀ j < i, at0 t j ≤ at0 t i := by
  intro i hi j hj
  rw [List.pairwise_iff_getElem] at h
  have := h j i (by simp; omega) (by simp; omega) hj
  rw [at0_get, at0_get] at this
  have hp : (0 : ℝ) < 1 / 10 ^ 12 := by positivity
  linarith

/-- if the first time is not negative, the first temperature is a number -/
theorem temps_head {th : Thermal ℝ} {G : ℝ → ℝ} {Q t : List ℝ} {n : ℕ} (hn : 0 < n) (h1 : 0 ≤ at0 t 1) :
    ((List.range n).map (fun k => tempN th G Q t (k + 1))).head? = some (some (temp th G Q t 1)) := by
  obtain ⟨m, rfl⟩ : ∃ m, n = m + 1 := ⟨n - 1, by omega⟩
  rw [List.range_succ_eq_map, List.map_cons, List.head?_cons]
  refine congrArg some (tempN_some fun j hj => ?_)
  obtain rfl : j = 0 := by omega
  exact h1

/-- C90: after any use within the range of the database, at a height where the exchanger is physically sound:
the simulation of the hybrid loads (the first two entries are not simulated) succeeds, with one temperature for each
load, if the load times, starting from 0, are at least `1e-12` s apart and end no later than the g-function does,
`t_s·exp b`; all the temperatures are numbers.  If times go backwards it also succeeds, provided the first is not
negative and every time that is not before an earlier one is at least `1e-12` s and at most `t_s·exp b` after it (some
temperatures are then not numbers, see C129).  If a time is not before an earlier one and violates this, `ValueError`
is raised. -/
theorem C90_hybrid (hc : Covered env lo hi x s0) (ops : List Op)
    (hops : ∀ y, Op.height y ∈ ops → Within env lo hi y) (h : ℝ) (s : UTube) (hR : Ready env lo hi x h s) (a b : ℝ)
    (hT : Times env s a b) (hlen : env.load.length = env.hour.length) (htwo : 2 < env.load.length) :
    ((0 :: env.hour.drop 2).Pairwise (fun u v => 1 / 10 ^ 12 ≤ 3600 * (v - u)) →
      (∀ u ∈ env.hour.drop 2, 3600 * u ≤ charTime s * exp b) →
      ∃ r s', simulate env "hybrid" ((ops.foldl (perform env) s0).at h) = (.ok r, s') ∧
        s'.HPEFT.length = env.load.length - 2 ∧ none ∉ s'.HPEFT) ∧
    ((0 :: env.hour.drop 2).Pairwise (fun u v => u ≤ v →
        1 / 10 ^ 12 ≤ 3600 * (v - u) ∧ 3600 * (v - u) ≤ charTime s * exp b) →
      (∀ u, env.hour[2]? = some u → 0 ≤ u) →
      ∃ r s', simulate env "hybrid" ((ops.foldl (perform env) s0).at h) = (.ok r, s') ∧
        s'.HPEFT.length = env.load.length - 2) ∧
    (¬ (0 :: env.hour.drop 2).Pairwise (fun u v => u ≤ v →
        1 / 10 ^ 12 ≤ 3600 * (v - u) ∧ 3600 * (v - u) ≤ charTime s * exp b) →
      (simulate env "hybrid" ((ops.foldl (perform env) s0).at h)).1 = .error .valueError) := by
  obtain ⟨th, e, st, tb, g1, g2, -, hp⟩ := simulate_at hc ops hops hR hT
  have hl1 : ((env.load.drop 2).map (· * 1000)).length = (env.hour.drop 2).length := by
    rw [List.length_map, List.length_drop, List.length_drop, hlen]
  have hin : simulationInput (gheEnv env fun _ => .error .valueError) "hybrid" =
      .ok ((env.load.drop 2).map (· * 1000), env.hour.drop 2) := rfl
  have hresp := responds_iff (t := env.hour.drop 2) g1
  have hpos : 0 < ((env.load.drop 2).map (· * 1000)).length := by
    rw [List.length_map, List.length_drop]; omega
  have general : (0 :: env.hour.drop 2).Pairwise (fun u v => u ≤ v →
        1 / 10 ^ 12 ≤ 3600 * (v - u) ∧ 3600 * (v - u) ≤ charTime s * exp b) → 0 ≤ at0 (env.hour.drop 2) 1 →
      ∃ r s', simulate env "hybrid" ((ops.foldl (perform env) s0).at h) = (.ok r, s') ∧
        s'.HPEFT = (List.range ((env.load.drop 2).map (· * 1000)).length).map (fun k => tempN th (resp th)
          ((env.load.drop 2).map (· * 1000)) (env.hour.drop 2) (k + 1)) := by
    intro h1 h2
    unfold simulate
    rw [St.bind_ok hp, hin, St.lift_ok rfl]
    dsimp only
    rw [simulateDetailed_ok hl1.le (by rw [hl1]; exact hresp.2 h1), St.lift_ok rfl]
    dsimp only
    rw [St.modify_bind]
    obtain ⟨⟨u, hu⟩, w, hw⟩ := extremes_ok (temps_head (th := th) (G := resp th)
      (Q := (env.load.drop 2).map (· * 1000)) hpos h2)
    rw [St.lift_ok hu, St.lift_ok hw]
    exact ⟨_, _, rfl, rfl⟩
  refine ⟨fun h1 h2 => ?_, fun h1 h2 => ?_, fun hn => ?_⟩
  · have ho := ordered_of_gaps h1
    obtain ⟨r, s', e1, e2⟩ := general (usable_of_gaps h1 h2)
      (ho 1 (by rw [← hl1]; exact hpos) 0 (by omega))
    refine ⟨r, s', e1, by rw [e2]; simp only [List.length_map, List.length_range, List.length_drop], ?_⟩
    rw [e2, List.mem_map]
    rintro ⟨k, hk, hk'⟩
    rw [tempN_some (ho _ (by rw [← hl1]; exact List.mem_range.1 hk))] at hk'
    cases hk'
  · have : at0 (env.hour.drop 2) 1 = (env.hour.drop 2)[0]'(by rw [← hl1]; exact hpos) :=
      (at0_get 1 (by rw [List.length_cons, ← hl1]; omega)).symm
    obtain ⟨r, s', e1, e2⟩ := general h1 (by
      rw [this]
      apply h2
      rw [List.getElem_drop]
      exact List.getElem?_eq_getElem _)
    exact ⟨r, s', e1, by rw [e2]; simp only [List.length_map, List.length_range, List.length_drop]⟩
  · unfold simulate
    rw [St.bind_ok hp, hin, St.lift_ok rfl]
    dsimp only
    rw [simulateDetailed_valueError hl1.le g2 (by rw [hl1]; exact fun hh => hn (hresp.1 hh)), St.lift_error rfl]

/-- C90: the hourly simulation of `n ≥ 1` whole years of 8760 loads likewise succeeds, with one temperature per
hour, if they end no later than the g-function. -/
theorem C90_hourly (hc : Covered env lo hi x s0) (ops : List Op)
    (hops : ∀ y, Op.height y ∈ ops → Within env lo hi y) (h : ℝ) (s : UTube) (hR : Ready env lo hi x h s) (a b : ℝ)
    (hT : Times env s a b) (n : ℤ) (hn : 1 ≤ n) (hmonths : env.endMonth - env.startMonth + 1 = 12 * n)
    (hlen : env.hourly.length = 8760) (hend : 3600 * (8760 * n) ≤ charTime s * exp b) :
    ∃ r s', simulate env "hourly" ((ops.foldl (perform env) s0).at h) = (.ok r, s') ∧
      (s'.HPEFT.length : ℤ) = 8760 * n := by
  obtain ⟨hk, hx, ht, -⟩ := hc.facts
  obtain ⟨⟨z, hz, -⟩, htb⟩ := hc.used ops hops s0 hc.start
  have hb : ((ops.foldl (perform env) s0).at h).bhe = setHeight h x := by
    show setHeight h _ = _
    rw [hz, setHeight_setHeight]
  have hu : Used env lo hi x ((ops.foldl (perform env) s0).at h) := ⟨⟨h, hb, hR.within⟩, htb⟩
  obtain ⟨href, -⟩ := simulate_refines hc.settled hk hc.db hc.range s0 hx ht "hourly" _ hu
  obtain ⟨th, e, st, tb, g1, g2, -, hp⟩ := simulate_at hc [] (by simp) hR hT
  have hH : (view ((ops.foldl (perform env) s0).at h)).H = h := by
    unfold view; rw [hb, borehole_setHeight hk]
  obtain ⟨r, s', h1, h2⟩ := (C42_hourly (gheEnv env fun y => (prepare env (s0.at y)).1)
    (view ((ops.foldl (perform env) s0).at h)) th (12 * n) (by omega) hmonths.symm hlen
    (by rw [hH]; exact hR.within.height)
    (by rw [hH]; exact congrArg Prod.fst hp) (by
      intro k hk0 hk1
      rw [g1]
      have e1 : (1 : ℝ) ≤ k := by exact_mod_cast hk0
      have e2 : (k : ℝ) ≤ 8760 * n := by exact_mod_cast (by omega : (k : ℤ) ≤ 8760 * n)
      constructor
      · have : (1 : ℝ) / 10 ^ 12 ≤ 1 := by norm_num
        linarith
      · linarith)).1 ⟨n, rfl⟩
  rw [h1] at href
  rcases hsim : simulate env "hourly" ((ops.foldl (perform env) s0).at h) with ⟨r', st'⟩
  rw [hsim] at href
  obtain ⟨e1, e2⟩ := Prod.mk.inj href
  refine ⟨r, st', by rw [show r' = .ok r from e1.symm], ?_⟩
  have : s'.HPEFT = st'.HPEFT := congrArg GheState.HPEFT e2
  rw [← this, h2]
  ring

/-! ## C91 — where sizing fails, and where the history matters after all -/

/-- C91: if the simulated period is too long for the g-function at the *minimum* height, sizing raises `ValueError`,
even if it is not too long for greater heights. -/
theorem C91_too_long (hc : Covered env lo hi x s0) (ops : List Op)
    (hops : ∀ y, Op.height y ∈ ops → Within env lo hi y) (s : UTube) (hR : Ready env lo hi x env.minHeight s)
    (a b : ℝ) (hT : Times env s a b) (hlen : env.load.length = env.hour.length) (htwo : 2 < env.load.length)
    (hlong : ∃ u ∈ env.hour.drop 2, 0 ≤ u ∧ charTime s * exp b < 3600 * u) :
    (size env "hybrid" (ops.foldl (perform env) s0)).1 = .error .valueError := by
  obtain ⟨u, hu, hu0, hlong⟩ := hlong
  have key := (C90_hybrid hc ops hops env.minHeight s hR a b hT hlen htwo).2.2
    (fun hh => absurd ((List.pairwise_cons.1 hh).1 u hu hu0).2 (by rw [sub_zero]; exact not_le.2 hlong))
  obtain ⟨⟨z, hz, -⟩, -⟩ := hc.used ops hops s0 hc.start
  generalize ops.foldl (perform env) s0 = st at *
  rcases hsim : simulate env "hybrid" (st.at env.minHeight) with ⟨r, st'⟩
  rw [hsim] at key
  dsimp only at key
  subst key
  have hobj : localObjective env "hybrid" env.minHeight
      (st.at ((env.maxHeight + env.minHeight) / 2)) = (.error .valueError, st') := by
    unfold localObjective
    rw [St.modify_bind]
    have : ({ st.at ((env.maxHeight + env.minHeight) / 2) with
        bhe := setHeight env.minHeight (st.at ((env.maxHeight + env.minHeight) / 2)).bhe } : State) =
        st.at env.minHeight := by
      unfold State.at
      dsimp only
      rw [setHeight_setHeight]
    rw [this, St.bind_error hsim]
  unfold size
  rw [St.modify_bind, St.get_bind]
  unfold solveRoot
  dsimp only
  rw [St.bind_error (s' := st') (e := .valueError)]
  exact St.bind_error hobj

/-- C91: at a height beyond the deepest one of the database a newly made object simulates (with extrapolation), with the
same condition on the loads as in C90, but an object that has already been simulated within the range raises
`ValueError` for any loads.  So outside the range C89 is false. -/
theorem C91_beyond (hc : Covered env lo hi x s0) (y : ℝ) (hy : Within env lo hi y) (s : UTube)
    (hR : Ready env lo hi x y s) (h : ℝ) (s' : UTube) (hw : Works env x h s')
    (hbeyond : hi + 1 / 1000000 ≤ env.db.B / (env.bSpacing / h)) (hwide : lo + 1 / 1000 ≤ hi)
    (hrad : ∀ r tb, GF.request env.spl env.db (env.bSpacing / h) "default" {} = (.ok r, tb) → r.rb ≠ 0)
    (a b : ℝ) (hT : Times env s' a b)
    (hlen : env.load.length = env.hour.length) (htwo : 2 < env.load.length)
    (hstep : (0 :: env.hour.drop 2).Pairwise (fun u v => 1 / 10 ^ 12 ≤ 3600 * (v - u)))
    (hend : ∀ u ∈ env.hour.drop 2, 3600 * u ≤ charTime s' * exp b) (method : String) :
    (∃ r, (simulate env "hybrid" (s0.at h)).1 = .ok r) ∧
    (simulate env "hybrid" ((simulate env method (s0.at y)).2.at h)).1 = .error .valueError := by
  obtain ⟨hk, hx, ht, -⟩ := hc.facts
  have hq : env.bSpacing / h ≠ 0 := div_ne_zero hy.spacing hw.nonzero
  have hle : lo ≤ hi := by linarith
  have hsnap := GF.snap_above hle hbeyond
  have hext : GF.extFlag lo hi (env.db.B / (env.bSpacing / h)) = true := by
    unfold GF.extFlag
    rw [hsnap, if_neg (fun hh => by linarith [hh.2]), if_neg]
    rw [not_lt, abs_of_nonpos (by linarith)]
    linarith
  have hs0t : s0.table.g = none := by
    have hm := hc.made
    unfold construct at hm
    rw [bind_eq_ok] at hm
    obtain ⟨⟨eq, x'⟩, h1, hm⟩ := hm
    dsimp only at hm
    rw [bind_eq_ok] at hm
    obtain ⟨sts, h2, hm⟩ := hm
    cases hm
    rfl
  have hreq1 : ∀ t : GF.Table ℝ, t.g = none → GF.request env.spl env.db (env.bSpacing / h) "default" t =
      (.ok (GF.answerAt env.spl env.db (env.db.B / (env.bSpacing / h)) true), GF.tableOf env.db true) := by
    intro t h0
    rw [GF.request_eq hc.db hc.range hq, hext, hsnap, if_pos (by rw [h0]; rfl),
      GF.readTable_ok hc.range (Or.inl rfl)]
  have hreq2 : GF.request env.spl env.db (env.bSpacing / h) "default" (GF.tableOf env.db false) =
      (.error .valueError, GF.tableOf env.db false) := by
    rw [GF.request_eq hc.db hc.range hq, hext, hsnap, if_neg (by simp [GF.tableOf]),
      GF.readTable_error hc.range (Or.inr (by linarith))]
  have hbhe : (s0.at h).bhe = setHeight h x := by show setHeight h _ = _; rw [hx]
  constructor
  · obtain ⟨e, q, hp⟩ := prepare_of hc.settled hk hw (s0.at h) hbhe _ _ (hreq1 _ hs0t)
    obtain ⟨th, hth, g1, -⟩ := thermalOf_ok _ (hrad _ _ (hreq1 {} rfl)) (by simp [GF.answerAt]) hw hT
    rw [Except.ok_bind, hth] at hp
    have hl1 : ((env.load.drop 2).map (· * 1000)).length = (env.hour.drop 2).length := by
      rw [List.length_map, List.length_drop, List.length_drop, hlen]
    have hin : simulationInput (gheEnv env fun _ => .error .valueError) "hybrid" =
        .ok ((env.load.drop 2).map (· * 1000), env.hour.drop 2) := rfl
    unfold simulate
    rw [St.bind_ok hp, hin, St.lift_ok rfl]
    dsimp only
    rw [simulateDetailed_ok hl1.le (by rw [hl1]; exact responds_pairwise g1 ⟨hstep, hend⟩), St.lift_ok rfl]
    dsimp only
    rw [St.modify_bind]
    have hpos : 0 < ((env.load.drop 2).map (· * 1000)).length := by
      rw [List.length_map, List.length_drop]; omega
    obtain ⟨⟨u, hu⟩, w, hw⟩ := extremes_ok (temps_head (th := th) (G := resp th)
      (Q := (env.load.drop 2).map (· * 1000)) hpos
      (ordered_of_gaps hstep 1 (by rw [← hl1]; exact hpos) 0 (by omega)))
    rw [St.lift_ok hu, St.lift_ok hw]
    exact ⟨_, rfl⟩
  · have hb1 : (s0.at y).bhe = setHeight y x := by show setHeight y _ = _; rw [hx]
    have hstate : ∃ e q hp d, (simulate env method (s0.at y)).2 =
        ⟨setHeight y x, e, q, GF.tableOf env.db false, hp, d⟩ := by
      obtain ⟨e, q, hp⟩ := prepare_of hc.settled hk hR.toWorks (s0.at y) hb1 _ _
        (request_within hc.db hc.range hR.within _ ht)
      unfold simulate
      generalize (Except.ok (GF.answerAt env.spl env.db (GF.snap lo hi (env.db.B / (env.bSpacing / y))) false) >>=
        thermalOf env x y) = r at hp
      cases r with
      | error er => rw [St.bind_error hp]; exact ⟨_, _, _, _, rfl⟩
      | ok th =>
        rw [St.bind_ok hp]
        generalize simulationInput (gheEnv env fun _ => .error .valueError) method = p
        cases p with
        | error er => exact ⟨_, _, _, _, rfl⟩
        | ok p =>
          rw [St.lift_ok rfl]
          obtain ⟨Q, t⟩ := p
          dsimp only
          generalize simulateDetailed th Q t = p
          cases p with
          | error er => exact ⟨_, _, _, _, rfl⟩
          | ok p =>
            rw [St.lift_ok rfl, St.modify_bind]
            cases maxNumber p.1 with
            | error er => exact ⟨_, _, _, _, rfl⟩
            | ok u =>
              rw [St.lift_ok rfl]
              cases minNumber p.1 with
              | error er => exact ⟨_, _, _, _, rfl⟩
              | ok u => exact ⟨_, _, _, _, rfl⟩
    obtain ⟨e, q, hp, d, hst⟩ := hstate
    rw [hst]
    obtain ⟨e', q', hp'⟩ := prepare_of hc.settled hk hw
      ((⟨setHeight y x, e, q, GF.tableOf env.db false, hp, d⟩ : State).at h)
      (by show setHeight h (setHeight y x) = _; rw [setHeight_setHeight]) _ _ hreq2
    rw [Except.error_bind] at hp'
    unfold simulate
    rw [St.bind_error hp']

/-! ## a concrete case -/

/-- a library: convection with a resistance of 0.01 per pipe, and a borehole resistance of pipes in parallel plus a grout
resistance inversely proportional to its conductivity -/
def exExt : Ext where
  hPipe _ r _ _ := 50 / (π * r)
  hAnnulus _ r r' _ _ := (50 / (π * r), 50 / (π * r'))
  rbStar c _ _ _ := c.Rfp / (2 * c.nPipes) + 1 / (10 * c.kg)
  rbStarCoax _ _ _ kg _ Rfp _ _ _ := Rfp + 1 / (10 * kg)

def exWater : Fluid := ⟨1 / 1000, 998, 3 / 5, 4182⟩

/-- a multiple U-tube with two U-tubes in parallel, in SI units -/
def exDouble (h : ℝ) : UTube where
  mBorehole := 2
  mPipe := 1
  fluid := exWater
  b := ⟨h, 2, 3 / 40⟩
  pipe := ⟨[(3 / 100, 0), (0, 3 / 100), (-3 / 100, 0), (0, -3 / 100)], 1 / 100, 13 / 1000, 4 / 100, 0,
    10 * log (13 / 10) / (2 * π), 1542000⟩
  grout := ⟨1, 3901000⟩
  soil := ⟨2, 1800000, 18⟩
  hf := 50 / (π * (1 / 100))
  Rp := 1 / 10
  Rf := 1 / 100
  circuit := ⟨[(3 / 100, 0), (0, 3 / 100), (-3 / 100, 0), (0, -3 / 100)], 1 / 100, 13 / 1000, 2, 1,
    11 / 100, 2, some "parallel"⟩

theorem exDouble_Rp : rConduction (1 / 100) (13 / 1000) (10 * log (13 / 10) / (2 * π)) = 1 / 10 := by
  have hpi := Real.pi_pos
  have hl : 0 < log (13 / 10 : ℝ) := log_pos (by norm_num)
  unfold rConduction
  rw [show (13 / 1000 : ℝ) / (1 / 100) = 13 / 10 by norm_num]
  generalize log (13 / 10 : ℝ) = l at *
  field_simp

theorem exConv (r : ℝ) (hr : 0 < r) : 1 / (50 / (π * r) * 2 * π * r) = 1 / 100 := by
  have hpi := Real.pi_pos
  field_simp
  norm_num

theorem exDouble_settled (h : ℝ) : Settled exExt (.multiple (exDouble h)) := by
  have e1 : (1 / (50 / (π * (1 / 100)) * 2 * π * (1 / 100)) : ℝ) = 1 / 100 := exConv (1 / 100) (by norm_num)
  unfold Settled
  show Exchanger.multiple (refresh exExt (exDouble h)) = _
  unfold refresh convRes exExt exDouble
  dsimp only
  rw [e1, exDouble_Rp]
  norm_num

theorem exDouble_sound (h : ℝ) : (exDouble h).Sound := by
  refine ⟨?_, ?_, ?_, ?_⟩
  · show (1 : ℤ) ≤ 2; norm_num
  · show (0 : ℝ) < 1 / 100; norm_num
  · show (1 / 100 : ℝ) < 13 / 1000; norm_num
  · show (0 : ℝ) < 3 / 40; norm_num

theorem exDouble_volumes (h : ℝ) : (uTubeVolumes (exDouble h)).Rpipe = 1 / 40 ∧ (uTubeVolumes (exDouble h)).Rconv = 1 / 8 := by
  have hpi := Real.pi_pos
  have hl : 0 < log (13 / 10 : ℝ) := log_pos (by norm_num)
  constructor
  · show log (13 / 1000 / (1 / 100)) / (((2 * 2 : ℤ) : ℝ) * 2 * π * (10 * log (13 / 10) / (2 * π))) = 1 / 40
    rw [show (13 / 1000 : ℝ) / (1 / 100) = 13 / 10 by norm_num]
    generalize log (13 / 10 : ℝ) = l at *
    push_cast
    field_simp
    norm_num
  · show 1 / (50 / (π * (1 / 100)) * (((2 * 2 : ℤ) : ℝ) * π * (1 / 100 * 2) ^ 2)) = 1 / 8
    push_cast
    field_simp
    norm_num

/-- The conversion succeeds, and C88 applies. -/
theorem exDouble_ok (h : ℝ) (hh : 0 < h) : ∃ s, computeEquivalent exExt exBrent (.multiple (exDouble h)) = .ok (s, .multiple (exDouble h)) ∧
    (radialTube exExt s).Sound ∧ charTime s = 100000 * h ^ 2 := by
  have hpi := Real.pi_pos
  obtain ⟨t0, ht0, e1, e2, -⟩ := initialTube_eq exExt
    ⟨(exDouble h).b, (exDouble h).pipe.eps, (exDouble h).pipe.rhoCp, (exDouble h).mBorehole, (exDouble h).fluid,
      (exDouble h).grout, (exDouble h).soil⟩ (uTubeVolumes (exDouble h))
  obtain ⟨v1, v2⟩ := (exDouble_volumes h)
  obtain ⟨p1, p2⟩ := uTubeVolumes_pos (exDouble h) (exDouble_sound h)
  obtain ⟨hk, hR⟩ := initial_Rp exExt _ _ p1 p2 (by rw [v1]; norm_num) t0 ht0
  have hin : 0 < t0.pipe.rIn := by rw [e1]; positivity
  have hc : convRes exExt t0 = 1 / 100 := exConv _ hin
  have hfin : rbOf exExt (exDouble h) = 51 / 400 := by
    show (11 / 100 : ℝ) / (2 * ((2 : ℤ) : ℝ)) + 1 / (10 * 1) = 51 / 400
    norm_num
  have hne : (t0.circuit.nPipes : ℝ) = 1 := by
    obtain ⟨t', ht', -, -, -, -, -, -, -, -, -, -, -, -, -, -, -, -, -, -, a, -⟩ := initialTube_eq exExt
      ⟨(exDouble h).b, (exDouble h).pipe.eps, (exDouble h).pipe.rhoCp, (exDouble h).mBorehole, (exDouble h).fluid,
        (exDouble h).grout, (exDouble h).soil⟩ (uTubeVolumes (exDouble h))
    rw [ht0] at ht'; cases ht'
    rw [a]; norm_num
  have hrb : ∀ k y, rbOf exExt (withKg exExt (withK exExt t0 k) y) =
      (1 / 100 + rConduction t0.pipe.rIn t0.pipe.rOut k) / 2 + 1 / (10 * y) := by
    intro k y
    show (convRes exExt t0 + rConduction t0.pipe.rIn t0.pipe.rOut k) / (2 * (t0.circuit.nPipes : ℝ)) + _ = _
    rw [hc, hne, mul_one]
    rfl
  have hkk : ∀ k, equivalentSingle exExt exBrent ⟨(exDouble h).b, (exDouble h).pipe.eps, (exDouble h).pipe.rhoCp,
      (exDouble h).mBorehole, (exDouble h).fluid, (exDouble h).grout, (exDouble h).soil⟩ (uTubeVolumes (exDouble h)) =
      .ok (withK exExt t0 k) → rConduction t0.pipe.rIn t0.pipe.rOut k = 10 / 1001 := by
    intro k hq
    obtain ⟨k₀, hk₀, hR₀, -, -, h1, -⟩ := C86_conductivity exExt exBrent _ _ p1 p2 (by rw [v1]; norm_num) _ hq
    have hRf : (withK exExt t0 k).Rf = 1 / 100 := hc
    obtain ⟨-, h2⟩ := h1 (by rw [hRf, v1, v2]; norm_num) (by rw [hRf, v1, v2]; norm_num)
    have h3 : k = (k₀ / 100 + k₀ * 10) / 2 := h2
    have h4 : rConduction t0.pipe.rIn t0.pipe.rOut k₀ = 2 * (uTubeVolumes (exDouble h)).Rpipe := hR₀
    rw [h3, show (k₀ / 100 + k₀ * 10) / 2 = k₀ * (1001 / 200) by ring, rConduction_scale, h4, v1]
    norm_num
  obtain ⟨s, hs⟩ := multiple_ok exExt exBrent exBrent_returns (exDouble h) t0 ht0
    (by rw [div_eq_mul_inv, rConduction_scale, hR, v1, v2, hc]; norm_num)
    (by rw [rConduction_scale, hR, v1, v2, hc]; norm_num)
    (fun k h => by rw [hfin, hrb, hrb, hkk k h]; norm_num)
  have hsq : (7 / 5 : ℝ) < √2 := by rw [lt_sqrt (by norm_num)]; norm_num
  have hsq2 : √2 < (3 / 2 : ℝ) := by rw [sqrt_lt' (by norm_num)]; norm_num
  have key := C88_multiple exExt exBrent exBrent_inside (exDouble h) s _ (exDouble_sound h) ?_ ?_ ?_ ?_ ?_ ?_ ?_ hs ?_
  · obtain ⟨k1, k2, k3⟩ := key
    refine ⟨s, hs, k1, ?_⟩
    obtain ⟨-, -, -, -, -, k4, -⟩ := C74_multiple exExt exBrent (exDouble h) s _ (exDouble_sound h) hs
    unfold charTime
    rw [k2, k3, k4]
    show h ^ 2 / (9 * (2 / 1800000)) = _
    ring
  · show (0 : ℝ) < 10 * log (13 / 10) / (2 * π)
    have hl : 0 < log (13 / 10 : ℝ) := log_pos (by norm_num)
    positivity
  · refine ⟨?_, ?_, ?_, ?_, ?_, ?_⟩ <;> norm_num [exDouble, exWater]
  · exact hh
  · intro r hr
    show 0 < 50 / (π * r)
    positivity
  · show 2 * (13 / 1000 - 1 / 100) < √2 * (13 / 1000)
    linarith
  · show (3 / 40 : ℝ) < 5; norm_num
  · show 6 / 5 * (4 * (√((2 : ℤ) : ℝ) * (13 / 1000)) - 3 / 40) < 5
    push_cast
    linarith
  · have hm := C87_multiple exExt exBrent (exDouble h) s _ hs
    have hb := C87_bounds _ _ _ _ hm (exBrent_bracketed _ _ (by norm_num))
    have : s.circuit.nPipes = 1 := by
      obtain ⟨-, hF, -⟩ := C74_multiple exExt exBrent (exDouble h) s _ (exDouble_sound h) hs
      exact hF.circuit.2.2.2.1
    show s.circuit.Rfp / 2 ≤ s.circuit.Rfp / (2 * (s.circuit.nPipes : ℝ)) + 1 / (10 * s.circuit.kg)
    rw [this, hm.same]
    have : 0 < 1 / (10 * s.grout.k) := by
      have := hb.1
      have : 0 < s.grout.k := by linarith
      positivity
    push_cast
    linarith

/-- every answer of the database is one of interpolation at some height -/
theorem answer_form {spl : String → List ℝ → List ℝ → ℝ → ℝ} {db : GF.DB ℝ} (hv : GF.Valid db)
    (hr : GF.Range db lo hi) {q : ℝ} (hq : q ≠ 0) {a : GF.Answer ℝ} {tb : GF.Table ℝ}
    (h : GF.request spl db q "default" {} = (.ok a, tb)) : ∃ y w, a = GF.answerAt spl db y w := by
  rw [GF.request_eq hv hr hq, if_pos (show (({} : GF.Table ℝ).g.isNone) = true from rfl)] at h
  generalize GF.extFlag lo hi (db.B / q) = e at h
  generalize GF.snap lo hi (db.B / q) = y at h
  obtain ⟨h, -⟩ := Prod.mk.inj h
  by_cases hin : e = true ∨ lo ≤ y ∧ y ≤ hi
  · rw [GF.readTable_ok hr hin] at h
    cases h
    exact ⟨_, _, rfl⟩
  · push Not at hin
    obtain ⟨h1, h2⟩ := hin
    rw [Bool.eq_false_of_not_eq_true h1, GF.readTable_error hr (by
      rcases lt_or_ge y lo with hl | hl
      · exact Or.inl hl
      · exact Or.inr (h2 hl))] at h
    cases h

def exDB : GF.DB ℝ where
  B := 5
  rb := [(50, 3 / 40), (200, 3 / 40)]
  D := [(50, 2), (200, 2)]
  g := [(50, [1, 2, 3]), (200, [3, 4, 7])]
  logTime := [log (1 / 1000000), 0, log 10]
  locations := [(0, 0), (0, 5), (5, 5)]

theorem exDB_valid : GF.Valid exDB where
  two := by decide
  nodup := by norm_num [exDB, PyDict.keys]
  len := by simp [exDB]
  rb := rfl
  D := rfl

theorem exDB_range : GF.Range exDB 50 200 where
  lo_mem := by norm_num [exDB, PyDict.keys]
  hi_mem := by norm_num [exDB, PyDict.keys]
  bounds := by norm_num [exDB, PyDict.keys]

/-- linear interpolation between two nodes -/
def exSpl (_ : String) (x y : List ℝ) (h : ℝ) : ℝ :=
  match x, y with
  | [a, b], [u, v] => u + (v - u) / (b - a) * (h - a)
  | _, _ => 0

/-- two months of load after the two leading entries; the second ends at hour `T` -/
def exEnv (T : ℝ) : Env where
  ext := exExt
  brent := exBrent
  solve := exSolver
  fuel := 10 ^ 9
  spl := exSpl
  db := exDB
  bSpacing := 5
  rejection := ⟨[], [], [], [], [], [], [], [], [], []⟩
  extraction := ⟨[], [], [], [], [], [], [], [], [], []⟩
  load := [0, 0, 12, -7]
  hour := [0, 0, 744, T]
  hourly := List.replicate 8760 1
  startMonth := 1
  endMonth := 12
  maxEFT := 35
  minEFT := 5
  minHeight := 60
  maxHeight := 150

theorem exWithin (T h : ℝ) (h1 : 50 ≤ h) (h2 : h ≤ 200) : Within (exEnv T) 50 200 h := by
  have e : (exEnv T).db.B / ((exEnv T).bSpacing / h) = h := by
    show (5 : ℝ) / (5 / h) = h
    field_simp
  refine ⟨by linarith, by show (5 : ℝ) ≠ 0; norm_num, ?_, ?_⟩ <;> rw [e] <;> linarith

theorem exWorks (T h : ℝ) (h1 : 0 < h) (h2 : h ≤ 1000) :
    ∃ s, Works (exEnv T) (.multiple (exDouble 100)) h s ∧ charTime s = 100000 * h ^ 2 := by
  obtain ⟨s, hs, hsound, hct⟩ := exDouble_ok h h1
  refine ⟨s, ⟨h1.ne', hs, hsound, exSolver_exact.sized, ?_⟩, hct⟩
  rw [hct]
  have e0 : exp (-(86 / 10)) ≤ 1 := exp_le_one_iff.2 (by norm_num)
  have e1 : 100000 * h ^ 2 * exp (-(86 / 10)) ≤ 10 ^ 11 := by
    have : h ^ 2 ≤ 1000 ^ 2 := pow_le_pow_left₀ h1.le h2 2
    have := exp_pos (-(86 / 10 : ℝ))
    nlinarith [sq_nonneg h]
  have e2 : max (100000 * h ^ 2 * exp (-(86 / 10))) (49 * 3600) ≤ 10 ^ 11 := max_le e1 (by norm_num)
  show _ ≤ ((10 ^ 9 : ℕ) : ℝ)
  push_cast
  linarith

theorem exRadius (T q : ℝ) (hq : q ≠ 0) (a : GF.Answer ℝ) (tb : GF.Table ℝ)
    (h : GF.request (exEnv T).spl (exEnv T).db q "default" {} = (.ok a, tb)) : a.rb ≠ 0 := by
  obtain ⟨y, w, rfl⟩ := answer_form exDB_valid exDB_range hq h
  show (3 / 40 : ℝ) + (3 / 40 - 3 / 40) / (200 - 50) * (y - 50) ≠ 0
  norm_num

theorem exReady (T h : ℝ) (h1 : 50 ≤ h) (h2 : h ≤ 200) :
    ∃ s, Ready (exEnv T) 50 200 (.multiple (exDouble 100)) h s ∧ charTime s = 100000 * h ^ 2 := by
  obtain ⟨s, hs, hct⟩ := exWorks T h (by linarith) (by linarith)
  refine ⟨s, ⟨hs, exWithin T h h1 h2, fun a tb => exRadius T _ ?_ a tb⟩, hct⟩
  show (5 : ℝ) / h ≠ 0
  positivity

/-- the times of the database fit for a tube whose characteristic time is not one millionth of a sample time -/
theorem exTimes (T : ℝ) (s : UTube) (c : ℝ) (k : ℕ) (hc : charTime s = 1000000 * c) (h1 : 120 * k + 1 / 10 ^ 12 < c)
    (h2 : c ≤ 120 * (k + 1)) : Times (exEnv T) s (log (1 / 1000000)) (log 10) := by
  have hl : log (1 / 1000000 : ℝ) < 0 := log_neg (by norm_num) (by norm_num)
  have hl2 : 0 < log (10 : ℝ) := log_pos (by norm_num)
  have e : charTime s * exp (log (1 / 1000000)) = c := by
    rw [exp_log (by norm_num), hc]; ring
  have hk : (0 : ℝ) ≤ k := by positivity
  refine ⟨?_, rfl, rfl, ?_, ?_⟩
  · show List.Pairwise (· < ·) [log (1 / 1000000 : ℝ), 0, log 10]
    refine List.Pairwise.cons ?_ (List.Pairwise.cons ?_ (List.pairwise_singleton _ _))
    · intro y hy
      rcases List.mem_cons.1 hy with rfl | hy
      · exact hl
      · rw [List.mem_singleton] at hy; rw [hy]; exact hl.trans hl2
    · intro y hy
      rw [List.mem_singleton] at hy; rw [hy]; exact hl2
  · rw [e]; linarith
  · intro j hj
    rw [e] at hj
    rcases Nat.lt_or_ge k j with hlt | hge
    · have : (k : ℝ) + 1 ≤ j := by exact_mod_cast hlt
      have : (0 : ℝ) < 1 / 10 ^ 12 := by positivity
      linarith
    · have : (j : ℝ) ≤ k := by exact_mod_cast hge
      linarith

theorem exCovered (T : ℝ) : ∃ s0, Covered (exEnv T) 50 200 (.multiple (exDouble 100)) s0 := by
  obtain ⟨s, hs, -⟩ := exWorks T 100 (by norm_num) (by norm_num)
  obtain ⟨N, r, ys, -, -, -, hsts⟩ := calcSts_ok hs
  refine ⟨⟨.multiple (exDouble 100), s, (r, (List.range N).map (fun j => log (sampleTime j / charTime s)), ys), {}, [],
    []⟩, ⟨?_, exDouble_settled 100, exDB_valid, exDB_range, exWithin T 100 (by norm_num) (by norm_num), ?_,
    fun h h1 h2 => exWithin T h ?_ ?_, exBrent_inside _ _ ?_⟩⟩
  · unfold construct
    rw [show computeEquivalent (exEnv T).ext (exEnv T).brent (.multiple (exDouble 100)) =
      .ok (s, .multiple (exDouble 100)) from hs.converts, Except.ok_bind]
    dsimp only
    rw [hsts]
    rfl
  · show (60 : ℝ) ≤ 150; norm_num
  · have : (60 : ℝ) ≤ h := h1
    linarith
  · have : h ≤ (150 : ℝ) := h2
    linarith
  · show (60 : ℝ) ≤ 150; norm_num

/-- C89 and C90 apply: after sizing and a simulation at another height, two months of load are simulated. -/
example : ∃ s0 r s', construct (exEnv 1416) (.multiple (exDouble 100)) = .ok s0 ∧
    simulate (exEnv 1416) "hybrid"
      (([Op.size "hybrid", .height 80, .simulate "hybrid"].foldl (perform (exEnv 1416)) s0).at 100) = (.ok r, s') ∧
    s'.HPEFT.length = 2 := by
  obtain ⟨s0, hc⟩ := exCovered 1416
  obtain ⟨s, hR, hct⟩ := exReady 1416 100 (by norm_num) (by norm_num)
  have hT := exTimes 1416 s 1000 8 (by rw [hct]; norm_num) (by norm_num) (by norm_num)
  obtain ⟨r, s', h1, h2⟩ := (C90_hybrid hc [Op.size "hybrid", .height 80, .simulate "hybrid"] (by
      intro y hy
      have : y = 80 := by simpa using hy
      subst this
      exact exWithin 1416 80 (by norm_num) (by norm_num)) 100 s hR _ _ hT rfl (by show 2 < 4; norm_num)).1
    (by
      show List.Pairwise _ [(0 : ℝ), 744, 1416]
      norm_num) (by
      rw [hct, exp_log (by norm_num)]
      show ∀ u ∈ [(744 : ℝ), 1416], _
      norm_num)
  exact ⟨s0, r, s', hc.made, h1, h2.1⟩

/-- C90: with times going back from hour 744 to hour 500 the simulation also returns. -/
example : ∃ s0 r s', construct (exEnv 500) (.multiple (exDouble 100)) = .ok s0 ∧
    simulate (exEnv 500) "hybrid" (s0.at 100) = (.ok r, s') ∧ s'.HPEFT.length = 2 := by
  obtain ⟨s0, hc⟩ := exCovered 500
  obtain ⟨s, hR, hct⟩ := exReady 500 100 (by norm_num) (by norm_num)
  have hT := exTimes 500 s 1000 8 (by rw [hct]; norm_num) (by norm_num) (by norm_num)
  obtain ⟨r, s', h1, h2⟩ := (C90_hybrid hc [] (by simp) 100 s hR _ _ hT rfl (by show 2 < 4; norm_num)).2.1
    (by
      show List.Pairwise _ [(0 : ℝ), 744, 500]
      rw [hct, exp_log (by norm_num)]
      norm_num) (by
      rintro u hu
      have : (some 744 : Option ℝ) = some u := hu
      cases this
      norm_num)
  exact ⟨s0, r, s', hc.made, h1, h2⟩

/-- C90: a year of hourly loads. -/
example : ∃ s0 r s', construct (exEnv 1416) (.multiple (exDouble 100)) = .ok s0 ∧
    simulate (exEnv 1416) "hourly" (s0.at 100) = (.ok r, s') ∧ (s'.HPEFT.length : ℤ) = 8760 := by
  obtain ⟨s0, hc⟩ := exCovered 1416
  obtain ⟨s, hR, hct⟩ := exReady 1416 100 (by norm_num) (by norm_num)
  have hT := exTimes 1416 s 1000 8 (by rw [hct]; norm_num) (by norm_num) (by norm_num)
  obtain ⟨r, s', h1, h2⟩ := C90_hourly hc [] (by simp) 100 s hR _ _ hT 1 le_rfl rfl List.length_replicate
    (by rw [hct, exp_log (by norm_num)]; norm_num)
  exact ⟨s0, r, s', hc.made, h1, by rw [h2]; norm_num⟩

/-- C91: a period of two million hours is within the g-function at 100 m, where it is simulated, but sizing, whose minimum is
60 m, raises. -/
example : ∃ s0 r s', construct (exEnv 2000000) (.multiple (exDouble 100)) = .ok s0 ∧
    simulate (exEnv 2000000) "hybrid" (s0.at 100) = (.ok r, s') ∧
    (size (exEnv 2000000) "hybrid" s0).1 = .error .valueError := by
  obtain ⟨s0, hc⟩ := exCovered 2000000
  obtain ⟨s, hR, hct⟩ := exReady 2000000 100 (by norm_num) (by norm_num)
  obtain ⟨s1, hR1, hct1⟩ := exReady 2000000 60 (by norm_num) (by norm_num)
  have hT := exTimes 2000000 s 1000 8 (by rw [hct]; norm_num) (by norm_num) (by norm_num)
  have hT1 := exTimes 2000000 s1 360 2 (by rw [hct1]; norm_num) (by norm_num) (by norm_num)
  obtain ⟨r, s', h1, h2⟩ := (C90_hybrid hc [] (by simp) 100 s hR _ _ hT rfl (by show 2 < 4; norm_num)).1
    (by
      show List.Pairwise _ [(0 : ℝ), 744, 2000000]
      norm_num) (by
      rw [hct, exp_log (by norm_num)]
      show ∀ u ∈ [(744 : ℝ), 2000000], _
      norm_num)
  refine ⟨s0, r, s', hc.made, h1, C91_too_long hc [] (by simp) s1 hR1 _ _ hT1 rfl (by show 2 < 4; norm_num)
    ⟨2000000, by show _ ∈ [(744 : ℝ), 2000000]; simp, by norm_num, ?_⟩⟩
  rw [hct1, exp_log (by norm_num)]
  norm_num

/-- C91: at 250 m, beyond the 200 m of the database. -/
example : ∃ s0, construct (exEnv 1416) (.multiple (exDouble 100)) = .ok s0 ∧
    (∃ r, (simulate (exEnv 1416) "hybrid" (s0.at 250)).1 = .ok r) ∧
    (simulate (exEnv 1416) "hybrid" ((simulate (exEnv 1416) "hybrid" (s0.at 100)).2.at 250)).1 =
      .error .valueError := by
  obtain ⟨s0, hc⟩ := exCovered 1416
  obtain ⟨s, hR, hct⟩ := exReady 1416 100 (by norm_num) (by norm_num)
  obtain ⟨s1, hW, hct1⟩ := exWorks 1416 250 (by norm_num) (by norm_num)
  have hT1 := exTimes 1416 s1 6250 52 (by rw [hct1]; norm_num) (by norm_num) (by norm_num)
  refine ⟨s0, hc.made, C91_beyond hc 100 (exWithin 1416 100 (by norm_num) (by norm_num)) s hR 250 s1 hW
    ?_ (by norm_num) (fun a tb => exRadius 1416 _ ?_ a tb) _ _ hT1 rfl (by show 2 < 4; norm_num) ?_ ?_ "hybrid"⟩
  · show 200 + 1 / 1000000 ≤ (5 : ℝ) / (5 / 250)
    norm_num
  · show (5 : ℝ) / 250 ≠ 0
    norm_num
  · show List.Pairwise _ [(0 : ℝ), 744, 1416]
    norm_num
  · rw [hct1, exp_log (by norm_num)]
    show ∀ u ∈ [(744 : ℝ), 1416], _
    norm_num

end

end Ghedt.Whole
