import Verif.Spec.TubeScripts
import Verif.Props.Texts
import Verif.Props.WholeGhe
import Verif.Props.Pipes

/-!
# The scripts about single exchangers (C149, C150)
-/

set_option linter.unusedSectionVars false

namespace Ghedt.TubeScript
open Real Ghedt.GHE Ghedt.Bhe Ghedt.Report Ghedt.Plots

noncomputable section

variable {Image : Type}

theorem say_apply (l : String) (s : Screen Image) : say l s = (.ok (), { s with lines := s.lines ++ [l] }) := rfl

theorem say_bind {β : Type} (l : String) (f : Unit → St (Screen Image) β) (s : Screen Image) :
    (say l >>= f) s = f () { s with lines := s.lines ++ [l] } := rfl

theorem savefig_apply (file : String) (i : Image) (s : Screen Image) :
    savefig file i s = (.ok (), { s with pictures := Function.update s.pictures file (some i) }) := rfl

theorem savefig_bind {β : Type} (file : String) (i : Image) (f : Unit → St (Screen Image) β) (s : Screen Image) :
    (savefig file i >>= f) s = f () { s with pictures := Function.update s.pictures file (some i) } := rfl

theorem title_equivalent : "\n" ++ "Single U-tube equivalent parameters" ++ "\n" ++
      dashes "Single U-tube equivalent parameters" =
    "\nSingle U-tube equivalent parameters\n-----------------------------------" := by decide +kernel

theorem title_intermediate : "Intermediate variables" ++ "\n" ++ dashes "Intermediate variables" =
    "Intermediate variables\n----------------------" := by decide +kernel

theorem dashes_intermediate : dashes "Intermediate variables" = "----------------------" := by decide +kernel

variable (w : World Image)

/-- the picture, if it can be drawn -/
def drawn (file : String) (r : Py Image) (s : Screen Image) : Py Unit × Screen Image :=
  match r with
  | .ok fig => (.ok (), { s with pictures := Function.update s.pictures file (some fig) })
  | .error e => (.error e, s)

theorem draw_bind (file : String) (r : Py Image) (s : Screen Image) :
    (St.lift r >>= fun fig => savefig file fig) s = drawn file r s := by
  cases r <;> rfl

theorem showVolumes_apply {β : Type} (v : Volumes) (f : Unit → St (Screen Image) β) (s : Screen Image) :
    (showVolumes w v >>= f) s =
      f () { s with lines := s.lines ++ volumeLines w.fixed8 v.fluid v.pipe v.Rconv v.Rpipe } := by
  show f () { s with lines := (((s.lines ++ [_]) ++ [_]) ++ [_]) ++ [_] } = _
  simp only [List.append_assoc, List.singleton_append]
  rfl

theorem convert_error (file : String) (x : Exchanger) (e : PyErr) (h : computeEquivalent w.ext w.brent x = .error e)
    (s : Screen Image) : convertAndShow w file x s = (.error e, s) := by
  unfold convertAndShow
  rw [St.lift_error h]

theorem convert_ok (file : String) (x y : Exchanger) (s : UTube) (h : computeEquivalent w.ext w.brent x = .ok (s, y))
    (hrho : s.fluid.rho ≠ 0) (text : String) (ht : singleText w.fm w.ext w.kd s = .ok text) (st : Screen Image) :
    convertAndShow w file x st = drawn file (w.draw s)
      { st with
        lines := st.lines ++
          tubeLines w.fixed8 (s.mPipe * 1000 / s.fluid.rho) s.circuit.rIn s.circuit.rOut s.pipe.s s.hf s.pipe.k s.grout.k
            (rbOf w.ext s) ++ [text] } := by
  unfold convertAndShow
  rw [St.lift_ok h]
  dsimp only
  rw [say_bind, St.lift_ok (pyDiv_ok hrho)]
  simp only [say_bind]
  rw [computeEffective_none]
  dsimp only
  rw [St.lift_ok rfl, say_bind, St.lift_ok ht, say_bind, draw_bind]
  unfold tubeLines
  rw [title_equivalent]
  simp only [List.append_assoc, List.singleton_append, List.cons_append, List.nil_append]

/-! ## C149 — converting an exchanger and printing the result -/

theorem givenDouble_eq (g : Given) (V : ℝ) (config : String) (hc : config = "series" ∨ config = "parallel") :
    ∃ pos, placePipes g.s g.rOut 2 = .ok pos ∧ pos.length = 4 ∧
      givenDouble w g V config = .ok
        { mBorehole := V / 1000 * g.fluid.rho
          mPipe := if config = "series" then V / 1000 * g.fluid.rho else V / 1000 * g.fluid.rho / 2
          fluid := g.fluid, b := g.b, pipe := ⟨pos, g.rIn, g.rOut, g.s, g.eps, g.k, g.rhoCp⟩
          grout := g.grout, soil := g.soil
          hf := w.ext.hPipe (if config = "series" then V / 1000 * g.fluid.rho else V / 1000 * g.fluid.rho / 2)
            g.rIn g.fluid g.eps
          Rp := rConduction g.rIn g.rOut g.k
          Rf := 1 / (w.ext.hPipe (if config = "series" then V / 1000 * g.fluid.rho else V / 1000 * g.fluid.rho / 2)
            g.rIn g.fluid g.eps * 2 * π * g.rIn)
          circuit := ⟨pos, g.rIn, g.rOut, g.soil.k, g.grout.k,
            1 / (w.ext.hPipe (if config = "series" then V / 1000 * g.fluid.rho else V / 1000 * g.fluid.rho / 2)
              g.rIn g.fluid g.eps * 2 * π * g.rIn) + rConduction g.rIn g.rOut g.k, 2, some config⟩ } := by
  obtain ⟨pos, hpos, hlen, -⟩ := C75_circle g.s g.rOut 2 (by norm_num)
  refine ⟨pos, hpos, hlen, ?_⟩
  have hpos' : placePipes g.s g.rOut 2 = .ok pos := hpos
  unfold givenDouble givenPipe
  rw [hpos']
  simp only [Except.ok_bind]
  show mkUTube _ _ _ _ _ _ _ ((pos.length / 2 : ℕ) : ℤ) _ = _
  rw [hlen]
  unfold mkUTube massFlowRatePipe massFlow
  rcases hc with rfl | rfl <;> simp [Except.ok_bind]

theorem givenSingle_eq (g : Given) (V : ℝ) :
    ∃ pos, placePipes g.s g.rOut 1 = .ok pos ∧ pos.length = 2 ∧
      givenSingle w g V = .ok
        { mBorehole := V / 1000 * g.fluid.rho, mPipe := V / 1000 * g.fluid.rho
          fluid := g.fluid, b := g.b, pipe := ⟨pos, g.rIn, g.rOut, g.s, g.eps, g.k, g.rhoCp⟩
          grout := g.grout, soil := g.soil
          hf := w.ext.hPipe (V / 1000 * g.fluid.rho) g.rIn g.fluid g.eps
          Rp := rConduction g.rIn g.rOut g.k
          Rf := 1 / (w.ext.hPipe (V / 1000 * g.fluid.rho) g.rIn g.fluid g.eps * 2 * π * g.rIn)
          circuit := ⟨pos, g.rIn, g.rOut, g.soil.k, g.grout.k,
            1 / (w.ext.hPipe (V / 1000 * g.fluid.rho) g.rIn g.fluid g.eps * 2 * π * g.rIn) +
              rConduction g.rIn g.rOut g.k, 1, none⟩ } := by
  obtain ⟨pos, hpos, hlen, -⟩ := C75_circle g.s g.rOut 1 (by norm_num)
  refine ⟨pos, hpos, hlen, ?_⟩
  have hpos' : placePipes g.s g.rOut 1 = .ok pos := hpos
  unfold givenSingle givenPipe
  rw [hpos']
  simp only [Except.ok_bind]
  show mkUTube _ _ _ _ _ _ _ 1 none = _
  unfold mkUTube massFlowRatePipe massFlow
  simp [Except.ok_bind]

/-- the pipe conductivity found, from the volumes -/
theorem conductivity_bounds (hfind : ∀ lo hi, lo ≤ hi → Inside lo hi (w.brent lo hi)) (c : Common) (v : Volumes)
    (v1 : 0 < v.fluid) (v2 : 0 < v.pipe) (v3 : 0 < v.Rpipe) (t0 : UTube) (k kg : ℝ)
    (h1 : equivalentSingle w.ext w.brent c v = .ok (withK w.ext t0 k)) (s : UTube)
    (hs : s = withKg w.ext (withK w.ext t0 k) kg) (k₀ : ℝ) (hin : 0 < s.pipe.rIn) (hout : s.pipe.rIn < s.pipe.rOut)
    (hk₀ : k₀ = log (s.pipe.rOut / s.pipe.rIn) / (4 * π * v.Rpipe)) :
    k₀ / 100 ≤ s.pipe.k ∧ s.pipe.k ≤ 10 * k₀ := by
  obtain ⟨k', hk', e, b1, b2⟩ := C86_bounds w.ext w.brent hfind c v v1 v2 v3 _ h1
  have hl : 0 < log (s.pipe.rOut / s.pipe.rIn) := log_pos (by rw [one_lt_div hin]; exact hout)
  have e' : log (s.pipe.rOut / s.pipe.rIn) / (2 * π * k') = 2 * v.Rpipe := by
    rw [hs]; exact e
  have hpi := pi_pos
  have : k₀ = k' := by
    rw [hk₀]
    rw [div_eq_iff (by positivity)] at e' ⊢
    rw [e']; ring
  rw [this]
  have : s.pipe.k = (withK w.ext t0 k).pipe.k := by rw [hs]; rfl
  rw [this]
  exact ⟨b1, b2⟩

theorem convection_of (c : Common) (v : Volumes) (t0 s : UTube) (k kg : ℝ) (h0 : initialTube w.ext c v = .ok t0)
    (hs : s = withKg w.ext (withK w.ext t0 k) kg) : s.hf = w.ext.hPipe c.m s.pipe.rIn c.fluid c.eps := by
  obtain ⟨t', ht', -, -, -, -, -, -, a1, a2, a3, a4, a5, a6, a7, -, -, -, a8, -⟩ := initialTube_eq w.ext c v
  rw [h0] at ht'; cases ht'
  rw [hs]
  show w.ext.hPipe t0.mPipe t0.pipe.rIn t0.fluid t0.pipe.eps = w.ext.hPipe c.m t0.pipe.rIn c.fluid c.eps
  rw [a4, a5, a1]

theorem drawn_ok (file : String) (r : Py Image) (s : Screen Image) :
    (∀ fig, r = .ok fig → drawn file r s = (.ok (), { s with pictures := Function.update s.pictures file (some fig) })) ∧
    (∀ e, r = .error e → drawn file r s = (.error e, s)) := by
  constructor <;> · rintro _ rfl; rfl

/-- C149: `double_to_single_u_tube.py` for any dimensions, materials, fluid and flow.  The four numbers printed first are the
cross-sections of the fluid and of the walls of the four legs, and the two resistances the conversion starts from.  If the
conversion fails nothing more is printed and no picture is written.  Otherwise the flow printed is the one the script began
with, the radii are √2 times those of the pipe, the gap between the legs is positive and they fit into the borehole if two legs
of that radius do, the convection coefficient is that of the whole flow in the new pipe; conductivities and borehole resistance
are those of the equivalent tube, with the bounds of C86 and C87 and the tolerance of the root finder; then the report of the
tube is printed and its picture written. -/
theorem C149_double (g : Given) (V : ℝ) (hg : g.Sound) (hk : 0 < g.k) (start : Screen Image) :
    ∃ t, givenDouble w g V "parallel" = .ok t ∧
    ∃ first, first = start.lines ++ ["Intermediate variables\n----------------------"] ++
        volumeLines w.fixed8 (4 * (π * g.rIn ^ 2)) (4 * (π * g.rOut ^ 2 - π * g.rIn ^ 2))
          (1 / (w.ext.hPipe (V / 1000 * g.fluid.rho / 2) g.rIn g.fluid g.eps * (4 * π * (2 * g.rIn) ^ 2)))
          (log (g.rOut / g.rIn) / (2 * π * g.k) / 4) ∧
    (∀ e, computeEquivalent w.ext w.brent (.multiple t) = .error e →
      doubleToSingle w g V start = (.error e, ⟨first, start.pictures⟩)) ∧
    (∀ s x, computeEquivalent w.ext w.brent (.multiple t) = .ok (s, x) →
      ∃ Rb text all, all = first ++ tubeLines w.fixed8 V (√2 * g.rIn) (√2 * g.rOut) s.pipe.s
          (w.ext.hPipe (V / 1000 * g.fluid.rho) (√2 * g.rIn) g.fluid g.eps) s.pipe.k s.grout.k Rb ++ [text] ∧
        (∀ fig, w.draw s = .ok fig → doubleToSingle w g V start =
          (.ok (), ⟨all, Function.update start.pictures "double_to_single_equivalent.png" (some fig)⟩)) ∧
        (∀ e, w.draw s = .error e → doubleToSingle w g V start = (.error e, ⟨all, start.pictures⟩)) ∧
        singleText w.fm w.ext w.kd s = .ok text ∧
        0 < s.pipe.s ∧ (2 * (√2 * g.rOut) < g.b.rb → s.pipe.s + 4 * (√2 * g.rOut) < 2 * g.b.rb) ∧
        ((∀ lo hi, lo ≤ hi → Inside lo hi (w.brent lo hi)) → 2 * g.k / 100 ≤ s.pipe.k ∧ s.pipe.k ≤ 10 * (2 * g.k)) ∧
        (Bracketed (1 / 100) 7 (w.brent (1 / 100) 7) → 1 / 100 ≤ s.grout.k ∧ s.grout.k ≤ 7) ∧
        Rb = w.ext.rbStar s.circuit s.b s.mBorehole s.fluid.cp ∧
        ∀ R tol, R = w.ext.rbStar t.circuit t.b t.mBorehole t.fluid.cp →
          (∀ k, outcome (fun k => R - rbOf w.ext (regrout s k)) (w.brent (1 / 100) 7) = .ok k →
            |R - rbOf w.ext (regrout s k)| ≤ tol) →
          (R - rbOf w.ext (regrout s (1 / 100))) * (R - rbOf w.ext (regrout s 7)) < 0 → |R - Rb| ≤ tol) := by
  have hpi := pi_pos
  obtain ⟨pos, hpos, hlen, ht⟩ := givenDouble_eq w g V "parallel" (Or.inr rfl)
  have hne : ¬ ("parallel" = "series") := by decide
  simp only [hne, if_false] at ht
  refine ⟨_, ht, _, rfl, ?_⟩
  generalize htt : (UTube.mk _ _ _ _ _ _ _ _ _ _ _ : UTube) = t at ht ⊢
  have hsound : t.Sound := by
    subst htt
    exact ⟨by norm_num, hg.rIn, hg.rOut, hg.rb⟩
  have hrun : doubleToSingle w g V start = convertAndShow w "double_to_single_equivalent.png" (.multiple t)
      { start with
        lines := start.lines ++ ["Intermediate variables\n----------------------"] ++
          volumeLines w.fixed8 (4 * (π * g.rIn ^ 2)) (4 * (π * g.rOut ^ 2 - π * g.rIn ^ 2))
            (1 / (w.ext.hPipe (V / 1000 * g.fluid.rho / 2) g.rIn g.fluid g.eps * (4 * π * (2 * g.rIn) ^ 2)))
            (log (g.rOut / g.rIn) / (2 * π * g.k) / 4) } := by
    unfold doubleToSingle
    rw [St.lift_ok ht, say_bind, showVolumes_apply, title_intermediate]
    have e1 : (uTubeVolumes t).fluid = 4 * (π * g.rIn ^ 2) := by
      subst htt; unfold uTubeVolumes; dsimp only; push_cast; ring
    have e2 : (uTubeVolumes t).pipe = 4 * (π * g.rOut ^ 2 - π * g.rIn ^ 2) := by
      subst htt; unfold uTubeVolumes; dsimp only; push_cast; ring
    have e3 : (uTubeVolumes t).Rconv =
        1 / (w.ext.hPipe (V / 1000 * g.fluid.rho / 2) g.rIn g.fluid g.eps * (4 * π * (2 * g.rIn) ^ 2)) := by
      subst htt; unfold uTubeVolumes; dsimp only; push_cast; congr 1; ring
    have e4 : (uTubeVolumes t).Rpipe = log (g.rOut / g.rIn) / (2 * π * g.k) / 4 := by
      subst htt; unfold uTubeVolumes; dsimp only; push_cast
      rw [div_div]; congr 1; ring
    rw [e1, e2, e3, e4]
  refine ⟨fun e he => ?_, fun s x hs => ?_⟩
  · rw [hrun, convert_error w _ _ e he]
  obtain ⟨-, hF, f1, f2, f3, f4, f5, -⟩ := C74_multiple w.ext w.brent t s x hsound hs
  have hM := C87_multiple w.ext w.brent t s x hs
  obtain ⟨-, t0, k, kg, h0, h1, -, hform⟩ := multiple_form w.ext w.brent t s x hs
  obtain ⟨v1, v2⟩ := uTubeVolumes_pos t hsound
  have hr1 := hg.rIn
  have hr2 := hg.rIn.trans hg.rOut
  have w2 : √2 ^ 2 = (2 : ℝ) := sq_sqrt (by norm_num)
  have hw : 0 < √(2 : ℝ) := sqrt_pos.2 (by norm_num)
  have w1 : 1 < √(2 : ℝ) := lt_sqrt_of_sq_lt (by norm_num)
  have t1 : t.circuit.nPipes = 2 := by subst htt; rfl
  have t2 : t.circuit.rIn = g.rIn := by subst htt; rfl
  have t3 : t.circuit.rOut = g.rOut := by subst htt; rfl
  have t4 : t.mBorehole = V / 1000 * g.fluid.rho := by subst htt; rfl
  have t5 : t.fluid = g.fluid := by subst htt; rfl
  have t6 : t.pipe.eps = g.eps := by subst htt; rfl
  have t7 : t.b = g.b := by subst htt; rfl
  have t8 : t.pipe.k = g.k := by subst htt; rfl
  have q1 : s.pipe.rIn = √2 * g.rIn := by
    have := hF.fluidArea
    rw [t1, t2] at this
    push_cast at this
    have h3 := mul_left_cancel₀ (mul_pos two_pos hpi).ne'
      (show (2 * π) * s.pipe.rIn ^ 2 = (2 * π) * (2 * g.rIn ^ 2) by linarith)
    rw [← sq_eq_sq₀ hF.rIn.le (by positivity), mul_pow, w2, h3]
  have q2 : s.pipe.rOut = √2 * g.rOut := by
    have h5 := hF.wallArea
    have := hF.fluidArea
    rw [t1, t2] at this
    rw [t1, t2, t3] at h5
    push_cast at this h5
    have h3 := mul_left_cancel₀ (mul_pos two_pos hpi).ne'
      (show (2 * π) * s.pipe.rOut ^ 2 = (2 * π) * (2 * g.rOut ^ 2) by linarith)
    rw [← sq_eq_sq₀ (hF.rIn.trans hF.rOut).le (by positivity), mul_pow, w2, h3]
  have q3 : s.hf = w.ext.hPipe (V / 1000 * g.fluid.rho) (√2 * g.rIn) g.fluid g.eps := by
    rw [convection_of w _ _ _ _ _ _ h0 hform, q1, t4, t5, t6]
  have q4 : s.mPipe * 1000 / s.fluid.rho = V := by
    rw [f2, f3, t4, t5]
    have := hg.rho
    field_simp
  have v3 : 0 < (uTubeVolumes t).Rpipe := by
    have hl : 0 < log (g.rOut / g.rIn) := log_pos (by rw [one_lt_div hr1]; exact hg.rOut)
    unfold uTubeVolumes
    dsimp only
    rw [t1, t2, t3, t8]
    push_cast
    positivity
  obtain ⟨-, c1, c2, -⟩ := hF.circuit
  obtain ⟨text, htext⟩ : ∃ text, singleText w.fm w.ext w.kd s = .ok text := by
    refine ⟨_, single_page (reynolds_ok ?_ ?_ ?_)⟩
    · rw [f3, t5]; exact hg.mu.ne'
    · rw [f3, t5]; exact hg.rho.ne'
    · rw [f5, t6, q1]
      intro h
      have h6 := hg.eps
      have h7 := hg.smooth
      have := (sq_eq_sq₀ h6 (by positivity)).1 h
      nlinarith
  have hconv := convert_ok w "double_to_single_equivalent.png" (.multiple t) x s hs (by rw [f3, t5]; exact hg.rho.ne') text htext
  obtain ⟨d1, d2⟩ := drawn_ok "double_to_single_equivalent.png" (w.draw s)
    { start with
      lines := (start.lines ++ ["Intermediate variables\n----------------------"] ++
        volumeLines w.fixed8 (4 * (π * g.rIn ^ 2)) (4 * (π * g.rOut ^ 2 - π * g.rIn ^ 2))
          (1 / (w.ext.hPipe (V / 1000 * g.fluid.rho / 2) g.rIn g.fluid g.eps * (4 * π * (2 * g.rIn) ^ 2)))
          (log (g.rOut / g.rIn) / (2 * π * g.k) / 4)) ++
        tubeLines w.fixed8 V (√2 * g.rIn) (√2 * g.rOut) s.pipe.s
          (w.ext.hPipe (V / 1000 * g.fluid.rho) (√2 * g.rIn) g.fluid g.eps) s.pipe.k s.grout.k (rbOf w.ext s) ++ [text] }
  have hall := hrun.trans (hconv _)
  rw [q4, c1, c2, q1, q2, q3] at hall
  obtain ⟨d, -, l1, l2, l3⟩ := hF.legs
  refine ⟨_, text, _, rfl, fun fig hfig => hall.trans (d1 fig hfig), fun e he => hall.trans (d2 e he), htext, l2, ?_, ?_, ?_, rfl, ?_⟩
  · intro hfit
    have : s.b.rb = t.b.rb := hF.enlarged.2 (by rw [q2, t7]; linarith)
    rw [this, t7] at l3
    rw [q2] at l1 l3
    linarith
  · intro hfind
    refine conductivity_bounds w hfind _ _ v1 v2 v3 t0 k kg h1 s hform (2 * g.k) hF.rIn hF.rOut ?_
    have hl : 0 < log (g.rOut / g.rIn) := log_pos (by rw [one_lt_div hr1]; exact hg.rOut)
    have : (uTubeVolumes t).Rpipe = log (g.rOut / g.rIn) / (8 * π * g.k) := by
      unfold uTubeVolumes
      dsimp only
      rw [t1, t2, t3, t8]
      push_cast
      congr 1; ring
    rw [q1, q2, mul_div_mul_left _ _ hw.ne', this]
    generalize log (g.rOut / g.rIn) = l at hl ⊢
    field_simp
    norm_num
  · exact fun hb => C87_bounds _ _ _ _ hM hb
  · rintro R tol rfl hroot hbr
    exact C87_error _ _ _ _ hM tol hroot hbr

/-- C149: `coaxial_to_single_u_tube.py`.  With radii `r₁ < r₂ < r₃ < r₄` the areas are those of the inner pipe and the annulus
and of both walls; the radii printed are `√((r₁² + r₃² - r₂²) / 2)` and `r₄ / √2`. -/
theorem C149_coaxial (g : GivenCoax) (V : ℝ) (hg : g.Sound) (hk : 0 < g.pipe.k.2) (start : Screen Image) (r1 r2 r3 r4 r : ℝ)
    (e1 : g.pipe.rInner = (r1, r2)) (e2 : g.pipe.rOuter = (r3, r4)) (e3 : r = √((r1 ^ 2 + r3 ^ 2 - r2 ^ 2) / 2)) :
    ∃ c, c = givenCoax w g V ∧
    ∃ first, first = start.lines ++ ["Intermediate variables", "----------------------"] ++
        volumeLines w.fixed8 (π * (r1 ^ 2 + (r3 ^ 2 - r2 ^ 2))) (π * ((r2 ^ 2 - r1 ^ 2) + (r4 ^ 2 - r3 ^ 2)))
          (1 / ((w.ext.hAnnulus (V / 1000 * g.fluid.rho) r2 r3 g.fluid g.pipe.eps).1 * (2 * π * r3)))
          (log (r4 / r3) / (2 * π * g.pipe.k.2)) ++ ["\n"] ∧
    (∀ e, computeEquivalent w.ext w.brent (.coaxial c) = .error e →
      coaxToSingle w g V start = (.error e, ⟨first, start.pictures⟩)) ∧
    (∀ s x, computeEquivalent w.ext w.brent (.coaxial c) = .ok (s, x) →
      ∃ Rb text all, all = first ++ tubeLines w.fixed8 V r (r4 / √2) s.pipe.s
          (w.ext.hPipe (V / 1000 * g.fluid.rho) r g.fluid g.pipe.eps) s.pipe.k s.grout.k Rb ++ [text] ∧
        (∀ fig, w.draw s = .ok fig → coaxToSingle w g V start =
          (.ok (), ⟨all, Function.update start.pictures "coaxial_to_single_equivalent.png" (some fig)⟩)) ∧
        (∀ e, w.draw s = .error e → coaxToSingle w g V start = (.error e, ⟨all, start.pictures⟩)) ∧
        singleText w.fm w.ext w.kd s = .ok text ∧
        0 < s.pipe.s ∧ (2 * (r4 / √2) < g.b.rb → s.pipe.s + 4 * (r4 / √2) < 2 * g.b.rb) ∧
        ((∀ lo hi, lo ≤ hi → Inside lo hi (w.brent lo hi)) →
          ∃ k₀, k₀ = g.pipe.k.2 * log (r4 / √2 / r) / (2 * log (r4 / r3)) ∧ k₀ / 100 ≤ s.pipe.k ∧ s.pipe.k ≤ 10 * k₀) ∧
        (Bracketed (1 / 100) 7 (w.brent (1 / 100) 7) → 1 / 100 ≤ s.grout.k ∧ s.grout.k ≤ 7) ∧
        Rb = w.ext.rbStar s.circuit s.b s.mBorehole s.fluid.cp ∧
        ∀ R tol, R = w.ext.rbStarCoax c.pipe.rInner c.pipe.rOuter c.soil.k c.grout.k c.Rff c.Rfp c.b c.mBorehole c.fluid.cp →
          (∀ k, outcome (fun k => R - rbOf w.ext (regrout s k)) (w.brent (1 / 100) 7) = .ok k →
            |R - rbOf w.ext (regrout s k)| ≤ tol) →
          (R - rbOf w.ext (regrout s (1 / 100))) * (R - rbOf w.ext (regrout s 7)) < 0 → |R - Rb| ≤ tol) := by
  have hpi := pi_pos
  refine ⟨_, rfl, _, rfl, ?_⟩
  have b1 : 0 < r1 := by have := hg.r1; rw [e1] at this; exact this
  have b2 : r1 < r2 := by have := hg.r2; rw [e1] at this; exact this
  have b3 : r2 < r3 := by have := hg.r3; rw [e1, e2] at this; exact this
  have b4 : r3 < r4 := by have := hg.r4; rw [e2] at this; exact this
  have hsound : (givenCoax w g V).Sound := ⟨hg.r1, hg.r2, hg.r3, hg.r4, hg.rb⟩
  have t1 : (givenCoax w g V).pipe = g.pipe := rfl
  have t4 : (givenCoax w g V).mBorehole = V / 1000 * g.fluid.rho := rfl
  have t5 : (givenCoax w g V).fluid = g.fluid := rfl
  have t7 : (givenCoax w g V).b = g.b := rfl
  have u1 : (concentricTubeVolumes (givenCoax w g V)).fluid = π * (r1 ^ 2 + (r3 ^ 2 - r2 ^ 2)) := by
    unfold concentricTubeVolumes; dsimp only; rw [t1, e1, e2]; ring
  have u2 : (concentricTubeVolumes (givenCoax w g V)).pipe = π * ((r2 ^ 2 - r1 ^ 2) + (r4 ^ 2 - r3 ^ 2)) := by
    unfold concentricTubeVolumes; dsimp only; rw [t1, e1, e2]; ring
  have u3 : (concentricTubeVolumes (givenCoax w g V)).Rconv =
      1 / ((w.ext.hAnnulus (V / 1000 * g.fluid.rho) r2 r3 g.fluid g.pipe.eps).1 * (2 * π * r3)) := by
    have : (givenCoax w g V).hAnIn = (w.ext.hAnnulus (V / 1000 * g.fluid.rho) r2 r3 g.fluid g.pipe.eps).1 := by
      show (w.ext.hAnnulus _ g.pipe.rInner.2 g.pipe.rOuter.1 _ _).1 = _
      rw [e1, e2]; rfl
    unfold concentricTubeVolumes; dsimp only; rw [this, t1, e2]; congr 1; ring
  have u4 : (concentricTubeVolumes (givenCoax w g V)).Rpipe = log (r4 / r3) / (2 * π * g.pipe.k.2) := by
    unfold concentricTubeVolumes; dsimp only; rw [t1, e2]
  generalize hfirst : start.lines ++ ["Intermediate variables", "----------------------"] ++
        volumeLines w.fixed8 (π * (r1 ^ 2 + (r3 ^ 2 - r2 ^ 2))) (π * ((r2 ^ 2 - r1 ^ 2) + (r4 ^ 2 - r3 ^ 2)))
          (1 / ((w.ext.hAnnulus (V / 1000 * g.fluid.rho) r2 r3 g.fluid g.pipe.eps).1 * (2 * π * r3)))
          (log (r4 / r3) / (2 * π * g.pipe.k.2)) ++ ["\n"] = first
  have hrun : coaxToSingle w g V start = convertAndShow w "coaxial_to_single_equivalent.png" (.coaxial (givenCoax w g V))
      { start with lines := first } := by
    unfold coaxToSingle
    rw [say_bind, say_bind, showVolumes_apply, say_bind, dashes_intermediate, u1, u2, u3, u4, ← hfirst]
    simp only [List.append_assoc, List.singleton_append]
  have hl : 0 < log (r4 / r3) := log_pos (by rw [one_lt_div (by linarith)]; exact b4)
  generalize hc : givenCoax w g V = c at *
  refine ⟨fun e he => ?_, fun s x hs => ?_⟩
  · rw [hrun, convert_error w _ _ e he]
  obtain ⟨-, hF, f1, f2, f3, f4, f5, -⟩ := C74_coaxial w.ext w.brent c s x hsound hs
  have hM := C87_coaxial w.ext w.brent c s x hs
  obtain ⟨-, t0, k, kg, h0, h1, -, hform⟩ := coaxial_form w.ext w.brent c s x hs
  obtain ⟨v1, v2⟩ := concentric_pos c hsound
  have w2 : √2 ^ 2 = (2 : ℝ) := sq_sqrt (by norm_num)
  have hw : 0 < √(2 : ℝ) := sqrt_pos.2 (by norm_num)
  have hbig : r1 ^ 2 < r1 ^ 2 + r3 ^ 2 - r2 ^ 2 := by nlinarith
  have hr : r ^ 2 = (r1 ^ 2 + r3 ^ 2 - r2 ^ 2) / 2 := by
    rw [e3, sq_sqrt]; nlinarith
  have hr0 : 0 ≤ r := by rw [e3]; exact sqrt_nonneg _
  have q1 : s.pipe.rIn = r := by
    have := hF.fluidArea
    rw [t1, e1, e2] at this
    have h3 := mul_left_cancel₀ (mul_pos two_pos hpi).ne'
      (show (2 * π) * s.pipe.rIn ^ 2 = (2 * π) * ((r1 ^ 2 + r3 ^ 2 - r2 ^ 2) / 2) by linarith)
    rw [← sq_eq_sq₀ hF.rIn.le hr0, hr, h3]
  have q2 : s.pipe.rOut = r4 / √2 := by
    have h5 := hF.wallArea
    have := hF.fluidArea
    rw [t1, e1, e2] at this h5
    have h3 := mul_left_cancel₀ (mul_pos two_pos hpi).ne'
      (show (2 * π) * s.pipe.rOut ^ 2 = (2 * π) * (r4 ^ 2 / 2) by linarith)
    have : 0 < r4 := by linarith
    rw [← sq_eq_sq₀ (hF.rIn.trans hF.rOut).le (by positivity), div_pow, w2, h3]
  have q3 : s.hf = w.ext.hPipe (V / 1000 * g.fluid.rho) r g.fluid g.pipe.eps := by
    rw [convection_of w _ _ _ _ _ _ h0 hform, q1, t4, t5, t1]
  have q4 : s.mPipe * 1000 / s.fluid.rho = V := by
    rw [f2, f3, t4, t5]
    have := hg.rho
    field_simp
  have v3 : 0 < (concentricTubeVolumes c).Rpipe := by rw [u4]; positivity
  obtain ⟨-, c1, c2, -⟩ := hF.circuit
  obtain ⟨text, htext⟩ : ∃ text, singleText w.fm w.ext w.kd s = .ok text := by
    refine ⟨_, single_page (reynolds_ok ?_ ?_ ?_)⟩
    · rw [f3, t5]; exact hg.mu.ne'
    · rw [f3, t5]; exact hg.rho.ne'
    · rw [f5, t1, q1, hr]
      intro h
      have h6 := hg.eps
      have h7 := hg.smooth
      rw [e1] at h7
      have h8 : (√2 * g.pipe.eps) ^ 2 < r1 ^ 2 := by
        rw [sq_lt_sq₀ (by positivity) b1.le]; exact h7
      rw [mul_pow, w2] at h8
      linarith
  have hconv := convert_ok w "coaxial_to_single_equivalent.png" (.coaxial c) x s hs (by rw [f3, t5]; exact hg.rho.ne') text htext
  obtain ⟨d1, d2⟩ := drawn_ok "coaxial_to_single_equivalent.png" (w.draw s)
    { start with
      lines := first ++ tubeLines w.fixed8 V r (r4 / √2) s.pipe.s
          (w.ext.hPipe (V / 1000 * g.fluid.rho) r g.fluid g.pipe.eps) s.pipe.k s.grout.k (rbOf w.ext s) ++ [text] }
  have hall := hrun.trans (hconv _)
  rw [q4, c1, c2, q1, q2, q3] at hall
  obtain ⟨d, -, l1, l2, l3⟩ := hF.legs
  refine ⟨_, text, _, rfl, fun fig hfig => hall.trans (d1 fig hfig), fun e he => hall.trans (d2 e he), htext, l2, ?_, ?_, ?_, rfl, ?_⟩
  · intro hfit
    have : s.b.rb = c.b.rb := hF.enlarged.2 (by rw [q2, t7]; linarith)
    rw [this, t7] at l3
    rw [q2] at l1 l3
    linarith
  · intro hfind
    refine ⟨_, rfl, conductivity_bounds w hfind _ _ v1 v2 v3 t0 k kg h1 s hform _ hF.rIn hF.rOut ?_⟩
    rw [q1, q2, u4]
    generalize log (r4 / r3) = l at hl ⊢
    generalize log (r4 / √2 / r) = l'
    field_simp
    ring
  · exact fun hb => C87_bounds _ _ _ _ hM hb
  · rintro R tol rfl hroot hbr
    exact C87_error _ _ _ _ hM tol hroot hbr

/-! ## C150 — the resistances of single exchangers -/

theorem showTube_apply {β : Type} (g : Given) (t : UTube) (Re : ℝ) (h : computeReynolds t.mPipe g.rIn g.eps g.fluid = .ok Re)
    (f : Unit → St (Screen Image) β) (s : Screen Image) :
    (showTube w g t >>= f) s =
      f () { s with lines := s.lines ++ resistanceLines w.fm.num Re t.Rp t.hf t.circuit.Rfp } := by
  have : showTube w g t s =
      (.ok (), { s with lines := s.lines ++ resistanceLines w.fm.num Re t.Rp t.hf t.circuit.Rfp }) := by
    unfold showTube
    rw [St.lift_ok h]
    show (Except.ok (), { s with lines := (((s.lines ++ [_]) ++ [_]) ++ [_]) ++ [_] }) = _
    simp only [List.append_assoc, List.singleton_append]
    rfl
  rw [St.bind_ok this]

/-- C150: `SingleUTube.py`.  With the mass flow `m` of the volume flow `V` the script prints the report of the exchanger, the
Reynolds number `2m/(π μ r)` of its legs, the resistance of the pipe, the convection coefficient `h` and the effective borehole
resistance of the thermal circuit; the number labelled convective resistance is the sum of the convective resistance
`1/(2π r h)` and the resistance of the pipe.  Then the picture is written. -/
theorem C150_single (g : Given) (V : ℝ) (hg : g.Sound) (start : Screen Image) :
    ∃ t pos text m h Rp all, givenSingle w g V = .ok t ∧ placePipes g.s g.rOut 1 = .ok pos ∧
      singleText w.fm w.ext w.kd t = .ok text ∧ m = V / 1000 * g.fluid.rho ∧
      h = w.ext.hPipe m g.rIn g.fluid g.eps ∧ Rp = log (g.rOut / g.rIn) / (2 * π * g.k) ∧
      all = start.lines ++ [text] ++ resistanceLines w.fm.num (2 * m / (π * g.fluid.mu * g.rIn)) Rp h
          (1 / (h * 2 * π * g.rIn) + Rp) ++
        ["Borehole thermal resistance: " ++ w.fixed4 (w.ext.rbStar
          ⟨pos, g.rIn, g.rOut, g.soil.k, g.grout.k, 1 / (h * 2 * π * g.rIn) + Rp, 1, none⟩ g.b m g.fluid.cp) ++ " m.K/W"] ∧
      (∀ fig, w.draw t = .ok fig → singleScript w g V start =
        (.ok (), ⟨all, Function.update start.pictures "single_u_tube.png" (some fig)⟩)) ∧
      (∀ e, w.draw t = .error e → singleScript w g V start = (.error e, ⟨all, start.pictures⟩)) := by
  obtain ⟨pos, hpos, hlen, ht⟩ := givenSingle_eq w g V
  have hRe : ∀ m, computeReynolds m g.rIn g.eps g.fluid = .ok (2 * m / (π * g.fluid.mu * g.rIn)) := fun m =>
    C76_pipe m g.rIn g.eps g.fluid hg.rIn hg.rho hg.mu
  have hsq : g.eps ^ 2 ≠ g.rIn ^ 2 := by
    intro h
    have := (sq_eq_sq₀ hg.eps hg.rIn.le).1 h
    exact absurd hg.smooth (by rw [this]; exact lt_irrefl _)
  generalize htt : (UTube.mk _ _ _ _ _ _ _ _ _ _ _ : UTube) = t at ht
  have htext := single_page (fm := w.fm) (ext := w.ext) (kd := w.kd) (t := t)
    (reynolds_ok (m := t.mPipe) (r := t.pipe.rIn) (eps := t.pipe.eps) (fl := t.fluid)
      (by subst htt; exact hg.mu.ne') (by subst htt; exact hg.rho.ne') (by subst htt; exact hsq))
  obtain ⟨text, htext⟩ : ∃ text, singleText w.fm w.ext w.kd t = .ok text := ⟨_, htext⟩
  have hall : singleScript w g V start = drawn "single_u_tube.png" (w.draw t)
      { start with
        lines := start.lines ++ [text] ++ resistanceLines w.fm.num (2 * t.mPipe / (π * g.fluid.mu * g.rIn)) t.Rp t.hf
          t.circuit.Rfp ++ ["Borehole thermal resistance: " ++ w.fixed4 (rbOf w.ext t) ++ " m.K/W"] } := by
    unfold singleScript
    rw [St.lift_ok ht, St.lift_ok htext, say_bind, showTube_apply w g t _ (hRe _), computeEffective_none]
    dsimp only
    rw [St.lift_ok rfl, say_bind, draw_bind]
  obtain ⟨d1, d2⟩ := drawn_ok "single_u_tube.png" (w.draw t)
      { start with
        lines := start.lines ++ [text] ++ resistanceLines w.fm.num (2 * t.mPipe / (π * g.fluid.mu * g.rIn)) t.Rp t.hf
          t.circuit.Rfp ++ ["Borehole thermal resistance: " ++ w.fixed4 (rbOf w.ext t) ++ " m.K/W"] }
  refine ⟨t, pos, text, _, _, _, _, ht, hpos, htext, rfl, rfl, rfl, rfl, fun fig hf => ?_, fun e he => ?_⟩
  · rw [hall, d1 fig hf]; subst htt; rfl
  · rw [hall, d2 e he]; subst htt; rfl

/-- C150: `DoubleUTube.py`, in parallel and in series.  In parallel the Reynolds number is half that in series and the
convection coefficient that of half the flow; the resistance of the pipe is the same.  The borehole resistances are those of the
two thermal circuits at the whole flow.  The series picture is written first. -/
theorem C150_double (g : Given) (V : ℝ) (hg : g.Sound) (start : Screen Image) :
    ∃ tp ts pos text m hp hs Rp all, givenDouble w g V "parallel" = .ok tp ∧ givenDouble w g V "series" = .ok ts ∧
      placePipes g.s g.rOut 2 = .ok pos ∧ multipleText w.fm w.ext w.kd tp = .ok text ∧ m = V / 1000 * g.fluid.rho ∧
      hp = w.ext.hPipe (m / 2) g.rIn g.fluid g.eps ∧ hs = w.ext.hPipe m g.rIn g.fluid g.eps ∧
      Rp = log (g.rOut / g.rIn) / (2 * π * g.k) ∧
      all = start.lines ++ [text, "Parallel"] ++
        resistanceLines w.fm.num (m / (π * g.fluid.mu * g.rIn)) Rp hp (1 / (hp * 2 * π * g.rIn) + Rp) ++
        ["Borehole thermal resistance (parallel): " ++ w.fixed4 (w.ext.rbStar
          ⟨pos, g.rIn, g.rOut, g.soil.k, g.grout.k, 1 / (hp * 2 * π * g.rIn) + Rp, 2, some "parallel"⟩ g.b m g.fluid.cp)
            ++ " m.K/W", "Series"] ++
        resistanceLines w.fm.num (2 * (m / (π * g.fluid.mu * g.rIn))) Rp hs (1 / (hs * 2 * π * g.rIn) + Rp) ++
        ["Borehole thermal resistance (series): " ++ w.fixed4 (w.ext.rbStar
          ⟨pos, g.rIn, g.rOut, g.soil.k, g.grout.k, 1 / (hs * 2 * π * g.rIn) + Rp, 2, some "series"⟩ g.b m g.fluid.cp)
            ++ " m.K/W"] ∧
      (∀ e, w.draw ts = .error e → doubleScript w g V start = (.error e, ⟨all, start.pictures⟩)) ∧
      (∀ fig, w.draw ts = .ok fig →
        (∀ e, w.draw tp = .error e → doubleScript w g V start =
          (.error e, ⟨all, Function.update start.pictures "double_u_tube_series.png" (some fig)⟩)) ∧
        (∀ fig', w.draw tp = .ok fig' → doubleScript w g V start =
          (.ok (), ⟨all, Function.update (Function.update start.pictures "double_u_tube_series.png" (some fig))
            "double_u_tube_parallel.png" (some fig')⟩))) := by
  obtain ⟨pos, hpos, hlen, htp⟩ := givenDouble_eq w g V "parallel" (Or.inr rfl)
  obtain ⟨pos', hpos', -, hts⟩ := givenDouble_eq w g V "series" (Or.inl rfl)
  have hne : ¬ ("parallel" = "series") := by decide
  simp only [hne, if_false] at htp
  simp only [if_true] at hts
  obtain rfl : pos = pos' := Except.ok.inj (hpos.symm.trans hpos')
  have hRe : ∀ m, computeReynolds m g.rIn g.eps g.fluid = .ok (2 * m / (π * g.fluid.mu * g.rIn)) := fun m =>
    C76_pipe m g.rIn g.eps g.fluid hg.rIn hg.rho hg.mu
  have hsq : g.eps ^ 2 ≠ g.rIn ^ 2 := by
    intro h
    have := (sq_eq_sq₀ hg.eps hg.rIn.le).1 h
    exact absurd hg.smooth (by rw [this]; exact lt_irrefl _)
  generalize hpp : (UTube.mk _ _ _ _ _ _ _ _ _ _ _ : UTube) = tp at htp
  generalize hss : (UTube.mk _ _ _ _ _ _ _ _ _ _ _ : UTube) = ts at hts
  have htext := multiple_page (fm := w.fm) (ext := w.ext) (kd := w.kd) (t := tp) (config := "parallel")
    (reynolds_ok (m := tp.mPipe) (r := tp.pipe.rIn) (eps := tp.pipe.eps) (fl := tp.fluid)
      (by subst hpp; exact hg.mu.ne') (by subst hpp; exact hg.rho.ne') (by subst hpp; exact hsq)) (by subst hpp; rfl)
  obtain ⟨text, htext⟩ : ∃ text, multipleText w.fm w.ext w.kd tp = .ok text := ⟨_, htext⟩
  have hall : ∃ all, all = start.lines ++ [text, "Parallel"] ++
        resistanceLines w.fm.num (2 * tp.mPipe / (π * g.fluid.mu * g.rIn)) tp.Rp tp.hf tp.circuit.Rfp ++
        ["Borehole thermal resistance (parallel): " ++ w.fixed4 (rbOf w.ext tp) ++ " m.K/W", "Series"] ++
        resistanceLines w.fm.num (2 * ts.mPipe / (π * g.fluid.mu * g.rIn)) ts.Rp ts.hf ts.circuit.Rfp ++
        ["Borehole thermal resistance (series): " ++ w.fixed4 (rbOf w.ext ts) ++ " m.K/W"] ∧
      doubleScript w g V start = (St.lift (w.draw ts) >>= fun fig => savefig "double_u_tube_series.png" fig >>= fun _ =>
        St.lift (w.draw tp) >>= fun fig => savefig "double_u_tube_parallel.png" fig) ⟨all, start.pictures⟩ := by
    refine ⟨_, rfl, ?_⟩
    unfold doubleScript
    rw [St.lift_ok hts, St.lift_ok htp, St.lift_ok htext, say_bind, St.lift_ok (hRe _), say_bind,
      showTube_apply w g tp _ (hRe _), computeEffective_none]
    dsimp only
    rw [St.lift_ok rfl, say_bind, say_bind, showTube_apply w g ts _ (hRe _), computeEffective_none]
    dsimp only
    rw [St.lift_ok rfl, say_bind]
    simp only [List.append_assoc, List.singleton_append, List.cons_append, List.nil_append]
  obtain ⟨all, hallEq, hall⟩ := hall
  refine ⟨tp, ts, pos, text, _, _, _, _, all, htp, hts, hpos, htext, rfl, rfl, rfl, rfl, ?_, fun e he => ?_, fun fig hf =>
    ⟨fun e he => ?_, fun fig' hf' => ?_⟩⟩
  · rw [hallEq]
    subst hpp hss
    dsimp only
    have e1 : 2 * (V / 1000 * g.fluid.rho / 2) / (π * g.fluid.mu * g.rIn) =
        V / 1000 * g.fluid.rho / (π * g.fluid.mu * g.rIn) := by ring
    have e2 : 2 * (V / 1000 * g.fluid.rho) / (π * g.fluid.mu * g.rIn) =
        2 * (V / 1000 * g.fluid.rho / (π * g.fluid.mu * g.rIn)) := by ring
    rw [e1, e2]
    rfl
  · rw [hall, St.lift_error he]
  · rw [hall, St.lift_ok hf, savefig_bind, St.lift_error he]
  · rw [hall, St.lift_ok hf, savefig_bind, St.lift_ok hf', savefig_apply]

/-- C150: `Coaxial.py`.  The Reynolds number printed is that of a pipe with the outermost radius `r₄`, `2m/(π μ r₄)`; that of
the annulus in which the fluid flows is `2m/(π μ (r₂ + r₃))`, so the number is wrong by the factor `(r₂ + r₃) / r₄`.  The
number labelled convective resistance includes the resistance of the outer pipe. -/
theorem C150_coaxial (g : GivenCoax) (V : ℝ) (hg : g.Sound) (start : Screen Image) (r1 r2 r3 r4 : ℝ)
    (e1 : g.pipe.rInner = (r1, r2)) (e2 : g.pipe.rOuter = (r3, r4)) :
    ∃ c text m h Rp Re ReAnnulus all, c = givenCoax w g V ∧ coaxialText w.fm w.ext w.kd c = .ok text ∧
      m = V / 1000 * g.fluid.rho ∧ h = (w.ext.hAnnulus m r2 r3 g.fluid g.pipe.eps).2 ∧
      Rp = log (r4 / r3) / (2 * π * g.pipe.k.2) ∧ Re = 2 * m / (π * g.fluid.mu * r4) ∧
      computeReynoldsConcentric m r2 r3 g.fluid = .ok ReAnnulus ∧ Re = ReAnnulus * ((r2 + r3) / r4) ∧
      all = start.lines ++ [text, "Intermediate variables\n----------------------", "Reynolds number: " ++ w.fm.num Re,
        "Convection coefficient (W/m2.K): " ++ w.fm.num h,
        "Convective resistance (K/(W/m)): " ++ w.fm.num (Rp + 1 / (h * 2 * π * r3)),
        "Borehole thermal resistance: " ++ w.wide4 (w.ext.rbStarCoax (r1, r2) (r3, r4) g.soil.k g.grout.k c.Rff
          (Rp + 1 / (h * 2 * π * r3)) g.b m g.fluid.cp) ++ " m.K/W"] ∧
      (∀ fig, w.drawCoax c = .ok fig → coaxScript w g V start =
        (.ok (), ⟨all, Function.update start.pictures "Coaxial.png" (some fig)⟩)) ∧
      (∀ e, w.drawCoax c = .error e → coaxScript w g V start = (.error e, ⟨all, start.pictures⟩)) := by
  have b1 : 0 < r1 := by have := hg.r1; rw [e1] at this; exact this
  have b2 : r1 < r2 := by have := hg.r2; rw [e1] at this; exact this
  have b3 : r2 < r3 := by have := hg.r3; rw [e1, e2] at this; exact this
  have b4 : r3 < r4 := by have := hg.r4; rw [e2] at this; exact this
  have hmu := hg.mu
  have hpi := pi_pos
  obtain ⟨c, hc⟩ : ∃ c, c = givenCoax w g V := ⟨_, rfl⟩
  have p1 : c.pipe = g.pipe := by rw [hc]; rfl
  have p2 : c.mPipe = V / 1000 * g.fluid.rho := by rw [hc]; rfl
  have p3 : c.fluid = g.fluid := by rw [hc]; rfl
  have p4 : c.mBorehole = V / 1000 * g.fluid.rho := by rw [hc]; rfl
  have p5 : c.b = g.b ∧ c.soil = g.soil ∧ c.grout = g.grout := by rw [hc]; exact ⟨rfl, rfl, rfl⟩
  have p6 : c.hAnOut = (w.ext.hAnnulus (V / 1000 * g.fluid.rho) r2 r3 g.fluid g.pipe.eps).2 := by
    rw [hc]
    show (w.ext.hAnnulus _ g.pipe.rInner.2 g.pipe.rOuter.1 _ _).2 = _
    rw [e1, e2]; rfl
  have p7 : c.Rfp = log (r4 / r3) / (2 * π * g.pipe.k.2) +
      1 / ((w.ext.hAnnulus (V / 1000 * g.fluid.rho) r2 r3 g.fluid g.pipe.eps).2 * 2 * π * r3) := by
    rw [hc]
    show rConduction g.pipe.rOuter.1 g.pipe.rOuter.2 g.pipe.k.2 +
      1 / ((w.ext.hAnnulus _ g.pipe.rInner.2 g.pipe.rOuter.1 _ _).2 * 2 * π * g.pipe.rOuter.1) = _
    rw [e1, e2]; rfl
  have hA := C76_annulus (V / 1000 * g.fluid.rho) r2 r3 g.fluid (b1.trans b2) b3 hg.rho hg.mu
  have hP := C76_pipe (V / 1000 * g.fluid.rho) r4 g.pipe.eps g.fluid (by linarith) hg.rho hg.mu
  have hI := C76_pipe (V / 1000 * g.fluid.rho) r1 g.pipe.eps g.fluid b1 hg.rho hg.mu
  have htext := coaxial_page (fm := w.fm) (ext := w.ext) (kd := w.kd) (c := c)
    (by rw [p1, p2, p3, e1, e2]; exact hA) (by rw [p1, p2, p3, e1]; exact hI)
  obtain ⟨text, htext⟩ : ∃ text, coaxialText w.fm w.ext w.kd c = .ok text := ⟨_, htext⟩
  obtain ⟨all, hallEq⟩ : ∃ all, all = start.lines ++ [text, "Intermediate variables\n----------------------",
      "Reynolds number: " ++ w.fm.num (2 * (V / 1000 * g.fluid.rho) / (π * g.fluid.mu * r4)),
      "Convection coefficient (W/m2.K): " ++ w.fm.num c.hAnOut, "Convective resistance (K/(W/m)): " ++ w.fm.num c.Rfp,
      "Borehole thermal resistance: " ++ w.wide4 (coaxRb w.ext c) ++ " m.K/W"] := ⟨_, rfl⟩
  have hall : coaxScript w g V start = drawn "Coaxial.png" (w.drawCoax c) ⟨all, start.pictures⟩ := by
    unfold coaxScript
    rw [← hc, St.lift_ok htext, say_bind, coaxEffective_none]
    dsimp only
    rw [St.lift_ok rfl, say_bind, St.lift_ok (a := 2 * (V / 1000 * g.fluid.rho) / (π * g.fluid.mu * r4))
      (by rw [p1, p2, e2]; exact hP), say_bind, say_bind, say_bind, say_bind, draw_bind, title_intermediate, hallEq]
    simp only [List.append_assoc, List.singleton_append, List.cons_append, List.nil_append]
  obtain ⟨d1, d2⟩ := drawn_ok "Coaxial.png" (w.drawCoax c) ⟨all, start.pictures⟩
  refine ⟨c, text, _, _, _, _, _, all, hc, htext, rfl, rfl, rfl, rfl, hA, ?_, ?_, fun fig hf => ?_, fun e he => ?_⟩
  · have : 0 < r2 + r3 := by linarith
    have : 0 < r4 := by linarith
    field_simp
  · rw [hallEq, p6, p7]
    unfold coaxRb
    rw [p1, p3, p4, p5.1, p5.2.1, p5.2.2, p7, e1, e2]
  · rw [hall, d1 fig hf]
  · rw [hall, d2 e he]

/-- C150: the tables of `validation.py`.  For any lists of flow rates each of the three tables has the flow rates in their order,
and beside each of them the Reynolds number and the borehole resistance of the exchanger built for that flow alone. -/
theorem C150_sweep (g : Given) (gc : GivenCoax) (hg : g.Sound) (hgc : gc.Sound) (flows coaxFlows : List ℝ) :
    ∃ T D : ℝ → UTube, (∀ V, givenSingle w g V = .ok (T V)) ∧ (∀ V, givenDouble w g V "parallel" = .ok (D V)) ∧
    ∃ C : ℝ → Coax, (∀ V, C V = givenCoax w gc V) ∧
    validationValues w g gc flows coaxFlows = .ok
      [("Single U-tube",
        { vDot := flows
          Rb := flows.map fun V => w.ext.rbStar (T V).circuit g.b (V / 1000 * g.fluid.rho) g.fluid.cp
          Re := flows.map fun V => 2 * (V / 1000 * g.fluid.rho) / (π * g.fluid.mu * g.rIn) }),
       ("Double U-tube",
        { vDot := flows
          Rb := flows.map fun V => w.ext.rbStar (D V).circuit g.b (V / 1000 * g.fluid.rho) g.fluid.cp
          Re := flows.map fun V => V / 1000 * g.fluid.rho / (π * g.fluid.mu * g.rIn) }),
       ("Coaxial",
        { vDot := coaxFlows
          Rb := coaxFlows.map fun V => w.ext.rbStarCoax gc.pipe.rInner gc.pipe.rOuter gc.soil.k gc.grout.k (C V).Rff (C V).Rfp
            gc.b (V / 1000 * gc.fluid.rho) gc.fluid.cp
          Re := coaxFlows.map fun V =>
            2 * (V / 1000 * gc.fluid.rho) / (π * gc.fluid.mu * (gc.pipe.rInner.2 + gc.pipe.rOuter.1)) })] := by
  have hT : ∀ V, ∃ t, givenSingle w g V = .ok t ∧ t.mPipe = V / 1000 * g.fluid.rho ∧
      rbOf w.ext t = w.ext.rbStar t.circuit g.b (V / 1000 * g.fluid.rho) g.fluid.cp := by
    intro V
    obtain ⟨pos, -, -, ht⟩ := givenSingle_eq w g V
    exact ⟨_, ht, rfl, rfl⟩
  have hD : ∀ V, ∃ t, givenDouble w g V "parallel" = .ok t ∧ t.mPipe = V / 1000 * g.fluid.rho / 2 ∧
      rbOf w.ext t = w.ext.rbStar t.circuit g.b (V / 1000 * g.fluid.rho) g.fluid.cp := by
    intro V
    obtain ⟨pos, -, -, ht⟩ := givenDouble_eq w g V "parallel" (Or.inr rfl)
    have hne : ¬ ("parallel" = "series") := by decide
    simp only [hne, if_false] at ht
    exact ⟨_, ht, rfl, rfl⟩
  choose T t1 t2 t3 using hT
  choose D d1 d2 d3 using hD
  refine ⟨T, D, t1, d1, givenCoax w gc, fun _ => rfl, ?_⟩
  have hRe : ∀ m, computeReynolds m g.rIn g.eps g.fluid = .ok (2 * m / (π * g.fluid.mu * g.rIn)) := fun m =>
    C76_pipe m g.rIn g.eps g.fluid hg.rIn hg.rho hg.mu
  have hA : ∀ m, computeReynoldsConcentric m gc.pipe.rInner.2 gc.pipe.rOuter.1 gc.fluid =
      .ok (2 * m / (π * gc.fluid.mu * (gc.pipe.rInner.2 + gc.pipe.rOuter.1))) := fun m =>
    C76_annulus m _ _ gc.fluid (hgc.r1.trans hgc.r2) hgc.r3 hgc.rho hgc.mu
  have step : ∀ (a b : Column) (V : ℝ), sweepTubes w g (a, b) V = .ok
      (⟨a.vDot ++ [V], a.Rb ++ [w.ext.rbStar (T V).circuit g.b (V / 1000 * g.fluid.rho) g.fluid.cp],
          a.Re ++ [2 * (V / 1000 * g.fluid.rho) / (π * g.fluid.mu * g.rIn)]⟩,
       ⟨b.vDot ++ [V], b.Rb ++ [w.ext.rbStar (D V).circuit g.b (V / 1000 * g.fluid.rho) g.fluid.cp],
          b.Re ++ [V / 1000 * g.fluid.rho / (π * g.fluid.mu * g.rIn)]⟩) := by
    intro a b V
    unfold sweepTubes
    dsimp only
    rw [t1, Except.ok_bind, hRe, Except.ok_bind, d1, Except.ok_bind, hRe, Except.ok_bind, computeEffective_none,
      Except.ok_bind, computeEffective_none, Except.ok_bind, t2, d2, t3, d3]
    have : 2 * (V / 1000 * g.fluid.rho / 2) / (π * g.fluid.mu * g.rIn) =
        V / 1000 * g.fluid.rho / (π * g.fluid.mu * g.rIn) := by ring
    rw [this]
    rfl
  have fold : ∀ (l : List ℝ) (a b : Column), l.foldlM (sweepTubes w g) (a, b) = .ok
      (⟨a.vDot ++ l, a.Rb ++ l.map fun V => w.ext.rbStar (T V).circuit g.b (V / 1000 * g.fluid.rho) g.fluid.cp,
          a.Re ++ l.map fun V => 2 * (V / 1000 * g.fluid.rho) / (π * g.fluid.mu * g.rIn)⟩,
       ⟨b.vDot ++ l, b.Rb ++ l.map fun V => w.ext.rbStar (D V).circuit g.b (V / 1000 * g.fluid.rho) g.fluid.cp,
          b.Re ++ l.map fun V => V / 1000 * g.fluid.rho / (π * g.fluid.mu * g.rIn)⟩) := by
    intro l
    induction l with
    | nil => intro a b; simp only [List.append_nil, List.map_nil]; rfl
    | cons V l ih =>
      intro a b
      rw [List.foldlM_cons, step, Except.ok_bind, ih]
      simp
  have stepC : ∀ (a : Column) (V : ℝ), sweepCoax w gc a V = .ok
      ⟨a.vDot ++ [V], a.Rb ++ [w.ext.rbStarCoax gc.pipe.rInner gc.pipe.rOuter gc.soil.k gc.grout.k (givenCoax w gc V).Rff
          (givenCoax w gc V).Rfp gc.b (V / 1000 * gc.fluid.rho) gc.fluid.cp],
        a.Re ++ [2 * (V / 1000 * gc.fluid.rho) / (π * gc.fluid.mu * (gc.pipe.rInner.2 + gc.pipe.rOuter.1))]⟩ := by
    intro a V
    unfold sweepCoax
    dsimp only
    rw [hA, Except.ok_bind, coaxEffective_none, Except.ok_bind]
    rfl
  have foldC : ∀ (l : List ℝ) (a : Column), l.foldlM (sweepCoax w gc) a = .ok
      ⟨a.vDot ++ l, a.Rb ++ l.map fun V => w.ext.rbStarCoax gc.pipe.rInner gc.pipe.rOuter gc.soil.k gc.grout.k
          (givenCoax w gc V).Rff (givenCoax w gc V).Rfp gc.b (V / 1000 * gc.fluid.rho) gc.fluid.cp,
        a.Re ++ l.map fun V =>
          2 * (V / 1000 * gc.fluid.rho) / (π * gc.fluid.mu * (gc.pipe.rInner.2 + gc.pipe.rOuter.1))⟩ := by
    intro l
    induction l with
    | nil => intro a; simp only [List.append_nil, List.map_nil]; rfl
    | cons V l ih =>
      intro a
      rw [List.foldlM_cons, stepC, Except.ok_bind, ih]
      simp
  unfold validationValues
  rw [fold, Except.ok_bind]
  dsimp only
  rw [foldC, Except.ok_bind]
  simp only [List.nil_append]
  rfl

/-- the two plots of an exchanger -/
def plotsOf (name : String) (own other : Column) : List (Mark ℝ) × List (Mark ℝ) :=
  ([.points (own.Re.zip own.Rb) (name ++ " (GLHEDT)"), .points (other.Re.zip other.Rb) (name ++ " (GLHEPRO)")],
   [.points (own.vDot.zip own.Rb) (name ++ " (PLAT)"), .points (other.vDot.zip other.Rb) (name ++ " (GLHEPRO)")])

theorem comparePlots_ok (sheets : List (String × Column)) (name : String) (own other : Column) (h1 : own.Even)
    (h2 : PyDict.find? sheets name = some other) (h3 : other.Even) :
    comparePlots sheets (name, own) = .ok (plotsOf name own other) := by
  have h4 : PyDict.get sheets name = .ok other := by unfold PyDict.get; rw [h2]
  unfold comparePlots
  dsimp only
  rw [h4]
  unfold scatter
  rw [if_pos h1.1, if_pos h1.2, Except.ok_bind, Except.ok_bind, if_pos h3.1, Except.ok_bind, Except.ok_bind, if_pos h3.2]
  rfl

theorem comparePlots_error (sheets : List (String × Column)) (name : String) (own : Column) (h1 : own.Even)
    (h : ∀ other, PyDict.find? sheets name = some other → ¬ other.Even) :
    comparePlots sheets (name, own) = .error .keyError ∨ comparePlots sheets (name, own) = .error .valueError := by
  unfold comparePlots
  dsimp only
  unfold scatter
  rw [if_pos h1.1, Except.ok_bind]
  cases hf : PyDict.find? sheets name with
  | none =>
    left
    have h4 : PyDict.get sheets name = .error .keyError := by unfold PyDict.get; rw [hf]
    rw [h4]; rfl
  | some other =>
    right
    have h4 : PyDict.get sheets name = .ok other := by unfold PyDict.get; rw [hf]
    have h5 := h other hf
    rw [h4, Except.ok_bind]
    by_cases h6 : other.Re.length = other.Rb.length
    · rw [if_pos h6, Except.ok_bind, if_pos h1.2, Except.ok_bind, if_neg (fun h7 => h5 ⟨h6, h7⟩)]; rfl
    · rw [if_neg h6]; rfl

/-- C150: the pictures of `validation.py`.  With a workbook that has the three sheets, each with lists of one length, both pictures
are written; each has, for every exchanger in turn, its computed points, one per flow rate, and those of the sheet with its
name.  Otherwise neither is: a missing workbook raises its error, a missing sheet `KeyError`, lists of different lengths
`ValueError`. -/
theorem C150_plots (render : List (List (Mark ℝ)) → Image) (sheets : Py (List (String × Column))) (g : Given) (gc : GivenCoax)
    (hg : g.Sound) (hgc : gc.Sound) (flows coaxFlows : List ℝ) (start : Screen Image) :
    ∃ single double coax, validationValues w g gc flows coaxFlows =
        .ok [("Single U-tube", single), ("Double U-tube", double), ("Coaxial", coax)] ∧
    (∀ book s d c, sheets = .ok book → PyDict.find? book "Single U-tube" = some s → PyDict.find? book "Double U-tube" = some d →
      PyDict.find? book "Coaxial" = some c → s.Even → d.Even → c.Even →
      validation w render sheets g gc flows coaxFlows start =
        (.ok (), ⟨start.lines, Function.update (Function.update start.pictures "Rb_vs_Re.png"
          (some (render
            [[.points (single.Re.zip single.Rb) "Single U-tube (GLHEDT)", .points (s.Re.zip s.Rb) "Single U-tube (GLHEPRO)"],
             [.points (double.Re.zip double.Rb) "Double U-tube (GLHEDT)", .points (d.Re.zip d.Rb) "Double U-tube (GLHEPRO)"],
             [.points (coax.Re.zip coax.Rb) "Coaxial (GLHEDT)", .points (c.Re.zip c.Rb) "Coaxial (GLHEPRO)"]])))
          "Rb_vs_Vdot.png"
          (some (render
            [[.points (single.vDot.zip single.Rb) "Single U-tube (PLAT)", .points (s.vDot.zip s.Rb) "Single U-tube (GLHEPRO)"],
             [.points (double.vDot.zip double.Rb) "Double U-tube (PLAT)", .points (d.vDot.zip d.Rb) "Double U-tube (GLHEPRO)"],
             [.points (coax.vDot.zip coax.Rb) "Coaxial (PLAT)", .points (c.vDot.zip c.Rb) "Coaxial (GLHEPRO)"]]))⟩)) ∧
    (∀ e, sheets = .error e → validation w render sheets g gc flows coaxFlows start = (.error e, start)) ∧
    (∀ book, sheets = .ok book →
      (∃ name ∈ ["Single U-tube", "Double U-tube", "Coaxial"], ∀ o, PyDict.find? book name = some o → ¬ o.Even) →
      validation w render sheets g gc flows coaxFlows start = (.error .keyError, start) ∨
      validation w render sheets g gc flows coaxFlows start = (.error .valueError, start)) := by
  obtain ⟨T, D, -, -, C, -, hv⟩ := C150_sweep w g gc hg hgc flows coaxFlows
  refine ⟨_, _, _, hv, ?_⟩
  generalize hs : (Column.mk _ _ _ : Column) = single at hv ⊢
  generalize hd : (Column.mk _ _ _ : Column) = double at hv ⊢
  generalize hc : (Column.mk _ _ _ : Column) = coax at hv ⊢
  have es : single.Even := by subst hs; unfold Column.Even; simp
  have ed : double.Even := by subst hd; unfold Column.Even; simp
  have ec : coax.Even := by subst hc; unfold Column.Even; simp
  refine ⟨?_, ?_, ?_⟩
  · rintro book s d c rfl f1 f2 f3 v1 v2 v3
    unfold validation
    rw [St.lift_ok hv, St.lift_ok rfl]
    have hm : List.mapM (comparePlots book) [("Single U-tube", single), ("Double U-tube", double), ("Coaxial", coax)] =
        .ok [plotsOf "Single U-tube" single s, plotsOf "Double U-tube" double d, plotsOf "Coaxial" coax c] := by
      simp only [List.mapM_cons, List.mapM_nil, comparePlots_ok book _ _ _ es f1 v1, comparePlots_ok book _ _ _ ed f2 v2,
        comparePlots_ok book _ _ _ ec f3 v3, Except.ok_bind]
      rfl
    rw [St.lift_ok hm, savefig_bind, savefig_apply]
    have k1 : "Single U-tube" ++ " (GLHEDT)" = "Single U-tube (GLHEDT)" := by decide +kernel
    have k2 : "Single U-tube" ++ " (GLHEPRO)" = "Single U-tube (GLHEPRO)" := by decide +kernel
    have k3 : "Single U-tube" ++ " (PLAT)" = "Single U-tube (PLAT)" := by decide +kernel
    have k4 : "Double U-tube" ++ " (GLHEDT)" = "Double U-tube (GLHEDT)" := by decide +kernel
    have k5 : "Double U-tube" ++ " (GLHEPRO)" = "Double U-tube (GLHEPRO)" := by decide +kernel
    have k6 : "Double U-tube" ++ " (PLAT)" = "Double U-tube (PLAT)" := by decide +kernel
    have k7 : "Coaxial" ++ " (GLHEDT)" = "Coaxial (GLHEDT)" := by decide +kernel
    have k8 : "Coaxial" ++ " (GLHEPRO)" = "Coaxial (GLHEPRO)" := by decide +kernel
    have k9 : "Coaxial" ++ " (PLAT)" = "Coaxial (PLAT)" := by decide +kernel
    simp only [plotsOf, List.map_cons, List.map_nil, k1, k2, k3, k4, k5, k6, k7, k8, k9]
  · rintro e rfl
    unfold validation
    rw [St.lift_ok hv, St.lift_error rfl]
  · rintro book rfl hex
    have hm : List.mapM (comparePlots book) [("Single U-tube", single), ("Double U-tube", double), ("Coaxial", coax)] =
          .error .keyError ∨
        List.mapM (comparePlots book) [("Single U-tube", single), ("Double U-tube", double), ("Coaxial", coax)] =
          .error .valueError := by
      have key : ∀ (l : List (String × Column)), (∀ p ∈ l, p.2.Even) →
          (∃ p ∈ l, ∀ o, PyDict.find? book p.1 = some o → ¬ o.Even) →
          List.mapM (comparePlots book) l = .error .keyError ∨ List.mapM (comparePlots book) l = .error .valueError := by
        intro l
        induction l with
        | nil => rintro - ⟨p, hp, -⟩; cases hp
        | cons p l ih =>
          intro hev hbad
          rw [List.mapM_cons]
          by_cases hp : ∀ o, PyDict.find? book p.1 = some o → ¬ o.Even
          · rcases comparePlots_error book p.1 p.2 (hev p (List.mem_cons_self ..)) hp with h | h
            · left; rw [h]; rfl
            · right; rw [h]; rfl
          · push Not at hp
            obtain ⟨o, ho, hoe⟩ := hp
            rw [comparePlots_ok book p.1 p.2 o (hev p (List.mem_cons_self ..)) ho hoe, Except.ok_bind]
            obtain ⟨q, hq, hqb⟩ := hbad
            have hq' : q ∈ l := by
              rcases List.mem_cons.1 hq with rfl | h
              · exact absurd hoe (hqb o ho)
              · exact h
            rcases ih (fun r hr => hev r (List.mem_cons_of_mem _ hr)) ⟨q, hq', hqb⟩ with h | h
            · left; rw [h]; rfl
            · right; rw [h]; rfl
      refine key _ ?_ ?_
      · intro p hp
        simp only [List.mem_cons, List.not_mem_nil, or_false] at hp
        rcases hp with rfl | rfl | rfl <;> assumption
      · obtain ⟨name, hn, hb⟩ := hex
        simp only [List.mem_cons, List.not_mem_nil, or_false] at hn
        rcases hn with rfl | rfl | rfl
        · exact ⟨("Single U-tube", single), by simp, hb⟩
        · exact ⟨("Double U-tube", double), by simp, hb⟩
        · exact ⟨("Coaxial", coax), by simp, hb⟩
    unfold validation
    rw [St.lift_ok hv, St.lift_ok rfl]
    rcases hm with h | h
    · left; rw [St.lift_error h]
    · right; rw [St.lift_error h]

end

end Ghedt.TubeScript
