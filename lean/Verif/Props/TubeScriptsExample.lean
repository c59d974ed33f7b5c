import Verif.Props.TubeScripts

/-!
# Concrete cases for C149 and C150
-/

namespace Ghedt.TubeScript
open Real Ghedt.GHE Ghedt.Bhe Ghedt.Report Ghedt.Plots

noncomputable section

/-- texts of numbers that say only whether they are positive; a picture is a tube, or nothing if it was drawn for a coaxial
exchanger -/
def exWorld : World (Option UTube) where
  ext := Bhe.exExt
  brent := Bhe.exBrent
  fm := ⟨fun _ => "n", fun _ => "x", fun _ => "x", fun _ => "[]", fun _ => "()", fun _ => "[]", fun _ => "hole", fun _ => "fluid",
    fun _ => "table"⟩
  kd := ⟨true, true, true, true⟩
  fixed8 x := if 0 < x then "+" else "-"
  fixed4 x := if 0 < x then "+" else "-"
  wide4 x := if 0 < x then "+" else "-"
  draw t := .ok (some t)
  drawCoax _ := .ok none

def exGiven : Given := ⟨⟨100, 2, 10⟩, 1, exp 1, 1, 0, 1 / (8 * π), 1, ⟨1, 1⟩, ⟨2, 1, 18⟩, ⟨1, 2, 1, 1⟩⟩

theorem exGiven_sound : exGiven.Sound := by
  refine ⟨?_, ?_, ?_, ?_, ?_, ?_, ?_⟩
  · show (0 : ℝ) < 1; norm_num
  · show (1 : ℝ) < exp 1; exact one_lt_exp_iff.2 one_pos
  · show (0 : ℝ) < 10; norm_num
  · show (0 : ℝ) ≤ 0; norm_num
  · show (0 : ℝ) < 1; norm_num
  · show (0 : ℝ) < 2; norm_num
  · show (0 : ℝ) < 1; norm_num

theorem exGiven_k : 0 < exGiven.k := by
  show (0 : ℝ) < 1 / (8 * π)
  have := pi_pos
  positivity

/-- The conversion of the double U-tube returns a tube. -/
theorem exGiven_ok (V : ℝ) : ∃ t s, givenDouble exWorld exGiven V "parallel" = .ok t ∧
    computeEquivalent exWorld.ext exWorld.brent (.multiple t) = .ok (s, .multiple t) := by
  have hpi := pi_pos
  obtain ⟨pos, -, -, ht⟩ := givenDouble_eq exWorld exGiven V "parallel" (Or.inr rfl)
  generalize htt : (UTube.mk _ _ _ _ _ _ _ _ _ _ _ : UTube) = t at ht
  have hsound : t.Sound := by
    subst htt
    exact ⟨by norm_num, exGiven_sound.rIn, exGiven_sound.rOut, exGiven_sound.rb⟩
  obtain ⟨t0, ht0, e1, -⟩ := initialTube_eq Bhe.exExt ⟨t.b, t.pipe.eps, t.pipe.rhoCp, t.mBorehole, t.fluid, t.grout, t.soil⟩
    (uTubeVolumes t)
  have v1 : (uTubeVolumes t).Rpipe = 1 := by
    subst htt
    show log (exp 1 / 1) / (((2 * 2 : ℤ) : ℝ) * 2 * π * (1 / (8 * π))) = 1
    rw [div_one, log_exp]
    push_cast
    field_simp
    norm_num
  have v2 : (uTubeVolumes t).Rconv = 1 / 8 := by
    subst htt
    show 1 / (1 / (2 * π) * (((2 * 2 : ℤ) : ℝ) * π * (1 * 2) ^ 2)) = 1 / 8
    push_cast
    field_simp
    norm_num
  obtain ⟨p1, p2⟩ := uTubeVolumes_pos t hsound
  obtain ⟨hk, hR⟩ := initial_Rp Bhe.exExt _ _ p1 p2 (by rw [v1]; norm_num) t0 ht0
  have hin : t0.pipe.rIn = √2 := by
    rw [e1]
    congr 1
    subst htt
    show ((2 * 2 : ℤ) : ℝ) * π * 1 ^ 2 / (2 * π) = 2
    push_cast
    field_simp
    norm_num
  have hc : convRes Bhe.exExt t0 = 1 / √2 := by
    show 1 / (1 / (2 * π) * 2 * π * t0.pipe.rIn) = _
    rw [hin]
    congr 1
    field_simp
  have hs1 : 0 < 1 / √2 := by positivity
  have hs2 : 1 / √2 < 4 / 5 := by
    rw [div_lt_iff₀ (by positivity)]
    have : (5 / 4 : ℝ) < √2 := lt_sqrt_of_sq_lt (by norm_num)
    linarith
  have hfin : ∀ k, rbOf Bhe.exExt t = 1 ∧ ∀ y, rbOf Bhe.exExt (withKg Bhe.exExt (withK Bhe.exExt t0 k) y) = 1 / y :=
    fun k => ⟨by subst htt; show (1 : ℝ) / 1 = 1; norm_num, fun y => rfl⟩
  obtain ⟨s, hs⟩ := multiple_ok Bhe.exExt Bhe.exBrent exBrent_returns t t0 ht0
    (by rw [div_eq_mul_inv, rConduction_scale, hR, v1, v2, hc]; generalize 1 / √2 = y at *; intro h; norm_num at h; linarith)
    (by rw [rConduction_scale, hR, v1, v2, hc]; generalize 1 / √2 = y at *; intro h; norm_num at h; linarith)
    (fun k _ => by rw [(hfin k).1, (hfin k).2, (hfin k).2]; norm_num)
  exact ⟨t, s, ht, hs⟩

/-- C149 for the double U-tube: the script ends, after fifteen lines, with one picture. -/
example (start : Screen (Option UTube)) : ∃ s lines, doubleToSingle exWorld exGiven (1 / 5) start =
      (.ok (), ⟨start.lines ++ lines, Function.update start.pictures "double_to_single_equivalent.png" (some (some s))⟩) ∧
    lines.length = 15 ∧ lines[6]? = some "Fluid volumetric flow rate (L/s): +" := by
  obtain ⟨t, s, ht, hs⟩ := exGiven_ok (1 / 5)
  obtain ⟨t', ht', first, hfirst, -, h2⟩ := C149_double exWorld exGiven (1 / 5) exGiven_sound exGiven_k start
  rw [ht] at ht'; cases ht'
  obtain ⟨Rb, text, all, hall, hrun, -⟩ := h2 s _ hs
  refine ⟨s, _, (hrun (some s) rfl).trans (by rw [hall, hfirst]; simp only [List.append_assoc]; rfl), rfl, ?_⟩
  show some ("Fluid volumetric flow rate (L/s): " ++ (if (0 : ℝ) < 1 / 5 then "+" else "-")) = _
  rw [if_pos (by norm_num)]
  decide

/-- the coaxial exchanger with radii 1, 2, 3, 4 -/
def exGivenCoax : GivenCoax :=
  ⟨⟨100, 2, 5⟩, ⟨(1, 2), (3, 4), 0, (1, log (4 / 3) / (2 * π)), 1, (0, 0), 0⟩, ⟨1, 1⟩, ⟨2, 1, 18⟩, Bhe.exFluid⟩

theorem exGivenCoax_sound : exGivenCoax.Sound := by
  refine ⟨?_, ?_, ?_, ?_, ?_, ?_, ?_, ?_, ?_⟩
  · show (0 : ℝ) < 1; norm_num
  · show (1 : ℝ) < 2; norm_num
  · show (2 : ℝ) < 3; norm_num
  · show (3 : ℝ) < 4; norm_num
  · show (0 : ℝ) < 5; norm_num
  · show (0 : ℝ) ≤ 0; norm_num
  · show √2 * (0 : ℝ) < 1; norm_num
  · norm_num [exGivenCoax, Bhe.exFluid]
  · norm_num [exGivenCoax, Bhe.exFluid]

/-- C149 for the coaxial exchanger. -/
example (start : Screen (Option UTube)) : ∃ V s lines, coaxToSingle exWorld exGivenCoax V start =
      (.ok (), ⟨start.lines ++ lines, Function.update start.pictures "coaxial_to_single_equivalent.png" (some (some s))⟩) ∧
    lines.length = 17 ∧ 5 < s.b.rb := by
  have hV : massFlow (1000 / Bhe.exFluid.rho) Bhe.exFluid = 1 := by norm_num [massFlow, Bhe.exFluid]
  have hc : givenCoax exWorld exGivenCoax (1000 / Bhe.exFluid.rho) = Bhe.exCoax := by
    show mkCoax _ (massFlow (1000 / Bhe.exFluid.rho) Bhe.exFluid) _ _ _ _ _ = _
    rw [hV]
    rfl
  obtain ⟨s, hs, hb⟩ := Bhe.exCoax_ok
  obtain ⟨c, hc', first, hfirst, -, h2⟩ := C149_coaxial exWorld exGivenCoax (1000 / Bhe.exFluid.rho) exGivenCoax_sound
    (by show 0 < log (4 / 3) / (2 * π)
        have : 0 < log (4 / 3 : ℝ) := log_pos (by norm_num)
        have := pi_pos
        positivity) start 1 2 3 4 _ rfl rfl rfl
  rw [hc] at hc'; subst hc'
  obtain ⟨Rb, text, all, hall, hrun, -⟩ := h2 s _ hs
  exact ⟨_, s, _, (hrun (some s) rfl).trans (by rw [hall, hfirst]; simp only [List.append_assoc]; rfl), rfl, hb⟩

/-- C150: all scripts end. -/
example (start : Screen (Option UTube)) : (∃ s, singleScript exWorld exGiven (1 / 5) start = (.ok (), s)) ∧
    (∃ s, doubleScript exWorld exGiven (1 / 5) start = (.ok (), s)) ∧
    (∃ s, coaxScript exWorld exGivenCoax (1 / 5) start = (.ok (), s)) := by
  obtain ⟨t, -, -, -, -, -, all, -, -, -, -, -, -, -, h, -⟩ := C150_single exWorld exGiven (1 / 5) exGiven_sound start
  obtain ⟨tp, ts, -, -, -, -, -, -, all', -, -, -, -, -, -, -, -, -, -, h'⟩ :=
    C150_double exWorld exGiven (1 / 5) exGiven_sound start
  obtain ⟨c, -, -, -, -, -, -, all'', -, -, -, -, -, -, -, -, -, h'', -⟩ :=
    C150_coaxial exWorld exGivenCoax (1 / 5) exGivenCoax_sound start 1 2 3 4 rfl rfl
  exact ⟨⟨_, h _ rfl⟩, ⟨_, (h' _ rfl).2 _ rfl⟩, ⟨_, h'' _ rfl⟩⟩

/-- C150: and so does the comparison, with a workbook of one point per sheet; without its last sheet it does not. -/
example (start : Screen (Option UTube)) :
    (∃ s, validation exWorld (fun _ => none) (.ok [("Single U-tube", ⟨[1], [1], [1]⟩), ("Double U-tube", ⟨[1], [1], [1]⟩),
        ("Coaxial", ⟨[1], [1], [1]⟩)]) exGiven exGivenCoax [1 / 5, 1 / 10] [1] start = (.ok (), s)) ∧
    (∃ e, validation exWorld (fun _ => none) (.ok [("Single U-tube", ⟨[1], [1], [1]⟩), ("Double U-tube", ⟨[1], [1], [1]⟩)])
        exGiven exGivenCoax [1 / 5, 1 / 10] [1] start = (.error e, start)) := by
  constructor
  · obtain ⟨-, -, -, -, h, -⟩ := C150_plots exWorld (fun _ => none) (.ok [("Single U-tube", ⟨[1], [1], [1]⟩),
      ("Double U-tube", ⟨[1], [1], [1]⟩), ("Coaxial", ⟨[1], [1], [1]⟩)]) exGiven exGivenCoax exGiven_sound exGivenCoax_sound
      [1 / 5, 1 / 10] [1] start
    exact ⟨_, h _ ⟨[1], [1], [1]⟩ ⟨[1], [1], [1]⟩ ⟨[1], [1], [1]⟩ rfl rfl rfl rfl ⟨rfl, rfl⟩ ⟨rfl, rfl⟩ ⟨rfl, rfl⟩⟩
  · obtain ⟨-, -, -, -, -, -, h⟩ := C150_plots exWorld (fun _ => none) (.ok [("Single U-tube", ⟨[1], [1], [1]⟩),
      ("Double U-tube", ⟨[1], [1], [1]⟩)]) exGiven exGivenCoax exGiven_sound exGivenCoax_sound
      [1 / 5, 1 / 10] [1] start
    rcases h _ rfl ⟨"Coaxial", by simp, fun o ho => by
      have : PyDict.find? [("Single U-tube", (⟨[1], [1], [1]⟩ : Column)), ("Double U-tube", ⟨[1], [1], [1]⟩)] "Coaxial" = none :=
        rfl
      rw [this] at ho; cases ho⟩ with h | h
    · exact ⟨_, h⟩
    · exact ⟨_, h⟩

end

end Ghedt.TubeScript
