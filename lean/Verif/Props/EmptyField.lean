import Verif.Props.Features
import Verif.Props.WholeSearch

/-!
# A search that starts from an empty field (C20)
-/

namespace Ghedt.WholeSearch
open Real Ghedt.GHE Ghedt.Bhe Ghedt.Radial Ghedt.Whole Ghedt.Search Ghedt.Utilities Ghedt.FeatureRecognition Ghedt.Domains

noncomputable section

variable {p : Problem}

/-- making the first exchanger from an empty field -/
theorem setup_empty (d : List (List (ℝ × ℝ))) (s : State) :
    setup p ([] :: d) s = (.error (if p.flow = "borehole" then .indexError else
      if p.flow = "system" then .zeroDivisionError else .valueError), s) := by
  unfold setup
  rw [St.lift_ok (show pyGet ([] :: d) 0 = .ok [] from rfl)]
  by_cases hb : p.flow = "borehole"
  · rw [if_pos hb, St.lift_ok (a := (p.V * ((0 : ℕ) : ℝ), p.V / 1000 * p.media.fluid.rho))
      (by unfold retrieveFlow; rw [if_pos hb]; rfl)]
    rw [St.lift_error (e := .indexError) (by
      unfold buildGhe
      rw [(C27_spacing p.borehole.rb).1]
      rfl)]
  · rw [if_neg hb]
    by_cases hs : p.flow = "system"
    · rw [if_pos hs, St.lift_error (e := .zeroDivisionError) (by
        unfold retrieveFlow
        rw [if_neg hb, if_pos hs, show (([] : List (ℝ × ℝ)).length : ℝ) = 0 by simp]
        unfold pyDiv
        rw [if_pos rfl]
        rfl)]
    · rw [if_neg hs, St.lift_error (e := .valueError) (by
        unfold retrieveFlow
        rw [if_neg hb, if_neg hs])]

/-- C20: a search that is given an empty field first raises before anything is simulated: `IndexError` if the flow is
given per borehole, `ZeroDivisionError` if it is given for the system. -/
theorem C20_search (hflow : p.flow = "borehole" ∨ p.flow = "system") (d : List (List (ℝ × ℝ)))
    (n : List (List (List (ℝ × ℝ)))) (s : State) {e : PyErr}
    (he : e = if p.flow = "borehole" then .indexError else .zeroDivisionError) :
    (bisection1D p ([] :: d) s).1 = .error e ∧ (bisection2D p (([] :: d) :: n) s).1 = .error e ∧
      (bisectionZD p (([] :: d) :: n) s).1 = .error e := by
  have h := setup_empty (p := p) d s
  have he' : (if p.flow = "borehole" then PyErr.indexError else
      if p.flow = "system" then .zeroDivisionError else .valueError) = e := by
    rw [he]
    rcases hflow with h | h
    · rw [if_pos h, if_pos h]
    · rw [if_pos h]
  rw [he'] at h
  refine ⟨?_, ?_, ?_⟩
  · unfold bisection1D
    rw [St.bind_error h]
  · unfold bisection2D
    rw [St.lift_ok (show pyGet (([] :: d) :: n) 0 = .ok ([] :: d) from rfl), St.bind_error h]
  · unfold bisectionZD
    rw [St.lift_ok (show pyGet (([] :: d) :: n) 0 = .ok ([] :: d) from rfl), St.bind_error h]

/-- C20: hence, if some field of the first nested domain has a borehole on the property but every such borehole is on or
inside the building, searching the nested domains left by `polygonal_land_constraint` always raises. -/
theorem C20_polygonal_search (hflow : p.flow = "borehole" ∨ p.flow = "system") {polyTest : List (ℝ × ℝ) → ℝ × ℝ → ℝ}
    {prop bld : List (ℝ × ℝ)} {Bmin BX BY X Y : ℝ} (hBmin : 0 < Bmin) (hBX : 0 < BX) (hBY : 0 < BY)
    (hrect : determineLargestRectangle prop = [(0, 0), (X, 0), (X, Y), (0, Y), (0, 0)])
    (hX : 0 < X) (hY : 0 < Y) {full : List (List (List (ℝ × ℝ)))}
    (hfull : Domains.biRectangleNested X Y Bmin BX BY = .ok full) {D : List (List (ℝ × ℝ))}
    (hD : full.head? = some D) {g : List (ℝ × ℝ)} (hg : g ∈ D)
    (hon : ∃ q ∈ g, 0 ≤ classify polyTest prop q)
    (hcov : ∀ q ∈ g, 0 ≤ classify polyTest prop q → 0 ≤ classify polyTest bld q) (s : State) {e : PyErr}
    (he : e = if p.flow = "borehole" then .indexError else .zeroDivisionError) :
    ∃ out, polygonalLandConstraint polyTest prop Bmin BX BY bld = .ok out ∧
      (bisection2D p out s).1 = .error e ∧ (bisectionZD p out s).1 = .error e := by
  obtain ⟨out, R, h1, h2, h3⟩ := C20_polygonal_empty_field hBmin hBX hBY hrect hX hY hfull
    (i := 0) (by rw [← List.head?_eq_getElem?]; exact hD) hg hon hcov
  refine ⟨out, h1, ?_⟩
  cases out with
  | nil => cases h2
  | cons a n =>
    cases h2
    cases R with
    | nil => cases h3
    | cons f d =>
      cases h3
      exact (C20_search hflow d n s he).2

/-- Such a property exists: a square of 10 m covered by a building (the classifier says "inside" of every point). -/
example (hflow : p.flow = "borehole") : ∃ out, polygonalLandConstraint (fun _ _ => 1) [((10 : ℝ), 10)] 5 10 10 [] = .ok out ∧
    (bisection2D p out {}).1 = .error .indexError := by
  have hr : determineLargestRectangle [((10 : ℝ), (10 : ℝ))] = [(0, 0), (10, 0), (10, 10), (0, 10), (0, 0)] := by
    norm_num [determineLargestRectangle]
  obtain ⟨n, h1, h2, h3, -⟩ := C13_nested (X := (10 : ℝ)) (Y := 10) (Bmin := 5) (BX := 10) (BY := 10) (by norm_num)
    (by norm_num) (by norm_num) (by norm_num) (by norm_num) (.inl ⟨le_rfl, rfl, rfl, rfl, rfl⟩)
  have f1 : ⌊(10 : ℝ) / 5 + 1⌋ = 3 := by norm_num
  have f2 : ⌈(10 : ℝ) / 10 + 1⌉ = 2 := by norm_num
  rw [f1, f2] at h2 h3
  cases n with
  | nil => simp at h2
  | cons D n =>
    obtain ⟨-, -, g1, g2, -⟩ := h3 D (by simp)
    have hne := g1.2 (by norm_num)
    have hhead := g2 hne
    obtain ⟨out, q1, q2, -⟩ := C20_polygonal_search (p := p) (.inl hflow) (polyTest := fun _ _ => 1) (bld := [])
      (by norm_num : (0 : ℝ) < 5) (by norm_num : (0 : ℝ) < 10) (by norm_num : (0 : ℝ) < 10) hr (by norm_num) (by norm_num) h1
      rfl (List.mem_of_mem_head? hhead) ⟨(0, 0), by simp, by norm_num [classify]⟩ (by norm_num [classify]) {} rfl
    rw [if_pos hflow] at q2
    exact ⟨out, q1, q2⟩

end

end Ghedt.WholeSearch
