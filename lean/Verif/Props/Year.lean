import Verif.Props.ZonedDesign
import Verif.Props.ZonedShape

/-!
# A year of loads of the wrong length (C95), and the shape of a bi-zoned design (C106)
-/

set_option linter.unusedSectionVars false

namespace Ghedt.WholeSearch
open Real Ghedt.GHE Ghedt.Bhe Ghedt.Radial Ghedt.Whole Ghedt.Search Ghedt.Utilities Ghedt.Spec Ghedt.Network Ghedt.Design
  Ghedt.Domains

noncomputable section

variable {p : Problem} {f : Field} {H : ℝ} {bhe : Exchanger} {s : UTube}

/-- C95, loads: with everything else usable, a number of hourly loads other than 8760 (the hours of 2019) is refused with
`AssertionError`: a leap year, a year and an hour, and no loads at all are refused alike. -/
theorem C95_year (h : Usable p f H bhe s) (l : List ℝ) (hl : l.length ≠ 8760) :
    fresh { p with hourly := l } f H = .error .assertionError := by
  obtain ⟨B, hB, hBr⟩ := spacing_ok (rb := p.borehole.rb) h.field
  obtain ⟨c, hc, hcl⟩ := h.curve
  obtain ⟨sts, -, -, -, h1, -, -, -⟩ := h.hybrid
  obtain ⟨Vs, hV, v, hv⟩ := h.flows
  unfold fresh buildGhe mkGhe
  dsimp only
  rw [hV, Except.ok_bind]
  dsimp only
  rw [hB, Except.ok_bind, computeLive_one (h.text B hB) hc f, Except.ok_bind]
  change (gheFlow Vs p.media.fluid.rho f.length >>= _) = _
  rw [hv, Except.ok_bind]
  dsimp only
  rw [h.exchanger, Except.ok_bind, h.converts, Except.ok_bind]
  dsimp only
  rw [h1, Except.ok_bind, split_eq, Except.ok_bind]
  dsimp only
  unfold GL.mkHybrid
  rw [GL.mkLoads_bad _ (by
    rw [List.length_map, List.length_map]
    exact hl)]
  rfl

/-- the first field of the candidates -/
def firstField : Candidates ℝ → Option Field
  | .flat d => d.head?
  | .nested n => n.head?.bind List.head?

/-- if the first exchanger cannot be made, the search ends with that error -/
theorem setup_error {q : Problem} {e : PyErr} (d : List Field) (hd : d.head? = some f)
    (h : fresh q f q.borehole.H = .error e) (σ : State) : setup q d σ = (.error e, σ) := by
  obtain ⟨d', rfl⟩ : ∃ d', d = f :: d' := by
    cases d with
    | nil => cases hd
    | cons a d' => cases hd; exact ⟨d', rfl⟩
  have e0 : pyGet (f :: d') 0 = .ok f := rfl
  unfold setup
  rw [St.lift_ok e0]
  unfold fresh at h
  cases hr : retrieveFlow q.flow q.V q.media.fluid.rho f.length with
  | error e' =>
    rw [hr] at h
    cases h
    rw [St.lift_error rfl]
  | ok v =>
    rw [hr, Except.ok_bind] at h
    rw [St.lift_ok rfl, St.lift_error h]

/-- C95, designs: if the first candidate cannot be made from the arguments, the design raises that error, whatever the land
and the routine. -/
theorem C95_design {q : Problem} {e : PyErr} (fuel : ℕ) (gc : Constraints ℝ) (routine : String) {c : Candidates ℝ}
    (hi : designInit fuel gc routine = .ok c) (hf : firstField c = some f) (h : fresh q f q.borehole.H = .error e) :
    (design q fuel gc routine {}).1 = .error e := by
  rw [design_eq hi]
  have hb : ∀ {α : Type} (d : List Field), d.head? = some f → ∀ (k : Unit → St State α) σ,
      ((setup q d >>= k) σ).1 = .error e := by
    intro α d hd k σ
    rw [St.bind_error (setup_error d hd h σ)]
  have hn : ∀ {α : Type} (n : List (List Field)), (n.head?.bind List.head?) = some f → ∀ (k : List Field → Unit → St State α) σ,
      ((St.lift (pyGet n 0) >>= fun first => setup q first >>= k first) σ).1 = .error e := by
    intro α n hd k σ
    cases n with
    | nil => cases hd
    | cons d n =>
      have e0 : pyGet (d :: n) 0 = .ok d := rfl
      rw [St.lift_ok e0]
      exact hb d hd _ σ
  unfold designInit at hi
  obtain ⟨-, -, hi⟩ := bind_eq_ok.1 hi
  unfold findDesign
  split_ifs at hi ⊢ with h1 h2 h3 h4
  · obtain ⟨d, -, hi⟩ : ∃ d, True ∧ c = .flat d := by
      simp only [bind_eq_ok, Except.pure_eq, Except.ok.injEq] at hi
      obtain ⟨_, -, _, -, _, -, d, -, rfl⟩ := hi
      exact ⟨d, trivial, rfl⟩
    subst hi
    exact hb d hf _ _
  · obtain ⟨d, -, hi⟩ : ∃ d, True ∧ c = .flat d := by
      simp only [bind_eq_ok, Except.pure_eq, Except.ok.injEq] at hi
      obtain ⟨_, -, _, -, _, -, _, -, d, -, rfl⟩ := hi
      exact ⟨d, trivial, rfl⟩
    subst hi
    exact hb d hf _ _
  · obtain ⟨n, -, hi⟩ : ∃ d, True ∧ c = .nested d := by
      simp only [bind_eq_ok, Except.pure_eq, Except.ok.injEq] at hi
      obtain ⟨_, -, _, -, _, -, _, -, _, -, d, -, rfl⟩ := hi
      exact ⟨d, trivial, rfl⟩
    subst hi
    exact hn n hf _ _
  · obtain ⟨n, -, hi⟩ : ∃ d, True ∧ c = .nested d := by
      simp only [bind_eq_ok, Except.pure_eq, Except.ok.injEq] at hi
      obtain ⟨_, -, _, -, _, -, _, -, _, -, d, -, rfl⟩ := hi
      exact ⟨d, trivial, rfl⟩
    subst hi
    have := hn (α := ℤ × Field) n hf (fun first _ => do
      let outer ← St.lift (outerDomain n)
      let r ← search q outer
      match r with
      | none => St.throw .typeError
      | some (key, _) =>
        let outerKey := if key > 0 then key - 1 else key
        St.modify fun s => { s with heights := [] }
        searchSuccessive q n outerKey) {}
    show ((bisectionZD q n >>= _) _).1 = _
    rcases hz : bisectionZD q n {} with ⟨r, s⟩
    have hz' : r = .error e := by
      have h' : (bisectionZD q n {}).1 = .error e := this
      rw [hz] at h'
      exact h'
    subst hz'
    rw [St.bind_error hz]

/-- C95, designs with a year of the wrong length: so whatever the land and the routine, `AssertionError` is raised, if
there is a candidate and the first could be made with 8760 loads. -/
theorem C95_design_year (fuel : ℕ) (gc : Constraints ℝ) (routine : String) {c : Candidates ℝ}
    (hi : designInit fuel gc routine = .ok c) (hf : firstField c = some f) (h : Usable p f p.borehole.H bhe s)
    (l : List ℝ) (hl : l.length ≠ 8760) :
    (design { p with hourly := l } fuel gc routine {}).1 = .error .assertionError :=
  C95_design fuel gc routine hi hf (C95_year h l hl)

/-- C106, bi-zoned, land at least as long as wide: the design has one of the shapes of the zoned routine. -/
theorem C106_biZoned_shape (fuel : ℕ) (gc : Constraints ℝ) {X Y Bmin BX BY : ℝ} (hY : 0 < Y) (hXY : Y ≤ X)
    (hBmin : 0 < Bmin) (hBX : 0 < BX) (hBY : 0 < BY) (hX' : BX < X) (hY' : BY < Y)
    (hc1 : ⌈X / BX + 1⌉ ≤ ⌊X / Bmin + 1⌋) (hc2 : ⌈Y / BY + 1⌉ ≤ ⌊Y / Bmin + 1⌋)
    (hfuel : ⌊X / Bmin + 1⌋ + ⌊Y / Bmin + 1⌋ ≤ fuel) (h1 : gc.length = some X) (h2 : gc.width = some Y)
    (h3 : gc.Bmin = some Bmin) (h4 : gc.BmaxX = some BX) (h5 : gc.BmaxY = some BY) (key : ℤ) (f : Field) (c' : State)
    (h : design p fuel gc "bi-zoned" {} = (.ok (some (key, f)), c')) :
    ZonedShape X Y Bmin BX BY ⌈X / BX + 1⌉ ⌈Y / BY + 1⌉ f := by
  obtain ⟨s', hs, -⟩ := design_abs h
  exact C79_biZoned_shape fuel (absEnv p) gc hY hXY hBmin hBX hBY hX' hY' hc1 hc2 hfuel h1 h2 h3 h4 h5 s' key f hs

/-- the rectangle design of a 10 m square with a leap year of loads -/
example : (design { exProblem with hourly := List.replicate 8784 (-10000) } 0 ⟨some 10, some 10, none, some 5, some 5, none⟩
    "rectangle" {}).1 = .error .assertionError := by
  obtain ⟨d, hd, hi⟩ := ((C77_available (K := ℝ) 0 ⟨some 10, some 10, none, some 5, some 5, none⟩ (X := 10) (Y := 10) (B := 1)
    (Bmin := 5) (BX := 5) (BY := 5) (by norm_num) (by norm_num) (by norm_num) (by norm_num) (by norm_num) (by norm_num)
    rfl).2 rfl rfl rfl).1
  obtain ⟨hs, hn, hh⟩ := C11_rectangular_sizes (K := ℝ) (by norm_num) (by norm_num) (by norm_num) (by norm_num) hd
  have hne := hn.2 ⟨3, by norm_num, by norm_num⟩
  obtain ⟨s, hu, -⟩ := exUsable [(0, 0)] (by simp) 100 (by norm_num) (by
    intro B hB
    left
    exact (Except.ok.inj hB).symm)
  exact C95_design_year 0 _ "rectangle" hi (hh hne) hu _ (by rw [List.length_replicate]; norm_num)

end
end Ghedt.WholeSearch
