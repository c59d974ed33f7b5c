import Verif.Props.Workflow
import Verif.Props.ZonedExample

/-!
# From sensible arguments to a height (C115): concrete cases
-/

set_option linter.unusedSectionVars false

namespace Ghedt.WholeSearch
open Real Ghedt.GHE Ghedt.Bhe Ghedt.Radial Ghedt.Whole Ghedt.Search Ghedt.Utilities Ghedt.Spec Ghedt.Network Ghedt.Design
  Ghedt.Domains Ghedt.Coordinates

noncomputable section

/-- Lagrange's formula keeps constants constant. -/
theorem lagrangeSpl_constant (kind : String) (x y : List ℝ) (c h : ℝ) (h2 : 2 ≤ x.length) (hl : x.length = y.length)
    (hx : x.Nodup) (hy : ∀ v ∈ y, v = c) : GF.lagrangeSpl kind x y h = c := by
  unfold GF.lagrangeSpl
  have hinj : Set.InjOn (fun i => x.getD i 0) (Finset.range x.length : Set ℕ) := by
    intro p hp q hq hpq
    simp only [Finset.coe_range, Set.mem_Iio] at hp hq
    simp only [List.getD_eq_getElem?_getD, List.getElem?_eq_getElem hp,
      List.getElem?_eq_getElem hq, Option.getD_some] at hpq
    exact (List.Nodup.getElem_inj_iff hx).1 hpq
  rw [Lagrange.interpolate_apply]
  rw [Finset.sum_congr rfl (g := fun i => Polynomial.C c * Lagrange.basis (Finset.range x.length) (fun i => x.getD i 0) i)]
  · rw [← Finset.mul_sum, Lagrange.sum_basis hinj ⟨0, Finset.mem_range.2 (by omega)⟩]
    simp
  · intro i hi
    have hi' : i < y.length := by rw [← hl]; exact Finset.mem_range.1 hi
    rw [List.getD_eq_getElem?_getD, List.getElem?_eq_getElem hi', Option.getD_some, hy _ (List.getElem_mem hi')]

/-- the root finder of the examples asks for the middle only -/
theorem exAsked (e : ℝ → ℝ) (H : ℝ) (hH : H ∈ asked e (Bhe.exBrent 50 100)) : H = 75 := by
  simp only [Bhe.exBrent, asked, List.mem_cons, List.not_mem_nil, or_false] at hH
  rw [hH]
  norm_num

theorem exSizing {q : Problem} (hb : q.brent = Bhe.exBrent) (hmin : q.minHeight = 50) (hmax : q.maxHeight = 100)
    (hs : q.spl = GF.lagrangeSpl) (hq : q.media.soil = (exDouble 100).soil) (hfuel : q.fuel = 10 ^ 9) {f : Field}
    (ht : ∀ H, H = 50 ∨ H = 75 ∨ H = 100 → TextFine q f H) (hc : ∀ H, 0 < H → Converts q f H) : SizingFine q f := by
  refine ⟨?_, ?_, ?_, ?_, ?_, ?_, ?_⟩
  · rw [hmin, hmax]; norm_num
  · rw [hmin, hmax]
    exact ⟨exHeightFine _ hq hfuel _ (.inl rfl), exHeightFine _ hq hfuel _ (.inr rfl)⟩
  · rw [hmin, hmax]
    exact ⟨hc _ (by norm_num), hc _ (by norm_num)⟩
  · rw [hmin, hmax]
    intro H hH
    apply ht
    simp only [List.mem_cons, List.not_mem_nil, or_false] at hH
    rcases hH with rfl | rfl | rfl
    · exact .inl rfl
    · exact .inr (.inl (by norm_num))
    · exact .inr (.inr rfl)
  · rw [hs]; exact GF.lagrangeSpl_reproduces
  · rw [hs]; exact lagrangeSpl_constant
  · rw [hb, hmin, hmax]
    intro e H hH
    rw [exAsked e H hH]
    exact ⟨exHeightFine75 _ hq hfuel _ (.inr (.inl rfl)), hc _ (by norm_num)⟩

theorem exSingle_sizing {f : Field} (hB : ∀ B, boreholeSpacing (3 / 40) f = .ok B → B = 3 / 40 ∨ B = 5) :
    SizingFine exSingle f :=
  exSizing rfl rfl rfl rfl rfl rfl (fun H hH => (exText75 f hB H hH).1) fun H _ => exSingle_converts f H

theorem exLimit_sizing (T t : ℝ) {f : Field} (hB : ∀ B, boreholeSpacing (3 / 40) f = .ok B → B = 3 / 40 ∨ B = 5) :
    SizingFine (exLimit T t) f :=
  exSizing rfl rfl rfl rfl rfl rfl (fun H hH => (exText75 f hB H hH).2) fun H hH => exNet_converts f H hH

theorem exSingle_period {H : ℝ} (hH : 50 ≤ H) : PeriodFine exSingle H := by
  refine .inr ⟨rfl, .inl exHourly_placed, ?_⟩
  rw [exSoilTime _ rfl]
  have h1 : 1 ≤ exp (3003 / 1000 : ℝ) := one_le_exp (by norm_num)
  show 3600 * ((hoursOf 12 : ℕ) : ℝ) ≤ _
  rw [show hoursOf 12 = 8760 by decide]
  have h2 : (2500 : ℝ) ≤ H ^ 2 := by nlinarith
  push_cast
  nlinarith

/-- C115 applies: a row of single U-tubes, sized by the hybrid method -/
example (n : ℕ) (hn : n ≠ 0) : ∃ x y, fresh exSingle (exRow n) 100 = .ok x ∧
    computeG exSingle { held := some x } = (.ok (), { held := some y }) ∧ SizeOutcome exSingle "hybrid" y :=
  C115_size exSingle_sensible (exRow_ne hn) (exRow_nodup n) (exSingle_sizing (exRow_spacing n)) "hybrid"
    (exSingle_period le_rfl)

/-- The root finder of the examples always returns, so sizing that row returns unless a temperature is at its limit. -/
example (n : ℕ) (hn : n ≠ 0) : ∃ x y, fresh exSingle (exRow n) 100 = .ok x ∧
    computeG exSingle { held := some x } = (.ok (), { held := some y }) ∧
    ((∃ w, (Whole.size y.env "hybrid" y.state).1 = .ok w) ∨
      (Whole.size y.env "hybrid" y.state).1 = .error .zeroDivisionError) := by
  obtain ⟨x, y, h1, h2, h3⟩ := C115_size exSingle_sensible (exRow_ne hn) (exRow_nodup n) (exSingle_sizing (exRow_spacing n))
    "hybrid" (exSingle_period le_rfl)
  refine ⟨x, y, h1, h2, ?_⟩
  cases hs : (Whole.size y.env "hybrid" y.state).1 with
  | ok w => exact .inl ⟨w, rfl⟩
  | error e =>
    rcases h3.errors hs with ⟨rfl, -⟩ | ⟨g, hg⟩
    · exact .inr rfl
    · cases hg

/-- C115 applies to the near-square design of C107: the g-functions of the field returned can be computed, and it can be
sized by the hourly method. -/
example : ∃ (N : ℕ) (T t : ℝ) (k : ℕ) (f : Field) (c' : State) (y : Held), f ≠ [(0, 0)] ∧
    design (exLimit T t) 0 { length := some (5 * (N : ℝ)), B := some 5 } "near-square" {} = (.ok (some ((k : ℤ), f)), c') ∧
    computeG (exLimit T t) c' = (.ok (), { c' with held := some y }) ∧ SizeOutcome (exLimit T t) "hourly" y := by
  obtain ⟨N, T, t, k, f, hN, -, -, -, -, h, hne⟩ := exDesign
  rcases hr : design (exLimit T t) 0 { length := some (5 * N), B := some 5 } "near-square" {} with ⟨r, c'⟩
  rw [hr] at h
  change r = _ at h
  subst h
  have hN0 : (0 : ℝ) < 5 * N := by positivity
  obtain ⟨n, d, hn, hd, hi⟩ := (C77_available 0 { length := some (5 * (N : ℝ)), B := some 5 } hN0 hN0
    (by norm_num : (0 : ℝ) < 5) hN0 hN0 hN0 rfl).1 rfl
  have hn1 : 1 ≤ n := by
    simp only [numberOfBoreholes, pyDiv_ok (show (5 : ℝ) ≠ 0 by norm_num), Except.ok_bind, Except.pure_eq] at hn
    rw [← Except.ok.inj hn, mul_div_cancel_left₀ _ (by norm_num)]
    simp
  have hr' := hr
  rw [design_eq hi] at hr'
  have hD := exLimit_designable T t hn1 hd
  obtain ⟨k', f', y, e, -, h2, h3, -⟩ := C115_design "near-square" (by decide) (.flat d) (exLimit_sensible T t) "hourly"
    hD.period.1 (fun k f hk => by
      obtain ⟨nx, ny, q1, q2, q3, rfl⟩ := exSquare_mem hn1 hd f (List.mem_of_getElem? hk)
      have hG := isGrid_lattice q1 q2 (show (0 : ℝ) < 5 by norm_num) (show (0 : ℝ) < 5 by norm_num)
      exact ⟨isGrid_ne hG, hG.distinct, exLimit_sizing T t (exSquare_spacing q1 q2 q3)⟩) _ _ hr'
  exact ⟨N, T, t, k, f, c', y, hne, hr, h2, h3⟩

/-- C115 applies to a bi-zoned design of single U-tubes, with hybrid loads: on a strip of land of any length, the design
returns a field or raises `ZeroDivisionError` or `ValueError`. -/
example (N : ℕ) (hN : 4 ≤ N) : ∃ n, ZonedSized exSingle n (design exSingle (N + 5)
      { length := some (5 * (N : ℝ)), width := some 15, Bmin := some 5, BmaxX := some 5, BmaxY := some 5 } "bi-zoned" {}).1 ∨
    (design exSingle (N + 5)
      { length := some (5 * (N : ℝ)), width := some 15, Bmin := some 5, BmaxX := some 5, BmaxY := some 5 } "bi-zoned" {}).1 =
      .error .valueError := by
  have hN3 : (4 : ℝ) ≤ N := by exact_mod_cast hN
  set gc : Constraints ℝ :=
    { length := some (5 * (N : ℝ)), width := some 15, Bmin := some 5, BmaxX := some 5, BmaxY := some 5 } with hgc
  have e1 : (5 * N : ℝ) / 5 + 1 = ((N + 1 : ℤ) : ℝ) := by push_cast; ring
  have e2 : (15 : ℝ) / 5 + 1 = ((4 : ℤ) : ℝ) := by norm_num
  have hfu : ⌊(5 * N : ℝ) / 5 + 1⌋ + ⌊(15 : ℝ) / 5 + 1⌋ ≤ ((N + 5 : ℕ) : ℤ) := by
    rw [e1, e2, Int.floor_intCast, Int.floor_intCast]
    push_cast
    omega
  obtain ⟨n, dl, fl, hi, -, -, h⟩ := C115_biZoned (p := exSingle) (N + 5) gc (X := 5 * N) (Y := 15) (by linarith) (by norm_num)
    (show (0 : ℝ) < 5 by norm_num) (show (0 : ℝ) < 5 by norm_num) (show (0 : ℝ) < 5 by norm_num) rfl rfl rfl rfl rfl hfu
    (by rw [e1, Int.ceil_intCast, Int.floor_intCast]) (by rw [e2, Int.ceil_intCast, Int.floor_intCast]) (by linarith)
    (by norm_num)
  have hn : biRectangleZonedNested (N + 5) (5 * N : ℝ) 15 5 5 5 = .ok n := by
    have := (((C77_available (N + 5) gc (X := 5 * N) (Y := 15) (B := 5) (by linarith) (by norm_num) (by norm_num)
      (show (0 : ℝ) < 5 by norm_num) (show (0 : ℝ) < 5 by norm_num) (show (0 : ℝ) < 5 by norm_num) rfl).2 rfl rfl rfl).2 rfl).2
    rw [hi] at this
    cases hb : biRectangleZonedNested (N + 5) (5 * N : ℝ) 15 5 5 5 with
    | error e => rw [hb] at this; cases this
    | ok m =>
      rw [hb] at this
      cases this
      rfl
  have hfive : ∀ f ∈ n.flatten, Five f := by
    intro f hf
    obtain ⟨d, hd, hf⟩ := List.mem_flatten.1 hf
    exact (exZoned_mem N (by omega) (N + 5) le_rfl hn).2 d hd f hf
  have hH : ∀ H ∈ [exSingle.borehole.H, exSingle.minHeight, exSingle.maxHeight], H = 50 ∨ H = 100 := by
    intro H hH
    have : H ∈ [(100 : ℝ), 50, 100] := hH
    simp only [List.mem_cons, List.not_mem_nil, or_false] at this
    tauto
  obtain ⟨c, -, hc, -⟩ := h ⟨exSingle_sensible, ⟨exHeightFine _ rfl rfl _ (hH _ (by simp)),
    exHeightFine _ rfl rfl _ (hH _ (by simp)), exHeightFine _ rfl rfl _ (hH _ (by simp))⟩,
    ⟨exSingle_period le_rfl, exSingle_period (show (50 : ℝ) ≤ 100 by norm_num)⟩,
    fun f hf H h => (exText _ (hfive f hf).spacing H (hH H h)).1, fun f _ H _ => exSingle_converts f H⟩
    (exSingle_period le_rfl) (fun f hf => exSingle_sizing (hfive f hf).spacing)
  exact ⟨n, hc⟩

end

end Ghedt.WholeSearch
