import Verif.Props.RoundedDesign

/-!
# C119 — what rounding errors change

In double precision, on lands and spacings a user may well enter: a candidate is missing, two domains are the same, the
minimum spacing is not kept, a borehole lies outside the land.
-/

namespace Ghedt.Rounded
open Coordinates Domains Spec

/-- double precision -/
def dbl : Rounding ℚ := Rounding.double

theorem dbl_fl (x : ℚ) : dbl.fl x = double x := rfl

/-- a tenth is not representable, a quarter is -/
example : double (1 / 10 : ℚ) ≠ 1 / 10 ∧ double (1 / 4 : ℚ) = 1 / 4 := by decide +kernel
/-- `0.1 + 0.2 != 0.3`, as in every introduction to floating point -/
example : double (double (1 / 10) + double (2 / 10) : ℚ) ≠ double (3 / 10) := by decide +kernel
/-- the sum is `0.3000000000000000444…` -/
example : double (double (1 / 10) + double (2 / 10) : ℚ) = 1351079888211149 / 2 ^ 52 := by decide +kernel

theorem ok_of_map {α β : Type} {x : Py α} {f : α → β} {b : β} (h : x.map f = .ok b) : ∃ a, x = .ok a ∧ f a = b := by
  cases x with
  | error e => cases h
  | ok a => exact ⟨a, rfl, by simpa [Except.map] using h⟩

/-- C119, a candidate is missing: on a land of 100 m × 100 m with spacings from 8 m to 10 m, the field of 12 × 12 boreholes
(spacing 100/11 m) is among the candidates in exact arithmetic, but not in double precision. -/
theorem C119_square_loses_field :
    ∃ d d', Domains.rectangular (100 : ℚ) 100 8 10 = .ok d ∧ rectangular dbl 100 100 8 10 = .ok d' ∧
      (∃ f ∈ d, f.length = 144) ∧ ∀ f ∈ d', f.length ≠ 144 := by
  have h1 : (Domains.rectangular (100 : ℚ) 100 8 10).map (fun d => d.any fun f => f.length = 144) = .ok true := by
    decide +kernel
  have h2 : (rectangular dbl 100 100 8 10).map (fun d => d.all fun f => f.length ≠ 144) = .ok true := by
    decide +kernel
  obtain ⟨d, e1, a1⟩ := ok_of_map h1
  obtain ⟨d', e2, a2⟩ := ok_of_map h2
  exact ⟨d, d', e1, e2, by simpa using a1, by simpa using a2⟩

/-- C119, a domain is repeated: on a land of 65 m × 49 m with spacings from 4 m to 5 m there are domains for 11, 12 and 13
rows in exact arithmetic; in double precision the second and the third are the same, both for 13 rows. -/
theorem C119_nested_repeats :
    ∃ d d', Domains.biRectangleNested (65 : ℚ) 49 4 5 5 = .ok d ∧ biRectangleNested dbl 65 49 4 5 5 = .ok d' ∧
      (d.map fun e => e.getLast?.map List.length) = [some (17 * 11), some (17 * 12), some (17 * 13)] ∧
      (d'.map fun e => e.getLast?.map List.length) = [some (17 * 11), some (17 * 13), some (17 * 13)] ∧
      d'[1]? = d'[2]? := by
  have h1 : (Domains.biRectangleNested (65 : ℚ) 49 4 5 5).map (fun d => d.map fun e => e.getLast?.map List.length) =
      .ok [some (17 * 11), some (17 * 12), some (17 * 13)] := by decide +kernel
  have h2 : (biRectangleNested dbl 65 49 4 5 5).map (fun d => (d.map fun e => e.getLast?.map List.length,
      decide (d[1]? = d[2]?))) = .ok ([some (17 * 11), some (17 * 13), some (17 * 13)], true) := by decide +kernel
  obtain ⟨d, e1, a1⟩ := ok_of_map h1
  obtain ⟨d', e2, a2⟩ := ok_of_map h2
  simp only [Prod.mk.injEq, decide_eq_true_eq] at a2
  exact ⟨d, d', e1, e2, a1, a2.1, a2.2⟩

/-- C119, the minimum spacing is not kept: on a land of 65 m × 60 m with spacings from 4.5 m to 5 m, double precision gives a
field with two boreholes less than 4.3 m apart. -/
theorem C119_nested_too_close :
    ∃ d, biRectangleNested dbl 65 60 (9 / 2) 5 5 = .ok d ∧
      ∃ e ∈ d, ∃ f ∈ e, ∃ y, (0, 0) ∈ f ∧ (0, y) ∈ f ∧ 0 < y ∧ y < 43 / 10 := by
  have h : (biRectangleNested dbl 65 60 (9 / 2) 5 5).map (fun d => d.any fun e => e.any fun f =>
      decide ((0, 0) ∈ f) && f.any fun p => decide (p.1 = 0 ∧ 0 < p.2 ∧ p.2 < 43 / 10)) = .ok true := by decide +kernel
  obtain ⟨d, e1, a1⟩ := ok_of_map h
  simp only [List.any_eq_true, Bool.and_eq_true, decide_eq_true_eq] at a1
  obtain ⟨e, he, f, hf, h0, p, hp, hx, hy⟩ := a1
  exact ⟨d, e1, e, he, f, hf, p.2, h0, by rw [← hx]; exact hp, hy⟩

/-- C119, outside the land: on a land of 10.5 m × 5 m with spacings from 0.5 m to 0.625 m, double precision puts a borehole
beyond 10.5 m (by less than `10^-14` m, see C117). -/
theorem C119_outside :
    ∃ d, rectangular dbl (21 / 2) 5 (1 / 2) (5 / 8) = .ok d ∧ ¬ DomainInLand (21 / 2) 5 d := by
  have h : (rectangular dbl (21 / 2) 5 (1 / 2) (5 / 8)).map (fun d => d.any fun f => f.any fun p =>
      decide (p.1 > 21 / 2)) = .ok true := by decide +kernel
  obtain ⟨d, e1, a1⟩ := ok_of_map h
  refine ⟨d, e1, fun hin => ?_⟩
  simp only [List.any_eq_true, decide_eq_true_eq] at a1
  obtain ⟨f, hf, p, hp, hgt⟩ := a1
  exact absurd (hin f hf p hp).1.2 (not_le.mpr hgt)

/-- C119, one borehole too few along a side: thirteen gaps of 3.1 m make 40.3 m, but from the two numbers as stored in double
precision 13 boreholes are computed instead of 14. -/
theorem C119_number_of_boreholes :
    Utilities.numberOfBoreholes (403 / 10 : ℚ) (31 / 10) (fun q => ⌊q⌋) = .ok 14 ∧
    numberOfBoreholes dbl (double (403 / 10)) (double (31 / 10)) (fun q => ⌊q⌋) = .ok 13 := by
  constructor <;> decide +kernel

/-! ## The hypotheses of C117 and C118 are met -/

/-- a land of 80 m × 60 m, spacings from 4.5 m to 6 m, in double precision -/
example := C117_rectangular dbl (X := 80) (Y := 60) (Bmin := 9 / 2) (Bmax := 6) (by norm_num) (by norm_num) (by norm_num)
  (by norm_num) (by norm_num) (by norm_num)
example := C117_nested dbl (X := 80) (Y := 60) (Bmin := 9 / 2) (BX := 6) (BY := 6) (by norm_num) (by norm_num) (by norm_num)
  (by norm_num) (by norm_num) (by norm_num) (by norm_num) (by norm_num)
  (Or.inl ⟨by norm_num, rfl, rfl, rfl, rfl⟩)

end Ghedt.Rounded
