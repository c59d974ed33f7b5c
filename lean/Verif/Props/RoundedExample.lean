import Verif.Props.RoundedGhe
import Verif.Props.RoundedFindings
import Verif.Props.RoundedZonedNested
import Verif.Props.RoundedDesign

/-!
# Concrete cases for C117, C120, C122 and C127
-/

set_option linter.unusedSectionVars false

namespace Ghedt.Rounded
open GHE Design Spec

/-- C117 applies to a side of 40.3 m and a spacing of 3.1 m, as doubles. -/
example := C117_numberOfBoreholes dbl (L := double (403 / 10)) (B := double (31 / 10)) (by decide +kernel)
  (by decide +kernel) (by decide +kernel)

/-- C117 applies to the fields of 1 to 1000 rows at a spacing of 3.1 m, as a double. -/
example := C117_nearSquare dbl (lower := 1) (upper := 1000) (by norm_num) (by norm_num) (by norm_num)
  (B := double (31 / 10)) (by decide +kernel)

/-- C117 applies to the designs for a land of 80.1 m × 60.2 m with spacings from 4.5 m to 6.1 m and 7 m, as doubles. -/
example : ∃ d n, designInit dbl 0 ⟨some (double (801 / 10)), some (double (602 / 10)), some 5, some (9 / 2),
      some (double (61 / 10)), some 7⟩ "rectangle" = .ok (.flat d) ∧
    designInit dbl 0 ⟨some (double (801 / 10)), some (double (602 / 10)), some 5, some (9 / 2), some (double (61 / 10)), some 7⟩
      "bi-rectangle" = .ok (.nested n) := by
  have h := (C117_design dbl 0 ⟨some (double (801 / 10)), some (double (602 / 10)), some 5, some (9 / 2),
    some (double (61 / 10)), some 7⟩ (X := double (801 / 10)) (Y := double (602 / 10)) (B := 5) (Bmin := 9 / 2)
    (BX := double (61 / 10)) (BY := 7) (by decide +kernel) (by decide +kernel) (by decide +kernel) (by decide +kernel)
    (by decide +kernel) (by decide +kernel) (by decide +kernel) (by decide +kernel) (by decide +kernel) (by decide +kernel)
    rfl).2 rfl rfl rfl
  obtain ⟨d, -, hd⟩ := h.1
  obtain ⟨n, -, hn⟩ := h.2 rfl
  exact ⟨d, n, hd, hn⟩

/-- C120 applies to a land of 20.1 m × 15 m with 5 by 5 boreholes, and to 63.5 m × 48 m with 12 by 9. -/
example := C120_zoned_domain (X := double (201 / 10 : ℚ)) (Y := 15) (by decide +kernel) (by decide +kernel)
  (by decide +kernel) (by decide +kernel) (nx := 5) (ny := 5) (by norm_num) (by norm_num) (by norm_num)
  (.inl ⟨by decide +kernel, rfl, rfl, rfl, rfl⟩)
example := C120_zoned_agrees (X := (127 / 2 : ℚ)) (Y := 48) (by decide +kernel) (by decide +kernel)
  (by decide +kernel) (by decide +kernel) (nx := 12) (ny := 9) (by norm_num) (by norm_num) (by norm_num) (by decide)

/-- C122 applies to a land of 20 m × 15 m with spacings from 3 m to 5 m and 7.5 m. -/
example : ∃ d, designInit (K := ℚ) Rounding.double 100 ⟨some 20, some 15, none, some 3, some 5, some (15 / 2)⟩ "bi-zoned" =
    .ok (.nested d) ∧ d ≠ [] := by
  obtain ⟨d, -, h1, -, h2⟩ := C122_design (K := ℚ) ⟨some 20, some 15, none, some 3, some 5, some (15 / 2)⟩ (X := 20) (Y := 15)
    (Bmin := 3) (BX := 5) (BY := 15 / 2) (by norm_num) (by norm_num) (by decide +kernel) (by decide +kernel) (by norm_num)
    (by norm_num) (by norm_num) (by unfold tiny; norm_num) (by unfold tiny; norm_num) (by norm_num)
    ⟨5, by norm_num, by norm_num⟩ ⟨3, by norm_num, by norm_num⟩ (fuel := 100) (by norm_num) rfl rfl rfl rfl rfl
  exact ⟨d, h2, h1⟩

/-- a year of 8760 hours at 7 kW of rejection and the plant of C127 -/
def exYearEnv (limit : ℚ) : GheEnv ℚ := { exGheEnv limit with hourly := List.replicate 8760 (-7) }

/-- C127 applies to the hourly method: a positive verdict bounds every temperature of the year. -/
example (limit : ℚ) : ∃ e s', localObjective Rounding.double (dotFromLeft Rounding.double) (exYearEnv limit) "hourly" 100
      { H := 0 } = (.ok e, s') ∧
    (e ≤ 0 → ∀ i, 1 ≤ i → i ≤ 8760 → exPlant.exit (fun i j => ((i - j : ℕ) : ℚ) / 10) (fun j => if j = 0 then 0 else 7) i ≤
      limit + ((i + 8 : ℕ) : ℚ) / 2 ^ 52 *
        exPlant.size (fun i j => ((i - j : ℕ) : ℚ) / 10) (fun j => if j = 0 then 0 else 7) i) := by
  obtain ⟨e, s', h1, h2, -⟩ := C127_hourly (dotFromLeft Rounding.double) (fun w v _ => dotFromLeft_summed _ w v) exPlant
    exPlant_sound (fun x => .ok (x / 10)) (fun m => (m : ℚ) / 10) 1 le_rfl (by norm_num) (fun m _ _ => rfl) (exYearEnv limit)
    { H := 0 } rfl List.length_replicate (by
      intro q hq
      rw [List.eq_of_mem_replicate hq]
      decide +kernel) (fun j => if j = 0 then 0 else 7) rfl (by
      intro k
      show (List.replicate 8760 (-7 : ℚ))[k % 8760]? = _
      rw [List.getElem?_replicate, if_pos (Nat.mod_lt _ (by norm_num)), if_neg (Nat.succ_ne_zero k)]) rfl
  exact ⟨e, s', h1, fun he i a b => (h2 he i a (by omega)).2⟩

end Ghedt.Rounded
