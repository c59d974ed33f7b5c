import Verif.Model.OfficeLoads
import Verif.Spec.Peaks

/-!
# The loads of the shipped examples, month by month
-/

set_option linter.unusedSectionVars false

namespace Ghedt.Office
open Ghedt.Spec

/-- A month of a table is highest, for the first time, at index `i`, with value `P`; in the two days looked at nothing exceeds
that by less than 100 W. -/
def peakOk (a : List ℕ) (m i P : ℕ) : Bool :=
  (monthLoads false a m)[i]? == some P && ((monthLoads false a m).take i).all (fun x => decide (x ≠ P)) &&
  (monthLoads false a m).all (fun x => decide (x ≤ P)) &&
  ((a.drop (monthStart false m + 24 * dayOf i - 24)).take 48).all (fun x => decide (x ≤ P ∨ P + 10 ^ 15 ≤ x)) &&
  decide (24 ≤ monthStart false m + 24 * dayOf i) && decide (monthStart false m + 24 * dayOf i + 24 ≤ 8760)

/-- The first hour of the month in which most is extracted, and what, in units of `10 ^ -13` W. -/
def extractionPeaks : List (ℕ × ℕ) := [(199, 1759804100888890000), (295, 1800033972311110000), (534, 443234887022222000),
  (126, 454052141733333000), (221, 3001077484888890), (0, 0), (0, 0), (0, 0), (0, 0), (606, 444398379333333000),
  (511, 1118453142755560000), (415, 1490474680488890000)]

/-- The same for rejection. -/
def rejectionPeaks : List (ℕ × ℕ) := [(736, 1016546456000000000), (664, 1685835883155560000), (711, 2498571896355560000),
  (399, 2542210184800000000), (711, 3371167684000000000), (639, 3570631882222220000), (135, 3721827268444440000),
  (159, 3792310870666670000), (159, 3698147122666670000), (231, 3199398705777780000), (38, 1870667040800000000),
  (277, 1643548652533330000)]

theorem extracted_length : Extracted.table.length = 8760 := by decide +kernel

theorem rejected_length : Rejected.table.length = 8760 := by decide +kernel

theorem extracted_ok : (List.range 12).all (fun k =>
    peakOk Extracted.table (k + 1) (extractionPeaks.getD k (0, 0)).1 (extractionPeaks.getD k (0, 0)).2) = true := by
  decide +kernel

theorem rejected_ok : (List.range 12).all (fun k =>
    peakOk Rejected.table (k + 1) (rejectionPeaks.getD k (0, 0)).1 (rejectionPeaks.getD k (0, 0)).2) = true := by
  decide +kernel

/-- no hour has both -/
theorem one_sided : (List.zipWith (fun x y => decide (x = 0 ∨ y = 0)) Extracted.table Rejected.table).all id = true := by
  decide +kernel

end Ghedt.Office
