import Verif.Lemmas.OfficeTable

/-!
# How long the peaks of the shipped examples last
-/

set_option linter.unusedSectionVars false

namespace Ghedt.Office
open Ghedt.Spec

/-- The peak `P` of a month of a table, at index `i`: what `Lasting` asks, multiplied out, for the numbers of the table. -/
def lastOk (a : List ℕ) (m i P : ℕ) : Bool :=
  decide (P = 0) ||
  (let w := (a.drop (monthStart false m + 24 * dayOf i - 24)).take 48
   let A := (monthLoads false a m).sum
   let N := 24 * monthLength false m
   decide (1 ≤ dayOf i) && decide (A < N * P) && w.all (fun x => decide (x ≤ P)) && decide (w.length = 48) &&
   decide (i - 24 * (dayOf i - 1) ≤ 48) &&
   decide (4 * ((w.take (i - 24 * (dayOf i - 1))).map fun x => (A - N * x) * x).sum ≤ P * (N * P - A)) &&
   (decide (2 ≤ dayOf i ∧ dayOf i + 1 ≤ monthLength false m) ||
     decide (3 * (w.map fun x => (N * x - A) * x).sum ≤ 20 * (P * (N * P - A)))))

theorem extracted_last : (List.range 12).all (fun k =>
    lastOk Extracted.table (k + 1) (extractionPeaks.getD k (0, 0)).1 (extractionPeaks.getD k (0, 0)).2) = true := by
  decide +kernel

theorem rejected_last : (List.range 12).all (fun k =>
    lastOk Rejected.table (k + 1) (rejectionPeaks.getD k (0, 0)).1 (rejectionPeaks.getD k (0, 0)).2) = true := by
  decide +kernel

end Ghedt.Office
