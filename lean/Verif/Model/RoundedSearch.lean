import Verif.Model.RoundedWhole
import Verif.Lemmas.WholeSearch

/-!
# Model of `find_design` with exchangers simulated in floating-point arithmetic

The search of `Model/SearchRoutines` (`sign`, the comparisons, `max` and `index` do not round) with the excess computed by
`Model/RoundedWhole`.  Each candidate is simulated with a newly made exchanger, which C93 proves of the search with exact
exchangers.  The sizing inside the bi-zoned routine is that of exact arithmetic.
-/

namespace Ghedt.Rounded
open Ghedt.GHE Ghedt.Bhe Ghedt.Radial

noncomputable section

variable (R : Rounding ℝ) (dot : List ℝ → List ℝ → ℝ) (ℓ : ℝ → ℝ)

/-- `calculate_excess` of a newly made exchanger, search_routines.py:98-109, ground_heat_exchangers.py:127-133. -/
def excessOf (p : WholeSearch.Problem) (f : WholeSearch.Field) (H : ℝ) : Py ℝ := do
  let h ← WholeSearch.fresh p f H
  let (hi, lo) ← (simulateWhole R dot ℓ h.env p.method h.state).1
  return cost R p.maxEFT p.minEFT hi lo

/-- The search object's exchangers, search_routines.py:72-109. -/
def searchEnv (p : WholeSearch.Problem) : Search.Env WholeSearch.Field ℝ :=
  { WholeSearch.absEnv p with sim := excessOf R dot ℓ p }

/-- `find_design`, design.py:82-125, on a new search object. -/
def findDesign (p : WholeSearch.Problem) (routine : String) (c : Design.Candidates ℝ) :
    St (Search.State WholeSearch.Field ℝ) (Option (ℤ × WholeSearch.Field)) :=
  Design.findDesign (searchEnv R dot ℓ p) routine c

end

end Ghedt.Rounded
