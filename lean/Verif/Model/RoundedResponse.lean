import Verif.Model.RoundedGhe
import Verif.Model.WholeGhe

/-!
# Model of the ground response in floating-point arithmetic

The correction for the borehole radius and the evaluation of the response in `_simulate_detailed` once more, with every
operation rounded by `R` and `ℓ` for `np.log`.  Joining the short-time and the long-time part involves no arithmetic.  With
`Rounding.exact` and the exact logarithm each of these is the definition of the exact model (C146).
-/

namespace Ghedt.Rounded

/-- `borehole_radius_correction`, gfunction.py:269-292. -/
def radiusCorrection {K : Type} [Field K] [LinearOrder K] (R : Rounding K) (ℓ : K → K) (g : List K) (rb rbStar : K) :
    Py (List K) :=
  g.mapM fun v => do
    let q ← div R rbStar rb
    return sub R v (ℓ q)

/-- The value of `interp1d(log_time, g)` at `np.log((τ * 3600.) / ts)`, ground_heat_exchangers.py:166, as `response` of
`Model/WholeGhe`. -/
noncomputable def response (R : Rounding ℝ) (ℓ : ℝ → ℝ) (ts : ℝ) (x y : List ℝ) (τ : ℝ) : Py ℝ :=
  if τ ≤ 0 then .error .valueError else interp1d R x y (ℓ (R.fl (mul R τ 3600 / ts)))

end Ghedt.Rounded
