import Mathlib.Analysis.SpecialFunctions.Log.Basic
import Verif.Spec.Floats

/-!
# Specification vocabulary for the ground response in floating-point arithmetic
-/

namespace Ghedt.Spec

/-- `ℓ` is a logarithm with relative error at most `η`, such as that of a mathematical library. -/
def Accurate (η : ℝ) (ℓ : ℝ → ℝ) : Prop := ∀ z, 0 < z → |ℓ z - Real.log z| ≤ η * |Real.log z|

/-- A response at `N` points: abscissae strictly increasing and at most `W` in size, ordinates at most `M` in size, no
slope greater than `L`. -/
structure Tabulated (N : ℕ) (x y : ℕ → ℝ) (W M L : ℝ) : Prop where
  pos : 0 < N
  inc : ∀ k, k + 1 < N → x k < x (k + 1)
  abscissa : ∀ k < N, |x k| ≤ W
  ordinate : ∀ k < N, |y k| ≤ M
  slope : ∀ k, k + 1 < N → |y (k + 1) - y k| ≤ L * (x (k + 1) - x k)

/-- How far off the abscissa is at which a response is evaluated. -/
noncomputable def shift (η W : ℝ) : ℝ := 1 / 2 ^ 50 + η * (W + 1 / 2 ^ 50)

/-- The sizes of the loads before and after each step up to step `i`, added up and divided as in `Plant.exit`: no less than the
changes of the load. -/
noncomputable def Plant.changes (p : Plant ℝ) (Q : ℕ → ℝ) (i : ℕ) : ℝ :=
  ∑ j ∈ Finset.range i, (|Q (j + 1)| + |Q j|) / (p.boreholes * p.height * p.twoPiK)

/-- How far off the temperature of step `i` is when responses of size `M`, each off by `δ`, are added up in floating-point
arithmetic. -/
noncomputable def Plant.slack (p : Plant ℝ) (M δ : ℝ) (Q : ℕ → ℝ) (i : ℕ) : ℝ :=
  ((i + 8 : ℕ) : ℝ) / 2 ^ 52 * (|p.ground| + M * p.changes Q i + |Q i| / (p.boreholes * p.height) * |p.resistance| +
    |Q i| / (p.boreholes * (2 * p.flow * p.cp))) + 2 * δ * p.changes Q i

end Ghedt.Spec
