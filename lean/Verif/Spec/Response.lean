import Mathlib.Analysis.SpecialFunctions.Trigonometric.Basic

/-!
# Specification vocabulary for the temperatures of a whole exchanger

Nothing here refers to the model.
-/

namespace Ghedt.Spec
open Real

/-- `(v, y)` lies on the polyline through the points: it is one of them, or on the segment between two
successive ones. -/
def OnPolyline (pts : List (ℝ × ℝ)) (v y : ℝ) : Prop :=
  (v, y) ∈ pts ∨ ∃ (k : ℕ) (p q : ℝ × ℝ), pts[k]? = some p ∧ pts[k + 1]? = some q ∧ p.1 ≤ v ∧ v < q.1 ∧
    y = p.2 + (q.2 - p.2) / (q.1 - p.1) * (v - p.1)

/-- Eskilson's 27 dimensionless times, the logarithm of the time over the characteristic time, in thousandths. -/
def eskilsonThousandths : List ℤ :=
  [-8500, -7800, -7200, -6500, -5900, -5200, -4500, -3963, -3270, -2864, -2577, -2171, -1884, -1191, -497, -274, -51,
    196, 419, 642, 873, 1112, 1335, 1679, 2028, 2275, 3003]

/-- A field of boreholes, in SI units. -/
structure Site where
  boreholes : ℝ
  height : ℝ
  conductivity : ℝ
  ground : ℝ
  resistance : ℝ
  /-- mass flow rate of each borehole -/
  flow : ℝ
  cp : ℝ

noncomputable section

/-- Temperature rise of the borehole wall at time `t i`, for loads `Q 1, Q 2, …` (in watts, on the whole field)
that end at `t 1, t 2, …`: superposition of the responses `G` to the changes of the load. -/
def wallRise (c : Site) (G : ℝ → ℝ) (Q t : ℕ → ℝ) (i : ℕ) : ℝ :=
  ∑ j ∈ Finset.range i,
    (Q (j + 1) - Q j) / (c.boreholes * c.height) / (2 * π * c.conductivity) * G (t i - t j)

/-- Temperature of the fluid leaving the field at time `t i`. -/
def exitTemp (c : Site) (G : ℝ → ℝ) (Q t : ℕ → ℝ) (i : ℕ) : ℝ :=
  c.ground + wallRise c G Q t i + Q i / (c.boreholes * c.height) * c.resistance -
    Q i / c.boreholes / (2 * c.flow * c.cp)

end

end Ghedt.Spec
