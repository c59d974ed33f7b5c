import Verif.Model.Radial
import Mathlib.Analysis.SpecialFunctions.Trigonometric.Basic

/-!
# Model of pipe placement, mass flow and Reynolds numbers

`peak_load_analysis_tool/media.py` (`Pipe.place_pipes`) and the free functions and `BasePipe` statics of
`peak_load_analysis_tool/borehole_heat_exchangers.py`.  Floats are real numbers.
-/

namespace Ghedt.Bhe
open Real

noncomputable section

/-- Body of the loop of `place_pipes`, media.py:80-85. -/
def placeStep (D dt : ℝ) (pos : List (ℝ × ℝ)) (i : ℤ) : Py (List (ℝ × ℝ)) := do
  let pos ← pySet pos (2 * i)
    (D * cos (2 * (i : ℝ) * dt + π), D * sin (2 * (i : ℝ) * dt + π))
  pySet pos (2 * i + 1)
    (D * cos (2 * (i : ℝ) * dt + π + dt), D * sin (2 * (i : ℝ) * dt + π + dt))

/-- `Pipe.place_pipes(s, r_out, n_pipes)`, media.py:73-86. -/
def placePipes (s rOut : ℝ) (n : ℤ) : Py (List (ℝ × ℝ)) := do
  let D := s / 2 + rOut
  let dt ← pyDiv π (n : ℝ)
  let pos := (pyRange 0 (2 * n)).map fun _ : ℤ => ((0 : ℝ), (0 : ℝ))
  (pyRange 0 n).foldlM (placeStep D dt) pos

/-- What is read from a `gt.media.Fluid`. -/
structure Fluid where
  mu : ℝ
  rho : ℝ
  k : ℝ
  cp : ℝ

/-- `compute_Reynolds`, borehole_heat_exchangers.py:431-442. -/
def computeReynolds (m rIn eps : ℝ) (fluid : Fluid) : Py ℝ := do
  let D := 2 * rIn
  let _E ← pyDiv eps D
  let vFlow ← pyDiv m fluid.rho
  let aCs := π * rIn ^ 2
  let V ← pyDiv vFlow aCs
  pyDiv (fluid.rho * V * D) fluid.mu

/-- `compute_Reynolds_concentric`, borehole_heat_exchangers.py:445-457. -/
def computeReynoldsConcentric (m raIn raOut : ℝ) (fluid : Fluid) : Py ℝ := do
  let Dh := 2 * (raOut - raIn)
  let aC := π * (raOut ^ 2 - raIn ^ 2)
  let vDot ← pyDiv m fluid.rho
  let V ← pyDiv vDot aC
  pyDiv (fluid.rho * V * Dh) fluid.mu

/-- The Reynolds number printed by `BasePipe.__repr__`, borehole_heat_exchangers.py:51-54 (before
rounding to four decimals). -/
def reportedReynolds (mPipe rIn eps : ℝ) (fluid : Fluid) : Py ℝ :=
  computeReynoldsConcentric mPipe rIn eps fluid

/-- `BasePipe.compute_mass_flow_rate_pipe`, borehole_heat_exchangers.py:81-88. -/
def massFlowRatePipe (m : ℝ) (config : Option String) : Py ℝ :=
  if config = some "series" ∨ config = none then .ok m
  else if config = some "parallel" then .ok (m / 2)
  else .error .valueError

end

end Ghedt.Bhe
