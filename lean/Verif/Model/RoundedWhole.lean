import Verif.Model.RoundedResponse

/-!
# Model of the simulation of the whole exchanger object in floating-point arithmetic

`grab_g_function`, `simulate` and the objective of `size` of `Model/WholeGhe` once more, with every operation of the correction
for the radius, the evaluation of the response, the loads and the superposition rounded by `R`, with `ℓ` for `np.log` and `dot`
for `np.dot`.  The borehole heat exchanger, its equivalent tube, the short-time response, `2. * np.pi * k` and the choice of the
g-function (`B_over_H` and the table) are those of the exact model: what they give consists of given floats.  With
`Rounding.exact`, the exact logarithm and the exact dot product each of these is the definition of `Model/WholeGhe` (C147).
-/

namespace Ghedt.Rounded
open Real Ghedt.GHE Ghedt.Bhe Ghedt.Radial

noncomputable section

variable (R : Rounding ℝ) (dot : List ℝ → List ℝ → ℝ) (ℓ : ℝ → ℝ)

/-- `grab_g_function`, ground_heat_exchangers.py:108-126. -/
def grabWhole (env : Whole.Env) (bOverH : ℝ) : St Whole.State (List ℝ × List ℝ) := do
  let a ← Whole.requestG env bOverH
  let s ← St.get
  let corrected ← St.lift (radiusCorrection R ℓ a.g a.rb (Whole.borehole s.bhe).rb)
  St.lift (combineStsLts env.db.logTime corrected s.sts.2.1 s.sts.2.2)

/-- The first half of `simulate`, ground_heat_exchangers.py:283-295, and what `_simulate_detailed` reads from the object,
143-157. -/
def prepareWhole (env : Whole.Env) : St Whole.State (Thermal ℝ) := do
  let s ← St.get
  let bOverH ← St.lift (pyDiv env.bSpacing (Whole.borehole s.bhe).H)
  St.modify fun s => { s with bhe := Whole.updateBhe env.ext s.bhe }
  let s ← St.get
  let (eq, bhe) ← St.lift (computeEquivalent env.ext env.brent s.bhe)
  St.modify fun s => { s with bheEq := eq, bhe := bhe }
  let sts ← St.lift (calcSts env.solve (Whole.radialTube env.ext eq) none false env.fuel)
  St.modify fun s => { s with sts := sts }
  let (x, y) ← grabWhole R ℓ env bOverH
  let s ← St.get
  return { g := response R ℓ s.sts.1.ts x y
           nbh := (env.db.locations.length : ℝ)
           H := (Whole.borehole s.bhe).H
           twoPiK := 2 * π * (Whole.soilOf s.bhe).k
           Tg := (Whole.soilOf s.bhe).ugt
           Rb := Whole.effectiveRb env.ext s.bhe
           mdot := Whole.flowOf s.bhe
           cp := Whole.cpOf s.bhe }

/-- `GHE.simulate`, ground_heat_exchangers.py:283-322. -/
def simulateWhole (env : Whole.Env) (method : String) : St Whole.State (ℝ × ℝ) := do
  let th ← prepareWhole R ℓ env
  let (Q, t) ← St.lift (simulationInput R (Whole.gheEnv env fun _ => .error .valueError) method)
  let (hpeft, dTb) ← St.lift (simulateDetailed R dot th Q t)
  St.modify fun s => { s with HPEFT := hpeft, dTb := dTb }
  let hi ← St.lift (maxNumber hpeft)
  let lo ← St.lift (minNumber hpeft)
  return (hi, lo)

/-- `local_objective` inside `size`, ground_heat_exchangers.py:327-331. -/
def objectiveWhole (env : Whole.Env) (method : String) (H : ℝ) : St Whole.State ℝ := do
  St.modify fun s => { s with bhe := Whole.setHeight H s.bhe }
  let (hi, lo) ← simulateWhole R dot ℓ env method
  return cost R env.maxEFT env.minEFT hi lo

end

end Ghedt.Rounded
