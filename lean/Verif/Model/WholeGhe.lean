import Verif.Model.Equivalence
import Verif.Model.GFunction
import Verif.Model.GroundLoads

/-!
# Model of the whole exchanger object `GHE`

`ghedt/ground_heat_exchangers.py`, with the borehole heat exchanger, its equivalent single U-tube, the
short-time response and the long-time g-function computed as the program does, in place of the
parameter `thermal` of `Verif/Model/GroundHeatExchangers.lean`.  Floats are real numbers.
-/

namespace Ghedt.Whole
open Real Ghedt.GHE Ghedt.Bhe Ghedt.Radial

noncomputable section

/-- What the short-time model reads from a single U-tube (see `Radial.Tube`). -/
def radialTube (ext : Ext) (t : UTube) : Tube where
  rb := t.b.rb
  H := t.b.H
  rIn := t.pipe.rIn
  rOut := t.pipe.rOut
  rhoCpPipe := t.pipe.rhoCp
  rhoCpGrout := t.grout.rhoCp
  kSoil := t.soil.k
  ks := t.circuit.ks
  rhoCpSoil := t.soil.rhoCp
  rhoFluid := t.fluid.rho
  cpFluid := t.fluid.cp
  Rf := t.Rf
  Rp := t.Rp
  Rb := ext.rbStar t.circuit t.b t.mBorehole t.fluid.cp

/-! ### access to a borehole heat exchanger of any class -/

/-- `bhe.b`; an object of another class is refused when the GHE is constructed and never gets here. -/
def borehole : Exchanger → Borehole
  | .single t => t.b
  | .multiple t => t.b
  | .coaxial c => c.b
  | .other => ⟨0, 0, 0⟩

/-- `bhe.b.H = H`. -/
def setHeight (H : ℝ) : Exchanger → Exchanger
  | .single t => .single { t with b := { t.b with H := H } }
  | .multiple t => .multiple { t with b := { t.b with H := H } }
  | .coaxial c => .coaxial { c with b := { c.b with H := H } }
  | .other => .other

/-- `bhe.soil`. -/
def soilOf : Exchanger → Soil
  | .single t => t.soil
  | .multiple t => t.soil
  | .coaxial c => c.soil
  | .other => ⟨0, 0, 0⟩

/-- `bhe.m_flow_borehole`. -/
def flowOf : Exchanger → ℝ
  | .single t => t.mBorehole
  | .multiple t => t.mBorehole
  | .coaxial c => c.mBorehole
  | .other => 0

/-- `bhe.fluid.cp`. -/
def cpOf : Exchanger → ℝ
  | .single t => t.fluid.cp
  | .multiple t => t.fluid.cp
  | .coaxial c => c.fluid.cp
  | .other => 0

/-- `bhe.update_thermal_resistance()`, which never raises. -/
def updateBhe (ext : Ext) : Exchanger → Exchanger
  | .single t => .single (updateThermal ext none none t).2
  | .multiple t => .multiple (updateThermalMultiple ext none none t).2
  | .coaxial c => .coaxial (coaxUpdateThermal ext none none c).2
  | .other => .other

/-- `bhe.compute_effective_borehole_resistance()`. -/
def effectiveRb (ext : Ext) : Exchanger → ℝ
  | .single t => ext.rbStar t.circuit t.b t.mBorehole t.fluid.cp
  | .multiple t => ext.rbStar t.circuit t.b t.mBorehole t.fluid.cp
  | .coaxial c =>
    ext.rbStarCoax c.pipe.rInner c.pipe.rOuter c.soil.k c.grout.k c.Rff c.Rfp c.b c.mBorehole c.fluid.cp
  | .other => 0

/-! ### the object -/

/-- What stays fixed. -/
structure Env where
  ext : Ext
  /-- `brentq` -/
  brent : ℝ → ℝ → Finder ℝ
  /-- `dgtsv` -/
  solve : Solver
  /-- bound on the number of passes through the loop of the short-time model -/
  fuel : ℕ
  /-- spline interpolation of g-functions -/
  spl : String → List ℝ → List ℝ → ℝ → ℝ
  /-- the g-function database of `self.GFunction` -/
  db : GF.DB ℝ
  bSpacing : ℝ
  /-- `hybrid_load.rejection` and `hybrid_load.extraction` -/
  rejection : GL.Loads ℝ
  extraction : GL.Loads ℝ
  load : List ℝ
  hour : List ℝ
  hourly : List ℝ
  startMonth : ℤ
  endMonth : ℤ
  maxEFT : ℝ
  minEFT : ℝ
  minHeight : ℝ
  maxHeight : ℝ

/-- What changes. -/
structure State where
  bhe : Exchanger
  bheEq : UTube
  /-- `radial_numerical`: the object, `lntts` and `g` -/
  sts : Radial × List ℝ × List ℝ
  /-- `GFunction.interpolation_table` -/
  table : GF.Table ℝ
  HPEFT : List (Num ℝ)
  dTb : List (Num ℝ)

/-- The constructor, ground_heat_exchangers.py:25-47 and 204-234, for the given exchanger: its equivalent
single U-tube, the short-time response, no simulation results.  The g-function object is a new one.
The hybrid load is part of `Env`. -/
def construct (env : Env) (bhe : Exchanger) : Py State := do
  let (eq, bhe) ← computeEquivalent env.ext env.brent bhe
  let sts ← calcSts env.solve (radialTube env.ext eq) none false env.fuel
  return ⟨bhe, eq, sts, {}, [], []⟩

/-- `ghe.bhe.b.H = H`. -/
def State.at (s : State) (H : ℝ) : State := { s with bhe := setHeight H s.bhe }

/-- The value of `interp1d(log_time, g)` at `log(3600 τ / t_s)`; for `τ = 0` numpy's logarithm is `-inf`,
below every abscissa, so that `ValueError` is raised.  It is not asked for negative `τ` (`Thermal.answer`). -/
def response (ts : ℝ) (x y : List ℝ) (τ : ℝ) : Py ℝ :=
  if τ ≤ 0 then .error .valueError else interp1d x y (log (τ * 3600 / ts))

/-- `self.GFunction.g_function_interpolation(B_over_H)` on the object. -/
def requestG (env : Env) (bOverH : ℝ) : St State (GF.Answer ℝ) := fun s =>
  let r := GF.request env.spl env.db bOverH "default" s.table
  (r.1, { s with table := r.2 })

/-- `grab_g_function`, ground_heat_exchangers.py:108-126: the abscissae and ordinates. -/
def grabG (env : Env) (bOverH : ℝ) : St State (List ℝ × List ℝ) := do
  let a ← requestG env bOverH
  let s ← St.get
  let corrected ← St.lift (GF.radiusCorrection log a.g a.rb (borehole s.bhe).rb)
  St.lift (combineStsLts env.db.logTime corrected s.sts.2.1 s.sts.2.2)

/-- The first half of `simulate`, ground_heat_exchangers.py:283-295, and what `_simulate_detailed` reads from
the object, 143-157. -/
def prepare (env : Env) : St State (Thermal ℝ) := do
  let s ← St.get
  let bOverH ← St.lift (pyDiv env.bSpacing (borehole s.bhe).H)
  St.modify fun s => { s with bhe := updateBhe env.ext s.bhe }
  let s ← St.get
  let (eq, bhe) ← St.lift (computeEquivalent env.ext env.brent s.bhe)
  St.modify fun s => { s with bheEq := eq, bhe := bhe }
  let sts ← St.lift (calcSts env.solve (radialTube env.ext eq) none false env.fuel)
  St.modify fun s => { s with sts := sts }
  let (x, y) ← grabG env bOverH
  let s ← St.get
  return { g := response s.sts.1.ts x y
           nbh := (env.db.locations.length : ℝ)
           H := (borehole s.bhe).H
           twoPiK := 2 * π * (soilOf s.bhe).k
           Tg := (soilOf s.bhe).ugt
           Rb := effectiveRb env.ext s.bhe
           mdot := flowOf s.bhe
           cp := cpOf s.bhe }

/-- The loads and months of `Env` as `GheEnv`, for `simulationInput`; `thermal` is not used there. -/
def gheEnv (env : Env) (thermal : ℝ → Py (Thermal ℝ)) : GheEnv ℝ where
  bSpacing := env.bSpacing
  thermal := thermal
  load := env.load
  hour := env.hour
  hourly := env.hourly
  startMonth := env.startMonth
  endMonth := env.endMonth
  maxEFT := env.maxEFT
  minEFT := env.minEFT
  minHeight := env.minHeight
  maxHeight := env.maxHeight

/-- `GHE.simulate`, ground_heat_exchangers.py:283-322. -/
def simulate (env : Env) (method : String) : St State (ℝ × ℝ) := do
  let th ← prepare env
  let (Q, t) ← St.lift (simulationInput (gheEnv env fun _ => .error .valueError) method)
  let (hpeft, dTb) ← St.lift (simulateDetailed th Q t)
  St.modify fun s => { s with HPEFT := hpeft, dTb := dTb }
  let hi ← St.lift (maxNumber hpeft)
  let lo ← St.lift (minNumber hpeft)
  return (hi, lo)

/-- `local_objective` inside `size`, ground_heat_exchangers.py:327-331. -/
def localObjective (env : Env) (method : String) (H : ℝ) : St State ℝ := do
  St.modify fun s => { s with bhe := setHeight H s.bhe }
  let (hi, lo) ← simulate env method
  return cost env.maxEFT env.minEFT hi lo

/-- `GHE.size`, ground_heat_exchangers.py:324-352. -/
def size (env : Env) (method : String) : St State (List Warning) := do
  St.modify fun s => { s with bhe := setHeight ((env.maxHeight + env.minHeight) / 2) s.bhe }
  let s ← St.get
  let _ ← solveRoot env.brent (borehole s.bhe).H (localObjective env method) (some env.minHeight)
    (some env.maxHeight)
  let s ← St.get
  return (if (borehole s.bhe).H = env.minHeight then [.notShallowEnough] else []) ++
    (if (borehole s.bhe).H = env.maxHeight then [.notDeepEnough] else [])

end

end Ghedt.Whole
