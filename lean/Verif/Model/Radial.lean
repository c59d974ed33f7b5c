import Verif.Model.GroundLoads
import Mathlib.Analysis.SpecialFunctions.Log.Basic
import Mathlib.Analysis.Real.Pi.Bounds
import Mathlib.Analysis.SpecialFunctions.Sqrt

/-!
# Model of ghedt/peak_load_analysis_tool/radial_numerical_borehole.py

Floats are real numbers.  Python arithmetic that may raise (`math.log`, division of Python floats) is in
`Py`; numpy arithmetic, which never raises, is written with the total operations of `ℝ` (the two agree
wherever numpy does not produce `inf` or `nan`).  LAPACK's `dgtsv` is a parameter.
-/

namespace Ghedt.Radial
open Real

noncomputable section

/-- `math.log`. -/
def pyLog (x : ℝ) : Py ℝ := if 0 < x then .ok (log x) else .error .valueError

/-- What the short-time model reads from a single U-tube: `b.r_b`, `b.H`, `pipe.r_in`, `pipe.r_out`,
`pipe.rhoCp`, `grout.rhoCp`, `soil.k`, `k_s`, `soil.rhoCp`, `fluid.rho`, `fluid.cp`, `R_f`, `R_p` and the result of
`compute_effective_borehole_resistance()`. -/
structure Tube where
  rb : ℝ
  H : ℝ
  rIn : ℝ
  rOut : ℝ
  rhoCpPipe : ℝ
  rhoCpGrout : ℝ
  kSoil : ℝ
  ks : ℝ
  rhoCpSoil : ℝ
  rhoFluid : ℝ
  cpFluid : ℝ
  Rf : ℝ
  Rp : ℝ
  Rb : ℝ

/-- One column of `radial_cell`, radial_numerical_borehole.py:76-84. -/
structure Cell where
  kind : ℕ
  inner : ℝ
  center : ℝ
  outer : ℝ
  thickness : ℝ
  k : ℝ
  rhoCp : ℝ
  temp : ℝ
  volume : ℝ

/-- The column of zeros of `np.zeros`. -/
def Cell.zero : Cell := ⟨0, 0, 0, 0, 0, 0, 0, 0, 0⟩

/-- The attributes of `RadialNumericalBH`. -/
structure Radial where
  numFluid : ℤ
  numConv : ℤ
  numPipe : ℤ
  numGrout : ℤ
  numSoil : ℤ
  numCells : ℤ
  rFarField : ℝ
  rBorehole : ℝ
  rOutTube : ℝ
  tPipe : ℝ
  rInTube : ℝ
  rInConv : ℝ
  rFluid : ℝ
  tSoil : ℝ
  tGrout : ℝ
  tConv : ℝ
  tFluid : ℝ
  initTemp : ℝ
  c0 : ℝ
  ts : ℝ
  calcTime : ℝ

/-- `RadialNumericalBH.__init__`, radial_numerical_borehole.py:70-143. -/
def mkRadial (u : Tube) (initTemp : ℝ) : Py Radial := do
  let numFluid := 3
  let numConv := 1
  let numPipe := 4
  let numGrout := 27
  let numSoil := 500
  let numCells := numFluid + numConv + numFluid + numGrout + numSoil + 1
  let rFarField := 10 - u.rb
  let rBorehole := u.rb
  let rOutTube := √2 * u.rOut
  let tPipe := u.rOut - u.rIn
  let rInTube := rOutTube - tPipe
  let rInConv := rInTube - tPipe / 4
  let rFluid := rInConv - (3 / 4 * tPipe)
  let tSoil := (rFarField - rBorehole) / ((numSoil : ℤ) : ℝ)
  let tGrout := (rBorehole - rOutTube) / ((numGrout : ℤ) : ℝ)
  let tConv := (rInTube - rInConv) / ((numConv : ℤ) : ℝ)
  let tFluid := (rInConv - rFluid) / ((numFluid : ℤ) : ℝ)
  let diffusivity ← pyDiv u.ks u.rhoCpSoil
  let ts ← pyDiv (u.H ^ 2) (9 * diffusivity)
  return { numFluid, numConv, numPipe, numGrout, numSoil, numCells, rFarField, rBorehole, rOutTube,
           tPipe, rInTube, rInConv, rFluid, tSoil, tGrout, tConv, tFluid, initTemp,
           c0 := 2 * π * u.kSoil, ts, calcTime := max (ts * exp (-(86 / 10))) (49 * 3600) }

/-! ### the grid -/

/-- radial_numerical_borehole.py:157-178 -/
def fluidCell (r : Radial) (u : Tube) (idx : ℤ) : Py Cell := do
  let thickness := r.tFluid
  let center := r.rFluid + (idx : ℝ) * thickness
  let inner := if idx = 0 then center else center - thickness / 2
  let outer := center + thickness / 2
  let rhoCp ← pyDiv (2 * u.rIn ^ 2 * u.rhoFluid * u.cpFluid) (r.rInConv ^ 2 - r.rFluid ^ 2)
  let k ← pyDiv rhoCp u.cpFluid
  return ⟨1, inner, center, outer, thickness, k, rhoCp, r.initTemp, π * (outer ^ 2 - inner ^ 2)⟩

/-- radial_numerical_borehole.py:184-196; `j = idx - cell_summation` -/
def convCell (r : Radial) (Rf : ℝ) (j : ℤ) : Py Cell := do
  let thickness := r.tConv
  let inner := r.rInConv + (j : ℝ) * thickness
  let center := inner + thickness / 2
  let outer := inner + thickness
  let ratio ← pyDiv r.rInTube r.rInConv
  let l ← pyLog ratio
  let k ← pyDiv l (2 * π * Rf)
  return ⟨2, inner, center, outer, thickness, k, 1, r.initTemp, π * (outer ^ 2 - inner ^ 2)⟩

/-- radial_numerical_borehole.py:202-215 -/
def pipeCell (r : Radial) (u : Tube) (Rp : ℝ) (j : ℤ) : Py Cell := do
  let thickness := r.tPipe
  let inner := r.rInTube + (j : ℝ) * thickness
  let center := inner + thickness / 2
  let outer := inner + thickness
  let ratio ← pyDiv r.rBorehole r.rInTube
  let l ← pyLog ratio
  let k ← pyDiv l (2 * π * Rp)
  return ⟨3, inner, center, outer, thickness, k, u.rhoCpPipe, r.initTemp,
    π * (outer ^ 2 - inner ^ 2)⟩

/-- radial_numerical_borehole.py:222-235 -/
def groutCell (r : Radial) (u : Tube) (Rtg : ℝ) (j : ℤ) : Py Cell := do
  let thickness := r.tGrout
  let inner := r.rOutTube + (j : ℝ) * thickness
  let center := inner + thickness / 2
  let outer := inner + thickness
  let ratio ← pyDiv r.rBorehole r.rInTube
  let l ← pyLog ratio
  let k ← pyDiv l (2 * π * Rtg)
  return ⟨4, inner, center, outer, thickness, k, u.rhoCpGrout, r.initTemp,
    π * (outer ^ 2 - inner ^ 2)⟩

/-- radial_numerical_borehole.py:243-255 -/
def soilCell (r : Radial) (u : Tube) (j : ℤ) : Py Cell := do
  let thickness := r.tSoil
  let inner := r.rBorehole + (j : ℝ) * thickness
  let center := inner + thickness / 2
  let outer := inner + thickness
  return ⟨5, inner, center, outer, thickness, u.kSoil, u.rhoCpSoil, r.initTemp,
    π * (outer ^ 2 - inner ^ 2)⟩

/-- Body of the five loops: compute one cell and assign the column `idx`. -/
def fillStep (cell : ℤ → Py Cell) (cells : List Cell) (idx : ℤ) : Py (List Cell) := do
  let c ← cell idx
  pySet cells idx c

/-- `fill_radial_cell`, radial_numerical_borehole.py:145-256, on the given array of columns. -/
def fillRadialCell (r : Radial) (u : Tube) (Rp Rf Rtg : ℝ) (cells : List Cell) : Py (List Cell) := do
  let s : ℤ := 0
  let cells ← (pyRange s (r.numFluid + s)).foldlM (fillStep (fluidCell r u)) cells
  let s := s + r.numFluid
  pyAssert (s = r.numFluid)
  let cells ← (pyRange s (r.numConv + s)).foldlM (fillStep fun idx : ℤ => convCell r Rf (idx - s)) cells
  let s := s + r.numConv
  pyAssert (s = r.numFluid + r.numConv)
  let cells ← (pyRange s (r.numPipe + s)).foldlM (fillStep fun idx : ℤ => pipeCell r u Rp (idx - s)) cells
  let s := s + r.numPipe
  pyAssert (s = r.numFluid + r.numConv + r.numPipe)
  let cells ← (pyRange s (r.numGrout + s)).foldlM
    (fillStep fun idx : ℤ => groutCell r u Rtg (idx - s)) cells
  let s := s + r.numGrout
  pyAssert (s = r.numFluid + r.numConv + r.numPipe + r.numGrout)
  (pyRange s (r.numSoil + s)).foldlM (fillStep fun idx : ℤ => soilCell r u (idx - s)) cells

/-! ### the time step -/

/-- `fill_f1`, radial_numerical_borehole.py:345-348: half-cell resistance towards the outside. -/
def f1 (c : Cell) : ℝ := log (c.outer / c.center) / (2 * π * c.k)

/-- `fill_f2`, radial_numerical_borehole.py:350-353: half-cell resistance towards the inside. -/
def f2 (c : Cell) : ℝ := log (c.center / c.inner) / (2 * π * c.k)

/-- `_ae`, radial_numerical_borehole.py:355-357. -/
def aeOf (center east : Cell) : ℝ := 1 / (f1 center + f2 east)

/-- `_aw`, radial_numerical_borehole.py:359-361. -/
def awOf (west center : Cell) : ℝ := -1 / (f1 west + f2 center)

/-- `_ad`, radial_numerical_borehole.py:363. -/
def adOf (timeStep : ℝ) (c : Cell) : ℝ := c.rhoCp * c.volume / timeStep

/-- The four vectors passed to the solver. -/
structure System where
  dl : List ℝ
  d : List ℝ
  du : List ℝ
  b : List ℝ

/-- Assembly of the tridiagonal system, radial_numerical_borehole.py:319-368. -/
def assemble (cells : List Cell) (heatFlux timeStep : ℝ) : Py System := do
  let n : ℤ := cells.length
  let c0 ← pyGet cells 0
  let c1 ← pyGet cells 1
  let cn ← pyGet cells (n - 1)
  -- idx == 0
  let l1 ← pyLog (c0.outer / c0.center)
  let l2 ← pyLog (c1.center / c1.inner)
  let fe1 := l1 / (2 * π * c0.k)
  let fe2 := l2 / (2 * π * c1.k)
  let ae := 1 / (fe1 + fe2)
  let ad := c0.rhoCp * c0.volume / timeStep
  -- idx == n - 1 is `dl[n-2] = 0`, `d[n-1] = 1`, `b[n-1] = T[n-1]`; in between, slices
  let west := cells.take (cells.length - 2)
  let center := (cells.drop 1).take (cells.length - 2)
  let east := cells.drop 2
  let aes := List.zipWith aeOf center east
  let aws := List.zipWith awOf west center
  let ads := center.map (adOf timeStep)
  let dl := List.zipWith (fun aw ad => -aw / ad) aws ads
  let dm := List.zipWith (fun p ad => p.1 / ad - p.2 / ad - 1) (aws.zip aes) ads
  let du := List.zipWith (fun ae ad => ae / ad) aes ads
  let b := center.map fun c => -c.temp
  return { dl := dl ++ [0]
           d := (-ae / ad - 1) :: dm ++ [1]
           du := (ae / ad) :: du
           b := (-c0.temp - heatFlux / ad) :: b ++ [cn.temp] }

/-- `radial_cell[temperature_idx, :] = _b`, radial_numerical_borehole.py:375-376. -/
def setTemps (cells : List Cell) (b : List ℝ) : List Cell :=
  List.zipWith (fun c t => { c with temp := t }) cells b

/-- Loop state. -/
structure Sim where
  time : ℝ
  cells : List Cell
  g : List ℝ
  lntts : List ℝ

/-- LAPACK's `dgtsv(dl, d, du, b)`, the value of `b` after the call. -/
abbrev Solver := List ℝ → List ℝ → List ℝ → List ℝ → List ℝ

/-- One pass through the `while True` loop without the exit test,
radial_numerical_borehole.py:317-410. -/
def simStep (solve : Solver) (r : Radial) (Rb : ℝ) (atWall : Bool) (s : Sim) : Py Sim := do
  let time := s.time + 120
  let sys ← assemble s.cells 1 120
  let b := solve sys.dl sys.d sys.du sys.b
  let cells := setTemps s.cells b
  if atWall then throw .valueError
  let c0 ← pyGet cells 0
  let g := s.g ++ [r.c0 * ((c0.temp - r.initTemp) / 1 - Rb)]
  let q ← pyDiv time r.ts
  let l ← pyLog q
  return ⟨time, cells, g, s.lntts ++ [l]⟩

/-- The `while True` loop, radial_numerical_borehole.py:315-415. -/
def simLoop (solve : Solver) (r : Radial) (Rb finalTime : ℝ) (atWall : Bool) : ℕ → Sim → Py Sim
  | 0, _ => .error .outOfFuel
  | fuel + 1, s => do
    let s ← simStep solve r Rb atWall s
    if s.time ≥ finalTime - 120 then return s else simLoop solve r Rb finalTime atWall fuel s

/-- `calc_sts_g_functions`, radial_numerical_borehole.py:258-419: the object is initialised again (with
the default initial temperature), then `(lntts, g)` is computed.  Also returned: the object. -/
def calcSts (solve : Solver) (u : Tube) (finalTime : Option ℝ) (atWall : Bool) (fuel : ℕ) :
    Py (Radial × List ℝ × List ℝ) := do
  let r ← mkRadial u 20
  let Rf := u.Rf / 2
  let Rp := u.Rp / 2
  let Rtg := u.Rb - Rf
  let cells ← fillRadialCell r u Rp Rf Rtg (List.replicate r.numCells.toNat Cell.zero)
  let finalTime := finalTime.getD r.calcTime
  let s ← simLoop solve r u.Rb finalTime atWall fuel ⟨1 / 10 ^ 12 - 120, cells, [], []⟩
  return (r, s.lntts, s.g)

/-- The response handed to `Loads` by `HybridLoad.__init__`, ground_loads.py:388-391 with 307-308: `g_sts` is
`interp1d(lntts, g)`, evaluated at `log(t * 3600 / t_s)`. -/
def respOf (u : Tube) (r : Radial) (lntts g : List ℝ) : GL.Resp ℝ where
  g t := interp1d lntts g (log ((t : ℝ) * 3600 / r.ts))
  twoPiK := 2 * π * u.kSoil
  Rb := u.Rb

end

end Ghedt.Radial
