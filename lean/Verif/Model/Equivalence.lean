import Verif.Model.Pipes
import Verif.Model.GroundHeatExchangers

/-!
# Model of the borehole heat exchangers and of equivalance.py

Floats are real numbers, all of them numpy floats here, so that division is the total one of `ℝ` (the two
agree wherever numpy does not produce `inf` or `nan`).  `pygfunction` is the parameter `Ext`:
convection coefficients and effective borehole resistances are arbitrary functions of what they are
given; the conduction resistance of a pipe is the formula of `pygfunction`.
-/

namespace Ghedt.Bhe
open Real Ghedt.GHE

noncomputable section

/-- What is used of a `gt.boreholes.Borehole`. -/
structure Borehole where
  H : ℝ
  D : ℝ
  rb : ℝ

/-- `Grout`: `ThermalProperty`, media.py:4-7. -/
structure Grout where
  k : ℝ
  rhoCp : ℝ

/-- `Soil`, media.py:89-95. -/
structure Soil where
  k : ℝ
  rhoCp : ℝ
  ugt : ℝ

/-- `Pipe` of a U-tube, media.py:33-48. -/
structure Pipe where
  pos : List (ℝ × ℝ)
  rIn : ℝ
  rOut : ℝ
  s : ℝ
  eps : ℝ
  k : ℝ
  rhoCp : ℝ

/-- What `pygfunction` keeps of a U-tube for its thermal circuit: the arguments of
`gt.pipes.SingleUTube.__init__` / `MultipleUTube.__init__`; `b` is the borehole object itself. -/
structure Circuit where
  pos : List (ℝ × ℝ)
  rIn : ℝ
  rOut : ℝ
  ks : ℝ
  kg : ℝ
  Rfp : ℝ
  nPipes : ℤ
  config : Option String

/-- The functions of `pygfunction` that are used. -/
structure Ext where
  /-- `convective_heat_transfer_coefficient_circular_pipe(m, r_in, mu, rho, k, cp, eps)` -/
  hPipe : ℝ → ℝ → Fluid → ℝ → ℝ
  /-- `convective_heat_transfer_coefficient_concentric_annulus(m, r_in, r_out, mu, …, eps)` -/
  hAnnulus : ℝ → ℝ → ℝ → Fluid → ℝ → ℝ × ℝ
  /-- `effective_borehole_thermal_resistance(m, cp)` of a U-tube -/
  rbStar : Circuit → Borehole → ℝ → ℝ → ℝ
  /-- the same for a coaxial exchanger with radii `r_inner`, `r_outer`, `R_ff` and `R_fp` -/
  rbStarCoax : ℝ × ℝ → ℝ × ℝ → ℝ → ℝ → ℝ → ℝ → Borehole → ℝ → ℝ → ℝ

/-- `gt.pipes.conduction_thermal_resistance_circular_pipe(r_in, r_out, k)`. -/
def rConduction (rIn rOut k : ℝ) : ℝ := log (rOut / rIn) / (2 * π * k)

/-- A `SingleUTube` (`config = None`, one U-tube) or `MultipleUTube`: the attributes set by `BasePipe` and by
`pygfunction`.  The borehole is stored by both; they are the same object. -/
structure UTube where
  mBorehole : ℝ
  mPipe : ℝ
  fluid : Fluid
  b : Borehole
  pipe : Pipe
  grout : Grout
  soil : Soil
  hf : ℝ
  Rp : ℝ
  Rf : ℝ
  circuit : Circuit

/-- `BasePipe.compute_resistances`, borehole_heat_exchangers.py:65-78. -/
def computeResistances (ext : Ext) : St UTube Unit :=
  St.modify fun t =>
    let hf := ext.hPipe t.mPipe t.pipe.rIn t.fluid t.pipe.eps
    { t with hf := hf, Rp := rConduction t.pipe.rIn t.pipe.rOut t.pipe.k,
             Rf := 1 / (hf * 2 * π * t.pipe.rIn) }

/-- `SingleUTube.__init__` (`config = none`, `nPipes = 1`) and `MultipleUTube.__init__`,
borehole_heat_exchangers.py:113-125, 176-191, with `BasePipe.__init__`, 8-29. -/
def mkUTube (ext : Ext) (m : ℝ) (fluid : Fluid) (b : Borehole) (pipe : Pipe) (grout : Grout) (soil : Soil)
    (nPipes : ℤ) (config : Option String) : Py UTube := do
  let mPipe ← massFlowRatePipe m config
  let hf := ext.hPipe mPipe pipe.rIn fluid pipe.eps
  let Rp := rConduction pipe.rIn pipe.rOut pipe.k
  let Rf := 1 / (hf * 2 * π * pipe.rIn)
  return { mBorehole := m, mPipe, fluid, b, pipe, grout, soil, hf, Rp, Rf,
           circuit := ⟨pipe.pos, pipe.rIn, pipe.rOut, soil.k, grout.k, Rf + Rp, nPipes, config⟩ }

/-- `SingleUTube(...)`: one U-tube whatever the positions, borehole_heat_exchangers.py:113-125. -/
def mkSingle (ext : Ext) (m : ℝ) (fluid : Fluid) (b : Borehole) (pipe : Pipe) (grout : Grout)
    (soil : Soil) : Py UTube :=
  mkUTube ext m fluid b pipe grout soil 1 none

/-- `MultipleUTube(...)`: `pipe.n_pipes` U-tubes, half the number of positions (media.py:44-47),
borehole_heat_exchangers.py:176-191. -/
def mkMultiple (ext : Ext) (m : ℝ) (fluid : Fluid) (b : Borehole) (pipe : Pipe) (grout : Grout)
    (soil : Soil) (config : Option String) : Py UTube :=
  mkUTube ext m fluid b pipe grout soil ((pipe.pos.length / 2 : ℕ) : ℤ) config

/-- `compute_effective_borehole_resistance`, borehole_heat_exchangers.py:90-109. -/
def computeEffective (ext : Ext) (m : Option ℝ) (fluid : Option Fluid) : St UTube ℝ := do
  St.modify fun t => { t with mBorehole := m.getD t.mBorehole, fluid := fluid.getD t.fluid }
  let t ← St.get
  return ext.rbStar t.circuit t.b t.mBorehole t.fluid.cp

/-- The end of `update_thermal_resistance`: `R_fp` is handed to `pygfunction`, which keeps it, and the
effective resistance is returned. -/
def finishUpdate (ext : Ext) : St UTube ℝ := do
  St.modify fun t => { t with circuit := { t.circuit with Rfp := t.Rf + t.Rp } }
  let t ← St.get
  return ext.rbStar t.circuit t.b t.mBorehole t.fluid.cp

/-- `SingleUTube.update_thermal_resistance`, borehole_heat_exchangers.py:140-166. -/
def updateThermal (ext : Ext) (m : Option ℝ) (fluid : Option Fluid) : St UTube ℝ := do
  St.modify fun t => { t with mBorehole := m.getD t.mBorehole, fluid := fluid.getD t.fluid }
  computeResistances ext
  finishUpdate ext

/-- `SingleUTube.compute_convection_coefficient`, borehole_heat_exchangers.py:168-172. -/
def convectionCoefficient (ext : Ext) (t : UTube) (m : ℝ) : ℝ := ext.hPipe m t.pipe.rIn t.fluid t.pipe.eps

/-- `MultipleUTube.update_thermal_resistance`, borehole_heat_exchangers.py:193-221. -/
def updateThermalMultiple (ext : Ext) (m : Option ℝ) (fluid : Option Fluid) : St UTube ℝ := do
  St.modify fun t => { t with mBorehole := m.getD t.mBorehole, fluid := fluid.getD t.fluid }
  computeResistances ext
  computeResistances ext
  finishUpdate ext

/-! ### coaxial -/

/-- `Pipe` of a coaxial exchanger: lists of two radii (inner and outer radius of the inner pipe; of the
outer pipe) and of two conductivities. -/
structure CoaxPipe where
  rInner : ℝ × ℝ
  rOuter : ℝ × ℝ
  eps : ℝ
  k : ℝ × ℝ
  rhoCp : ℝ
  /-- `pos`, a pair and not a list, and `s`: only printed -/
  pos : ℝ × ℝ := (0, 0)
  s : ℝ := 0

/-- A `CoaxialPipe`, borehole_heat_exchangers.py:239-277, 373-395. -/
structure Coax where
  mBorehole : ℝ
  mPipe : ℝ
  fluid : Fluid
  b : Borehole
  pipe : CoaxPipe
  grout : Grout
  soil : Soil
  RpIn : ℝ
  RpOut : ℝ
  Rgrout : ℝ
  hAnIn : ℝ
  hAnOut : ℝ
  RfAnIn : ℝ
  RfAnOut : ℝ
  hIn : ℝ
  RfIn : ℝ
  Rff : ℝ
  Rfp : ℝ

/-- `CoaxialBase.compute_resistances`, borehole_heat_exchangers.py:336-370. -/
def coaxResistances (ext : Ext) : St Coax Unit :=
  St.modify fun t =>
    let h := ext.hAnnulus t.mBorehole t.pipe.rInner.2 t.pipe.rOuter.1 t.fluid t.pipe.eps
    let hIn := ext.hPipe t.mBorehole t.pipe.rInner.1 t.fluid t.pipe.eps
    { t with
      RpIn := rConduction t.pipe.rInner.1 t.pipe.rInner.2 t.pipe.k.1
      RpOut := rConduction t.pipe.rOuter.1 t.pipe.rOuter.2 t.pipe.k.2
      Rgrout := rConduction t.pipe.rOuter.2 t.b.rb t.grout.k
      hAnIn := h.1
      hAnOut := h.2
      RfAnIn := 1 / (h.1 * 2 * π * t.pipe.rInner.2)
      RfAnOut := 1 / (h.2 * 2 * π * t.pipe.rOuter.1)
      hIn := hIn
      RfIn := 1 / (hIn * 2 * π * t.pipe.rInner.1) }

/-- `CoaxialPipe.update_thermal_resistance`, borehole_heat_exchangers.py:397-428. -/
def coaxUpdateThermal (ext : Ext) (m : Option ℝ) (fluid : Option Fluid) : St Coax ℝ := do
  St.modify fun t => { t with mBorehole := m.getD t.mBorehole, fluid := fluid.getD t.fluid }
  coaxResistances ext
  St.modify fun t => { t with Rff := t.RfIn + t.RpIn + t.RfAnIn, Rfp := t.RpOut + t.RfAnOut }
  let t ← St.get
  return ext.rbStarCoax t.pipe.rInner t.pipe.rOuter t.soil.k t.grout.k t.Rff t.Rfp t.b t.mBorehole t.fluid.cp

/-- `CoaxialPipe.__init__`, borehole_heat_exchangers.py:374-395. -/
def mkCoax (ext : Ext) (m : ℝ) (fluid : Fluid) (b : Borehole) (pipe : CoaxPipe) (grout : Grout)
    (soil : Soil) : Coax :=
  let t : Coax := ⟨m, m, fluid, b, pipe, grout, soil, 0, 0, 0, 0, 0, 0, 0, 0, 0, 0, 0⟩
  let t := (coaxResistances ext t).2
  { t with Rff := t.RfIn + t.RpIn + t.RfAnIn, Rfp := t.RpOut + t.RfAnOut }

/-- `compute_effective_borehole_resistance` of a coaxial exchanger, borehole_heat_exchangers.py:90-109. -/
def coaxEffective (ext : Ext) (m : Option ℝ) (fluid : Option Fluid) : St Coax ℝ := do
  St.modify fun t => { t with mBorehole := m.getD t.mBorehole, fluid := fluid.getD t.fluid }
  let t ← St.get
  return ext.rbStarCoax t.pipe.rInner t.pipe.rOuter t.soil.k t.grout.k t.Rff t.Rfp t.b t.mBorehole t.fluid.cp

/-! ### equivalance.py -/

/-- `int(v / abs(v))` for a numpy float: `0 / 0` is `nan`, and `int(nan)` raises `ValueError`. -/
def signNp (v : ℝ) : Py ℤ := if v = 0 then .error .valueError else signDiv v

/-- `solve_root`, equivalance.py:23-54, for an objective that returns numpy floats. -/
def solveRootNp {σ : Type} (brent : ℝ → ℝ → Finder ℝ) (x : ℝ) (obj : ℝ → St σ ℝ) (lower upper : ℝ) :
    St σ ℝ := do
  let minus ← obj lower
  let plus ← obj upper
  let minusSign ← St.lift (signNp minus)
  let plusSign ← St.lift (signNp plus)
  if plusSign ≠ minusSign then (brent lower upper).run obj
  else if plusSign = -1 ∧ minusSign = -1 then return upper
  else if plusSign = 1 ∧ minusSign = 1 then return lower
  else return x

/-- Fluid area, pipe area, convective and pipe resistance. -/
structure Volumes where
  fluid : ℝ
  pipe : ℝ
  Rconv : ℝ
  Rpipe : ℝ

/-- `u_tube_volumes`, equivalance.py:118-132 (`nPipes` is the number of U-tubes; `V_grout` is unused). -/
def uTubeVolumes (t : UTube) : Volumes :=
  let n : ℝ := ((2 * t.circuit.nPipes : ℤ) : ℝ)
  let aS := n * π * (t.circuit.rIn * 2) ^ 2
  let vFluid := n * π * t.circuit.rIn ^ 2
  { fluid := vFluid
    pipe := n * π * t.circuit.rOut ^ 2 - vFluid
    Rconv := 1 / (t.hf * aS)
    Rpipe := log (t.circuit.rOut / t.circuit.rIn) / (n * 2 * π * t.pipe.k) }

/-- `concentric_tube_volumes`, equivalance.py:135-148. -/
def concentricTubeVolumes (c : Coax) : Volumes :=
  { fluid := π * (c.pipe.rInner.1 ^ 2 + c.pipe.rOuter.1 ^ 2 - c.pipe.rInner.2 ^ 2)
    pipe := π * (c.pipe.rInner.2 ^ 2 - c.pipe.rInner.1 ^ 2 + c.pipe.rOuter.2 ^ 2 - c.pipe.rOuter.1 ^ 2)
    Rconv := 1 / (c.hAnIn * (π * 2 * c.pipe.rOuter.1))
    Rpipe := log (c.pipe.rOuter.2 / c.pipe.rOuter.1) / (2 * π * c.pipe.k.2) }

/-- What `equivalent_single_u_tube` reads from the given exchanger besides the volumes. -/
structure Common where
  b : Borehole
  eps : ℝ
  rhoCp : ℝ
  m : ℝ
  fluid : Fluid
  grout : Grout
  soil : Soil

/-- Radius of the (possibly enlarged) borehole and total spacing, equivalance.py:68-79. -/
def fitBorehole (rb rOut : ℝ) : ℝ × ℝ :=
  let spacing := rb * 2 - 2 * rOut * 2
  if spacing ≤ 0 then
    let rb := rb - spacing
    let spacing := rb * 2 / 10
    (rb + spacing, spacing)
  else (rb, spacing)

/-- `objective_pipe_conductivity`, equivalance.py:99-102. -/
def pipeObjective (ext : Ext) (target kp : ℝ) : St UTube ℝ := do
  St.modify fun t => { t with pipe := { t.pipe with k := kp } }
  let _ ← updateThermal ext none none
  let t ← St.get
  return t.circuit.Rfp - target

/-- The geometry and the initial tube of `equivalent_single_u_tube`, equivalance.py:60-95 (`h_prime` is
unused).  The copied objects are new ones, so nothing here changes the exchanger given. -/
def initialTube (ext : Ext) (c : Common) (v : Volumes) : Py UTube := do
  let rIn := √(v.fluid / (2 * π))
  let rOut := √((v.fluid + v.pipe) / (2 * π))
  let k := log (rOut / rIn) / (2 * π * 2 * v.Rpipe)
  let fit := fitBorehole c.b.rb rOut
  let s := fit.2 / 3
  let pos ← placePipes s rOut 1
  mkSingle ext c.m c.fluid { c.b with rb := fit.1 } ⟨pos, rIn, rOut, s, c.eps, k, c.rhoCp⟩ c.grout c.soil

/-- `equivalent_single_u_tube`, equivalance.py:57-115. -/
def equivalentSingle (ext : Ext) (brent : ℝ → ℝ → Finder ℝ) (c : Common) (v : Volumes) : Py UTube := do
  let t ← initialTube ext c v
  let run : St UTube ℝ := do
    let _ ← solveRootNp brent t.pipe.k (pipeObjective ext (v.Rconv + v.Rpipe)) (t.pipe.k / 100) (t.pipe.k * 10)
    updateThermal ext none none
  match run t with
  | (.ok _, t') => .ok t'
  | (.error e, _) => .error e

/-- `objective_resistance`, equivalance.py:155-165.  The state is the reference exchanger and the new
tube; `refRb` is `tube_ref.compute_effective_borehole_resistance()`. -/
def groutObjective {ρ : Type} (ext : Ext) (refRb : St ρ ℝ) (kg : ℝ) : St (ρ × UTube) ℝ := fun s =>
  let new : UTube := { s.2 with circuit := { s.2.circuit with kg := kg }, grout := { s.2.grout with k := kg } }
  match updateThermal ext none none new with
  | (.error e, new) => (.error e, (s.1, new))
  | (.ok rbPrime, new) => match refRb s.1 with
    | (.error e, ref) => (.error e, (ref, new))
    | (.ok rb, ref) => (.ok (rb - rbPrime), (ref, new))

/-- `match_effective_borehole_resistance`, equivalance.py:151-177. -/
def matchResistance {ρ : Type} (ext : Ext) (brent : ℝ → ℝ → Finder ℝ) (refRb : St ρ ℝ) :
    St (ρ × UTube) Unit := do
  let s ← St.get
  let kg ← solveRootNp brent s.2.grout.k (groutObjective ext refRb) (1 / 100) 7
  St.modify fun s => (s.1,
    (updateThermal ext none none
      { s.2 with circuit := { s.2.circuit with kg := kg }, grout := { s.2.grout with k := kg } }).2)

/-- `multiple_to_single`, equivalance.py:180-193: the new tube, and the given exchanger afterwards. -/
def multipleToSingle (ext : Ext) (brent : ℝ → ℝ → Finder ℝ) (t : UTube) : Py (UTube × UTube) := do
  let v := uTubeVolumes t
  let single ← equivalentSingle ext brent
    ⟨t.b, t.pipe.eps, t.pipe.rhoCp, t.mBorehole, t.fluid, t.grout, t.soil⟩ v
  match matchResistance ext brent (computeEffective ext none none) (t, single) with
  | (.ok _, s) => .ok (s.2, s.1)
  | (.error e, _) => .error e

/-- `coaxial_to_single`, equivalance.py:196-207. -/
def coaxialToSingle (ext : Ext) (brent : ℝ → ℝ → Finder ℝ) (c : Coax) : Py (UTube × Coax) := do
  let v := concentricTubeVolumes c
  let single ← equivalentSingle ext brent
    ⟨c.b, c.pipe.eps, c.pipe.rhoCp, c.mBorehole, c.fluid, c.grout, c.soil⟩ v
  match matchResistance ext brent (coaxEffective ext none none) (c, single) with
  | (.ok _, s) => .ok (s.2, s.1)
  | (.error e, _) => .error e

/-- A borehole heat exchanger, by its class. -/
inductive Exchanger
  | single (t : UTube)
  | multiple (t : UTube)
  | coaxial (c : Coax)
  | other

/-- `compute_equivalent`, equivalance.py:9-20: the tube returned and the given exchanger afterwards; for a
single U-tube they are the same object. -/
def computeEquivalent (ext : Ext) (brent : ℝ → ℝ → Finder ℝ) : Exchanger → Py (UTube × Exchanger)
  | .single t => .ok (t, .single t)
  | .multiple t => do
    let (s, t) ← multipleToSingle ext brent t
    return (s, .multiple t)
  | .coaxial c => do
    let (s, c) ← coaxialToSingle ext brent c
    return (s, .coaxial c)
  | .other => .error .valueError

end

end Ghedt.Bhe
