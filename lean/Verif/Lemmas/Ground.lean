import Verif.Lemmas.Commute
import Verif.Spec.Ground

/-!
# Tubes and exchangers do not depend on the ground temperature

They keep it, and nothing that is computed for them reads it.
-/

namespace Ghedt.Ground
open Ghedt.GHE Ghedt.Bhe Ghedt.Whole Ghedt.Utilities Ghedt.WholeSearch

noncomputable section

/-! ### the tubes -/

theorem updateThermal_ground (ext : Ext) (φ : ℝ → ℝ) (m : Option ℝ) (fl : Option Fluid) (t : UTube) :
    updateThermal ext m fl (tube φ t) = ((updateThermal ext m fl t).1, tube φ (updateThermal ext m fl t).2) := rfl

theorem updateThermalMultiple_ground (ext : Ext) (φ : ℝ → ℝ) (m : Option ℝ) (fl : Option Fluid) (t : UTube) :
    updateThermalMultiple ext m fl (tube φ t) =
      ((updateThermalMultiple ext m fl t).1, tube φ (updateThermalMultiple ext m fl t).2) := rfl

theorem coaxUpdateThermal_ground (ext : Ext) (φ : ℝ → ℝ) (m : Option ℝ) (fl : Option Fluid) (t : Coax) :
    coaxUpdateThermal ext m fl (coax φ t) =
      ((coaxUpdateThermal ext m fl t).1, coax φ (coaxUpdateThermal ext m fl t).2) := rfl

theorem updateBhe_ground (ext : Ext) (φ : ℝ → ℝ) (x : Exchanger) :
    updateBhe ext (exchanger φ x) = exchanger φ (updateBhe ext x) := by cases x <;> rfl

theorem commutes_update (ext : Ext) (φ : ℝ → ℝ) :
    Commutes (fun _ => True) (tube φ) id (updateThermal ext none none) (updateThermal ext none none) :=
  fun _ _ => ⟨rfl, trivial⟩

theorem commutes_pipeObjective (ext : Ext) (φ : ℝ → ℝ) (target kp : ℝ) :
    Commutes (fun _ => True) (tube φ) id (pipeObjective ext target kp) (pipeObjective ext target kp) :=
  fun _ _ => ⟨rfl, trivial⟩

theorem mkUTube_ground (ext : Ext) (φ : ℝ → ℝ) (m : ℝ) (fluid : Fluid) (b : Borehole) (pipe : Pipe) (grout : Grout) (s : Soil)
    (n : ℤ) (config : Option String) :
    mkUTube ext m fluid b pipe grout (soil φ s) n config = (mkUTube ext m fluid b pipe grout s n config).map (tube φ) := by
  unfold mkUTube
  cases massFlowRatePipe m config <;> rfl

/-- The ground of what `equivalent_single_u_tube` reads. -/
def common (φ : ℝ → ℝ) (d : Common) : Common := { d with soil := soil φ d.soil }

theorem initialTube_ground (ext : Ext) (φ : ℝ → ℝ) (d : Common) (v : Volumes) :
    initialTube ext (common φ d) v = (initialTube ext d v).map (tube φ) := by
  unfold initialTube
  simp only [common]
  cases placePipes _ _ _ with
  | error e => rfl
  | ok pos => exact mkUTube_ground ext φ d.m d.fluid _ _ d.grout d.soil 1 none

theorem equivalentSingle_ground (ext : Ext) (brent : ℝ → ℝ → Finder ℝ) (φ : ℝ → ℝ) (d : Common) (v : Volumes) :
    equivalentSingle ext brent (common φ d) v = (equivalentSingle ext brent d v).map (tube φ) := by
  unfold equivalentSingle
  rw [initialTube_ground]
  cases initialTube ext d v with
  | error e => rfl
  | ok t =>
    have := (Commutes.bind (k := fun _ => updateThermal ext none none) (k' := fun _ => updateThermal ext none none)
      (Commutes.solveRootNp brent t.pipe.k (commutes_pipeObjective ext φ (v.Rconv + v.Rpipe))
      (t.pipe.k / 100) (t.pipe.k * 10)) fun _ => commutes_update ext φ) t trivial
    have h1 := this.1
    show (match (solveRootNp brent t.pipe.k (pipeObjective ext (v.Rconv + v.Rpipe)) (t.pipe.k / 100) (t.pipe.k * 10) >>=
        fun _ => updateThermal ext none none) (tube φ t) with
      | (.ok _, t') => (.ok t' : Py UTube)
      | (.error e, _) => .error e) = Except.map (tube φ) (match (solveRootNp brent t.pipe.k
        (pipeObjective ext (v.Rconv + v.Rpipe)) (t.pipe.k / 100) (t.pipe.k * 10) >>=
        fun _ => updateThermal ext none none) t with
      | (.ok _, t') => (.ok t' : Py UTube)
      | (.error e, _) => .error e)
    rw [h1]
    rcases (solveRootNp brent t.pipe.k (pipeObjective ext (v.Rconv + v.Rpipe)) (t.pipe.k / 100) (t.pipe.k * 10) >>=
      fun _ => updateThermal ext none none) t with ⟨r, t'⟩
    cases r <;> rfl

theorem commutes_groutObjective {ρ : Type} (ext : Ext) (φ : ℝ → ℝ) (w : ρ → ρ) (refRb : St ρ ℝ)
    (hr : Commutes (fun _ => True) w id refRb refRb) (kg : ℝ) :
    Commutes (fun _ => True) (Prod.map w (tube φ)) id (groutObjective ext refRb kg) (groutObjective ext refRb kg) := by
  intro s _
  refine ⟨?_, trivial⟩
  have h1 := (hr s.1 trivial).1
  unfold groutObjective
  have hu : ∀ t : UTube, ∃ r t', updateThermal ext none none t = (.ok r, t') := fun t => ⟨_, _, rfl⟩
  obtain ⟨r, t', hrt⟩ := hu { s.2 with circuit := { s.2.circuit with kg := kg }, grout := { s.2.grout with k := kg } }
  have h2 := updateThermal_ground ext φ none none
    { s.2 with circuit := { s.2.circuit with kg := kg }, grout := { s.2.grout with k := kg } }
  rw [hrt] at h2
  have h3 : ({ (Prod.map w (tube φ) s).2 with
      circuit := { (Prod.map w (tube φ) s).2.circuit with kg := kg },
      grout := { (Prod.map w (tube φ) s).2.grout with k := kg } } : UTube) =
    tube φ { s.2 with circuit := { s.2.circuit with kg := kg }, grout := { s.2.grout with k := kg } } := rfl
  simp only [h3, h2, hrt]
  have h4 : (Prod.map w (tube φ) s).1 = w s.1 := rfl
  rw [h4, h1]
  rcases refRb s.1 with ⟨q, ρ'⟩
  cases q <;> rfl

theorem commutes_match {ρ : Type} (ext : Ext) (brent : ℝ → ℝ → Finder ℝ) (φ : ℝ → ℝ) (w : ρ → ρ) (refRb : St ρ ℝ)
    (hr : Commutes (fun _ => True) w id refRb refRb) :
    Commutes (fun _ => True) (Prod.map w (tube φ)) id (matchResistance ext brent refRb)
      (matchResistance ext brent refRb) := by
  unfold matchResistance
  refine Commutes.bind_get fun s _ => Commutes.bind
    (Commutes.solveRootNp brent _ (commutes_groutObjective ext φ w refRb hr) _ _) fun kg => ?_
  exact Commutes.modify (fun _ _ => rfl) fun _ _ => trivial

theorem multipleToSingle_ground (ext : Ext) (brent : ℝ → ℝ → Finder ℝ) (φ : ℝ → ℝ) (t : UTube) :
    multipleToSingle ext brent (tube φ t) = (multipleToSingle ext brent t).map (Prod.map (tube φ) (tube φ)) := by
  unfold multipleToSingle
  have := equivalentSingle_ground ext brent φ ⟨t.b, t.pipe.eps, t.pipe.rhoCp, t.mBorehole, t.fluid, t.grout, t.soil⟩
    (uTubeVolumes t)
  change equivalentSingle ext brent ⟨(tube φ t).b, (tube φ t).pipe.eps, (tube φ t).pipe.rhoCp, (tube φ t).mBorehole,
    (tube φ t).fluid, (tube φ t).grout, (tube φ t).soil⟩ (uTubeVolumes (tube φ t)) = _ at this
  simp only [this]
  cases equivalentSingle ext brent _ (uTubeVolumes t) with
  | error e => rfl
  | ok x =>
    have := (commutes_match ext brent φ (tube φ) (computeEffective ext none none)
      (fun _ _ => ⟨rfl, trivial⟩) (t, x) trivial).1
    change matchResistance ext brent (computeEffective ext none none) (tube φ t, tube φ x) = _ at this
    show (match matchResistance ext brent (computeEffective ext none none) (tube φ t, tube φ x) with
      | (.ok _, s) => (.ok (s.2, s.1) : Py (UTube × UTube))
      | (.error e, _) => .error e) = Except.map _ (match matchResistance ext brent (computeEffective ext none none) (t, x) with
      | (.ok _, s) => (.ok (s.2, s.1) : Py (UTube × UTube))
      | (.error e, _) => .error e)
    rw [this]
    rcases matchResistance ext brent (computeEffective ext none none) (t, x) with ⟨r, s⟩
    cases r <;> rfl

theorem coaxialToSingle_ground (ext : Ext) (brent : ℝ → ℝ → Finder ℝ) (φ : ℝ → ℝ) (t : Coax) :
    coaxialToSingle ext brent (coax φ t) = (coaxialToSingle ext brent t).map (Prod.map (tube φ) (coax φ)) := by
  unfold coaxialToSingle
  have := equivalentSingle_ground ext brent φ ⟨t.b, t.pipe.eps, t.pipe.rhoCp, t.mBorehole, t.fluid, t.grout, t.soil⟩
    (concentricTubeVolumes t)
  change equivalentSingle ext brent ⟨(coax φ t).b, (coax φ t).pipe.eps, (coax φ t).pipe.rhoCp, (coax φ t).mBorehole,
    (coax φ t).fluid, (coax φ t).grout, (coax φ t).soil⟩ (concentricTubeVolumes (coax φ t)) = _ at this
  simp only [this]
  cases equivalentSingle ext brent _ (concentricTubeVolumes t) with
  | error e => rfl
  | ok x =>
    have := (commutes_match ext brent φ (coax φ) (coaxEffective ext none none)
      (fun _ _ => ⟨rfl, trivial⟩) (t, x) trivial).1
    change matchResistance ext brent (coaxEffective ext none none) (coax φ t, tube φ x) = _ at this
    show (match matchResistance ext brent (coaxEffective ext none none) (coax φ t, tube φ x) with
      | (.ok _, s) => (.ok (s.2, s.1) : Py (UTube × Coax))
      | (.error e, _) => .error e) = Except.map _ (match matchResistance ext brent (coaxEffective ext none none) (t, x) with
      | (.ok _, s) => (.ok (s.2, s.1) : Py (UTube × Coax))
      | (.error e, _) => .error e)
    rw [this]
    rcases matchResistance ext brent (coaxEffective ext none none) (t, x) with ⟨r, s⟩
    cases r <;> rfl

theorem computeEquivalent_ground (ext : Ext) (brent : ℝ → ℝ → Finder ℝ) (φ : ℝ → ℝ) (x : Exchanger) :
    computeEquivalent ext brent (exchanger φ x) =
      (computeEquivalent ext brent x).map (Prod.map (tube φ) (exchanger φ)) := by
  cases x with
  | single t => rfl
  | multiple t =>
    simp only [exchanger, computeEquivalent, multipleToSingle_ground]
    cases multipleToSingle ext brent t <;> rfl
  | coaxial t =>
    simp only [exchanger, computeEquivalent, coaxialToSingle_ground]
    cases coaxialToSingle ext brent t <;> rfl
  | other => rfl

theorem computeEquivalent_proper {ext : Ext} {brent : ℝ → ℝ → Finder ℝ} {x : Exchanger} {a : UTube × Exchanger}
    (h : computeEquivalent ext brent x = .ok a) : a.2 ≠ .other := by
  cases x with
  | single t => cases h; simp
  | multiple t =>
    simp only [computeEquivalent] at h
    cases hm : multipleToSingle ext brent t with
    | error e => rw [hm] at h; cases h
    | ok b => rw [hm] at h; cases h; simp
  | coaxial t =>
    simp only [computeEquivalent] at h
    cases hm : coaxialToSingle ext brent t with
    | error e => rw [hm] at h; cases h
    | ok b => rw [hm] at h; cases h; simp
  | other => cases h

/-! ### the object -/

/-- The exchanger is of one of the three classes. -/
def Proper (s : Whole.State) : Prop := s.bhe ≠ .other

theorem exchanger_proper {φ : ℝ → ℝ} {x : Exchanger} (h : x ≠ .other) : exchanger φ x ≠ .other := by
  cases x <;> simp_all [exchanger]

theorem borehole_ground (φ : ℝ → ℝ) (x : Exchanger) : Whole.borehole (exchanger φ x) = Whole.borehole x := by
  cases x <;> rfl

theorem setHeight_ground (φ : ℝ → ℝ) (H : ℝ) (x : Exchanger) : setHeight H (exchanger φ x) = exchanger φ (setHeight H x) := by
  cases x <;> rfl

theorem setHeight_proper {H : ℝ} {x : Exchanger} (h : x ≠ .other) : setHeight H x ≠ .other := by
  cases x <;> simp_all [setHeight]

theorem updateBhe_proper {ext : Ext} {x : Exchanger} (h : x ≠ .other) : updateBhe ext x ≠ .other := by
  cases x <;> simp_all [updateBhe]

theorem flow_ground (φ : ℝ → ℝ) (x : Exchanger) : flowOf (exchanger φ x) = flowOf x := by cases x <;> rfl

theorem cp_ground (φ : ℝ → ℝ) (x : Exchanger) : cpOf (exchanger φ x) = cpOf x := by cases x <;> rfl

theorem effectiveRb_ground (ext : Ext) (φ : ℝ → ℝ) (x : Exchanger) :
    effectiveRb ext (exchanger φ x) = effectiveRb ext x := by cases x <;> rfl

theorem soilOf_ground (φ : ℝ → ℝ) {x : Exchanger} (h : x ≠ .other) : soilOf (exchanger φ x) = soil φ (soilOf x) := by
  cases x <;> first | rfl | exact absurd rfl h

theorem makeExchanger_ground (ext : Ext) (φ : ℝ → ℝ) (m : ℝ) (d : Media) (b : Borehole) :
    makeExchanger ext m (media φ d) b = (makeExchanger ext m d b).map (exchanger φ) := by
  obtain ⟨hw, fl, gr, so⟩ := d
  cases hw with
  | single pipe =>
    simp only [makeExchanger, media, mkSingle, mkUTube_ground]
    cases mkUTube ext m fl b pipe gr so 1 none <;> rfl
  | multiple pipe =>
    simp only [makeExchanger, media, mkMultiple, mkUTube_ground]
    cases mkUTube ext m fl b pipe gr so _ (some "parallel") <;> rfl
  | coaxial pipe => rfl
  | other => rfl

theorem mediaOf_ground (φ : ℝ → ℝ) {x : Exchanger} (h : x ≠ .other) : mediaOf (exchanger φ x) = media φ (mediaOf x) := by
  cases x <;> first | rfl | exact absurd rfl h

end

end Ghedt.Ground
