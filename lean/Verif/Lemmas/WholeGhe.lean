import Verif.Model.WholeGhe
import Verif.Props.Equivalence
import Verif.Props.GFunction
import Verif.Props.Radial

/-!
# Lemmas on the whole exchanger object
-/

set_option linter.unusedSectionVars false

namespace Ghedt.Whole
open Real Ghedt.GHE Ghedt.Bhe Ghedt.Radial

noncomputable section

/-- All resistances of the exchanger are up to date. -/
def Settled (ext : Ext) (x : Exchanger) : Prop := updateBhe ext x = x

theorem updateBhe_setHeight (ext : Ext) (h : ℝ) (x : Exchanger) :
    updateBhe ext (setHeight h x) = setHeight h (updateBhe ext x) := by
  cases x <;> rfl

theorem Settled.setHeight {ext : Ext} {x : Exchanger} (hx : Settled ext x) (h : ℝ) :
    Settled ext (setHeight h x) := by
  unfold Settled at *
  rw [updateBhe_setHeight, hx]

theorem setHeight_setHeight (a b : ℝ) (x : Exchanger) : setHeight a (setHeight b x) = setHeight a x := by
  cases x <;> rfl

/-- not an object of an unknown class -/
def Known : Exchanger → Prop
  | .other => False
  | _ => True

theorem borehole_setHeight {x : Exchanger} (hx : Known x) (h : ℝ) : (borehole (setHeight h x)).H = h := by
  cases x with
  | other => exact hx.elim
  | _ => rfl

theorem computeEquivalent_same (ext : Ext) (brent : ℝ → ℝ → Finder ℝ) (x x' : Exchanger) (t : UTube)
    (h : computeEquivalent ext brent x = .ok (t, x')) : x' = x := by
  cases x with
  | single t => cases h; rfl
  | multiple t => exact (multiple_form _ _ _ _ _ h).1
  | coaxial c => exact (coaxial_form _ _ _ _ _ h).1
  | other => cases h

/-- The table is as it was made, or was built by a request inside the stored range. -/
def TableOk (db : GF.DB ℝ) (t : GF.Table ℝ) : Prop := t.g = none ∨ t = GF.tableOf db false

/-- The height stands for a request inside the range of stored heights. -/
structure Within (env : Env) (lo hi h : ℝ) : Prop where
  height : h ≠ 0
  spacing : env.bSpacing ≠ 0
  above : lo - 1 / 1000000 < env.db.B / (env.bSpacing / h)
  below : env.db.B / (env.bSpacing / h) < hi + 1 / 1000000

variable {env : Env} {lo hi h : ℝ} {x : Exchanger}

theorem request_within (hv : GF.Valid env.db) (hr : GF.Range env.db lo hi) (hw : Within env lo hi h)
    (t : GF.Table ℝ) (ht : TableOk env.db t) :
    GF.request env.spl env.db (env.bSpacing / h) "default" t =
      (.ok (GF.answerAt env.spl env.db (GF.snap lo hi (env.db.B / (env.bSpacing / h))) false),
        GF.tableOf env.db false) := by
  have hle : lo ≤ hi := (hr.bounds lo hr.lo_mem).2
  have hin := GF.snap_mem hle hw.above hw.below
  have hext : GF.extFlag lo hi (env.db.B / (env.bSpacing / h)) = false := by
    unfold GF.extFlag; rw [if_pos hin]
  have hq : env.bSpacing / h ≠ 0 := div_ne_zero hw.spacing hw.height
  rw [GF.request_eq hv hr hq, hext]
  rcases ht with ht | ht
  · rw [if_pos (by rw [ht]; rfl), GF.readTable_ok hr (.inr hin)]
  · rw [if_neg (by rw [ht]; simp [GF.tableOf]), ht, GF.readTable_ok hr (.inr hin)]

/-- Everything `prepare` computes, from the height alone. -/
def thermalOf (env : Env) (x : Exchanger) (h : ℝ) (a : GF.Answer ℝ) : Py (Thermal ℝ) := do
  let _ ← pyDiv env.bSpacing h
  let (eq, _) ← computeEquivalent env.ext env.brent (setHeight h x)
  let sts ← calcSts env.solve (radialTube env.ext eq) none false env.fuel
  let corrected ← GF.radiusCorrection log a.g a.rb (borehole (setHeight h x)).rb
  let p ← combineStsLts env.db.logTime corrected sts.2.1 sts.2.2
  return { g := response sts.1.ts p.1 p.2
           nbh := (env.db.locations.length : ℝ)
           H := (borehole (setHeight h x)).H
           twoPiK := 2 * π * (soilOf (setHeight h x)).k
           Tg := (soilOf (setHeight h x)).ugt
           Rb := effectiveRb env.ext (setHeight h x)
           mdot := flowOf (setHeight h x)
           cp := cpOf (setHeight h x) }

theorem prepare_eq (hset : Settled env.ext x) (hk : Known x) (hv : GF.Valid env.db)
    (hr : GF.Range env.db lo hi) (hw : Within env lo hi h) (s : State) (hs : s.bhe = setHeight h x)
    (ht : TableOk env.db s.table) :
    ∃ e st tb, prepare env s = (thermalOf env x h
        (GF.answerAt env.spl env.db (GF.snap lo hi (env.db.B / (env.bSpacing / h))) false),
      ⟨setHeight h x, e, st, tb, s.HPEFT, s.dTb⟩) ∧ TableOk env.db tb := by
  obtain ⟨bhe, e0, st0, tb0, hp0, d0⟩ := s
  dsimp only at hs ht
  subst hs
  have hup : updateBhe env.ext (setHeight h x) = setHeight h x := hset.setHeight h
  unfold prepare thermalOf
  rw [St.get_bind, borehole_setHeight hk, pyDiv_ok hw.height, St.lift_ok rfl, St.modify_bind, St.get_bind,
    Except.ok_bind]
  dsimp only
  rw [hup]
  cases hce : computeEquivalent env.ext env.brent (setHeight h x) with
  | error e => exact ⟨e0, st0, tb0, by rw [St.lift_error rfl, Except.error_bind], ht⟩
  | ok p =>
    obtain ⟨eq, x'⟩ := p
    obtain rfl := computeEquivalent_same _ _ _ _ _ hce
    rw [St.lift_ok rfl, Except.ok_bind]
    dsimp only
    rw [St.modify_bind]
    dsimp only
    cases hst : calcSts env.solve (radialTube env.ext eq) none false env.fuel with
    | error e => exact ⟨eq, st0, tb0, by rw [St.lift_error rfl, Except.error_bind], ht⟩
    | ok sts =>
      rw [St.lift_ok rfl, St.modify_bind, Except.ok_bind]
      dsimp only
      unfold grabG
      have hreq : requestG env (env.bSpacing / h) ⟨setHeight h x, eq, sts, tb0, hp0, d0⟩ =
          (.ok (GF.answerAt env.spl env.db (GF.snap lo hi (env.db.B / (env.bSpacing / h))) false),
            ⟨setHeight h x, eq, sts, GF.tableOf env.db false, hp0, d0⟩) := by
        unfold requestG
        dsimp only
        rw [request_within hv hr hw tb0 ht]
      refine ⟨eq, sts, GF.tableOf env.db false, ?_, Or.inr rfl⟩
      cases hrc : GF.radiusCorrection log
          (GF.answerAt env.spl env.db (GF.snap lo hi (env.db.B / (env.bSpacing / h))) false).g
          (GF.answerAt env.spl env.db (GF.snap lo hi (env.db.B / (env.bSpacing / h))) false).rb
          (borehole (setHeight h x)).rb with
      | error e =>
        rw [St.bind_error (s' := ⟨setHeight h x, eq, sts, GF.tableOf env.db false, hp0, d0⟩) (e := e)]
        · rfl
        · rw [St.bind_ok hreq, St.get_bind, St.lift_error hrc]
      | ok c =>
        rw [Except.ok_bind]
        cases hcb : combineStsLts env.db.logTime c sts.2.1 sts.2.2 with
        | error e =>
          rw [St.bind_error (s' := ⟨setHeight h x, eq, sts, GF.tableOf env.db false, hp0, d0⟩) (e := e)]
          · rfl
          · rw [St.bind_ok hreq, St.get_bind, St.lift_ok hrc, hcb]; rfl
        | ok p =>
          rw [St.bind_ok (s' := ⟨setHeight h x, eq, sts, GF.tableOf env.db false, hp0, d0⟩) (a := p)]
          · rw [St.get_bind]
            dsimp only
            rw [borehole_setHeight hk]
            rfl
          · rw [St.bind_ok hreq, St.get_bind, St.lift_ok hrc, hcb]; rfl

/-- what is seen of the object from outside -/
def view (s : State) : GheState ℝ := ⟨(borehole s.bhe).H, s.HPEFT, s.dTb⟩

/-! ### refinement -/

/-- `m'` does on the abstract state what `m` does on the concrete one, and the invariant is kept. -/
def Refines {σ τ α : Type} (abs : σ → τ) (I : σ → Prop) (m' : St τ α) (m : St σ α) : Prop :=
  ∀ s, I s → m' (abs s) = ((m s).1, abs (m s).2) ∧ I (m s).2

theorem Refines.pure {σ τ α : Type} {abs : σ → τ} {I : σ → Prop} (a : α) :
    Refines abs I (Pure.pure a : St τ α) (Pure.pure a) := fun _ hs => ⟨rfl, hs⟩

theorem Refines.lift {σ τ α : Type} {abs : σ → τ} {I : σ → Prop} (a : Py α) :
    Refines abs I (St.lift a : St τ α) (St.lift a) := fun _ hs => ⟨rfl, hs⟩

theorem Refines.throw {σ τ α : Type} {abs : σ → τ} {I : σ → Prop} (e : PyErr) :
    Refines abs I (St.throw e : St τ α) (St.throw e) := fun _ hs => ⟨rfl, hs⟩

theorem Refines.bind {σ τ α β : Type} {abs : σ → τ} {I : σ → Prop} {m' : St τ α} {m : St σ α}
    {f' : α → St τ β} {f : α → St σ β} (hm : Refines abs I m' m) (hf : ∀ a, Refines abs I (f' a) (f a)) :
    Refines abs I (m' >>= f') (m >>= f) := by
  intro s hs
  obtain ⟨h1, h2⟩ := hm s hs
  rcases hms : m s with ⟨r, s1⟩
  rw [hms] at h1 h2
  cases r with
  | error e => rw [St.bind_error h1, St.bind_error hms]; exact ⟨rfl, h2⟩
  | ok a => rw [St.bind_ok h1, St.bind_ok hms]; exact hf a s1 h2

theorem Refines.run {σ τ : Type} {abs : σ → τ} {I : σ → Prop} {obj' : ℝ → St τ ℝ} {obj : ℝ → St σ ℝ}
    {lo hi : ℝ} (h : ∀ y, lo ≤ y → y ≤ hi → Refines abs I (obj' y) (obj y)) (p : Finder ℝ)
    (hp : Inside lo hi p) : Refines abs I (p.run obj') (p.run obj) := by
  induction hp with
  | done x => exact Refines.pure x
  | fail e => exact Refines.throw e
  | ask x next h1 h2 _ ih => exact Refines.bind (h x h1 h2) ih

theorem Refines.solveRoot {σ τ : Type} {abs : σ → τ} {I : σ → Prop} {obj' : ℝ → St τ ℝ} {obj : ℝ → St σ ℝ}
    {lo hi : ℝ} (hle : lo ≤ hi) (h : ∀ y, lo ≤ y → y ≤ hi → Refines abs I (obj' y) (obj y))
    (brent : ℝ → ℝ → Finder ℝ) (hb : Inside lo hi (brent lo hi)) (x : ℝ) :
    Refines abs I (GHE.solveRoot brent x obj' (some lo) (some hi)) (GHE.solveRoot brent x obj (some lo) (some hi)) := by
  unfold GHE.solveRoot
  refine Refines.bind (h lo le_rfl hle) fun a => Refines.bind (h hi hle le_rfl) fun b =>
    Refines.bind (Refines.lift _) fun c => Refines.bind (Refines.lift _) fun d => ?_
  by_cases h1 : d ≠ c
  · rw [if_pos h1, if_pos h1]; exact Refines.run h _ hb
  · rw [if_neg h1, if_neg h1]
    split_ifs <;> exact Refines.pure _

/-- The objective of sizing, with the whole object behind it, acts on height and results as the one with a
fixed function of the height behind it. -/
theorem simulate_refines (hset : Settled env.ext x) (hk : Known x) (hv : GF.Valid env.db)
    (hr : GF.Range env.db lo hi) (s0 : State) (hs0 : s0.bhe = x) (ht0 : TableOk env.db s0.table)
    (method : String) :
    Refines view (fun s => (∃ h, s.bhe = setHeight h x ∧ Within env lo hi h) ∧ TableOk env.db s.table)
      (GHE.simulate (gheEnv env fun h => (prepare env (s0.at h)).1) method) (simulate env method) := by
  rintro s ⟨⟨h, hs, hw⟩, ht⟩
  obtain ⟨e, st, tb, h1, htb⟩ := prepare_eq hset hk hv hr hw s hs ht
  obtain ⟨e', st', tb', h1', -⟩ := prepare_eq hset hk hv hr hw (s0.at h)
    (by show setHeight h s0.bhe = _; rw [hs0]) ht0
  have hH : (view s).H = h := by unfold view; dsimp only; rw [hs, borehole_setHeight hk]
  have hview : view ⟨setHeight h x, e, st, tb, s.HPEFT, s.dTb⟩ = view s := by
    unfold view; rw [hs]
  unfold GHE.simulate simulate
  rw [St.get_bind, hH, pyDiv_ok hw.height, St.lift_ok rfl]
  dsimp only [gheEnv]
  rw [h1']
  cases hth : thermalOf env x h
        (GF.answerAt env.spl env.db (GF.snap lo hi (env.db.B / (env.bSpacing / h))) false) with
  | error er =>
    rw [hth] at h1
    rw [St.lift_error rfl, St.bind_error h1]
    exact ⟨by rw [hview], ⟨⟨h, rfl, hw⟩, htb⟩⟩
  | ok th =>
    rw [hth] at h1
    rw [St.lift_ok rfl, St.bind_ok h1]
    set s1 : State := ⟨setHeight h x, e, st, tb, s.HPEFT, s.dTb⟩ with hs1
    have key : Refines view (fun s => (∃ h, s.bhe = setHeight h x ∧ Within env lo hi h) ∧
        TableOk env.db s.table)
        (do
          let (Q, t) ← St.lift (simulationInput (gheEnv env fun h => (prepare env (s0.at h)).1) method)
          let (hpeft, dTb) ← St.lift (simulateDetailed th Q t)
          St.modify fun s : GheState ℝ => { s with HPEFT := hpeft, dTb := dTb }
          let hi ← St.lift (maxNumber hpeft)
          let lo ← St.lift (minNumber hpeft)
          return (hi, lo))
        (do
          let (Q, t) ← St.lift (simulationInput (gheEnv env fun _ => .error .valueError) method)
          let (hpeft, dTb) ← St.lift (simulateDetailed th Q t)
          St.modify fun s : State => { s with HPEFT := hpeft, dTb := dTb }
          let hi ← St.lift (maxNumber hpeft)
          let lo ← St.lift (minNumber hpeft)
          return (hi, lo)) := by
      refine Refines.bind (Refines.lift _) fun p => ?_
      obtain ⟨Q, t⟩ := p
      refine Refines.bind (Refines.lift _) fun p => ?_
      obtain ⟨hpeft, dTb⟩ := p
      refine Refines.bind (fun s hs => ⟨rfl, hs⟩) fun _ => ?_
      exact Refines.bind (Refines.lift _) fun _ => Refines.bind (Refines.lift _) fun _ => Refines.pure _
    have := key s1 ⟨⟨h, rfl, hw⟩, htb⟩
    rw [hview] at this
    exact this

/-- The states the object can be in after some use. -/
def Used (env : Env) (lo hi : ℝ) (x : Exchanger) (s : State) : Prop :=
  (∃ h, s.bhe = setHeight h x ∧ Within env lo hi h) ∧ TableOk env.db s.table

theorem objective_refines (hset : Settled env.ext x) (hk : Known x) (hv : GF.Valid env.db)
    (hr : GF.Range env.db lo hi) (s0 : State) (hs0 : s0.bhe = x) (ht0 : TableOk env.db s0.table)
    (method : String) (H : ℝ) (hw : Within env lo hi H) :
    Refines view (Used env lo hi x)
      (GHE.localObjective (gheEnv env fun h => (prepare env (s0.at h)).1) method H)
      (localObjective env method H) := by
  unfold GHE.localObjective localObjective
  refine Refines.bind ?_ fun _ => Refines.bind (simulate_refines hset hk hv hr s0 hs0 ht0 method)
    fun _ => Refines.pure _
  rintro s ⟨⟨h, hs, -⟩, ht⟩
  refine ⟨?_, ⟨H, ?_, hw⟩, ht⟩
  · show (Except.ok (), (⟨H, s.HPEFT, s.dTb⟩ : GheState ℝ)) =
      (Except.ok (), ⟨(borehole (setHeight H s.bhe)).H, s.HPEFT, s.dTb⟩)
    rw [hs, setHeight_setHeight, borehole_setHeight hk]
  · show setHeight H s.bhe = _
    rw [hs, setHeight_setHeight]

theorem size_refines (hset : Settled env.ext x) (hk : Known x) (hv : GF.Valid env.db)
    (hr : GF.Range env.db lo hi) (s0 : State) (hs0 : s0.bhe = x) (ht0 : TableOk env.db s0.table)
    (method : String) (hle : env.minHeight ≤ env.maxHeight)
    (hw : ∀ h, env.minHeight ≤ h → h ≤ env.maxHeight → Within env lo hi h)
    (hb : Inside env.minHeight env.maxHeight (env.brent env.minHeight env.maxHeight)) :
    Refines view (Used env lo hi x)
      (GHE.size env.brent (gheEnv env fun h => (prepare env (s0.at h)).1) method) (size env method) := by
  have hmid := hw ((env.maxHeight + env.minHeight) / 2) (by linarith) (by linarith)
  unfold GHE.size size
  refine Refines.bind ?_ fun _ => ?_
  · rintro s ⟨⟨h, hs, -⟩, ht⟩
    refine ⟨?_, ⟨_, ?_, hmid⟩, ht⟩
    · show (Except.ok (), (⟨(env.maxHeight + env.minHeight) / 2, s.HPEFT, s.dTb⟩ : GheState ℝ)) =
        (Except.ok (), ⟨(borehole (setHeight ((env.maxHeight + env.minHeight) / 2) s.bhe)).H, s.HPEFT, s.dTb⟩)
      rw [hs, setHeight_setHeight, borehole_setHeight hk]
    · show setHeight _ s.bhe = _
      rw [hs, setHeight_setHeight]
  · intro s hs
    rw [St.get_bind, St.get_bind]
    have := Refines.bind (Refines.solveRoot hle (fun y h1 h2 => objective_refines hset hk hv hr s0 hs0 ht0
      method y (hw y h1 h2)) env.brent hb (view s).H)
      (f' := fun _ => do
        let s ← St.get
        return (if s.H = env.minHeight then [Warning.notShallowEnough] else []) ++
          (if s.H = env.maxHeight then [.notDeepEnough] else []))
      (f := fun _ => do
        let s ← St.get
        return (if (borehole s.bhe).H = env.minHeight then [Warning.notShallowEnough] else []) ++
          (if (borehole s.bhe).H = env.maxHeight then [.notDeepEnough] else []))
      (fun _ s hs => ⟨rfl, hs⟩)
    exact this s hs

/-- results do not depend on the results of earlier simulations -/
theorem simulate_results (e : GheEnv ℝ) (method : String) (h : ℝ) (a b a' b' : List (Num ℝ)) :
    (GHE.simulate e method ⟨h, a, b⟩).1 = (GHE.simulate e method ⟨h, a', b'⟩).1 ∧
    ∀ r, (GHE.simulate e method ⟨h, a, b⟩).1 = .ok r →
      (GHE.simulate e method ⟨h, a, b⟩).2 = (GHE.simulate e method ⟨h, a', b'⟩).2 := by
  unfold GHE.simulate
  rw [St.get_bind, St.get_bind]
  dsimp only
  cases pyDiv e.bSpacing h with
  | error er => exact ⟨rfl, fun r hr => by cases hr⟩
  | ok q =>
    rw [St.lift_ok rfl, St.lift_ok rfl]
    cases e.thermal h with
    | error er => exact ⟨rfl, fun r hr => by cases hr⟩
    | ok th =>
      rw [St.lift_ok rfl, St.lift_ok rfl]
      cases simulationInput e method with
      | error er => exact ⟨rfl, fun r hr => by cases hr⟩
      | ok p =>
        rw [St.lift_ok rfl, St.lift_ok rfl]
        obtain ⟨Q, t⟩ := p
        dsimp only
        cases simulateDetailed th Q t with
        | error er => exact ⟨rfl, fun r hr => by cases hr⟩
        | ok p =>
          rw [St.lift_ok rfl, St.lift_ok rfl]
          exact ⟨rfl, fun _ _ => rfl⟩

end

end Ghedt.Whole
