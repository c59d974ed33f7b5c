import Verif.Model.Refill
import Verif.Props.Shared

/-!
# Media changed in place (C142)
-/

set_option linter.unusedSectionVars false

namespace Ghedt.Refill
open Real Ghedt.GHE Ghedt.Bhe Ghedt.Radial Ghedt.Spec Ghedt.Whole

noncomputable section

/-- An exchanger made anew with the given contents of the media: of the same class, mass flow, borehole and geometry as the given
one. -/
def anew (ext : Ext) (c : Contents) : Exchanger → Py Exchanger
  | .single t => do
    return .single (← mkSingle ext t.mBorehole c.fluid t.b { t.pipe with eps := c.eps, k := c.pipeK, rhoCp := c.pipeRhoCp }
      c.grout c.soil)
  | .multiple t => do
    return .multiple (← mkMultiple ext t.mBorehole c.fluid t.b { t.pipe with eps := c.eps, k := c.pipeK, rhoCp := c.pipeRhoCp }
      c.grout c.soil t.circuit.config)
  | .coaxial t => .ok (.coaxial (mkCoax ext t.mBorehole c.fluid t.b
      { t.pipe with eps := c.eps, k := c.coaxK, rhoCp := c.pipeRhoCp } c.grout c.soil))
  | .other => .error .valueError

/-- The second exchanger, but with what `pygfunction` knows of soil and grout in the first. -/
def keeping : Exchanger → Exchanger → Exchanger
  | .single t, .single u => .single { u with circuit := { u.circuit with ks := t.circuit.ks, kg := t.circuit.kg } }
  | .multiple t, .multiple u => .multiple { u with circuit := { u.circuit with ks := t.circuit.ks, kg := t.circuit.kg } }
  | _, u => u

/-- What may happen to an exchanger: it is used, or the caller changes loads and parameters, or media. -/
inductive Event
  | use (op : Op)
  | change (c : Shared)
  | fill (m : Contents)

/-- The exchanger after an event. -/
def happen (w : Env × State) : Event → Env × State
  | .use op => (w.1, perform w.1 w.2 op)
  | .change c => (w.1.sharing c, w.2)
  | .fill m => (w.1, { w.2 with bhe := Refill.fill m w.2.bhe })

/-- The contents of loads and parameters after some events. -/
def lastShared (c : Shared) : List Event → Shared
  | [] => c
  | .change c' :: l => lastShared c' l
  | _ :: l => lastShared c l

/-- The contents of the media after some events. -/
def lastContents (m : Contents) : List Event → Contents
  | [] => m
  | .fill m' :: l => lastContents m' l
  | _ :: l => lastContents m l

/-- Conductivities of soil and grout, and for a coaxial exchanger the roughness, as they were. -/
structure Follows (x : Exchanger) (m0 m : Contents) : Prop where
  soil : m.soil.k = m0.soil.k
  grout : m.grout.k = m0.grout.k
  eps : ∀ t, x = .coaxial t → m.eps = m0.eps

variable {env : Env} {lo hi : ℝ} {x : Exchanger} {s0 : State}

theorem update_update (ext : Ext) (x : Exchanger) : updateBhe ext (updateBhe ext x) = updateBhe ext x := by
  cases x <;> rfl

theorem update_borehole (ext : Ext) (x : Exchanger) : borehole (updateBhe ext x) = borehole x := by
  cases x <;> rfl

theorem update_fill (ext : Ext) (m : Contents) (x : Exchanger) : updateBhe ext (fill m (updateBhe ext x)) = updateBhe ext (fill m x) := by
  cases x <;> rfl

theorem fill_fill (m m' : Contents) (x : Exchanger) : fill m (fill m' x) = fill m x := by
  cases x <;> rfl

theorem fill_height (m : Contents) (h : ℝ) (x : Exchanger) : fill m (setHeight h x) = setHeight h (fill m x) := by
  cases x <;> rfl

theorem known_fill (ext : Ext) (m : Contents) (hk : Known x) : Known (updateBhe ext (fill m x)) := by
  cases x <;> first | exact hk.elim | trivial

/-- the exchanger with the media filled, and its resistances computed anew -/
def refilled (ext : Ext) (m : Contents) (x : Exchanger) : Exchanger := updateBhe ext (fill m x)

theorem refilled_settled (ext : Ext) (m : Contents) (x : Exchanger) : Settled ext (refilled ext m x) := update_update _ _

/-- the tube made anew -/
def tubeAnew (ext : Ext) (m : Contents) (t : UTube) (q : ℝ) (n : ℤ) (config : Option String) : UTube :=
  let hf := ext.hPipe q t.pipe.rIn m.fluid m.eps
  let Rp := rConduction t.pipe.rIn t.pipe.rOut m.pipeK
  let Rf := 1 / (hf * 2 * π * t.pipe.rIn)
  { mBorehole := t.mBorehole
    mPipe := q
    fluid := m.fluid
    b := t.b
    pipe := { t.pipe with eps := m.eps, k := m.pipeK, rhoCp := m.pipeRhoCp }
    grout := m.grout
    soil := m.soil
    hf := hf
    Rp := Rp
    Rf := Rf
    circuit := ⟨t.pipe.pos, t.pipe.rIn, t.pipe.rOut, m.soil.k, m.grout.k, Rf + Rp, n, config⟩ }

theorem anew_single (ext : Ext) (m : Contents) (t : UTube) :
    anew ext m (.single t) = .ok (.single (tubeAnew ext m t t.mBorehole 1 none)) := by
  have e : massFlowRatePipe t.mBorehole none = .ok t.mBorehole := if_pos (Or.inr rfl)
  show (mkUTube ext t.mBorehole m.fluid t.b _ m.grout m.soil 1 none >>= fun u => pure (Exchanger.single u)) = _
  unfold mkUTube
  rw [e]
  rfl

theorem anew_multiple {ext : Ext} {m : Contents} {t : UTube} {y : Exchanger} (h : anew ext m (.multiple t) = .ok y) :
    ∃ q, massFlowRatePipe t.mBorehole t.circuit.config = .ok q ∧
      y = .multiple (tubeAnew ext m t q ((t.pipe.pos.length / 2 : ℕ) : ℤ) t.circuit.config) := by
  change (mkUTube ext t.mBorehole m.fluid t.b _ m.grout m.soil ((t.pipe.pos.length / 2 : ℕ) : ℤ) t.circuit.config >>= fun u =>
    pure (Exchanger.multiple u)) = _ at h
  unfold mkUTube at h
  cases hm : massFlowRatePipe t.mBorehole t.circuit.config with
  | error e => rw [hm] at h; cases h
  | ok q =>
    rw [hm] at h
    injection h with h
    exact ⟨q, rfl, h.symm⟩

/-- filling an exchanger with other contents gives one made anew with them, but for what `pygfunction` keeps -/
theorem refilled_anew {ext : Ext} {m0 m : Contents} {x1 : Exchanger} (h : anew ext m0 x = .ok x) (h1 : anew ext m x = .ok x1)
    (hx : ∀ t, x = .coaxial t → Follows x m0 m) : refilled ext m x = keeping x x1 := by
  cases x with
  | single t =>
    rw [anew_single] at h h1
    injection h with h
    injection h with h
    injection h1 with h1
    rw [← h1, ← h]
    rfl
  | multiple t =>
    obtain ⟨q, hq, h⟩ := anew_multiple h
    obtain ⟨q', hq', rfl⟩ := anew_multiple h1
    rw [hq] at hq'
    injection hq' with e
    subst e
    injection h with h
    generalize t.circuit.config = config at h ⊢
    generalize t.mBorehole = mb at *
    rw [h]
    rfl
  | coaxial t =>
    obtain ⟨e1, e2, e3⟩ := hx t rfl
    have e4 := e3 t rfl
    clear e3 hx
    injection h with h
    injection h with h
    injection h1 with h1
    rw [← h1, ← h]
    obtain ⟨f, ⟨gk, gr⟩, ⟨sk, sr, su⟩, ep, pr, pk, ck⟩ := m
    dsimp only at e1 e2 e4
    subst e1 e2 e4
    rfl
  | other => cases h

theorem keeping_follows {ext : Ext} {m0 m : Contents} {x1 : Exchanger} (h : anew ext m0 x = .ok x) (h1 : anew ext m x = .ok x1)
    (hf : Follows x m0 m) : keeping x x1 = x1 := by
  cases x with
  | single t =>
    rw [anew_single] at h h1
    injection h with h
    injection h with h
    injection h1 with h1
    have a : t.circuit.ks = m.soil.k := by rw [← h, hf.soil]; rfl
    have b : t.circuit.kg = m.grout.k := by rw [← h, hf.grout]; rfl
    rw [← h1]
    dsimp only [keeping]
    rw [a, b]
    rfl
  | multiple t =>
    obtain ⟨q, hq, h⟩ := anew_multiple h
    obtain ⟨q', hq', rfl⟩ := anew_multiple h1
    injection h with h
    have a : t.circuit.ks = m.soil.k := by rw [h, hf.soil]; rfl
    have b : t.circuit.kg = m.grout.k := by rw [h, hf.grout]; rfl
    dsimp only [keeping]
    rw [a, b]
    rfl
  | coaxial t =>
    injection h1 with h1
    rw [← h1]
    rfl
  | other => cases h

/-- the exchanger with its resistances computed anew -/
def settle (ext : Ext) (s : State) : State := { s with bhe := updateBhe ext s.bhe }

/-- the states the object can be in when media may have changed since it was used -/
def Ready (env : Env) (lo hi : ℝ) (x : Exchanger) (s : State) : Prop :=
  (∃ h, updateBhe env.ext s.bhe = setHeight h x ∧ Within env lo hi h) ∧ TableOk env.db s.table

theorem Ready.used {s : State} (hs : Ready env lo hi x s) : Used env lo hi x (settle env.ext s) := hs

theorem Ready.height {s : State} (hk : Known x) (hs : Ready env lo hi x s) : (borehole s.bhe).H ≠ 0 := by
  obtain ⟨⟨h, e, hw⟩, -⟩ := hs
  have := congrArg (fun b => (borehole b).H) e
  beta_reduce at this
  rw [update_borehole, borehole_setHeight hk] at this
  rw [this]
  exact hw.height

theorem used_ready {s : State} (hx : Settled env.ext x) (hs : Used env lo hi x s) : Ready env lo hi x s := by
  obtain ⟨⟨h, e, hw⟩, ht⟩ := hs
  refine ⟨⟨h, ?_, hw⟩, ht⟩
  rw [e]
  exact hx.setHeight h

theorem prepare_settle (s : State) (hs : (borehole s.bhe).H ≠ 0) : prepare env s = prepare env (settle env.ext s) := by
  unfold prepare settle
  rw [St.get_bind, St.get_bind]
  dsimp only
  rw [update_borehole, pyDiv_ok hs, St.lift_ok rfl, St.lift_ok rfl, St.modify_bind, St.modify_bind]
  dsimp only
  rw [update_update]

theorem simulate_settle (s : State) (hs : (borehole s.bhe).H ≠ 0) (method : String) :
    Whole.simulate env method s = Whole.simulate env method (settle env.ext s) := by
  have e := prepare_settle (env := env) s hs
  unfold Whole.simulate
  rcases h : prepare env (settle env.ext s) with ⟨r, t⟩
  rw [h] at e
  cases r with
  | error er => rw [St.bind_error e, St.bind_error h]
  | ok v => rw [St.bind_ok e, St.bind_ok h]

theorem objective_settle (hk : Known x) {s : State} (hx : ∃ h, updateBhe env.ext s.bhe = setHeight h x) {H : ℝ} (hH : H ≠ 0)
    (method : String) : Whole.localObjective env method H s = Whole.localObjective env method H (settle env.ext s) := by
  obtain ⟨h, e⟩ := hx
  have hb : (borehole (setHeight H s.bhe)).H ≠ 0 := by
    have : Known s.bhe := by
      cases hb : s.bhe <;> first | trivial | skip
      rw [hb] at e
      cases x <;> first | exact hk.elim | cases e
    rw [borehole_setHeight this]
    exact hH
  unfold Whole.localObjective
  rw [St.modify_bind, St.modify_bind]
  have e1 := simulate_settle (env := env) { s with bhe := setHeight H s.bhe } hb method
  have e2 : settle env.ext { s with bhe := setHeight H s.bhe } =
      { settle env.ext s with bhe := setHeight H (settle env.ext s).bhe } := by
    unfold settle
    dsimp only
    rw [updateBhe_setHeight]
  rw [e2] at e1
  rcases hr : Whole.simulate env method { settle env.ext s with bhe := setHeight H (settle env.ext s).bhe } with ⟨r, t⟩
  rw [hr] at e1
  cases r with
  | error er => rw [St.bind_error e1, St.bind_error hr]
  | ok v => rw [St.bind_ok e1, St.bind_ok hr]

theorem size_settle (hk : Known x) {s : State} (hs : Ready env lo hi x s) (h0 : env.minHeight ≠ 0) (method : String) :
    Whole.size env method s = Whole.size env method (settle env.ext s) := by
  obtain ⟨⟨h, e, -⟩, -⟩ := hs
  have kb : ∀ H, (borehole (setHeight H s.bhe)).H = (borehole (setHeight H (settle env.ext s).bhe)).H := by
    intro H
    show _ = (borehole (setHeight H (updateBhe env.ext s.bhe))).H
    rw [← updateBhe_setHeight, update_borehole]
  unfold Whole.size
  rw [St.modify_bind, St.modify_bind, St.get_bind, St.get_bind]
  dsimp only
  rw [kb]
  generalize (borehole (setHeight ((env.maxHeight + env.minHeight) / 2) (settle env.ext s).bhe)).H = X
  have e1 := objective_settle (env := env) hk (s := { s with bhe := setHeight ((env.maxHeight + env.minHeight) / 2) s.bhe })
    ⟨_, by rw [updateBhe_setHeight, e, setHeight_setHeight]⟩ h0 method
  have e2 : settle env.ext { s with bhe := setHeight ((env.maxHeight + env.minHeight) / 2) s.bhe } =
      { settle env.ext s with bhe := setHeight ((env.maxHeight + env.minHeight) / 2) (settle env.ext s).bhe } := by
    unfold settle
    dsimp only
    rw [updateBhe_setHeight]
  rw [e2] at e1
  have e3 : solveRoot env.brent X (Whole.localObjective env method) (some env.minHeight) (some env.maxHeight)
        { s with bhe := setHeight ((env.maxHeight + env.minHeight) / 2) s.bhe } =
      solveRoot env.brent X (Whole.localObjective env method) (some env.minHeight) (some env.maxHeight)
        { settle env.ext s with bhe := setHeight ((env.maxHeight + env.minHeight) / 2) (settle env.ext s).bhe } := by
    unfold solveRoot
    simp only [Option.getD_some]
    rcases hr : Whole.localObjective env method env.minHeight
      { settle env.ext s with bhe := setHeight ((env.maxHeight + env.minHeight) / 2) (settle env.ext s).bhe } with ⟨r, t⟩
    rw [hr] at e1
    cases r with
    | error er => rw [St.bind_error e1, St.bind_error hr]
    | ok v => rw [St.bind_ok e1, St.bind_ok hr]
  rcases hr : solveRoot env.brent X (Whole.localObjective env method) (some env.minHeight) (some env.maxHeight)
      { settle env.ext s with bhe := setHeight ((env.maxHeight + env.minHeight) / 2) (settle env.ext s).bhe } with ⟨r, t⟩
  rw [hr] at e3
  cases r with
  | error er => rw [St.bind_error e3, St.bind_error hr]
  | ok v => rw [St.bind_ok e3, St.bind_ok hr]

/-- what a use leaves -/
theorem ready_perform (hx : Settled env.ext x) (hk : Known x) (hv : GF.Valid env.db) (hr : GF.Range env.db lo hi)
    (hc : Allowed env lo hi env.shared) {s : State} (hs : Ready env lo hi x s) (op : Op) (hop : ∀ y, op = .height y → Within env lo hi y) :
    Ready env lo hi x (perform env s op) := by
  have s1 : ∃ s1 : State, s1.bhe = x ∧ TableOk env.db s1.table := ⟨{ s with bhe := x }, rfl, hs.2⟩
  obtain ⟨s1, b1, t1⟩ := s1
  have asked : ∀ s' : State, (s' = s ∨ s' = { s with table :=
      (GF.request env.spl env.db (env.bSpacing / (borehole s.bhe).H) "default" s.table).2 }) → Ready env lo hi x s' := by
    intro s' h
    have h2 : settle env.ext s' = settle env.ext s ∨ settle env.ext s' = { settle env.ext s with table :=
        (GF.request env.spl env.db (env.bSpacing / (borehole (settle env.ext s).bhe).H) "default" (settle env.ext s).table).2 } := by
      rcases h with rfl | rfl
      · exact .inl rfl
      · right
        show _ = { settle env.ext s with table :=
          (GF.request env.spl env.db (env.bSpacing / (borehole (updateBhe env.ext s.bhe)).H) "default" s.table).2 }
        rw [update_borehole]
        rfl
    exact Report.used_of_asked hk hv hr hs.used h2
  cases op with
  | height y =>
    obtain ⟨⟨z, hz, -⟩, ht⟩ := hs
    refine ⟨⟨y, ?_, hop y rfl⟩, ht⟩
    show updateBhe env.ext (setHeight y s.bhe) = _
    rw [updateBhe_setHeight, hz, setHeight_setHeight]
  | simulate m =>
    show Ready env lo hi x (Whole.simulate env m s).2
    rw [simulate_settle s (hs.height hk)]
    exact used_ready hx (simulate_refines hx hk hv hr s1 b1 t1 m _ hs.used).2
  | size m =>
    show Ready env lo hi x (Whole.size env m s).2
    rw [size_settle hk hs (hc.bounds _ le_rfl hc.order).height]
    exact used_ready hx (size_refines hx hk hv hr s1 b1 t1 m hc.order hc.bounds hc.finder _ hs.used).2
  | print tx => exact asked _ (Report.report_state tx s)
  | «export» sel => exact asked _ (Report.oakRidge_state sel s)

/-- what a change of media leaves -/
theorem ready_fill {m m' : Contents} {s : State} (hs : Ready env lo hi (refilled env.ext m' x) s) :
    Ready env lo hi (refilled env.ext m x) { s with bhe := fill m s.bhe } := by
  obtain ⟨⟨h, e, hw⟩, ht⟩ := hs
  refine ⟨⟨h, ?_, hw⟩, ht⟩
  show updateBhe env.ext (fill m s.bhe) = _
  rw [← update_fill, e, fill_height, updateBhe_setHeight]
  unfold refilled
  rw [update_fill, fill_fill]

theorem Ready.sharing {s : State} (hs : Ready env lo hi x s) (c : Shared) : Ready (env.sharing c) lo hi x s := by
  obtain ⟨⟨h, a, b⟩, t⟩ := hs
  exact ⟨⟨h, a, b.sharing c⟩, t⟩

theorem Ready.of_sharing {s : State} {c : Shared} (hs : Ready (env.sharing c) lo hi x s) : Ready env lo hi x s := by
  obtain ⟨⟨h, a, b⟩, t⟩ := hs
  exact ⟨⟨h, a, b.of_sharing⟩, t⟩

theorem Allowed.sharing {c c' : Shared} (h : Allowed env lo hi c') : Allowed (env.sharing c) lo hi c' :=
  ⟨h.order, fun y a b => (h.bounds y a b).sharing c, h.finder⟩

/-- after any events: the last contents of loads and parameters, and a state in which the exchanger has the last contents of the
media -/
theorem events_ready (hk : Known x) (hv : GF.Valid env.db) (hr : GF.Range env.db lo hi) (events : List Event) (c : Shared)
    (hc : Allowed env lo hi c) (m : Contents) (s : State) (hs : Ready env lo hi (refilled env.ext m x) s)
    (hops : ∀ y, Event.use (.height y) ∈ events → Within env lo hi y) (hch : ∀ c, Event.change c ∈ events → Allowed env lo hi c) :
    (events.foldl happen (env.sharing c, s)).1 = env.sharing (lastShared c events) ∧ Allowed env lo hi (lastShared c events) ∧
      Ready env lo hi (refilled env.ext (lastContents m events) x) (events.foldl happen (env.sharing c, s)).2 := by
  induction events generalizing c m s with
  | nil => exact ⟨rfl, hc, hs⟩
  | cons e l ih =>
    rw [List.foldl_cons]
    have h1 : ∀ y, Event.use (.height y) ∈ l → Within env lo hi y := fun y hy => hops y (List.mem_cons_of_mem _ hy)
    have h2 : ∀ c, Event.change c ∈ l → Allowed env lo hi c := fun c hc => hch c (List.mem_cons_of_mem _ hc)
    cases e with
    | use op =>
      refine ih c hc m _ ?_ h1 h2
      exact (ready_perform (env := env.sharing c) (refilled_settled _ _ _) (known_fill _ _ hk) hv hr
        (Allowed.sharing (c := c) hc) (hs.sharing c) op (fun y hy => (hops y (by rw [hy]; simp)).sharing c)).of_sharing
    | change c' => exact ih c' (hch c' (by simp)) m s hs h1 h2
    | fill m' => exact ih c hc m' _ (ready_fill hs) h1 h2

/-- a state with the exchanger `x` in it acts, simulated or sized, as any other -/
theorem ready_same (hx : Settled env.ext x) (hk : Known x) (hv : GF.Valid env.db) (hr : GF.Range env.db lo hi)
    (hc : Allowed env lo hi env.shared) {s s1 : State} (hs : Ready env lo hi x s) (h1 : s1.bhe = x) (t1 : TableOk env.db s1.table)
    (w1 : Within env lo hi (borehole x).H) (method : String) (y : ℝ) (hy : Within env lo hi y) :
    ((Whole.simulate env method (s.at y)).1 = (Whole.simulate env method (s1.at y)).1 ∧
      ∀ r, (Whole.simulate env method (s1.at y)).1 = .ok r →
        (Whole.simulate env method (s.at y)).2.HPEFT = (Whole.simulate env method (s1.at y)).2.HPEFT ∧
        (Whole.simulate env method (s.at y)).2.dTb = (Whole.simulate env method (s1.at y)).2.dTb) ∧
    (Whole.size env method s).1 = (Whole.size env method s1).1 ∧
      (borehole (Whole.size env method s).2.bhe).H = (borehole (Whole.size env method s1).2.bhe).H := by
  have u1 : Used env lo hi x s1 := ⟨⟨_, by rw [h1]; cases x <;> rfl, w1⟩, t1⟩
  constructor
  · have k : Ready env lo hi x (s.at y) :=
      ready_perform hx hk hv hr hc hs (.height y) (fun z hz => by cases hz; exact hy)
    have k1 : Used env lo hi x (s1.at y) := ⟨⟨y, by show setHeight y s1.bhe = _; rw [h1], hy⟩, t1⟩
    rw [simulate_settle (s.at y) (k.height hk)]
    obtain ⟨r1, -⟩ := simulate_refines hx hk hv hr s1 h1 t1 method _ k.used
    obtain ⟨r2, -⟩ := simulate_refines hx hk hv hr s1 h1 t1 method _ k1
    have v1 : view (settle env.ext (s.at y)) = ⟨y, s.HPEFT, s.dTb⟩ := by
      obtain ⟨⟨h, e, -⟩, -⟩ := hs
      show (⟨(borehole (updateBhe env.ext (setHeight y s.bhe))).H, s.HPEFT, s.dTb⟩ : GheState ℝ) = _
      rw [updateBhe_setHeight, e, setHeight_setHeight, borehole_setHeight hk]
    have v2 : view (s1.at y) = ⟨y, s1.HPEFT, s1.dTb⟩ := by
      show (⟨(borehole (setHeight y s1.bhe)).H, s1.HPEFT, s1.dTb⟩ : GheState ℝ) = _
      rw [h1, borehole_setHeight hk]
    rw [v1] at r1
    rw [v2] at r2
    obtain ⟨q1, q2⟩ := simulate_results (gheEnv env fun h => (prepare env (s1.at h)).1) method y s1.HPEFT s1.dTb s.HPEFT s.dTb
    rw [r1, r2] at q1 q2
    refine ⟨q1.symm, fun r hr => ?_⟩
    have := q2 r hr
    exact ⟨(congrArg GheState.HPEFT this).symm, (congrArg GheState.dTb this).symm⟩
  · rw [size_settle hk hs (hc.bounds _ le_rfl hc.order).height]
    obtain ⟨r1, -⟩ := size_refines hx hk hv hr s1 h1 t1 method hc.order hc.bounds hc.finder _ hs.used
    obtain ⟨r2, -⟩ := size_refines hx hk hv hr s1 h1 t1 method hc.order hc.bounds hc.finder _ u1
    obtain ⟨q1, q2⟩ := size_height env.brent (gheEnv env fun h => (prepare env (s1.at h)).1) method hc.order hc.finder
      (view (settle env.ext s)) (view s1)
    rw [r1, r2] at q1 q2
    exact ⟨q1, q2⟩

theorem anew_known {ext : Ext} {m : Contents} {x1 : Exchanger} (h1 : anew ext m x = .ok x1) : Known x := by
  cases x with
  | other => cases h1
  | _ => trivial

theorem refilled_self {ext : Ext} {m : Contents} (h : anew ext m x = .ok x) : refilled ext m x = x := by
  have hf : Follows x m m := ⟨rfl, rfl, fun _ _ => rfl⟩
  rw [refilled_anew h h fun _ _ => hf, keeping_follows h h hf]

/-- after any events the exchanger acts as a new one with the exchanger `refilled` in it -/
theorem events_same (h : Covered env lo hi x s0) (m0 : Contents) (hx : anew env.ext m0 x = .ok x) (events : List Event)
    (hops : ∀ y, Event.use (.height y) ∈ events → Within env lo hi y) (hch : ∀ c, Event.change c ∈ events → Allowed env lo hi c)
    (m : Contents) (hm : m = lastContents m0 events) (env' : Env) (s' : State) (he : events.foldl happen (env, s0) = (env', s'))
    (s1 : State) (hs1 : construct env' (refilled env.ext m x) = .ok s1) (y : ℝ) (hy : Within env lo hi y) (method : String) :
    env' = env.sharing (lastShared env.shared events) ∧
    ((Whole.simulate env' method (s'.at y)).1 = (Whole.simulate env' method (s1.at y)).1 ∧
      ∀ r, (Whole.simulate env' method (s1.at y)).1 = .ok r →
        (Whole.simulate env' method (s'.at y)).2.HPEFT = (Whole.simulate env' method (s1.at y)).2.HPEFT ∧
        (Whole.simulate env' method (s'.at y)).2.dTb = (Whole.simulate env' method (s1.at y)).2.dTb) ∧
    (Whole.size env' method s').1 = (Whole.size env' method s1).1 ∧
      (borehole (Whole.size env' method s').2.bhe).H = (borehole (Whole.size env' method s1).2.bhe).H := by
  have hk := anew_known hx
  obtain ⟨a, b, d⟩ := events_ready hk h.db h.range events env.shared h.allowed m0 s0
    (by rw [refilled_self hx]; exact used_ready h.settled h.start) hops hch
  change (events.foldl happen (env, s0)).1 = _ at a
  change Ready env lo hi _ (events.foldl happen (env, s0)).2 at d
  rw [he] at a d
  rw [← hm] at d
  dsimp only at a d
  generalize lastShared env.shared events = c at a b
  subst a
  refine ⟨rfl, ?_⟩
  have w1 : Within env lo hi (borehole (refilled env.ext m x)).H := by
    have : borehole (refilled env.ext m x) = borehole x := by
      unfold refilled
      rw [update_borehole]
      cases x <;> rfl
    rw [this]
    exact h.height
  have f1 : s1.bhe = refilled env.ext m x ∧ TableOk env.db s1.table := by
    unfold construct at hs1
    rw [bind_eq_ok] at hs1
    obtain ⟨⟨eq, x'⟩, h1, hs1⟩ := hs1
    dsimp only at hs1
    rw [bind_eq_ok] at hs1
    obtain ⟨sts, h2, hs1⟩ := hs1
    cases hs1
    exact ⟨computeEquivalent_same _ _ _ _ _ h1, Or.inl rfl⟩
  exact ready_same (env := env.sharing c) (refilled_settled _ _ _) (known_fill _ _ hk) h.db h.range (Allowed.sharing b)
    (d.sharing c) f1.1 f1.2 (w1.sharing c) method y (hy.sharing c)

/-- C142: fluid, pipe, grout and soil are shared with the caller, who may change them in place between and after any uses, as
may the loads and parameters of C141.  If the conductivities of soil and grout (and for a coaxial exchanger the roughness of
the pipe) are left as they were, then whatever has happened, with `m` the contents of the media at the end: simulating at a
height gives what an exchanger made anew with these contents (and the same mass flow) gives at that height, result or
exception, and temperatures; and sizing has the same outcome and leaves the same height.  (The hybrid load is the one computed
before the changes.) -/
theorem C142_history (h : Covered env lo hi x s0) (m0 : Contents) (hx : anew env.ext m0 x = .ok x) (events : List Event)
    (hops : ∀ y, Event.use (.height y) ∈ events → Within env lo hi y) (hch : ∀ c, Event.change c ∈ events → Allowed env lo hi c)
    (hfill : ∀ m, Event.fill m ∈ events → Follows x m0 m) (c : Shared) (hc : c = lastShared env.shared events)
    (m : Contents) (hm : m = lastContents m0 events) (x1 : Exchanger) (hx1 : anew env.ext m x = .ok x1)
    (env' : Env) (s' : State) (he : events.foldl happen (env, s0) = (env', s'))
    (s1 : State) (hs1 : construct env' x1 = .ok s1) (y : ℝ) (hy : Within env lo hi y) (method : String) :
    env' = env.sharing c ∧
    (Whole.simulate env' method (s'.at y)).1 = (Whole.simulate env' method (s1.at y)).1 ∧
    (∀ r, (Whole.simulate env' method (s1.at y)).1 = .ok r →
      (Whole.simulate env' method (s'.at y)).2.HPEFT = (Whole.simulate env' method (s1.at y)).2.HPEFT ∧
      (Whole.simulate env' method (s'.at y)).2.dTb = (Whole.simulate env' method (s1.at y)).2.dTb) ∧
    (Whole.size env' method s').1 = (Whole.size env' method s1).1 ∧
      (borehole (Whole.size env' method s').2.bhe).H = (borehole (Whole.size env' method s1).2.bhe).H := by
  have hf : Follows x m0 m := by
    rw [hm]
    have key : ∀ (l : List Event) (m : Contents), Follows x m0 m → (∀ m, Event.fill m ∈ l → Follows x m0 m) →
        Follows x m0 (lastContents m l) := by
      intro l
      induction l with
      | nil => exact fun _ h _ => h
      | cons e l ih =>
        intro m hm hl
        cases e with
        | fill m' => exact ih m' (hl m' (by simp)) fun m h => hl m (List.mem_cons_of_mem _ h)
        | _ => exact ih m hm fun m h => hl m (List.mem_cons_of_mem _ h)
    exact key events m0 ⟨rfl, rfl, fun _ _ => rfl⟩ hfill
  have e1 : refilled env.ext m x = x1 := by rw [refilled_anew hx hx1 fun _ _ => hf, keeping_follows hx hx1 hf]
  obtain ⟨a, ⟨b1, b2⟩, d⟩ := events_same h m0 hx events hops hch m hm env' s' he s1 (by rw [e1]; exact hs1) y hy method
  exact ⟨by rw [hc]; exact a, b1, b2, d⟩

/-- C142: of a U-tube exchanger the conductivities of soil and grout may be changed too.  Then it acts as an exchanger made
anew with the contents of the media at the end, except that the part in which `pygfunction` computes the effective borehole
resistance keeps the conductivities of soil and grout it was first made with. -/
theorem C142_conductivities (h : Covered env lo hi x s0) (hu : ∀ t, x ≠ .coaxial t) (m0 : Contents) (hx : anew env.ext m0 x = .ok x)
    (events : List Event) (hops : ∀ y, Event.use (.height y) ∈ events → Within env lo hi y)
    (hch : ∀ c, Event.change c ∈ events → Allowed env lo hi c) (m : Contents) (hm : m = lastContents m0 events)
    (x1 : Exchanger) (hx1 : anew env.ext m x = .ok x1) (env' : Env) (s' : State) (he : events.foldl happen (env, s0) = (env', s'))
    (s1 : State) (hs1 : construct env' (keeping x x1) = .ok s1) (y : ℝ) (hy : Within env lo hi y) (method : String) :
    (Whole.simulate env' method (s'.at y)).1 = (Whole.simulate env' method (s1.at y)).1 ∧
    (∀ r, (Whole.simulate env' method (s1.at y)).1 = .ok r →
      (Whole.simulate env' method (s'.at y)).2.HPEFT = (Whole.simulate env' method (s1.at y)).2.HPEFT) ∧
    (Whole.size env' method s').1 = (Whole.size env' method s1).1 ∧
      (borehole (Whole.size env' method s').2.bhe).H = (borehole (Whole.size env' method s1).2.bhe).H := by
  have e1 : refilled env.ext m x = keeping x x1 := refilled_anew hx hx1 fun t ht => (hu t ht).elim
  obtain ⟨-, ⟨b1, b2⟩, d⟩ := events_same h m0 hx events hops hch m hm env' s' he s1 (by rw [e1]; exact hs1) y hy method
  exact ⟨b1, fun r hr => (b2 r hr).1, d⟩

/-- C142: if only soil and grout are changed in place, a U-tube exchanger goes on giving the effective borehole resistance it
gave before, whatever the new conductivities; one made anew gives that for the new conductivities. -/
theorem C142_resistance (ext : Ext) (m0 : Contents) (t : UTube)
    (hx : anew ext m0 (.single t) = .ok (.single t) ∨ anew ext m0 (.multiple t) = .ok (.multiple t)) (soil : Soil) (grout : Grout)
    (t' : UTube) (ht' : t' = { t with soil := soil, grout := grout }) :
    (updateThermal ext none none t').1 = .ok (ext.rbStar t.circuit t.b t.mBorehole t.fluid.cp) ∧
    (updateThermalMultiple ext none none t').1 = .ok (ext.rbStar t.circuit t.b t.mBorehole t.fluid.cp) ∧
    (updateThermal ext none none t).1 = .ok (ext.rbStar t.circuit t.b t.mBorehole t.fluid.cp) ∧
    (∀ t1, anew ext { m0 with soil := soil, grout := grout } (.single t) = .ok (.single t1) →
      anew ext m0 (.single t) = .ok (.single t) →
      (updateThermal ext none none t1).1 =
        .ok (ext.rbStar { t.circuit with ks := soil.k, kg := grout.k } t.b t.mBorehole t.fluid.cp)) ∧
    ∀ t1, anew ext { m0 with soil := soil, grout := grout } (.multiple t) = .ok (.multiple t1) →
      anew ext m0 (.multiple t) = .ok (.multiple t) →
      (updateThermalMultiple ext none none t1).1 =
        .ok (ext.rbStar { t.circuit with ks := soil.k, kg := grout.k } t.b t.mBorehole t.fluid.cp) := by
  subst ht'
  have form : ∃ q n config, t = tubeAnew ext m0 t q n config := by
    rcases hx with hx | hx
    · rw [anew_single] at hx
      injection hx with hx
      injection hx with hx
      exact ⟨_, _, _, hx.symm⟩
    · obtain ⟨q, -, hx⟩ := anew_multiple hx
      injection hx with hx
      exact ⟨_, _, _, hx⟩
  obtain ⟨q, n, config, e⟩ := form
  refine ⟨?_, ?_, ?_, fun t1 h1 h0 => ?_, fun t1 h1 h0 => ?_⟩
  · rw [e]; rfl
  · rw [e]; rfl
  · rw [e]; rfl
  · rw [anew_single] at h1 h0
    injection h1 with h1
    injection h1 with h1
    injection h0 with h0
    injection h0 with h0
    rw [← h1, ← h0]
    rfl
  · obtain ⟨q1, hq1, h1⟩ := anew_multiple h1
    obtain ⟨q0, hq0, h0⟩ := anew_multiple h0
    rw [hq1] at hq0
    injection hq0 with hq
    subst hq
    injection h1 with h1
    injection h0 with h0
    rw [h1]
    have c0 : t.circuit = (tubeAnew ext m0 t q1 ((t.pipe.pos.length / 2 : ℕ) : ℤ) t.circuit.config).circuit := congrArg UTube.circuit h0
    have f0 : t.fluid = m0.fluid := congrArg UTube.fluid h0
    have e3 : ({ t.circuit with ks := soil.k, kg := grout.k } : Circuit) =
        { (tubeAnew ext m0 t q1 ((t.pipe.pos.length / 2 : ℕ) : ℤ) t.circuit.config).circuit with ks := soil.k, kg := grout.k } :=
      congrArg (fun c : Circuit => { c with ks := soil.k, kg := grout.k }) c0
    rw [e3, f0]
    rfl

end

end Ghedt.Refill
