import Verif.Lemmas.Ground
import Verif.Model.Script
import Verif.Model.Network

/-!
# Problems whose designs take the same course

`Same`: the exchangers made for one problem are those made for the other, changed by `fe` and `fs`, and the changed ones have
the same excess.  Then all searches take the same course.
-/

namespace Ghedt.Alike
open Ghedt.GHE Ghedt.Bhe Ghedt.Whole Ghedt.Utilities Ghedt.WholeSearch Ghedt.Ground

noncomputable section

/-- The object with another ground temperature and other results. -/
def change (φ : ℝ → ℝ) (ft fd : List (Num ℝ) → List (Num ℝ)) (s : Whole.State) : Whole.State :=
  { s with bhe := exchanger φ s.bhe, bheEq := tube φ s.bheEq, HPEFT := ft s.HPEFT, dTb := fd s.dTb }

/-- A change of the arguments that reaches the loads, the months and the limits only. -/
structure Objects (fe : Whole.Env → Whole.Env) : Prop where
  db : ∀ e, (fe e).db = e.db
  setDb : ∀ e db, fe { e with db := db } = { fe e with db := db }
  spl : ∀ e, (fe e).spl = e.spl
  ext : ∀ e, (fe e).ext = e.ext
  brent : ∀ e, (fe e).brent = e.brent
  solve : ∀ e, (fe e).solve = e.solve
  fuel : ∀ e, (fe e).fuel = e.fuel
  spacing : ∀ e, (fe e).bSpacing = e.bSpacing
  minHeight : ∀ e, (fe e).minHeight = e.minHeight
  maxHeight : ∀ e, (fe e).maxHeight = e.maxHeight

variable {φ : ℝ → ℝ} {fe : Whole.Env → Whole.Env} {ft fd : List (Num ℝ) → List (Num ℝ)}

theorem commutes_requestG (o : Objects fe) (e : Whole.Env) (b : ℝ) :
    Commutes Proper (change φ ft fd) id (requestG e b) (requestG (fe e) b) := by
  intro s hs
  refine ⟨?_, hs⟩
  simp only [requestG, o.spl, o.db]
  show ((GF.request e.spl e.db b "default" s.table).1, _) = _
  rw [← Commutes.map_id']
  rfl

theorem commutes_grabG (o : Objects fe) (e : Whole.Env) (b : ℝ) :
    Commutes Proper (change φ ft fd) id (grabG e b) (grabG (fe e) b) := by
  unfold grabG
  refine Commutes.bind (commutes_requestG o e b) fun a => Commutes.bind_get fun s _ => ?_
  simp only [id, change, o.db, borehole_ground]
  exact Commutes.bind (Commutes.same _) fun _ => Commutes.same _

/-- What `_simulate_detailed` reads, with another temperature of the ground. -/
def thermal (φ : ℝ → ℝ) (th : Thermal ℝ) : Thermal ℝ := { th with Tg := φ th.Tg }

theorem commutes_prepare (o : Objects fe) (e : Whole.Env) :
    Commutes Proper (change φ ft fd) (thermal φ) (prepare e) (prepare (fe e)) := by
  unfold prepare
  refine Commutes.bind_get fun s _ => ?_
  simp only [change, borehole_ground, o.spacing, o.ext, o.brent, o.solve, o.fuel, o.db]
  refine Commutes.bind (Commutes.same _) fun b => Commutes.bind (Commutes.modify (fun s _ => ?_) fun s hs => ?_) fun _ =>
    Commutes.bind_get fun s _ => Commutes.bind_lift (computeEquivalent_ground _ _ φ _) fun a ha =>
    Commutes.bind (Commutes.modify (fun s _ => ?_) fun s hs => ?_) fun _ => Commutes.bind (Commutes.same _) fun sts =>
    Commutes.bind (Commutes.modify (fun s _ => ?_) fun s hs => hs) fun _ => Commutes.bind (commutes_grabG o e b) fun g =>
    Commutes.bind_get fun s hs => Commutes.pure _ ?_
  · simp only [change, updateBhe_ground]
  · exact updateBhe_proper hs
  · rfl
  · exact computeEquivalent_proper ha
  · rfl
  · simp only [thermal, change, soilOf_ground φ hs, borehole_ground, flow_ground, cp_ground, effectiveRb_ground]
    rfl

theorem mapM_map {α β γ : Type} (h : β → γ) {f : α → Py β} {f' : α → Py γ} (hf : ∀ a, f' a = (f a).map h) (l : List α) :
    l.mapM f' = (l.mapM f).map (List.map h) := by
  induction l with
  | nil => rfl
  | cons a l ih =>
    simp only [List.mapM_cons, ih, hf]
    cases f a with
    | error e => rfl
    | ok b => cases l.mapM f <;> rfl

/-- One step of `_simulate_detailed`, with the temperature of the ground apart. -/
def stepAt (th : Thermal ℝ) (Q t : List ℝ) (Tg : ℝ) (i : ℤ) : Py (Num ℝ × Num ℝ) := do
  let Qb := 0 :: Q.map (· / th.nbh)
  let tv := 0 :: t
  let dQ := List.zipWith (· - ·) Qb.tail Qb
  let ti ← pyGet tv i
  let gv ← (tv.take i.toNat).mapM fun τ => th.answer (ti - τ)
  let w := (dQ.take i.toNat).map fun q => q / th.H / th.twoPiK
  if w.length ≠ gv.length then throw .valueError
  let delta := Num.dot w gv
  let Tb := delta.map (Tg + ·)
  let q ← pyGet Qb i
  let Tbulk := Tb.map (· + q / th.H * th.Rb)
  return (Tbulk.map (· - q / (2 * th.mdot * th.cp)), delta)

/-- The last part of the constructor of `GHE`, from the equivalent tube on. -/
def finishGhe (p : Problem) (B : ℝ) (db : GF.DB ℝ) (a : UTube × Exchanger) : Py Held := do
  let sts ← Radial.calcSts p.solve (radialTube p.ext a.1) none false p.fuel
  let (rejection, extraction) ← GL.splitHeatAndCool p.hourly "W"
  let (cl, hl, h) ← GL.mkHybrid (Radial.respOf (radialTube p.ext a.1) sts.1 sts.2.1 sts.2.2) rejection extraction
    p.startMonth p.endMonth 2019
  return ⟨{ ext := p.ext, brent := p.brent, solve := p.solve, fuel := p.fuel, spl := p.spl, db := db,
            bSpacing := B, rejection := cl, extraction := hl, load := h.load, hour := h.hour, hourly := p.hourly,
            startMonth := p.startMonth, endMonth := p.endMonth, maxEFT := p.maxEFT, minEFT := p.minEFT,
            minHeight := p.minHeight, maxHeight := p.maxHeight },
          ⟨a.2, a.1, sts, {}, [], []⟩⟩

/-- What the two searches have in common. -/
structure Same (p p' : Problem) (φ : ℝ → ℝ) (fe : Whole.Env → Whole.Env) (ft fd : List (Num ℝ) → List (Num ℝ))
    (g : ℝ × ℝ → ℝ × ℝ) : Prop where
  objects : Objects fe
  flow : p'.flow = p.flow
  V : p'.V = p.V
  media : p'.media = Ground.media φ p.media
  borehole : p'.borehole = p.borehole
  method : p'.method = p.method
  maxIter : p'.maxIter = p.maxIter
  minHeight : p'.minHeight = p.minHeight
  maxHeight : p'.maxHeight = p.maxHeight
  fmt : p'.fmt = p.fmt
  toFloat : p'.toFloat = p.toFloat
  gf : ∀ m d f H rb D, p'.gf m (Ground.media φ d) f H rb D = p.gf m d f H rb D
  gfOther : ∀ m (d : Media) f H rb D, d.hardware = .other → p'.gf m d f H rb D = p.gf m d f H rb D
  ext : p'.ext = p.ext
  brent : p'.brent = p.brent
  finish : ∀ B db a, finishGhe p' B db (Prod.map (tube φ) (exchanger φ) a) =
    (finishGhe p B db a).map fun h => ⟨fe h.env, change φ ft fd h.state⟩
  simulate : ∀ e m, Commutes Proper (change φ ft fd) g (Whole.simulate e m) (Whole.simulate (fe e) m)
  cost : ∀ e r, cost (fe e).maxEFT (fe e).minEFT (g r).1 (g r).2 = cost e.maxEFT e.minEFT r.1 r.2

variable {p p' : Problem} {g : ℝ × ℝ → ℝ × ℝ}

theorem commutes_localObjective (o : Objects fe) (e : Whole.Env)
    (hs : ∀ m, Commutes Proper (change φ ft fd) g (Whole.simulate e m) (Whole.simulate (fe e) m))
    (hc : ∀ r, cost (fe e).maxEFT (fe e).minEFT (g r).1 (g r).2 = cost e.maxEFT e.minEFT r.1 r.2) (method : String) (H : ℝ) :
    Commutes Proper (change φ ft fd) id (Whole.localObjective e method H) (Whole.localObjective (fe e) method H) := by
  unfold Whole.localObjective
  refine Commutes.bind (Commutes.modify (fun s _ => ?_) fun s hs => setHeight_proper hs) fun _ =>
    Commutes.bind (hs method) fun r => Commutes.pure _ (hc r)
  simp only [change, setHeight_ground]

theorem commutes_size (o : Objects fe) (e : Whole.Env)
    (hs : ∀ m, Commutes Proper (change φ ft fd) g (Whole.simulate e m) (Whole.simulate (fe e) m))
    (hc : ∀ r, cost (fe e).maxEFT (fe e).minEFT (g r).1 (g r).2 = cost e.maxEFT e.minEFT r.1 r.2) (method : String) :
    Commutes Proper (change φ ft fd) id (Whole.size e method) (Whole.size (fe e) method) := by
  unfold Whole.size
  refine Commutes.bind (Commutes.modify (fun s _ => ?_) fun s hs => setHeight_proper hs) fun _ =>
    Commutes.bind_get fun s _ => ?_
  · simp only [change, setHeight_ground, o.minHeight, o.maxHeight]
  simp only [change, borehole_ground, o.minHeight, o.maxHeight, o.brent]
  refine Commutes.bind (Commutes.solveRoot _ _ (fun x => commutes_localObjective o e hs hc method x) _ _) fun _ =>
    Commutes.bind_get fun s _ => Commutes.pure _ ?_
  simp only [change, borehole_ground]
  rfl

theorem mkGhe_eq (p : Problem) (V B : ℝ) (d : Media) (b : Borehole) (db : GF.DB ℝ) :
    mkGhe p V B d b db = (do
      let q ← Search.gheFlow V d.fluid.rho db.locations.length
      let x ← makeExchanger p.ext q.2 d b
      let a ← computeEquivalent p.ext p.brent x
      finishGhe p B db a) := rfl

theorem mkGhe_proper {p : Problem} {V B : ℝ} {d : Media} {b : Borehole} {db : GF.DB ℝ} {h : Held}
    (hh : mkGhe p V B d b db = .ok h) : Proper h.state := by
  rw [mkGhe_eq] at hh
  obtain ⟨q, -, hh⟩ := bind_eq_ok.mp hh
  obtain ⟨x, -, hh⟩ := bind_eq_ok.mp hh
  obtain ⟨a, ha, hh⟩ := bind_eq_ok.mp hh
  unfold finishGhe at hh
  obtain ⟨sts, -, hh⟩ := bind_eq_ok.mp hh
  obtain ⟨l, -, hh⟩ := bind_eq_ok.mp hh
  obtain ⟨y, -, hh⟩ := bind_eq_ok.mp hh
  cases hh
  exact computeEquivalent_proper ha

theorem buildGhe_eq (p : Problem) (flows : ℝ × ℝ) (d : Media) (b : Borehole) (co : List (ℝ × ℝ)) :
    buildGhe p flows d b co = (boreholeSpacing b.rb co >>= fun B =>
      GF.computeLive p.fmt p.toFloat (p.gf flows.2 d co) B [b.H] [b.rb] [b.D] eskilsonLogTimes co >>= fun db =>
      mkGhe p flows.1 B d b db) := rfl

theorem buildGhe_proper {p : Problem} {flows : ℝ × ℝ} {d : Media} {b : Borehole} {co : List (ℝ × ℝ)} {h : Held}
    (hh : buildGhe p flows d b co = .ok h) : Proper h.state := by
  rw [buildGhe_eq] at hh
  obtain ⟨B, -, hh⟩ := bind_eq_ok.mp hh
  obtain ⟨db, -, hh⟩ := bind_eq_ok.mp hh
  exact mkGhe_proper hh

/-- The change of an exchanger. -/
def both (fe : Whole.Env → Whole.Env) (fs : Whole.State → Whole.State) (h : Held) : Held := ⟨fe h.env, fs h.state⟩

theorem mkGhe_alike (h : Same p p' φ fe ft fd g) (V B : ℝ) (d : Media) (b : Borehole) (db : GF.DB ℝ) :
    mkGhe p' V B (media φ d) b db = (mkGhe p V B d b db).map (both fe (change φ ft fd)) := by
  rw [mkGhe_eq, mkGhe_eq]
  show (Search.gheFlow V d.fluid.rho db.locations.length >>= _) =
    Except.map _ (Search.gheFlow V d.fluid.rho db.locations.length >>= _)
  cases Search.gheFlow V d.fluid.rho db.locations.length with
  | error e => rfl
  | ok q =>
    show (makeExchanger p'.ext q.2 (media φ d) b >>= _) = Except.map _ (makeExchanger p.ext q.2 d b >>= _)
    rw [h.ext, makeExchanger_ground]
    cases makeExchanger p.ext q.2 d b with
    | error e => rfl
    | ok x =>
      show (computeEquivalent p.ext p'.brent (exchanger φ x) >>= _) =
        Except.map _ (computeEquivalent p.ext p.brent x >>= _)
      rw [h.brent, computeEquivalent_ground]
      cases computeEquivalent p.ext p.brent x with
      | error e => rfl
      | ok a => exact h.finish B db a

theorem mkGhe_other (h : Same p p' φ fe ft fd g) (V B : ℝ) (d : Media) (hd : d.hardware = .other) (b : Borehole)
    (db : GF.DB ℝ) : mkGhe p' V B d b db = (mkGhe p V B d b db).map (both fe (change φ ft fd)) := by
  obtain ⟨hw, fl, gr, so⟩ := d
  cases hd
  rw [mkGhe_eq, mkGhe_eq]
  show (Search.gheFlow V fl.rho db.locations.length >>= _) =
    Except.map _ (Search.gheFlow V fl.rho db.locations.length >>= _)
  cases Search.gheFlow V fl.rho db.locations.length <;> rfl

theorem buildGhe_alike (h : Same p p' φ fe ft fd g) (flows : ℝ × ℝ) (d : Media) (b : Borehole) (co : List (ℝ × ℝ)) :
    buildGhe p' flows (Ground.media φ d) b co = (buildGhe p flows d b co).map (both fe (change φ ft fd)) := by
  have hg : p'.gf flows.2 (Ground.media φ d) co = p.gf flows.2 d co := by
    funext H rb D; exact h.gf _ _ _ _ _ _
  rw [buildGhe_eq, buildGhe_eq, hg, h.fmt, h.toFloat]
  cases boreholeSpacing b.rb co with
  | error e => rfl
  | ok B =>
    simp only [Except.ok_bind]
    cases GF.computeLive p.fmt p.toFloat (p.gf flows.2 d co) B [b.H] [b.rb] [b.D] eskilsonLogTimes co with
    | error e => rfl
    | ok db => exact mkGhe_alike h flows.1 B d b db

theorem buildGhe_other (h : Same p p' φ fe ft fd g) (flows : ℝ × ℝ) (d : Media) (hd : d.hardware = .other) (b : Borehole)
    (co : List (ℝ × ℝ)) : buildGhe p' flows d b co = (buildGhe p flows d b co).map (both fe (change φ ft fd)) := by
  have hg : p'.gf flows.2 d co = p.gf flows.2 d co := by
    funext H rb D; exact h.gfOther _ _ _ _ _ _ hd
  rw [buildGhe_eq, buildGhe_eq, hg, h.fmt, h.toFloat]
  cases boreholeSpacing b.rb co with
  | error e => rfl
  | ok B =>
    simp only [Except.ok_bind]
    cases GF.computeLive p.fmt p.toFloat (p.gf flows.2 d co) B [b.H] [b.rb] [b.D] eskilsonLogTimes co with
    | error e => rfl
    | ok db => exact mkGhe_other h flows.1 B d hd b db

/-- for the exchanger held, of whatever class -/
theorem rebuild_alike (h : Same p p' φ fe ft fd g) (flows : ℝ × ℝ) (x : Exchanger) (co : List (ℝ × ℝ)) :
    buildGhe p' flows (mediaOf (exchanger φ x)) (Whole.borehole (exchanger φ x)) co =
      (buildGhe p flows (mediaOf x) (Whole.borehole x) co).map (both fe (change φ ft fd)) := by
  rw [borehole_ground]
  by_cases hx : x = .other
  · subst hx; exact buildGhe_other h flows _ rfl _ co
  · rw [mediaOf_ground φ hx]; exact buildGhe_alike h flows _ _ co

/-- The exchanger held, if there is one, is of one of the three classes. -/
def ProperS (s : WholeSearch.State) : Prop := ∀ h, s.held = some h → Proper h.state

/-- The search object with the exchanger changed. -/
def onState (f : Held → Held) (s : WholeSearch.State) : WholeSearch.State := { s with held := s.held.map f }

theorem commutes_onHeld {α β : Type} (gv : α → β) {m : Whole.Env → St Whole.State α} {m' : Whole.Env → St Whole.State β}
    (h : ∀ e, Commutes Proper (change φ ft fd) gv (m e) (m' (fe e))) :
    Commutes ProperS (onState (both fe (change φ ft fd))) gv (onHeld m) (onHeld m') := by
  intro s hs
  rcases hh : s.held with _ | x
  · simp only [onHeld, onState, hh]
    exact ⟨rfl, hs⟩
  · obtain ⟨h1, h2⟩ := h x.env x.state (hs x hh)
    simp only [onHeld, onState, hh, Option.map_some, both]
    refine ⟨?_, ?_⟩
    · rw [h1]
    · intro y hy
      cases hy
      exact h2

theorem commutes_bheHeld : Commutes ProperS (onState (both fe (change φ ft fd))) (exchanger φ)
    (onHeld fun _ => do let s ← St.get; return s.bhe) (onHeld fun _ => do let s ← St.get; return s.bhe) :=
  commutes_onHeld _ fun _ => Commutes.bind_get fun s _ => Commutes.pure _ rfl

/-- a change of the search object that does not reach the exchanger -/
theorem commutes_outer (f : Held → Held) {k : WholeSearch.State → WholeSearch.State}
    (hk : ∀ s, k (onState f s) = onState f (k s)) (hh : ∀ s, (k s).held = s.held) :
    Commutes ProperS (onState f) id (St.modify k) (St.modify k) :=
  Commutes.modify (fun s _ => hk s) fun s hs x hx => hs x (by rw [← hh s, hx])

theorem commutes_hold (f : Held → Held) {h : Held} (hp : Proper h.state) : Commutes ProperS (onState f) id
    (St.modify fun s => { s with held := some h }) (St.modify fun s => { s with held := some (f h) }) :=
  Commutes.modify (fun _ _ => rfl) fun _ _ x hx => by cases hx; exact hp

theorem commutes_initialize (h : Same p p' φ fe ft fd g) (co : List (ℝ × ℝ)) (H : ℝ) :
    Commutes ProperS (onState (both fe (change φ ft fd))) id (initializeGhe p co H) (initializeGhe p' co H) := by
  unfold initializeGhe
  refine Commutes.bind (commutes_bheHeld) fun x => ?_
  have hf : (mediaOf (exchanger φ x)).fluid.rho = (mediaOf x).fluid.rho := by cases x <;> rfl
  simp only [hf, h.flow, h.V]
  refine Commutes.bind (Commutes.same _) fun flows => Commutes.bind (commutes_onHeld id fun e =>
    Commutes.modify (fun s _ => ?_) fun s hs => setHeight_proper hs) fun _ =>
    Commutes.bind (commutes_bheHeld) fun y =>
    Commutes.bind_lift (rebuild_alike h flows y co) fun x hx => commutes_hold _ (buildGhe_proper hx)
  simp only [State.at, change, setHeight_ground]

theorem commutes_excess (h : Same p p' φ fe ft fd g) (co : List (ℝ × ℝ)) (H : ℝ) :
    Commutes ProperS (onState (both fe (change φ ft fd))) id (calculateExcess p co H) (calculateExcess p' co H) := by
  unfold calculateExcess
  rw [h.method]
  exact Commutes.bind (commutes_initialize h co H) fun _ => Commutes.bind
    (commutes_onHeld _ fun e => h.simulate e p.method) fun r => commutes_onHeld id fun e => Commutes.pure _ (h.cost e r)

theorem commutes_bisect (h : Same p p' φ fe ft fd g) (domain : List (List (ℝ × ℝ))) (xs : ℤ) (n : ℕ) :
    ∀ i xL xR, Commutes ProperS (onState (both fe (change φ ft fd))) id (bisect p domain xs n i xL xR)
      (bisect p' domain xs n i xL xR) := by
  induction n with
  | zero => intro i xL xR; exact Commutes.pure _ rfl
  | succ n ih =>
    intro i xL xR
    unfold bisect
    rw [h.maxHeight]
    refine Commutes.ite (Commutes.pure _ rfl) (Commutes.bind (Commutes.same _) fun f =>
      Commutes.bind (commutes_excess h f p.maxHeight) fun T =>
      Commutes.bind (commutes_outer _ (fun _ => rfl) fun _ => rfl) fun _ => Commutes.bind (Commutes.same _) fun sg =>
      Commutes.ite (ih _ _ _) (ih _ _ _))

theorem commutes_searchBisection (h : Same p p' φ fe ft fd g) (domain : List (List (ℝ × ℝ))) (xL xR : ℤ)
    (a b : ℝ) : Commutes ProperS (onState (both fe (change φ ft fd))) id (searchBisection p domain xL xR a b)
      (searchBisection p' domain xL xR a b) := by
  unfold searchBisection
  rw [h.maxIter, h.maxHeight]
  refine Commutes.bind (Commutes.same _) fun s1 => Commutes.bind (Commutes.same _) fun s2 =>
    Commutes.bind (commutes_bisect h domain _ _ _ _ _) fun r => Commutes.bind (Commutes.same _) fun co =>
    Commutes.bind (commutes_excess h co p.maxHeight) fun _ => Commutes.bind_get fun s _ =>
    Commutes.bind (Commutes.same _) fun key => Commutes.bind (Commutes.same _) fun sel =>
    Commutes.bind (commutes_initialize h sel p.maxHeight) fun _ => Commutes.pure _ rfl

theorem commutes_search (h : Same p p' φ fe ft fd g) (domain : List (List (ℝ × ℝ))) :
    Commutes ProperS (onState (both fe (change φ ft fd))) id (WholeSearch.search p domain) (WholeSearch.search p' domain) := by
  unfold WholeSearch.search
  rw [h.maxHeight, h.minHeight]
  refine Commutes.bind (Commutes.same _) fun fR => Commutes.bind (Commutes.same _) fun fL =>
    Commutes.bind (commutes_excess h _ _) fun a => Commutes.bind (commutes_excess h _ _) fun b =>
    Commutes.bind (commutes_excess h _ _) fun d =>
    Commutes.bind (commutes_outer _ (fun _ => rfl) fun _ => rfl) fun _ =>
    Commutes.bind (commutes_outer _ (fun _ => rfl) fun _ => rfl) fun _ =>
    Commutes.bind (Commutes.same _) fun s1 => Commutes.bind (Commutes.same _) fun s2 => Commutes.ite
      (Commutes.bind (Commutes.same _) fun f0 => Commutes.bind (commutes_initialize h _ _) fun _ => Commutes.pure _ rfl)
      (Commutes.bind (Commutes.same _) fun s3 => Commutes.bind (Commutes.same _) fun s4 => Commutes.ite
        (commutes_searchBisection h _ _ _ _ _)
        (Commutes.ite (Commutes.throw _) (Commutes.ite (Commutes.throw _) (Commutes.pure _ rfl))))

theorem commutes_setup (h : Same p p' φ fe ft fd g) (domain : List (List (ℝ × ℝ))) :
    Commutes ProperS (onState (both fe (change φ ft fd))) id (setup p domain) (setup p' domain) := by
  unfold setup
  rw [h.flow, h.V, h.media, h.borehole]
  exact Commutes.bind (Commutes.same _) fun co => Commutes.bind (Commutes.same _) fun flows =>
    Commutes.bind_lift (buildGhe_alike h flows p.media p.borehole co) fun x hx =>
    Commutes.bind (commutes_hold _ (buildGhe_proper hx)) fun _ => commutes_outer _ (fun _ => rfl) fun _ => rfl

theorem commutes_1D (h : Same p p' φ fe ft fd g) (domain : List (List (ℝ × ℝ))) :
    Commutes ProperS (onState (both fe (change φ ft fd))) id (bisection1D p domain) (bisection1D p' domain) :=
  Commutes.bind (commutes_setup h domain) fun _ => commutes_search h domain

theorem commutes_2D (h : Same p p' φ fe ft fd g) (nested : List (List (List (ℝ × ℝ)))) :
    Commutes ProperS (onState (both fe (change φ ft fd))) id (bisection2D p nested) (bisection2D p' nested) := by
  unfold bisection2D
  refine Commutes.bind (Commutes.same _) fun first => Commutes.bind (commutes_setup h _) fun _ =>
    Commutes.bind (Commutes.same _) fun outer => Commutes.bind (commutes_search h _) fun r => ?_
  rcases r with _ | ⟨key, x⟩
  · exact Commutes.throw _
  · exact Commutes.bind (Commutes.same _) fun inner =>
      Commutes.bind (commutes_outer _ (fun _ => rfl) fun _ => rfl) fun _ => commutes_search h _

theorem commutes_computeG (h : Same p p' φ fe ft fd g) :
    Commutes ProperS (onState (both fe (change φ ft fd))) id (computeG p) (computeG p') := by
  intro s hs
  rcases hh : s.held with _ | x
  · simp only [computeG, onState, hh]
    exact ⟨rfl, hs⟩
  · have hp := hs x hh
    have hg : p'.gf (flowOf (exchanger φ x.state.bhe)) (mediaOf (exchanger φ x.state.bhe)) x.env.db.locations =
        p.gf (flowOf x.state.bhe) (mediaOf x.state.bhe) x.env.db.locations := by
      rw [mediaOf_ground φ hp, flow_ground]
      funext H rb D; exact h.gf _ _ _ _ _ _
    simp only [computeG, onState, hh, Option.map_some, both, change, h.objects.db, h.objects.spacing,
      h.objects.minHeight, h.objects.maxHeight, h.fmt, h.toFloat, hg, borehole_ground]
    cases GF.computeGFunctions p.fmt p.toFloat (p.gf (flowOf x.state.bhe) (mediaOf x.state.bhe) x.env.db.locations)
        x.env.bSpacing x.env.minHeight x.env.maxHeight (Whole.borehole x.state.bhe).rb (Whole.borehole x.state.bhe).D
        x.env.db with
    | error e => exact ⟨by simp only [hh]; rfl, hs⟩
    | ok db =>
      refine ⟨?_, fun y hy => by cases hy; exact hp⟩
      exact congrArg (fun x => (Except.ok (), ({ s with held := some ⟨x, _⟩ } : WholeSearch.State)))
        (by have q := h.objects.setDb x.env db
            simp only [h.objects.spacing, h.objects.minHeight, h.objects.maxHeight] at q
            exact q.symm)

theorem commutes_sizeHeld (h : Same p p' φ fe ft fd g) :
    Commutes ProperS (onState (both fe (change φ ft fd))) id (sizeHeld p) (sizeHeld p') := by
  unfold sizeHeld
  refine Commutes.bind (commutes_computeG h) fun _ => Commutes.bind
    (commutes_onHeld id fun e => commutes_size h.objects e (h.simulate e) (h.cost e) "hybrid") fun _ =>
    commutes_onHeld id fun e => Commutes.bind_get fun s _ => Commutes.pure _ ?_
  simp only [change, borehole_ground]; rfl

theorem commutes_loop (h : Same p p' φ fe ft fd g) (nested : List (List (List (ℝ × ℝ)))) (n : ℕ) :
    ∀ i old, Commutes ProperS (onState (both fe (change φ ft fd))) id (successiveLoop p nested n i old)
      (successiveLoop p' nested n i old) := by
  induction n with
  | zero => intro i old; exact Commutes.pure _ rfl
  | succ n ih =>
    intro i old
    unfold successiveLoop
    refine Commutes.bind (Commutes.same _) fun domain => Commutes.bind
      (commutes_outer _ (fun _ => rfl) fun _ => rfl) fun _ => Commutes.bind (g := id) (Commutes.tryExcept _
        (Commutes.bind (commutes_search h _) fun r => Commutes.pure _ rfl) (Commutes.pure _ rfl)) fun r => ?_
    rcases r with _ | _ | ⟨k, sel⟩
    · exact Commutes.pure _ rfl
    · exact Commutes.throw _
    · exact Commutes.bind (commutes_outer _ (fun _ => rfl) fun _ => rfl) fun _ =>
        Commutes.bind (commutes_sizeHeld h) fun H => Commutes.bind
        (commutes_outer _ (fun _ => rfl) fun _ => rfl) fun _ => Commutes.ite (Commutes.pure _ rfl) (ih _ _)

theorem commutes_successive (h : Same p p' φ fe ft fd g) (nested : List (List (List (ℝ × ℝ)))) (k : ℤ) :
    Commutes ProperS (onState (both fe (change φ ft fd))) id (searchSuccessive p nested k) (searchSuccessive p' nested k) := by
  unfold searchSuccessive
  rw [h.maxHeight]
  exact Commutes.bind (commutes_loop h nested _ _ _) fun _ => Commutes.bind_get fun s _ =>
    Commutes.bind (Commutes.same _) fun m => Commutes.bind (Commutes.same _) fun idx =>
    Commutes.bind (Commutes.same _) fun sel => Commutes.bind (Commutes.same _) fun temps =>
    Commutes.bind (commutes_outer _ (fun _ => rfl) fun _ => rfl) fun _ => Commutes.bind (Commutes.same _) fun key =>
    Commutes.bind (Commutes.same _) fun domain => Commutes.bind (Commutes.same _) fun selected =>
    Commutes.bind (commutes_initialize h _ _) fun _ => Commutes.bind (commutes_sizeHeld h) fun _ => Commutes.pure _ rfl

theorem commutes_ZD (h : Same p p' φ fe ft fd g) (nested : List (List (List (ℝ × ℝ)))) :
    Commutes ProperS (onState (both fe (change φ ft fd))) id (bisectionZD p nested) (bisectionZD p' nested) := by
  unfold bisectionZD
  refine Commutes.bind (Commutes.same _) fun first => Commutes.bind (commutes_setup h _) fun _ =>
    Commutes.bind (Commutes.same _) fun outer => Commutes.bind (commutes_search h _) fun r => ?_
  rcases r with _ | ⟨key, x⟩
  · exact Commutes.throw _
  · exact Commutes.bind (commutes_outer _ (fun _ => rfl) fun _ => rfl) fun _ => commutes_successive h _ _

theorem commutes_findDesign (h : Same p p' φ fe ft fd g) (routine : String) (d : Design.Candidates ℝ) :
    Commutes ProperS (onState (both fe (change φ ft fd))) id (findDesign p routine d) (findDesign p' routine d) := by
  unfold findDesign
  exact Commutes.ite (Commutes.bind (Commutes.same _) fun l => commutes_1D h l) (Commutes.ite
    (Commutes.bind (Commutes.same _) fun l => commutes_1D h l) (Commutes.ite
    (Commutes.bind (Commutes.same _) fun l => commutes_2D h l) (Commutes.ite
    (Commutes.bind (Commutes.same _) fun l => Commutes.bind (commutes_ZD h l) fun _ => Commutes.pure _ rfl)
    (Commutes.throw _))))

theorem commutes_design (h : Same p p' φ fe ft fd g) (fuel : ℕ) (gc : Design.Constraints ℝ)
    (routine : String) :
    Commutes ProperS (onState (both fe (change φ ft fd))) id (design p fuel gc routine) (design p' fuel gc routine) :=
  Commutes.bind (Commutes.same _) fun d => commutes_findDesign h routine d

theorem commutes_findAndSize (h : Same p p' φ fe ft fd g) (routine : String) (d : Design.Candidates ℝ) :
    Commutes ProperS (onState (both fe (change φ ft fd))) id (Script.findAndSize ⟨p, routine, d⟩) (Script.findAndSize ⟨p', routine, d⟩) := by
  unfold Script.findAndSize
  exact Commutes.bind (commutes_findDesign h _ _) fun r => Commutes.bind (commutes_computeG h) fun _ =>
    Commutes.bind (commutes_onHeld id fun e => commutes_size h.objects e (h.simulate e) (h.cost e) "hybrid") fun _ =>
    Commutes.pure _ rfl

/-- for the exchanger made first -/
theorem fresh_alike (h : Same p p' φ fe ft fd g) (flow : String) (V : ℝ) (d : Media) (b : Borehole) (f : List (ℝ × ℝ)) :
    (Search.retrieveFlow flow V (media φ d).fluid.rho f.length >>= fun q => buildGhe p' q (media φ d) b f) =
      (Search.retrieveFlow flow V d.fluid.rho f.length >>= fun q => buildGhe p q d b f).map (both fe (change φ ft fd)) := by
  show (Search.retrieveFlow flow V d.fluid.rho f.length >>= _) = _
  cases Search.retrieveFlow flow V d.fluid.rho f.length with
  | error e => rfl
  | ok q => exact buildGhe_alike h q d b f

theorem commutes_oakRidge (o : Objects fe) (selected : List (ℝ × ℝ)) (e : Whole.Env) :
    Commutes Proper (change φ ft fd) id (Report.oakRidge selected e) (Report.oakRidge selected (fe e)) := by
  unfold Report.oakRidge
  refine Commutes.bind_get fun s _ => ?_
  have h2 : Report.recordOf (Report.tubeOf (change φ ft fd s)) = Report.recordOf (Report.tubeOf s) := by
    unfold Report.tubeOf
    simp only [change]
    cases s.bhe <;> rfl
  rw [h2]
  simp only [change, borehole_ground, o.spacing]
  exact Commutes.bind (Commutes.same _) fun b => Commutes.bind (commutes_grabG o e b) fun g =>
    Commutes.bind (Commutes.same _) fun pairs => Commutes.pure _ rfl

theorem proper_empty : ProperS {} := fun _ h => by cases h

theorem designToFile_alike (h : Same p p' φ fe ft fd g) (routine : String) (cand : Design.Candidates ℝ)
    (enc : Files.Encoder Files.Json) (out : Files.File) (d : Files.Disk) :
    Script.designToFile enc out ⟨p', routine, cand⟩ d = Script.designToFile enc out ⟨p, routine, cand⟩ d := by
  obtain ⟨h1, h2⟩ := commutes_findAndSize h routine cand {} proper_empty
  rw [← Commutes.map_id'] at h1
  replace h1 : Script.findAndSize ⟨p', routine, cand⟩ {} = ((Script.findAndSize ⟨p, routine, cand⟩ {}).1,
    onState (both fe (change φ ft fd)) (Script.findAndSize ⟨p, routine, cand⟩ {}).2) := h1
  unfold Script.designToFile
  rw [h1]
  revert h2
  rcases Script.findAndSize ⟨p, routine, cand⟩ {} with ⟨r, s⟩
  intro h2
  cases r with
  | error e => rfl
  | ok r =>
    rcases hs : s.held with _ | x
    · simp only [onState, hs, Option.map_none]
    · simp only [onState, hs, Option.map_some]
      rcases r with _ | ⟨k, sel⟩
      · rfl
      · have q := (commutes_oakRidge (φ := φ) (ft := ft) (fd := fd) h.objects sel x.env x.state (h2 x hs)).1
        rw [← Commutes.map_id'] at q
        replace q : Report.oakRidge sel (fe x.env) (change φ ft fd x.state) = ((Report.oakRidge sel x.env x.state).1,
          change φ ft fd (Report.oakRidge sel x.env x.state).2) := q
        simp only [Files.oakRidgeExport, both, q]
        rcases Report.oakRidge sel x.env x.state with ⟨q, t⟩
        cases q <;> rfl

/-! ### g-functions -/

theorem foldlM_map {α β γ : Type} (h : β → γ) {step : β → α → Py β} {step' : γ → α → Py γ}
    (hs : ∀ b a, step' (h b) a = (step b a).map h) (l : List α) :
    ∀ b, l.foldlM step' (h b) = (l.foldlM step b).map h := by
  induction l with
  | nil => intro b; rfl
  | cons a l ih =>
    intro b
    simp only [List.foldlM_cons, hs]
    cases step b a with
    | error e => rfl
    | ok b' => exact ih b'

theorem placeBoreholes_ground (ext : Ext) (m : ℝ) (φ : ℝ → ℝ) (d : Media) (boundary : String) (b : Network.Bore)
    (co : List (ℝ × ℝ)) : Network.placeBoreholes ext m (media φ d) boundary b co =
      (Network.placeBoreholes ext m d boundary b co).map (Prod.map id (List.map (exchanger φ))) := by
  unfold Network.placeBoreholes
  refine foldlM_map (Prod.map id (List.map (exchanger φ))) (fun acc i => ?_) _ ([], [])
  cases pyGet co i with
  | error e => rfl
  | ok q =>
    simp only [Except.ok_bind, makeExchanger_ground]
    split_ifs
    · cases makeExchanger ext m d ⟨b.H, b.D, b.rb⟩ with
      | error e => rfl
      | ok x =>
        show Except.ok _ = Except.ok _
        simp [Prod.map]
    · rfl

end

end Ghedt.Alike
