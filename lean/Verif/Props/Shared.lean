import Verif.Model.Shared
import Verif.Props.HybridScale

/-!
# Loads and parameters changed in place (C141)
-/

set_option linter.unusedSectionVars false

namespace Ghedt.Whole
open Real Ghedt.GHE Ghedt.Bhe Ghedt.Radial Ghedt.Spec

noncomputable section

/-- What may happen to an exchanger: it is used, or the caller changes the objects shared with it. -/
inductive Event
  | use (op : Op)
  | change (c : Shared)

/-- The exchanger (what is fixed and what changes) after an event. -/
def happen (w : Env × State) : Event → Env × State
  | .use op => (w.1, perform w.1 w.2 op)
  | .change c => (w.1.sharing c, w.2)

/-- The contents of the shared objects after some events. -/
def lastShared (c : Shared) : List Event → Shared
  | [] => c
  | .use _ :: l => lastShared c l
  | .change c' :: l => lastShared c' l

/-- What an exchanger was made with. -/
def Env.shared (env : Env) : Shared :=
  ⟨env.hourly, env.startMonth, env.endMonth, env.maxEFT, env.minEFT, env.minHeight, env.maxHeight⟩

/-- Bounds for the height that are within the range of the database, and between which the root finder probes only its
bracket. -/
structure Allowed (env : Env) (lo hi : ℝ) (c : Shared) : Prop where
  order : c.minHeight ≤ c.maxHeight
  bounds : ∀ h, c.minHeight ≤ h → h ≤ c.maxHeight → Within env lo hi h
  finder : Inside c.minHeight c.maxHeight (env.brent c.minHeight c.maxHeight)

variable {env : Env} {lo hi : ℝ} {x : Exchanger} {s0 : State}

theorem Within.sharing {h : ℝ} (hw : Within env lo hi h) (c : Shared) : Within (env.sharing c) lo hi h :=
  ⟨hw.height, hw.spacing, hw.above, hw.below⟩

theorem Within.of_sharing {h : ℝ} {c : Shared} (hw : Within (env.sharing c) lo hi h) : Within env lo hi h :=
  ⟨hw.height, hw.spacing, hw.above, hw.below⟩

theorem Used.sharing {s : State} (hs : Used env lo hi x s) (c : Shared) : Used (env.sharing c) lo hi x s := by
  obtain ⟨⟨h, a, b⟩, t⟩ := hs
  exact ⟨⟨h, a, b.sharing c⟩, t⟩

theorem Used.of_sharing {s : State} {c : Shared} (hs : Used (env.sharing c) lo hi x s) : Used env lo hi x s := by
  obtain ⟨⟨h, a, b⟩, t⟩ := hs
  exact ⟨⟨h, a, b.of_sharing⟩, t⟩

theorem Covered.sharing (h : Covered env lo hi x s0) {c : Shared} (hc : Allowed env lo hi c) : Covered (env.sharing c) lo hi x s0 :=
  ⟨h.made, h.settled, h.db, h.range, h.height.sharing c, hc.order, fun y a b => (hc.bounds y a b).sharing c, hc.finder⟩

theorem Covered.allowed (h : Covered env lo hi x s0) : Allowed env lo hi env.shared := ⟨h.order, h.bounds, h.finder⟩

/-- after any events: the last contents of the shared objects, and a state reached by using the exchanger -/
theorem events_used (h : Covered env lo hi x s0) (events : List Event) (c : Shared) (hc : Allowed env lo hi c) (s : State)
    (hs : Used env lo hi x s) (hops : ∀ y, Event.use (.height y) ∈ events → Within env lo hi y)
    (hch : ∀ c, Event.change c ∈ events → Allowed env lo hi c) :
    (events.foldl happen (env.sharing c, s)).1 = env.sharing (lastShared c events) ∧ Allowed env lo hi (lastShared c events) ∧
      Used env lo hi x (events.foldl happen (env.sharing c, s)).2 := by
  induction events generalizing c s with
  | nil => exact ⟨rfl, hc, hs⟩
  | cons e l ih =>
    rw [List.foldl_cons]
    cases e with
    | use op =>
      refine ih c hc _ ?_ (fun y hy => hops y (List.mem_cons_of_mem _ hy)) fun c hc => hch c (List.mem_cons_of_mem _ hc)
      exact ((h.sharing hc).used [op] (fun y hy => (hops y (by rw [← List.mem_singleton.1 hy]; simp)).sharing c) s
        (hs.sharing c)).of_sharing
    | change c' =>
      exact ih c' (hch c' (by simp)) s hs (fun y hy => hops y (List.mem_cons_of_mem _ hy))
        fun c hc => hch c (List.mem_cons_of_mem _ hc)

/-- simulating in any state reached by use is simulating the new object at that height -/
theorem used_simulate (h : Covered env lo hi x s0) {s : State} (hs : Used env lo hi x s) (y : ℝ) (hy : Within env lo hi y)
    (method : String) :
    (simulate env method (s.at y)).1 = (simulate env method (s0.at y)).1 ∧
    ∀ r, (simulate env method (s0.at y)).1 = .ok r →
      (simulate env method (s.at y)).2.HPEFT = (simulate env method (s0.at y)).2.HPEFT ∧
      (simulate env method (s.at y)).2.dTb = (simulate env method (s0.at y)).2.dTb := by
  obtain ⟨hk, hx, ht, -⟩ := h.facts
  have key : ∀ s, Used env lo hi x s → view (s.at y) = ⟨y, s.HPEFT, s.dTb⟩ ∧ Used env lo hi x (s.at y) := by
    rintro s ⟨⟨z, hz, -⟩, ht'⟩
    have : (s.at y).bhe = setHeight y x := by
      show setHeight y s.bhe = _
      rw [hz, setHeight_setHeight]
    refine ⟨?_, ⟨y, this, hy⟩, ht'⟩
    unfold view
    rw [this, borehole_setHeight hk]
    rfl
  obtain ⟨v1, u1⟩ := key _ hs
  obtain ⟨v2, u2⟩ := key _ h.start
  obtain ⟨r1, -⟩ := simulate_refines h.settled hk h.db h.range s0 hx ht method _ u1
  obtain ⟨r2, -⟩ := simulate_refines h.settled hk h.db h.range s0 hx ht method _ u2
  rw [v1] at r1
  rw [v2] at r2
  obtain ⟨q1, q2⟩ := simulate_results (gheEnv env fun h => (prepare env (s0.at h)).1) method y s0.HPEFT s0.dTb s.HPEFT s.dTb
  rw [r1, r2] at q1 q2
  refine ⟨q1.symm, fun r hr => ?_⟩
  have := q2 r hr
  exact ⟨(congrArg GheState.HPEFT this).symm, (congrArg GheState.dTb this).symm⟩

/-- sizing with the height as the only state -/
theorem objective_height (e : GheEnv ℝ) (method : String) (H : ℝ) :
    Refines GheState.H (fun _ => True) (fun _ => ((GHE.localObjective e method H ⟨H, [], []⟩).1, H)) (GHE.localObjective e method H) := by
  rintro ⟨H0, a, b⟩ -
  refine ⟨?_, trivial⟩
  have step : ∀ a b, GHE.localObjective e method H ⟨H0, a, b⟩ = GHE.localObjective e method H ⟨H, a, b⟩ := fun _ _ => rfl
  have one : ∀ a b, GHE.localObjective e method H ⟨H, a, b⟩ = ((GHE.localObjective e method H ⟨H, [], []⟩).1,
      (GHE.localObjective e method H ⟨H, a, b⟩).2) ∧ (GHE.localObjective e method H ⟨H, a, b⟩).2.H = H := by
    intro a b
    have keep : (GHE.simulate e method ⟨H, a, b⟩).2.H = H := by
      unfold GHE.simulate
      rw [St.get_bind]
      dsimp only
      cases pyDiv e.bSpacing H with
      | error er => rfl
      | ok q =>
        rw [St.lift_ok rfl]
        cases e.thermal H with
        | error er => rfl
        | ok th =>
          rw [St.lift_ok rfl]
          cases simulationInput e method with
          | error er => rfl
          | ok p =>
            rw [St.lift_ok rfl]
            obtain ⟨Q, t⟩ := p
            dsimp only
            cases simulateDetailed th Q t with
            | error er => rfl
            | ok p =>
              rw [St.lift_ok rfl]
              obtain ⟨u, v⟩ := p
              dsimp only
              rw [St.modify_bind]
              cases maxNumber u with
              | error er => rfl
              | ok m =>
                rw [St.lift_ok rfl]
                cases minNumber u with
                | error er => rfl
                | ok m => rw [St.lift_ok rfl]; rfl
    obtain ⟨q1, -⟩ := simulate_results e method H a b [] []
    unfold GHE.localObjective
    rw [St.modify_bind, St.modify_bind]
    dsimp only
    rcases h1 : GHE.simulate e method ⟨H, a, b⟩ with ⟨r1, t1⟩
    rcases h2 : GHE.simulate e method ⟨H, [], []⟩ with ⟨r2, t2⟩
    rw [h1] at q1 keep
    rw [h2] at q1
    dsimp only at q1 keep
    subst q1
    cases r1 with
    | error er => rw [St.bind_error h1, St.bind_error h2]; exact ⟨rfl, keep⟩
    | ok v => rw [St.bind_ok h1, St.bind_ok h2]; exact ⟨rfl, keep⟩
  rw [step]
  obtain ⟨k1, k2⟩ := one a b
  rw [k1]
  dsimp only
  rw [k2]

/-- sizing: the outcome and the height left do not depend on the state before -/
theorem size_height (brent : ℝ → ℝ → Finder ℝ) (e : GheEnv ℝ) (method : String) (hle : e.minHeight ≤ e.maxHeight)
    (hb : Inside e.minHeight e.maxHeight (brent e.minHeight e.maxHeight)) (s s' : GheState ℝ) :
    (GHE.size brent e method s).1 = (GHE.size brent e method s').1 ∧
      (GHE.size brent e method s).2.H = (GHE.size brent e method s').2.H := by
  have key : Refines GheState.H (fun _ => True) (do
      St.modify fun _ => (e.maxHeight + e.minHeight) / 2
      let H ← St.get
      let _ ← GHE.solveRoot brent H (fun H _ => ((GHE.localObjective e method H ⟨H, [], []⟩).1, H)) (some e.minHeight) (some e.maxHeight)
      let H ← St.get
      return (if H = e.minHeight then [Warning.notShallowEnough] else []) ++ (if H = e.maxHeight then [.notDeepEnough] else []) :
        St ℝ (List Warning)) (GHE.size brent e method) := by
    unfold GHE.size
    refine Refines.bind (fun s _ => ⟨rfl, trivial⟩) fun _ => ?_
    intro s hs
    rw [St.get_bind, St.get_bind]
    exact Refines.bind (Refines.solveRoot hle (fun y _ _ => objective_height e method y) brent hb s.H)
      (fun _ s hs => ⟨rfl, hs⟩) s hs
  have h1 := (key s trivial).1
  have h2 := (key s' trivial).1
  have h3 : ∀ H H' : ℝ, (do
      St.modify fun _ => (e.maxHeight + e.minHeight) / 2
      let H ← St.get
      let _ ← GHE.solveRoot brent H (fun H _ => ((GHE.localObjective e method H ⟨H, [], []⟩).1, H)) (some e.minHeight) (some e.maxHeight)
      let H ← St.get
      return (if H = e.minHeight then [Warning.notShallowEnough] else []) ++ (if H = e.maxHeight then [.notDeepEnough] else []) :
        St ℝ (List Warning)) H = (do
      St.modify fun _ => (e.maxHeight + e.minHeight) / 2
      let H ← St.get
      let _ ← GHE.solveRoot brent H (fun H _ => ((GHE.localObjective e method H ⟨H, [], []⟩).1, H)) (some e.minHeight) (some e.maxHeight)
      let H ← St.get
      return (if H = e.minHeight then [Warning.notShallowEnough] else []) ++ (if H = e.maxHeight then [.notDeepEnough] else []) :
        St ℝ (List Warning)) H' := fun _ _ => rfl
  rw [h3 _ s'.H, h2] at h1
  exact ⟨(congrArg Prod.fst h1).symm, (congrArg Prod.snd h1).symm⟩

/-- C141: the list of loads and the parameters are shared with the caller, who may change them in place between and after any
uses.  Whatever has happened, with `c` the contents of the shared objects at the end: simulating at a height gives what the
exchanger gives that was newly made and never used, if the shared objects had contained `c` when it was simulated — result
or exception, and temperatures. -/
theorem C141_history (h : Covered env lo hi x s0) (events : List Event)
    (hops : ∀ y, Event.use (.height y) ∈ events → Within env lo hi y) (hch : ∀ c, Event.change c ∈ events → Allowed env lo hi c)
    (c : Shared) (hc : c = lastShared env.shared events) (y : ℝ) (hy : Within env lo hi y) (method : String)
    (env' : Env) (s' : State) (he : events.foldl happen (env, s0) = (env', s')) :
    env' = env.sharing c ∧ construct env' x = .ok s0 ∧
    (simulate env' method (s'.at y)).1 = (simulate env' method (s0.at y)).1 ∧
    ∀ r, (simulate env' method (s0.at y)).1 = .ok r →
      (simulate env' method (s'.at y)).2.HPEFT = (simulate env' method (s0.at y)).2.HPEFT ∧
      (simulate env' method (s'.at y)).2.dTb = (simulate env' method (s0.at y)).2.dTb := by
  obtain ⟨a, b, d⟩ := events_used h events env.shared h.allowed s0 h.start hops hch
  change (events.foldl happen (env, s0)).1 = _ at a
  change Used env lo hi x (events.foldl happen (env, s0)).2 at d
  rw [he] at a d
  rw [← hc] at a b
  dsimp only at a d
  subst a
  obtain ⟨k1, k2⟩ := used_simulate (h.sharing b) (d.sharing c) y (hy.sharing c) method
  exact ⟨rfl, (h.sharing b).made, k1, k2⟩

/-- C141: the hybrid method does not see any of the changes: after whatever happened it gives what the new exchanger gave
before. -/
theorem C141_hybrid (h : Covered env lo hi x s0) (events : List Event)
    (hops : ∀ y, Event.use (.height y) ∈ events → Within env lo hi y) (hch : ∀ c, Event.change c ∈ events → Allowed env lo hi c)
    (y : ℝ) (hy : Within env lo hi y) (env' : Env) (s' : State) (he : events.foldl happen (env, s0) = (env', s')) :
    (simulate env' "hybrid" (s'.at y)).1 = (simulate env "hybrid" (s0.at y)).1 ∧
    ∀ r, (simulate env "hybrid" (s0.at y)).1 = .ok r →
      (simulate env' "hybrid" (s'.at y)).2.HPEFT = (simulate env "hybrid" (s0.at y)).2.HPEFT := by
  obtain ⟨e, -, k1, k2⟩ := C141_history h events hops hch _ rfl y hy "hybrid" env' s' he
  have : simulate env' "hybrid" (s0.at y) = simulate env "hybrid" (s0.at y) := by
    rw [e]
    rfl
  rw [this] at k1 k2
  exact ⟨k1, fun r hr => (k2 r hr).1⟩

/-- C141: sizing after whatever happened has the outcome, and leaves the height, of the new exchanger with the contents of the
shared objects at the end. -/
theorem C141_size (h : Covered env lo hi x s0) (events : List Event)
    (hops : ∀ y, Event.use (.height y) ∈ events → Within env lo hi y) (hch : ∀ c, Event.change c ∈ events → Allowed env lo hi c)
    (method : String) (env' : Env) (s' : State) (he : events.foldl happen (env, s0) = (env', s')) :
    (size env' method s').1 = (size env' method s0).1 ∧
      (borehole (size env' method s').2.bhe).H = (borehole (size env' method s0).2.bhe).H := by
  obtain ⟨a, b, d⟩ := events_used h events env.shared h.allowed s0 h.start hops hch
  change (events.foldl happen (env, s0)).1 = _ at a
  change Used env lo hi x (events.foldl happen (env, s0)).2 at d
  rw [he] at a d
  dsimp only at a d
  generalize lastShared env.shared events = c at a b
  subst a
  have hc := h.sharing b
  obtain ⟨hk, hx, ht, -⟩ := hc.facts
  obtain ⟨r1, -⟩ := size_refines hc.settled hk hc.db hc.range s0 hx ht method hc.order hc.bounds hc.finder s' (d.sharing c)
  obtain ⟨r2, -⟩ := size_refines hc.settled hk hc.db hc.range s0 hx ht method hc.order hc.bounds hc.finder s0 hc.start
  obtain ⟨q1, q2⟩ := size_height (env.sharing c).brent (gheEnv (env.sharing c) fun h => (prepare (env.sharing c) (s0.at h)).1) method
    hc.order hc.finder (view s') (view s0)
  rw [r1, r2] at q1 q2
  exact ⟨q1, q2⟩

end

end Ghedt.Whole

namespace Ghedt.WholeSearch
open Real Ghedt.GHE Ghedt.Bhe Ghedt.Radial Ghedt.Whole Ghedt.Search Ghedt.Utilities Ghedt.Spec

noncomputable section
variable {p : Problem} {f : Field} {H : ℝ} {bhe : Exchanger} {s : UTube}

/-- The same problem with other loads and parameters. -/
def Problem.sharing (p : Problem) (c : Whole.Shared) : Problem :=
  { p with
    hourly := c.hourly
    startMonth := c.startMonth
    endMonth := c.endMonth
    maxEFT := c.maxEFT
    minEFT := c.minEFT
    minHeight := c.minHeight
    maxHeight := c.maxHeight }

/-- how a new exchanger is made: the parts that do not depend on the shared objects, and those that do -/
theorem fresh_form {x : Held} (hx : fresh p f H = .ok x) :
    ∃ B db bhe eq sts cl hl, ∃ h : GL.Hybrid ℝ, (∀ c, retrieveFlow (p.sharing c).flow (p.sharing c).V (p.sharing c).media.fluid.rho f.length >>= (fun flows =>
        boreholeSpacing p.borehole.rb f >>= fun B =>
        GF.computeLive p.fmt p.toFloat (p.gf flows.2 p.media f) B [H] [p.borehole.rb] [p.borehole.D] eskilsonLogTimes f >>= fun db =>
        gheFlow flows.1 p.media.fluid.rho db.locations.length >>= fun m =>
        makeExchanger p.ext m.2 p.media { p.borehole with H := H } >>= fun y =>
        computeEquivalent p.ext p.brent y >>= fun z =>
        calcSts p.solve (radialTube p.ext z.1) none false p.fuel >>= fun sts =>
        (.ok (B, db, z.2, z.1, sts) : Py _)) = .ok (B, db, bhe, eq, sts)) ∧
      x = ⟨{ ext := p.ext, brent := p.brent, solve := p.solve, fuel := p.fuel, spl := p.spl, db := db,
             bSpacing := B, rejection := cl, extraction := hl, load := h.load, hour := h.hour, hourly := p.hourly,
             startMonth := p.startMonth, endMonth := p.endMonth, maxEFT := p.maxEFT, minEFT := p.minEFT,
             minHeight := p.minHeight, maxHeight := p.maxHeight }, ⟨bhe, eq, sts, {}, [], []⟩⟩ := by
  unfold fresh buildGhe mkGhe at hx
  rw [bind_eq_ok] at hx
  obtain ⟨flows, h1, hx⟩ := hx
  rw [bind_eq_ok] at hx
  obtain ⟨B, h2, hx⟩ := hx
  rw [bind_eq_ok] at hx
  obtain ⟨db, h3, hx⟩ := hx
  rw [bind_eq_ok] at hx
  obtain ⟨m, h4, hx⟩ := hx
  rw [bind_eq_ok] at hx
  obtain ⟨y, h5, hx⟩ := hx
  rw [bind_eq_ok] at hx
  obtain ⟨z, h6, hx⟩ := hx
  rw [bind_eq_ok] at hx
  obtain ⟨sts, h7, hx⟩ := hx
  rw [bind_eq_ok] at hx
  obtain ⟨⟨r, e⟩, h8, hx⟩ := hx
  dsimp only at hx
  rw [bind_eq_ok] at hx
  obtain ⟨⟨cl, hl, h⟩, h9, hx⟩ := hx
  cases hx
  refine ⟨B, db, z.2, z.1, sts, cl, hl, h, fun c => ?_, rfl⟩
  rw [show retrieveFlow (p.sharing c).flow (p.sharing c).V (p.sharing c).media.fluid.rho f.length = _ from h1, Except.ok_bind,
    show boreholeSpacing p.borehole.rb f = _ from h2, Except.ok_bind, show GF.computeLive _ _ _ _ _ _ _ _ _ = _ from h3, Except.ok_bind,
    h4, Except.ok_bind, show makeExchanger _ _ _ _ = _ from h5, Except.ok_bind, h6, Except.ok_bind, h7, Except.ok_bind]

/-- C141: an exchanger made for one problem, whose loads and parameters are then changed in place, compared with an exchanger
made for the changed problem: they differ in the hybrid load only; so the hourly method gives the same with both. -/
theorem C141_made (c : Whole.Shared) (x x' : Held) (hx : fresh p f H = .ok x) (hx' : fresh (p.sharing c) f H = .ok x') :
    x'.state = x.state ∧
    x'.env = { x.env.sharing c with
      load := x'.env.load
      hour := x'.env.hour
      rejection := x'.env.rejection
      extraction := x'.env.extraction } ∧
    ∀ y, Whole.simulate (x.env.sharing c) "hourly" (x.state.at y) = Whole.simulate x'.env "hourly" (x'.state.at y) := by
  have key : x'.state = x.state ∧
    x'.env = { x.env.sharing c with
      load := x'.env.load
      hour := x'.env.hour
      rejection := x'.env.rejection
      extraction := x'.env.extraction } := by
    obtain ⟨B, db, bhe, eq, sts, cl, hl, h, a, rfl⟩ := fresh_form hx
    obtain ⟨B', db', bhe', eq', sts', cl', hl', h', a', rfl⟩ := fresh_form hx'
    have := (a c).symm.trans (a' c)
    cases this
    exact ⟨rfl, rfl⟩
  refine ⟨key.1, key.2, fun y => ?_⟩
  rw [key.2, key.1]
  rfl

/-- C141: so with the hybrid method the changed exchanger is not the exchanger for the changed problem: if all loads are
multiplied in place, the hourly method gives the differences to the ground temperature multiplied, the hybrid method
gives them unchanged, although the exchanger for the changed problem has them multiplied. -/
theorem C141_stale (h : Usable p f H bhe s) (a : ℝ) (ha : 0 < a) (h' : Usable { p with hourly := p.hourly.map (a * ·) } f H bhe s)
    (x x' : Held) (hx : fresh p f H = .ok x) (hx' : fresh { p with hourly := p.hourly.map (a * ·) } f H = .ok x') (hi lo : ℝ)
    (method : String) (hsim : (Whole.simulate x.env method x.state).1 = .ok (hi, lo)) (env' : Whole.Env)
    (he : env' = x.env.sharing { x.env.shared with hourly := p.hourly.map (a * ·) }) :
    ∃ hi' lo', (Whole.simulate x'.env method x'.state).1 = .ok (hi', lo') ∧
      hi' - p.media.soil.ugt = a * (hi - p.media.soil.ugt) ∧ lo' - p.media.soil.ugt = a * (lo - p.media.soil.ugt) ∧
      (method = "hourly" → (Whole.simulate env' method x.state).1 = .ok (hi', lo')) ∧
      (method = "hybrid" → (Whole.simulate env' method x.state).1 = .ok (hi, lo)) := by
  obtain ⟨hi', lo', st', k1, k2, k3, -⟩ := C139_temperatures h a ha h' method x x' hx hx' hi lo _ (Prod.ext hsim rfl)
  refine ⟨hi', lo', by rw [k1], k2, k3, fun hm => ?_, fun hm => ?_⟩
  · subst hm
    have ep : p.sharing { x.env.shared with hourly := p.hourly.map (a * ·) } = { p with hourly := p.hourly.map (a * ·) } := by
      obtain ⟨B, db, bhe, eq, sts, cl, hl, h, -, rfl⟩ := fresh_form hx
      rfl
    obtain ⟨e1, e2, -⟩ := C141_made { x.env.shared with hourly := p.hourly.map (a * ·) } x x' hx (by rw [ep]; exact hx')
    rw [e2, e1] at k1
    rw [he]
    exact congrArg Prod.fst k1
  · subst hm he
    exact hsim

end

end Ghedt.WholeSearch
