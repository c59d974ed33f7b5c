import Verif.Model.WholeSearch
import Verif.Lemmas.WholeGhe

/-!
# The searches with real exchangers refine the searches of `Model/SearchRoutines.lean`
-/

set_option linter.unusedSectionVars false

namespace Ghedt.WholeSearch
open Real Ghedt.GHE Ghedt.Bhe Ghedt.Radial Ghedt.Whole Ghedt.Search Ghedt.Utilities

noncomputable section

abbrev Field := List (ℝ × ℝ)

/-- A new exchanger for the field, of the given height, from what the user gave. -/
def fresh (p : Problem) (f : Field) (H : ℝ) : Py Held := do
  let flows ← retrieveFlow p.flow p.V p.media.fluid.rho f.length
  buildGhe p flows p.media { p.borehole with H := H } f

/-- The parameters of the search model that stand for the exchangers. -/
def absEnv (p : Problem) : Search.Env Field ℝ where
  build f H := do
    let _ ← fresh p f H
    return ()
  sim f H := do
    let h ← fresh p f H
    let (hi, lo) ← (Whole.simulate h.env p.method h.state).1
    return cost p.maxEFT p.minEFT hi lo
  sizeH f H := do
    let h ← fresh p f H
    (sizeHeld p { held := some h }).1
  nbh f := f.length
  minHeight := p.minHeight
  maxHeight := p.maxHeight
  boreholeH := p.borehole.H
  maxIter := p.maxIter

/-! ### what never changes in an exchanger -/

/-- The media, radius and burial depth are those given, and so are the limits. -/
structure Intact (p : Problem) (h : Held) : Prop where
  known : Known h.state.bhe
  media : mediaOf h.state.bhe = p.media
  rb : (Whole.borehole h.state.bhe).rb = p.borehole.rb
  D : (Whole.borehole h.state.bhe).D = p.borehole.D

/-- The same for the exchanger in the object. -/
def Same (p : Problem) (s : Whole.State) : Prop :=
  Known s.bhe ∧ mediaOf s.bhe = p.media ∧ (Whole.borehole s.bhe).rb = p.borehole.rb ∧
    (Whole.borehole s.bhe).D = p.borehole.D

def Preserves {α : Type} (I : Whole.State → Prop) (m : St Whole.State α) : Prop := ∀ s, I s → I (m s).2

variable {I : Whole.State → Prop}

theorem Preserves.bind {α β : Type} {m : St Whole.State α} {f : α → St Whole.State β} (hm : Preserves I m)
    (hf : ∀ a, Preserves I (f a)) : Preserves I (m >>= f) := by
  intro s hs
  have h1 := hm s hs
  rcases hms : m s with ⟨r, s1⟩
  rw [hms] at h1
  cases r with
  | error e => rw [St.bind_error hms]; exact h1
  | ok a => rw [St.bind_ok hms]; exact hf a s1 h1

theorem Preserves.pure {α : Type} (a : α) : Preserves I (Pure.pure a : St Whole.State α) := fun _ hs => hs
theorem Preserves.lift {α : Type} (a : Py α) : Preserves I (St.lift a : St Whole.State α) := fun _ hs => hs
theorem Preserves.throw {α : Type} (e : PyErr) : Preserves I (St.throw e : St Whole.State α) := fun _ hs => hs
theorem Preserves.get : Preserves I (St.get : St Whole.State Whole.State) := fun _ hs => hs
theorem Preserves.modify {f : Whole.State → Whole.State} (h : ∀ s, I s → I (f s)) :
    Preserves I (St.modify f) := fun s hs => h s hs

theorem Preserves.run {obj : ℝ → St Whole.State ℝ} (h : ∀ y, Preserves I (obj y)) :
    ∀ q : Finder ℝ, Preserves I (q.run obj)
  | .done x => Preserves.pure x
  | .fail e => Preserves.throw e
  | .ask x next => Preserves.bind (h x) fun v => Preserves.run h (next v)

theorem Preserves.solveRoot {obj : ℝ → St Whole.State ℝ} (h : ∀ y, Preserves I (obj y))
    (brent : ℝ → ℝ → Finder ℝ) (x : ℝ) (lo hi : Option ℝ) :
    Preserves I (GHE.solveRoot brent x obj lo hi) := by
  unfold GHE.solveRoot
  refine Preserves.bind (h _) fun a => Preserves.bind (h _) fun b =>
    Preserves.bind (Preserves.lift _) fun c => Preserves.bind (Preserves.lift _) fun d => ?_
  split_ifs
  · exact Preserves.run h _
  all_goals exact Preserves.pure _

theorem Same.of_bhe {p : Problem} {s s' : Whole.State} (hs : Same p s) (h : s'.bhe = s.bhe) : Same p s' := by
  unfold Same at *; rw [h]; exact hs

theorem Same.setHeight {p : Problem} {s : Whole.State} (hs : Same p s) (H : ℝ) : Same p (s.at H) := by
  obtain ⟨h1, h2, h3, h4⟩ := hs
  unfold Same State.at
  rcases hb : s.bhe with t | t | c | _
  all_goals rw [hb] at h1 h2 h3 h4
  all_goals exact ⟨h1, h2, h3, h4⟩

theorem Same.update {p : Problem} {s : Whole.State} (ext : Ext) (hs : Same p s) :
    Same p { s with bhe := updateBhe ext s.bhe } := by
  obtain ⟨h1, h2, h3, h4⟩ := hs
  unfold Same
  dsimp only
  rcases hb : s.bhe with t | t | c | _
  all_goals rw [hb] at h1 h2 h3 h4
  all_goals exact ⟨h1, h2, h3, h4⟩

/-- `St.get` followed by something that may use the state read -/
theorem Preserves.getBind {β : Type} {f : Whole.State → St Whole.State β}
    (hf : ∀ s, I s → I (f s s).2) : Preserves I (St.get >>= f) := by
  intro s hs
  rw [St.get_bind]
  exact hf s hs

theorem Preserves.prepare (p : Problem) (env : Whole.Env) : Preserves (Same p) (Whole.prepare env) := by
  unfold Whole.prepare
  refine Preserves.bind Preserves.get fun s0 => Preserves.bind (Preserves.lift _) fun q =>
    Preserves.bind (Preserves.modify fun s hs => hs.update env.ext) fun _ => Preserves.getBind fun s hs => ?_
  cases hce : computeEquivalent env.ext env.brent s.bhe with
  | error e => rw [St.lift_error rfl]; exact hs
  | ok w =>
    obtain ⟨eq, x'⟩ := w
    obtain rfl := computeEquivalent_same _ _ _ _ _ hce
    rw [St.lift_ok rfl]
    dsimp only
    rw [St.modify_bind]
    refine Preserves.bind (I := Same p) (Preserves.lift _) (fun sts => ?_) _ (hs.of_bhe rfl)
    refine Preserves.bind (Preserves.modify fun s hs => hs.of_bhe rfl) fun _ => ?_
    refine Preserves.bind ?_ fun _ => Preserves.bind Preserves.get fun _ => Preserves.pure _
    unfold grabG
    refine Preserves.bind ?_ fun _ => Preserves.bind Preserves.get fun _ =>
      Preserves.bind (Preserves.lift _) fun _ => Preserves.lift _
    intro s hs
    exact hs.of_bhe rfl

theorem Preserves.simulate (p : Problem) (env : Whole.Env) (method : String) :
    Preserves (Same p) (Whole.simulate env method) := by
  unfold Whole.simulate
  refine Preserves.bind (Preserves.prepare p env) fun th => Preserves.bind (Preserves.lift _) fun w => ?_
  refine Preserves.bind (Preserves.lift _) fun w => ?_
  exact Preserves.bind (Preserves.modify fun s hs => hs.of_bhe rfl) fun _ => Preserves.bind (Preserves.lift _)
    fun _ => Preserves.bind (Preserves.lift _) fun _ => Preserves.pure _

theorem Preserves.size (p : Problem) (env : Whole.Env) (method : String) :
    Preserves (Same p) (Whole.size env method) := by
  unfold Whole.size
  refine Preserves.bind (Preserves.modify fun s hs => hs.setHeight _) fun _ => Preserves.bind Preserves.get fun s =>
    Preserves.bind (Preserves.solveRoot (fun y => ?_) _ _ _ _) fun _ => Preserves.bind Preserves.get fun _ =>
      Preserves.pure _
  unfold Whole.localObjective
  exact Preserves.bind (Preserves.modify fun s hs => hs.setHeight _) fun _ =>
    Preserves.bind (Preserves.simulate p env method) fun _ => Preserves.pure _

theorem Intact.same {p : Problem} {h : Held} (hi : Intact p h) : Same p h.state := ⟨hi.1, hi.2, hi.3, hi.4⟩
theorem Same.intact {p : Problem} {env : Whole.Env} {s : Whole.State} (hi : Same p s) : Intact p ⟨env, s⟩ :=
  ⟨hi.1, hi.2.1, hi.2.2.1, hi.2.2.2⟩

theorem makeExchanger_same {ext : Ext} {m : ℝ} {media : Media} {b : Borehole} {x : Exchanger}
    (h : makeExchanger ext m media b = .ok x) (hk : Known x) :
    mediaOf x = media ∧ (Whole.borehole x).rb = b.rb ∧ (Whole.borehole x).D = b.D ∧
      (Whole.borehole x).H = b.H := by
  obtain ⟨hw, fl, gr, so⟩ := media
  unfold makeExchanger at h
  cases hw with
  | single pipe =>
    dsimp only at h
    rw [bind_eq_ok] at h
    obtain ⟨t, h1, h2⟩ := h
    cases h2
    unfold mkSingle mkUTube at h1
    rw [bind_eq_ok] at h1
    obtain ⟨mp, -, h1⟩ := h1
    cases h1
    exact ⟨rfl, rfl, rfl, rfl⟩
  | multiple pipe =>
    dsimp only at h
    rw [bind_eq_ok] at h
    obtain ⟨t, h1, h2⟩ := h
    cases h2
    unfold mkMultiple mkUTube at h1
    rw [bind_eq_ok] at h1
    obtain ⟨mp, -, h1⟩ := h1
    cases h1
    exact ⟨rfl, rfl, rfl, rfl⟩
  | coaxial pipe => cases h; exact ⟨rfl, rfl, rfl, rfl⟩
  | other => cases h; exact hk.elim

/-- What is known of a newly built exchanger. -/
structure New (p : Problem) (b : Borehole) (coordinates : Field) (h : Held) : Prop where
  known : Known h.state.bhe
  media : mediaOf h.state.bhe = p.media
  borehole : Whole.borehole h.state.bhe = b
  limits : h.env.maxEFT = p.maxEFT ∧ h.env.minEFT = p.minEFT ∧ h.env.minHeight = p.minHeight ∧
    h.env.maxHeight = p.maxHeight
  empty : h.state.table = {} ∧ h.state.HPEFT = [] ∧ h.state.dTb = []

theorem buildGhe_new {p : Problem} {flows : ℝ × ℝ} {b : Borehole} {f : Field} {h : Held}
    (hb : buildGhe p flows p.media b f = .ok h) : New p b f h := by
  unfold buildGhe at hb
  rw [bind_eq_ok] at hb
  obtain ⟨B, -, hb⟩ := hb
  rw [bind_eq_ok] at hb
  obtain ⟨db, -, hb⟩ := hb
  unfold mkGhe at hb
  rw [bind_eq_ok] at hb
  obtain ⟨⟨vb, m⟩, -, hb⟩ := hb
  dsimp only at hb
  rw [bind_eq_ok] at hb
  obtain ⟨x, hx, hb⟩ := hb
  rw [bind_eq_ok] at hb
  obtain ⟨⟨eq, x'⟩, he, hb⟩ := hb
  dsimp only at hb
  rw [bind_eq_ok] at hb
  obtain ⟨sts, -, hb⟩ := hb
  rw [bind_eq_ok] at hb
  obtain ⟨⟨rj, ex⟩, -, hb⟩ := hb
  dsimp only at hb
  rw [bind_eq_ok] at hb
  obtain ⟨⟨cl, hl, hy⟩, -, hb⟩ := hb
  cases hb
  obtain rfl := computeEquivalent_same _ _ _ _ _ he
  have hk : Known x' := by
    cases x' with
    | other => cases he
    | _ => trivial
  obtain ⟨h1, h2, h3, h4⟩ := makeExchanger_same hx hk
  refine ⟨hk, h1, ?_, ⟨rfl, rfl, rfl, rfl⟩, ⟨rfl, rfl, rfl⟩⟩
  dsimp only
  obtain ⟨bH, bD, br⟩ := b
  cases hbx : Whole.borehole x'
  rw [hbx] at h2 h3 h4
  simp only at h2 h3 h4
  rw [h2, h3, h4]

theorem fresh_new {p : Problem} {f : Field} {H : ℝ} {h : Held} (hf : fresh p f H = .ok h) :
    New p { p.borehole with H := H } f h := by
  unfold fresh at hf
  rw [bind_eq_ok] at hf
  obtain ⟨flows, -, hf⟩ := hf
  exact buildGhe_new hf

theorem New.intact {p : Problem} {b : Borehole} {f : Field} {h : Held} (hn : New p b f h)
    (hr : b.rb = p.borehole.rb) (hD : b.D = p.borehole.D) : Intact p h :=
  ⟨hn.known, hn.media, by rw [hn.borehole, hr], by rw [hn.borehole, hD]⟩

/-! ### the refinement relation -/

/-- The search objects agree on everything but the exchanger, and the exchanger held is intact. -/
def R (p : Problem) (a : Search.State Field ℝ) (c : State) : Prop :=
  (a.temps = c.temps ∧ a.tempsNested = c.tempsNested ∧ a.heights = c.heights) ∧
    ∃ h, c.held = some h ∧ Intact p h

/-- From related states satisfying `Pre`, both computations raise the same exception or both return, with
`Post` for the values and the states; the states are related again in any case. -/
def Sim {α β : Type} (p : Problem) (Pre : Search.State Field ℝ → State → Prop)
    (a : St (Search.State Field ℝ) α) (c : St State β)
    (Post : α → β → Search.State Field ℝ → State → Prop) : Prop :=
  ∀ sa sc, R p sa sc → Pre sa sc → R p (a sa).2 (c sc).2 ∧
    ((∃ e, (a sa).1 = .error e ∧ (c sc).1 = .error e) ∨
      ∃ v w, (a sa).1 = .ok v ∧ (c sc).1 = .ok w ∧ Post v w (a sa).2 (c sc).2)

/-- no condition -/
def any : Search.State Field ℝ → State → Prop := fun _ _ => True
/-- equal values -/
def eqv {α : Type} : α → α → Search.State Field ℝ → State → Prop := fun v w _ _ => v = w

variable {p : Problem} {α β γ δ : Type}

theorem Sim.bind {Pre : Search.State Field ℝ → State → Prop} {a : St (Search.State Field ℝ) α} {c : St State β}
    {Mid : α → β → Search.State Field ℝ → State → Prop} {f : α → St (Search.State Field ℝ) γ}
    {g : β → St State δ} {Post : γ → δ → Search.State Field ℝ → State → Prop}
    (h1 : Sim p Pre a c Mid) (h2 : ∀ v w, Sim p (Mid v w) (f v) (g w) Post) :
    Sim p Pre (a >>= f) (c >>= g) Post := by
  intro sa sc hR hP
  obtain ⟨hR', hr⟩ := h1 sa sc hR hP
  rcases ha : a sa with ⟨ra, sa'⟩
  rcases hc : c sc with ⟨rc, sc'⟩
  rw [ha, hc] at hR' hr
  rcases hr with ⟨e, he1, he2⟩ | ⟨v, w, hv, hw, hm⟩
  · dsimp only at he1 he2
    subst he1; subst he2
    rw [St.bind_error ha, St.bind_error hc]
    exact ⟨hR', .inl ⟨e, rfl, rfl⟩⟩
  · dsimp only at hv hw
    subst hv; subst hw
    rw [St.bind_ok ha, St.bind_ok hc]
    exact h2 v w sa' sc' hR' hm

theorem Sim.weaken {Pre : Search.State Field ℝ → State → Prop} {a : St (Search.State Field ℝ) α} {c : St State β}
    {Post Post' : α → β → Search.State Field ℝ → State → Prop}
    (h : Sim p Pre a c Post) (hp : ∀ v w s t, Post v w s t → Post' v w s t) : Sim p Pre a c Post' := by
  intro sa sc hR hP
  obtain ⟨hR', hr⟩ := h sa sc hR hP
  refine ⟨hR', hr.imp id ?_⟩
  rintro ⟨v, w, hv, hw, hm⟩
  exact ⟨v, w, hv, hw, hp _ _ _ _ hm⟩

theorem Sim.pre {Pre Pre' : Search.State Field ℝ → State → Prop} {a : St (Search.State Field ℝ) α}
    {c : St State β} {Post : α → β → Search.State Field ℝ → State → Prop}
    (h : Sim p Pre a c Post) (hp : ∀ s t, Pre' s t → Pre s t) : Sim p Pre' a c Post :=
  fun sa sc hR hP => h sa sc hR (hp _ _ hP)

theorem Sim.pure {Pre : Search.State Field ℝ → State → Prop} (v : α) (w : β)
    {Post : α → β → Search.State Field ℝ → State → Prop} (h : ∀ s t, Pre s t → Post v w s t) :
    Sim p Pre (Pure.pure v) (Pure.pure w) Post :=
  fun sa sc hR hP => ⟨hR, .inr ⟨v, w, rfl, rfl, h _ _ hP⟩⟩

theorem Sim.throw {Pre : Search.State Field ℝ → State → Prop} (e : PyErr)
    {Post : α → β → Search.State Field ℝ → State → Prop} : Sim p Pre (St.throw e) (St.throw e) Post :=
  fun _ _ hR _ => ⟨hR, .inl ⟨e, rfl, rfl⟩⟩

theorem Sim.lift {Pre : Search.State Field ℝ → State → Prop} (x : Py α) :
    Sim p Pre (St.lift x) (St.lift x) (fun v w s t => v = w ∧ Pre s t) := by
  intro sa sc hR hP
  refine ⟨hR, ?_⟩
  cases x with
  | error e => exact .inl ⟨e, rfl, rfl⟩
  | ok v => exact .inr ⟨v, v, rfl, rfl, rfl, hP⟩

/-- lifting the same computation, then equal continuations -/
theorem Sim.liftBind {Pre : Search.State Field ℝ → State → Prop} (x : Py α)
    {f : α → St (Search.State Field ℝ) γ} {g : α → St State δ}
    {Post : γ → δ → Search.State Field ℝ → State → Prop} (h : ∀ v, Sim p Pre (f v) (g v) Post) :
    Sim p Pre (St.lift x >>= f) (St.lift x >>= g) Post := by
  refine Sim.bind (Sim.lift x) fun v w => ?_
  intro sa sc hR hP
  obtain ⟨rfl, hP⟩ := hP
  exact h v sa sc hR hP

/-- equal results, then equal continuations -/
theorem Sim.eqBind {Pre Mid : Search.State Field ℝ → State → Prop} {a : St (Search.State Field ℝ) α}
    {c : St State α} {f : α → St (Search.State Field ℝ) γ} {g : α → St State δ}
    {Post : γ → δ → Search.State Field ℝ → State → Prop}
    (h1 : Sim p Pre a c (fun v w s t => v = w ∧ Mid s t)) (h2 : ∀ v, Sim p Mid (f v) (g v) Post) :
    Sim p Pre (a >>= f) (c >>= g) Post := by
  refine Sim.bind h1 fun v w => ?_
  intro sa sc hR hP
  obtain ⟨rfl, hP⟩ := hP
  exact h2 v sa sc hR hP

theorem Sim.modifyBind {Pre Mid : Search.State Field ℝ → State → Prop}
    {m : Search.State Field ℝ → Search.State Field ℝ} {n : State → State}
    {f : Unit → St (Search.State Field ℝ) γ} {g : Unit → St State δ}
    {Post : γ → δ → Search.State Field ℝ → State → Prop}
    (hR : ∀ s t, R p s t → R p (m s) (n t)) (hm : ∀ s t, Pre s t → Mid (m s) (n t))
    (h : Sim p Mid (f ()) (g ()) Post) :
    Sim p Pre (St.modify m >>= f) (St.modify n >>= g) Post := by
  intro sa sc h1 h2
  rw [St.modify_bind, St.modify_bind]
  exact h _ _ (hR _ _ h1) (hm _ _ h2)

theorem Sim.getBind {Pre : Search.State Field ℝ → State → Prop} {f : Search.State Field ℝ → St (Search.State Field ℝ) γ}
    {g : State → St State δ} {Post : γ → δ → Search.State Field ℝ → State → Prop}
    (h : ∀ s t, R p s t → Sim p Pre (f s) (g t) Post) : Sim p Pre (St.get >>= f) (St.get >>= g) Post := by
  intro sa sc h1 h2
  rw [St.get_bind, St.get_bind]
  exact h _ _ h1 _ _ h1 h2

/-! ### the operations -/

/-- The exchanger held is a new one for the field and height the search model holds. -/
def Fresh (p : Problem) (f : Field) (H : ℝ) (a : Search.State Field ℝ) (c : State) : Prop :=
  a.ghe = some (f, H) ∧ ∃ h, fresh p f H = .ok h ∧ c.held = some h

theorem initializeGhe_eq (p : Problem) (f : Field) (H : ℝ) (c : State) (h : Held) (hc : c.held = some h)
    (hi : Intact p h) :
    ∃ c', initializeGhe p f H c = ((fresh p f H >>= fun _ => .ok ()), c') ∧
      c'.temps = c.temps ∧ c'.tempsNested = c.tempsNested ∧ c'.heights = c.heights ∧
      ∃ h', c'.held = some h' ∧ Intact p h' ∧ ∀ x, fresh p f H = .ok x → h' = x := by
  have hget : ∀ (c : State) (h : Held), c.held = some h →
      onHeld (fun _ => do let s ← St.get; return s.bhe) c = (.ok h.state.bhe, c) := by
    intro c h hc
    obtain ⟨t, hd, tn, hh⟩ := c
    dsimp only at hc
    subst hc
    rfl
  have hset : onHeld (fun _ => St.modify fun s => s.at H) c =
      (.ok (), { c with held := some ⟨h.env, h.state.at H⟩ }) := by
    unfold onHeld
    rw [hc]
    rfl
  unfold initializeGhe
  rw [St.bind_ok (hget c h hc), hi.media]
  unfold fresh
  cases hfl : retrieveFlow p.flow p.V p.media.fluid.rho f.length with
  | error e =>
    refine ⟨c, by rw [St.lift_error rfl]; rfl, rfl, rfl, rfl, h, hc, hi, ?_⟩
    intro x hx; cases hx
  | ok flows =>
    rw [St.lift_ok rfl, St.bind_ok hset, St.bind_ok (hget _ ⟨h.env, h.state.at H⟩ rfl)]
    have hs := (hi.same).setHeight H
    have hb : Whole.borehole (h.state.at H).bhe = { p.borehole with H := H } := by
      obtain ⟨-, -, h3, h4⟩ := hs
      have hH : (Whole.borehole (h.state.at H).bhe).H = H := borehole_setHeight hi.known H
      cases hbx : Whole.borehole (h.state.at H).bhe
      rw [hbx] at h3 h4 hH
      simp only at h3 h4 hH
      rw [h3, h4, hH]
    dsimp only
    rw [hs.2.1, hb, Except.ok_bind]
    cases hbd : buildGhe p flows p.media { p.borehole with H := H } f with
    | error e =>
      refine ⟨{ c with held := some ⟨h.env, h.state.at H⟩ }, by rw [St.lift_error rfl]; rfl, rfl, rfl, rfl, _, rfl,
        hs.intact, ?_⟩
      intro x hx; cases hx
    | ok h' =>
      refine ⟨{ c with held := some h' }, by rw [St.lift_ok rfl]; rfl, rfl, rfl, rfl, h', rfl, ?_, ?_⟩
      · exact (buildGhe_new hbd).intact rfl rfl
      · intro x hx; cases hx; rfl

theorem sim_initializeGhe (f : Field) (H : ℝ) {Pre : Search.State Field ℝ → State → Prop} :
    Sim p Pre (Search.initializeGhe (absEnv p) f H) (initializeGhe p f H)
      (fun _ _ s t => Fresh p f H s t) := by
  rintro sa sc ⟨⟨h1, h2, h3⟩, h, hh, hi⟩ -
  obtain ⟨c', hc', t1, t2, t3, h', hh', hi', hx⟩ := initializeGhe_eq p f H sc h hh hi
  rw [hc']
  unfold Search.initializeGhe
  cases hf : fresh p f H with
  | error e =>
    have hb : (absEnv p).build f H = .error e := by show (fresh p f H >>= _) = _; rw [hf]; rfl
    rw [St.lift_error hb]
    exact ⟨⟨⟨h1.trans t1.symm, h2.trans t2.symm, h3.trans t3.symm⟩, h', hh', hi'⟩, .inl ⟨e, rfl, rfl⟩⟩
  | ok x =>
    have hb : (absEnv p).build f H = .ok () := by show (fresh p f H >>= _) = _; rw [hf]; rfl
    rw [St.lift_ok hb]
    refine ⟨⟨⟨h1.trans t1.symm, h2.trans t2.symm, h3.trans t3.symm⟩, h', hh', hi'⟩, .inr ⟨(), (), rfl, rfl, rfl, ?_⟩⟩
    exact ⟨h', by rw [hx x hf]; exact hf, hh'⟩

theorem sim_calculateExcess (f : Field) (H : ℝ) {Pre : Search.State Field ℝ → State → Prop} :
    Sim p Pre (Search.calculateExcess (absEnv p) f H) (calculateExcess p f H)
      (fun v w s t => v = w ∧ any s t) := by
  unfold Search.calculateExcess calculateExcess
  refine Sim.bind (sim_initializeGhe f H) fun _ _ => ?_
  rintro sa sc ⟨hbk, h, hh, hi⟩ ⟨hg, h', hf, hh'⟩
  rw [hh] at hh'
  cases hh'
  have hlim := (fresh_new hf).limits
  rw [St.modify_bind]
  have hpres := Preserves.simulate p h.env p.method h.state hi.same
  rcases hsim : Whole.simulate h.env p.method h.state with ⟨r, st⟩
  rw [hsim] at hpres
  have hon : onHeld (fun env => Whole.simulate env p.method) sc =
      (r, { sc with held := some ⟨h.env, st⟩ }) := by
    unfold onHeld
    rw [hh]
    dsimp only
    rw [hsim]
  have habs : (absEnv p).sim f H = r >>= fun q => .ok (cost p.maxEFT p.minEFT q.1 q.2) := by
    show (fresh p f H >>= _) = _
    rw [hf, Except.ok_bind, hsim]
    rfl
  cases r with
  | error e =>
    rw [St.bind_error hon, St.lift_apply, habs]
    exact ⟨⟨hbk, _, rfl, Same.intact hpres⟩, .inl ⟨e, rfl, rfl⟩⟩
  | ok q =>
    obtain ⟨qh, ql⟩ := q
    rw [St.bind_ok hon, St.lift_apply, habs]
    have hfin : onHeld (fun env => Pure.pure (cost env.maxEFT env.minEFT qh ql))
        { sc with held := some ⟨h.env, st⟩ } = (.ok (cost p.maxEFT p.minEFT qh ql), { sc with held := some ⟨h.env, st⟩ }) := by
      unfold onHeld
      dsimp only
      rw [hlim.1, hlim.2.1]
      rfl
    dsimp only
    rw [hfin]
    exact ⟨⟨hbk, _, rfl, Same.intact hpres⟩, .inr ⟨_, _, rfl, rfl, rfl, trivial⟩⟩

theorem R.temps {s : Search.State Field ℝ} {t : State} (h : R p s t) (c : ℤ) (T : ℝ) :
    R p { s with temps := PyDict.set s.temps c T } { t with temps := PyDict.set t.temps c T } := by
  obtain ⟨⟨h1, h2, h3⟩, h⟩ := h
  exact ⟨⟨by rw [h1], h2, h3⟩, h⟩

theorem sim_bisect (domain : List Field) (sg : ℤ) :
    ∀ (rem : ℕ) (i xL xR : ℤ), Sim p any (Search.bisect (absEnv p) domain sg rem i xL xR)
      (bisect p domain sg rem i xL xR) (fun v w s t => v = w ∧ any s t) := by
  intro rem
  induction rem with
  | zero => intro i xL xR; exact Sim.pure _ _ fun _ _ _ => ⟨rfl, trivial⟩
  | succ rem ih =>
    intro i xL xR
    unfold Search.bisect bisect
    dsimp only
    split_ifs
    · exact Sim.pure _ _ fun _ _ _ => ⟨rfl, trivial⟩
    · refine Sim.liftBind _ fun f => Sim.eqBind (sim_calculateExcess f p.maxHeight) fun T => ?_
      refine Sim.modifyBind (Mid := any) (fun s t h => h.temps _ T) (fun _ _ _ => trivial) ?_
      refine Sim.liftBind _ fun cs => ?_
      split_ifs
      · exact ih _ _ _
      · exact ih _ _ _

/-- What a search leaves: the exchanger of the selected field. -/
def Selected (p : Problem) (v w : Option (ℤ × Field)) (s : Search.State Field ℝ) (t : State) : Prop :=
  v = w ∧ ∀ key f, v = some (key, f) → Fresh p f p.maxHeight s t

theorem sim_searchBisection (domain : List Field) (xL xR : ℤ) (a b : ℝ) :
    Sim p any (Search.searchBisection (absEnv p) domain xL xR a b) (searchBisection p domain xL xR a b)
      (Selected p) := by
  unfold Search.searchBisection searchBisection
  refine Sim.liftBind _ fun _ => Sim.liftBind _ fun _ => ?_
  refine Sim.eqBind (sim_bisect domain _ _ _ _ _) fun q => ?_
  obtain ⟨i, x, y⟩ := q
  refine Sim.liftBind _ fun f => Sim.eqBind (sim_calculateExcess f p.maxHeight) fun _ => ?_
  refine Sim.getBind fun s t hst => ?_
  rw [hst.1.1]
  refine Sim.liftBind _ fun key => Sim.liftBind _ fun f => ?_
  refine Sim.bind (sim_initializeGhe f p.maxHeight) fun _ _ => Sim.pure _ _ fun s t h => ⟨rfl, ?_⟩
  intro k g hk
  cases hk
  exact h

theorem sim_search (domain : List Field) :
    Sim p any (Search.search (absEnv p) domain) (search p domain) (Selected p) := by
  unfold Search.search search
  refine Sim.liftBind _ fun fR => Sim.liftBind _ fun fL => ?_
  refine Sim.eqBind (sim_calculateExcess fL p.minHeight) fun a => ?_
  refine Sim.eqBind (sim_calculateExcess fL p.maxHeight) fun b => ?_
  refine Sim.eqBind (sim_calculateExcess fR p.maxHeight) fun c => ?_
  refine Sim.modifyBind (Mid := any) (fun s t h => h.temps _ _) (fun _ _ _ => trivial) ?_
  refine Sim.modifyBind (Mid := any) (fun s t h => h.temps _ _) (fun _ _ _ => trivial) ?_
  refine Sim.liftBind _ fun s0l => Sim.liftBind _ fun s0u => ?_
  by_cases hb : checkBracket s0l s0u = true
  · rw [if_pos hb, if_pos hb]
    refine Sim.liftBind _ fun f0 => Sim.bind (sim_initializeGhe f0 p.maxHeight) fun _ _ =>
      Sim.pure _ _ fun s t h => ⟨rfl, ?_⟩
    intro k g hk
    cases hk
    exact h
  · rw [if_neg hb, if_neg hb]
    refine Sim.liftBind _ fun s0u' => Sim.liftBind _ fun sm1 => ?_
    by_cases hb : checkBracket s0u' sm1 = true
    · rw [if_pos hb, if_pos hb]
      exact sim_searchBisection _ _ _ _ _
    · rw [if_neg hb, if_neg hb]
      by_cases h1 : b < 0 ∧ c < 0
      · rw [if_pos h1, if_pos h1]; exact Sim.throw _
      · rw [if_neg h1, if_neg h1]
        by_cases h2 : b > 0 ∧ c > 0
        · rw [if_pos h2, if_pos h2]; exact Sim.throw _
        · rw [if_neg h2, if_neg h2]
          exact Sim.pure _ _ fun s t _ => ⟨rfl, fun k g hk => by cases hk⟩

/-! ### sizing -/

theorem sizeHeld_eq (p : Problem) (c : State) (h : Held) (hc : c.held = some h) (hi : Intact p h) :
    ∃ h', sizeHeld p c = ((sizeHeld p { held := some h }).1, { c with held := some h' }) ∧ Intact p h' ∧
      (sizeHeld p { held := some h }).2.held = some h' ∧
      ∀ H, (sizeHeld p { held := some h }).1 = .ok H → (Whole.borehole h'.state.bhe).H = H := by
  have key : ∀ c : State, c.held = some h → ∃ r h', sizeHeld p c = (r, { c with held := some h' }) ∧ Intact p h' ∧
      (∀ H, r = .ok H → (Whole.borehole h'.state.bhe).H = H) ∧
      ∀ c' : State, c'.held = some h → sizeHeld p c' = (r, { c' with held := some h' }) := by
    intro c hc
    unfold sizeHeld
    cases hg : GF.computeGFunctions p.fmt p.toFloat
        (p.gf (flowOf h.state.bhe) (mediaOf h.state.bhe) h.env.db.locations) h.env.bSpacing h.env.minHeight
        h.env.maxHeight (Whole.borehole h.state.bhe).rb (Whole.borehole h.state.bhe).D h.env.db with
    | error e =>
      have step : ∀ c' : State, c'.held = some h → (do
          computeG p
          let _ ← onHeld fun env => Whole.size env "hybrid"
          onHeld fun _ => do let s ← St.get; return (Whole.borehole s.bhe).H : St State ℝ) c' =
          (.error e, { c' with held := some h }) := by
        intro c' hc'
        have : computeG p c' = (.error e, { c' with held := some h }) := by
          unfold computeG
          rw [hc']
          dsimp only
          rw [hg]
          obtain ⟨t, hd, tn, hh⟩ := c'
          dsimp only at hc' ⊢
          rw [hc']
        rw [St.bind_error this]
      exact ⟨.error e, h, step c hc, hi, (fun H hH => by cases hH), step⟩
    | ok db =>
      set h1 : Held := ⟨{ h.env with db := db }, { h.state with table := {} }⟩ with hh1
      have hs1 : Same p h1.state := hi.same.of_bhe rfl
      have hpres := Preserves.size p h1.env "hybrid" h1.state hs1
      rcases hsz : Whole.size h1.env "hybrid" h1.state with ⟨r, st⟩
      rw [hsz] at hpres
      have step : ∀ c' : State, c'.held = some h → (do
          computeG p
          let _ ← onHeld fun env => Whole.size env "hybrid"
          onHeld fun _ => do let s ← St.get; return (Whole.borehole s.bhe).H : St State ℝ) c' =
          ((r >>= fun _ => .ok (Whole.borehole st.bhe).H), { c' with held := some ⟨h1.env, st⟩ }) := by
        intro c' hc'
        have e1 : computeG p c' = (.ok (), { c' with held := some h1 }) := by
          unfold computeG
          rw [hc']
          dsimp only
          rw [hg]
        have e2 : onHeld (fun env => Whole.size env "hybrid") { c' with held := some h1 } =
            (r, { c' with held := some ⟨h1.env, st⟩ }) := by
          unfold onHeld
          dsimp only
          rw [hsz]
        rw [St.bind_ok e1]
        cases r with
        | error e => rw [St.bind_error e2]; rfl
        | ok w => rw [St.bind_ok e2]; rfl
      refine ⟨_, ⟨h1.env, st⟩, step c hc, Same.intact hpres, ?_, step⟩
      intro H hH
      cases r with
      | error e => cases hH
      | ok w => cases hH; rfl
  obtain ⟨r, h', e1, e2, e3, e4⟩ := key c hc
  have e5 := e4 { held := some h } rfl
  rw [e5]
  exact ⟨h', e1, e2, rfl, e3⟩

/-- What sizing leaves: the exchanger of the same field with the height found. -/
def Sized (p : Problem) (f : Field) (a : Search.State Field ℝ) (c : State) : Prop :=
  ∃ h H h', fresh p f p.maxHeight = .ok h ∧ sizeHeld p { held := some h } = (.ok H, { held := some h' }) ∧
    a.ghe = some (f, H) ∧ c.held = some h' ∧ (Whole.borehole h'.state.bhe).H = H

theorem sim_sizeHeld (f : Field) :
    Sim p (Fresh p f p.maxHeight) (Search.sizeHeld (absEnv p)) (sizeHeld p)
      (fun v w s t => v = (f, w) ∧ Sized p f s t) := by
  rintro sa sc ⟨hbk, h, hh, hi⟩ ⟨hg, h0, hf, hh0⟩
  rw [hh] at hh0
  cases hh0
  obtain ⟨h', e1, e2, e3, e4⟩ := sizeHeld_eq p sc h hh hi
  have habs : (absEnv p).sizeH f p.maxHeight = (sizeHeld p { held := some h }).1 := by
    show (fresh p f p.maxHeight >>= _) = _
    rw [hf]
    rfl
  unfold Search.sizeHeld
  rw [St.get_bind, hg]
  dsimp only
  rw [habs, e1]
  cases hr : (sizeHeld p { held := some h }).1 with
  | error e =>
    rw [St.lift_error rfl]
    exact ⟨⟨hbk, h', rfl, e2⟩, .inl ⟨e, rfl, rfl⟩⟩
  | ok H =>
    rw [St.lift_ok rfl, St.modify_bind]
    refine ⟨⟨hbk, h', rfl, e2⟩, .inr ⟨(f, H), H, rfl, rfl, rfl, h, H, h', hf, ?_, rfl, rfl, e4 H hr⟩⟩
    obtain ⟨h'', q1, q2, q3, q4⟩ := sizeHeld_eq p { held := some h } h rfl hi
    rw [q1, hr]
    rw [e3] at q3
    cases q3
    rfl

theorem sim_successiveLoop (nested : List (List Field)) :
    ∀ (rem : ℕ) (i : ℤ) (old : ℝ), Sim p any (Search.successiveLoop (absEnv p) nested rem i old)
      (successiveLoop p nested rem i old) (fun v w s t => v = w ∧ any s t) := by
  intro rem
  induction rem with
  | zero => intro i old; exact Sim.pure _ _ fun _ _ _ => ⟨rfl, trivial⟩
  | succ rem ih =>
    intro i old
    unfold Search.successiveLoop successiveLoop
    refine Sim.liftBind _ fun domain => ?_
    refine Sim.modifyBind (Mid := any) (fun s t h => ⟨⟨rfl, h.1.2.1, h.1.2.2⟩, h.2⟩) (fun _ _ _ => trivial) ?_
    refine Sim.bind (Mid := fun v w s t => v = w ∧ ∀ k g, v = some (some (k, g)) → Fresh p g p.maxHeight s t)
      ?_ fun v w => ?_
    · intro sa sc hR _
      have h := Sim.bind (sim_search (p := p) domain) (f := fun r => (Pure.pure (some r) : St (Search.State Field ℝ) _))
        (g := fun r => (Pure.pure (some r) : St State _))
        (Post := fun v w s t => v = w ∧ ∀ k g, v = some (some (k, g)) → Fresh p g p.maxHeight s t)
        (fun v w => Sim.pure _ _ fun s t ⟨h1, h2⟩ => ⟨by rw [h1], fun k g hk => h2 k g (Option.some.inj hk)⟩)
        sa sc hR trivial
      obtain ⟨hR', hr⟩ := h
      unfold St.tryExcept
      set x := (do let r ← Search.search (absEnv p) domain; return some r : St (Search.State Field ℝ) _) sa with hx
      set y := (do let r ← search p domain; return some r : St State _) sc with hy
      obtain ⟨xr, xs⟩ := x
      obtain ⟨yr, ys⟩ := y
      rcases hr with ⟨e, he1, he2⟩ | ⟨v, w, hv, hw, hm⟩
      · change xr = _ at he1
        change yr = _ at he2
        subst he1; subst he2
        dsimp only
        split_ifs
        · exact ⟨hR', .inr ⟨none, none, rfl, rfl, rfl, fun k g hk => by cases hk⟩⟩
        · exact ⟨hR', .inl ⟨e, rfl, rfl⟩⟩
      · change xr = _ at hv
        change yr = _ at hw
        subst hv; subst hw
        exact ⟨hR', .inr ⟨v, w, rfl, rfl, hm⟩⟩
    · intro sa sc hR hM
      obtain ⟨rfl, hM⟩ := hM
      match v, hM with
      | none, _ => exact ⟨hR, .inr ⟨(), (), rfl, rfl, rfl, trivial⟩⟩
      | some none, _ => exact ⟨hR, .inl ⟨_, rfl, rfl⟩⟩
      | some (some (key, sel)), hM =>
        dsimp only
        refine Sim.modifyBind (Pre := fun s t => Fresh p sel p.maxHeight s t)
          (Mid := fun s t => Fresh p sel p.maxHeight s t) (Post := fun v w s t => v = w ∧ any s t)
          (m := fun s => { s with tempsNested := PyDict.set s.tempsNested i s.temps })
          (n := fun s => { s with tempsNested := PyDict.set s.tempsNested i s.temps })
          (by intro s t h; exact ⟨⟨h.1.1, by rw [h.1.2.1, h.1.1], h.1.2.2⟩, h.2⟩) (by intro s t h; exact h) ?_
          sa sc hR (hM key sel rfl)
        refine Sim.bind (sim_sizeHeld sel) fun v H => ?_
        intro sa sc hR hP
        obtain ⟨rfl, -⟩ := hP
        dsimp only
        refine Sim.modifyBind (Pre := any) (Mid := any) (Post := fun v w s t => v = w ∧ any s t)
          (m := fun s => { s with heights := PyDict.set s.heights i (((sel.length : ℕ) : ℝ) * H) })
          (n := fun s => { s with heights := PyDict.set s.heights i ((sel.length : ℝ) * H) })
          (by intro s t h; exact ⟨⟨h.1.1, h.1.2.1, by rw [h.1.2.2]⟩, h.2⟩) (fun _ _ _ => trivial) ?_ sa sc hR trivial
        show Sim p any (if old < ((sel.length : ℕ) : ℝ) * H then _ else _) _ _
        by_cases ho : old < ((sel.length : ℕ) : ℝ) * H
        · rw [if_pos ho, if_pos ho]; exact Sim.pure _ _ fun _ _ _ => ⟨rfl, trivial⟩
        · rw [if_neg ho, if_neg ho]; exact ih _ _

theorem sim_searchSuccessive (nested : List (List Field)) (k : ℤ) :
    Sim p any (Search.searchSuccessive (absEnv p) nested k) (searchSuccessive p nested k)
      (fun v w s t => v = w ∧ Sized p v.2 s t) := by
  unfold Search.searchSuccessive searchSuccessive
  refine Sim.eqBind (sim_successiveLoop nested _ _ _) fun _ => ?_
  refine Sim.getBind fun s t hst => ?_
  rw [hst.1.2.1, hst.1.2.2]
  dsimp only
  refine Sim.liftBind _ fun m => Sim.liftBind _ fun idx => Sim.liftBind _ fun selOuter =>
    Sim.liftBind _ fun temps => ?_
  refine Sim.modifyBind (Mid := any) (fun s t h => ⟨⟨rfl, h.1.2.1, h.1.2.2⟩, h.2⟩) (fun _ _ _ => trivial) ?_
  refine Sim.liftBind _ fun key => Sim.liftBind _ fun domain => Sim.liftBind _ fun sel => ?_
  refine Sim.bind (sim_initializeGhe sel p.maxHeight) fun _ _ => ?_
  refine Sim.bind (sim_sizeHeld sel) fun v w => ?_
  exact Sim.pure _ _ fun s t h => ⟨rfl, h.2⟩

/-! ### the constructors -/

/-- Both raise the same, or both return `v` in states satisfying `Post`; nothing is said about the states
after an exception. -/
def Top {α β : Type} (ra : Except PyErr α × Search.State Field ℝ) (rc : Except PyErr β × State)
    (Post : α → β → Search.State Field ℝ → State → Prop) : Prop :=
  (∃ e, ra.1 = .error e ∧ rc.1 = .error e) ∨ ∃ v w, ra.1 = .ok v ∧ rc.1 = .ok w ∧ Post v w ra.2 rc.2

theorem Sim.top {Pre : Search.State Field ℝ → State → Prop} {a : St (Search.State Field ℝ) α} {c : St State β}
    {Post : α → β → Search.State Field ℝ → State → Prop} (h : Sim p Pre a c Post) {sa : Search.State Field ℝ}
    {sc : State} (hR : R p sa sc) (hP : Pre sa sc) :
    Top (a sa) (c sc) (fun v w s t => R p s t ∧ Post v w s t) := by
  obtain ⟨h1, h2⟩ := h sa sc hR hP
  exact h2.imp id fun ⟨v, w, e1, e2, e3⟩ => ⟨v, w, e1, e2, h1, e3⟩

theorem Top.bind {a : St (Search.State Field ℝ) α} {c : St State β} {f : α → St (Search.State Field ℝ) γ}
    {g : β → St State δ} {sa : Search.State Field ℝ} {sc : State}
    {Mid : α → β → Search.State Field ℝ → State → Prop} {Post : γ → δ → Search.State Field ℝ → State → Prop}
    (h1 : Top (a sa) (c sc) Mid)
    (h2 : ∀ v w s t, Mid v w s t → Top (f v s) (g w t) Post) : Top ((a >>= f) sa) ((c >>= g) sc) Post := by
  rcases ha : a sa with ⟨ra, sa'⟩
  rcases hc : c sc with ⟨rc, sc'⟩
  rw [ha, hc] at h1
  rcases h1 with ⟨e, he1, he2⟩ | ⟨v, w, hv, hw, hm⟩
  · dsimp only at he1 he2
    subst he1; subst he2
    rw [St.bind_error ha, St.bind_error hc]
    exact .inl ⟨e, rfl, rfl⟩
  · dsimp only at hv hw
    subst hv; subst hw
    rw [St.bind_ok ha, St.bind_ok hc]
    exact h2 v w sa' sc' hm

theorem Top.lift (x : Py α) {f : α → St (Search.State Field ℝ) γ} {g : α → St State δ}
    {sa : Search.State Field ℝ} {sc : State} {Post : γ → δ → Search.State Field ℝ → State → Prop}
    (h : ∀ v, x = .ok v → Top (f v sa) (g v sc) Post) : Top ((St.lift x >>= f) sa) ((St.lift x >>= g) sc) Post := by
  cases x with
  | error e => exact .inl ⟨e, rfl, rfl⟩
  | ok v => rw [St.lift_ok rfl, St.lift_ok rfl]; exact h v rfl

/-- books agree -/
def Books (a : Search.State Field ℝ) (c : State) : Prop :=
  a.temps = c.temps ∧ a.tempsNested = c.tempsNested ∧ a.heights = c.heights

theorem top_setup (domain : List Field) (sa : Search.State Field ℝ) (sc : State) (h : Books sa sc) :
    Top (Search.setup (absEnv p) domain sa) (setup p domain sc) (fun _ _ s t => R p s t) := by
  unfold Search.setup setup
  refine Top.lift _ fun f _ => ?_
  unfold Search.initializeGhe
  have hfr : fresh p f p.borehole.H = (retrieveFlow p.flow p.V p.media.fluid.rho f.length >>= fun flows =>
      buildGhe p flows p.media p.borehole f) := rfl
  cases hfl : retrieveFlow p.flow p.V p.media.fluid.rho f.length with
  | error e =>
    rw [hfl, Except.error_bind] at hfr
    have hb : (absEnv p).build f (absEnv p).boreholeH = .error e := by
      show (fresh p f p.borehole.H >>= _) = _; rw [hfr]; rfl
    rw [hb]
    exact .inl ⟨e, rfl, rfl⟩
  | ok flows =>
    rw [hfl, Except.ok_bind] at hfr
    rw [St.lift_ok rfl]
    cases hbd : buildGhe p flows p.media p.borehole f with
    | error e =>
      have hb : (absEnv p).build f (absEnv p).boreholeH = .error e := by
        show (fresh p f p.borehole.H >>= _) = _; rw [hfr, hbd]; rfl
      rw [hb]
      exact .inl ⟨e, rfl, rfl⟩
    | ok x =>
      have hb : (absEnv p).build f (absEnv p).boreholeH = .ok () := by
        show (fresh p f p.borehole.H >>= _) = _; rw [hfr, hbd]; rfl
      rw [hb]
      refine .inr ⟨(), (), rfl, rfl, ⟨rfl, h.2.1, h.2.2⟩, x, rfl, ?_⟩
      exact (buildGhe_new hbd).intact rfl rfl

theorem top_bisection1D (domain : List Field) (sa : Search.State Field ℝ) (sc : State) (h : Books sa sc) :
    Top (Search.bisection1D (absEnv p) domain sa) (bisection1D p domain sc)
      (fun v w s t => R p s t ∧ Selected p v w s t) :=
  Top.bind (top_setup domain sa sc h) fun _ _ _ _ hR => (sim_search domain).top hR trivial

theorem R.reset {s : Search.State Field ℝ} {t : State} (h : R p s t) :
    R p { s with temps := [] } { t with temps := [] } := ⟨⟨rfl, h.1.2.1, h.1.2.2⟩, h.2⟩

theorem top_bisection2D (nested : List (List Field)) (sa : Search.State Field ℝ) (sc : State) (h : Books sa sc) :
    Top (Search.bisection2D (absEnv p) nested sa) (bisection2D p nested sc)
      (fun v w s t => R p s t ∧ Selected p v w s t) := by
  unfold Search.bisection2D bisection2D
  refine Top.lift _ fun first _ => Top.bind (top_setup first sa sc h) fun _ _ s t hR => ?_
  refine Top.lift _ fun outer _ => Top.bind ((sim_search outer).top hR trivial) fun v w s t hm => ?_
  obtain ⟨hR, rfl, -⟩ := hm
  match v with
  | none => exact .inl ⟨_, rfl, rfl⟩
  | some (key, g) =>
    refine Top.lift _ fun inner _ => ?_
    rw [St.modify_bind, St.modify_bind]
    exact (sim_search inner).top hR.reset trivial

theorem top_bisectionZD (nested : List (List Field)) (sa : Search.State Field ℝ) (sc : State) (h : Books sa sc) :
    Top (Search.bisectionZD (absEnv p) nested sa) (bisectionZD p nested sc)
      (fun v w s t => R p s t ∧ v = w ∧ Sized p v.2 s t) := by
  unfold Search.bisectionZD bisectionZD
  refine Top.lift _ fun first _ => Top.bind (top_setup first sa sc h) fun _ _ s t hR => ?_
  refine Top.lift _ fun outer _ => Top.bind ((sim_search outer).top hR trivial) fun v w s t hm => ?_
  obtain ⟨hR, rfl, -⟩ := hm
  match v with
  | none => exact .inl ⟨_, rfl, rfl⟩
  | some (key, g) =>
    dsimp only
    rw [St.modify_bind, St.modify_bind]
    exact (sim_searchSuccessive nested _).top ⟨⟨hR.1.1, hR.1.2.1, rfl⟩, hR.2⟩ trivial

end

end Ghedt.WholeSearch
