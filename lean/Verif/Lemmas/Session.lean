import Verif.Model.Session
import Verif.Props.WholeSearch

/-!
# The heights a borehole may be left with, whether a call returns or raises
-/

set_option linter.unusedSectionVars false

namespace Ghedt.WholeSearch
open Real Ghedt.GHE Ghedt.Bhe Ghedt.Radial Ghedt.Whole Ghedt.Search Ghedt.Utilities

noncomputable section

/-! ### methods of an exchanger -/

/-- A property of the exchanger that survives `update_thermal_resistance` survives a simulation. -/
theorem Preserves.simulate_of {J : Exchanger → Prop} (env : Whole.Env) (hu : ∀ x, J x → J (updateBhe env.ext x))
    (method : String) : Preserves (fun s => J s.bhe) (Whole.simulate env method) := by
  unfold Whole.simulate
  refine Preserves.bind ?_ fun th => Preserves.bind (Preserves.lift _) fun w => ?_
  · unfold Whole.prepare
    refine Preserves.bind Preserves.get fun s0 => Preserves.bind (Preserves.lift _) fun q =>
      Preserves.bind (Preserves.modify fun s hs => hu _ hs) fun _ => Preserves.getBind fun s hs => ?_
    cases hce : computeEquivalent env.ext env.brent s.bhe with
    | error e => rw [St.lift_error rfl]; exact hs
    | ok w =>
      obtain ⟨eq, x'⟩ := w
      obtain rfl := computeEquivalent_same _ _ _ _ _ hce
      rw [St.lift_ok rfl]
      dsimp only
      rw [St.modify_bind]
      refine Preserves.bind (I := fun s => J s.bhe) (Preserves.lift _) (fun sts => ?_) _ hs
      refine Preserves.bind (Preserves.modify fun s hs => hs) fun _ => ?_
      refine Preserves.bind ?_ fun _ => Preserves.bind Preserves.get fun _ => Preserves.pure _
      unfold grabG
      refine Preserves.bind ?_ fun _ => Preserves.bind Preserves.get fun _ =>
        Preserves.bind (Preserves.lift _) fun _ => Preserves.lift _
      intro s hs
      exact hs
  · refine Preserves.bind (Preserves.lift _) fun w => ?_
    exact Preserves.bind (Preserves.modify fun s hs => hs) fun _ => Preserves.bind (Preserves.lift _)
      fun _ => Preserves.bind (Preserves.lift _) fun _ => Preserves.pure _

/-- Simulating changes nothing in the borehole. -/
theorem simulate_borehole (env : Whole.Env) (method : String) (s : Whole.State) :
    Whole.borehole (Whole.simulate env method s).2.bhe = Whole.borehole s.bhe ∧
    (Known s.bhe → Known (Whole.simulate env method s).2.bhe) ∧
    mediaOf (Whole.simulate env method s).2.bhe = mediaOf s.bhe := by
  refine ⟨Preserves.simulate_of (J := fun x => Whole.borehole x = Whole.borehole s.bhe) env ?_ method s rfl, fun hk =>
    Preserves.simulate_of (J := Known) env ?_ method s hk,
    Preserves.simulate_of (J := fun x => mediaOf x = mediaOf s.bhe) env ?_ method s rfl⟩
  all_goals
    intro x hx
    cases x <;> exact hx

/-- What is preserved by the objective within the bounds is preserved by a root finder that stays there. -/
theorem Preserves.run_inside {I : Whole.State → Prop} {obj : ℝ → St Whole.State ℝ} {lo hi : ℝ}
    (h : ∀ y, lo ≤ y → y ≤ hi → Preserves I (obj y)) {q : Finder ℝ} (hq : Inside lo hi q) : Preserves I (q.run obj) := by
  induction hq with
  | done x => exact Preserves.pure x
  | fail e => exact Preserves.throw e
  | ask x next h1 h2 _ ih => exact Preserves.bind (h x h1 h2) ih

/-- The exchanger has a height within the bounds, and otherwise the borehole and media given. -/
def Bounded (b : Borehole) (m : Media) (lo hi : ℝ) (x : Exchanger) : Prop :=
  Known x ∧ mediaOf x = m ∧ ∃ h, lo ≤ h ∧ h ≤ hi ∧ Whole.borehole x = { b with H := h }

theorem Bounded.update {b : Borehole} {m : Media} {lo hi : ℝ} {x : Exchanger} (ext : Ext) (h : Bounded b m lo hi x) :
    Bounded b m lo hi (updateBhe ext x) := by
  cases x <;> exact h

theorem setHeight_borehole {x : Exchanger} (hk : Known x) (H : ℝ) :
    Whole.borehole (setHeight H x) = { Whole.borehole x with H := H } ∧ Known (setHeight H x) ∧
      mediaOf (setHeight H x) = mediaOf x := by
  cases x with
  | other => exact hk.elim
  | _ => exact ⟨rfl, trivial, rfl⟩

theorem Bounded.at {b : Borehole} {m : Media} {lo hi : ℝ} {x : Exchanger} {H : ℝ} (hk : Known x) (hm : mediaOf x = m)
    (hb : Whole.borehole x = { b with H := (Whole.borehole x).H }) (h1 : lo ≤ H) (h2 : H ≤ hi) :
    Bounded b m lo hi (setHeight H x) := by
  obtain ⟨e1, e2, e3⟩ := setHeight_borehole hk H
  refine ⟨e2, by rw [e3, hm], H, h1, h2, ?_⟩
  rw [e1, hb]

theorem Bounded.setHeight {b : Borehole} {m : Media} {lo hi : ℝ} {x : Exchanger} {H : ℝ} (h : Bounded b m lo hi x)
    (h1 : lo ≤ H) (h2 : H ≤ hi) : Bounded b m lo hi (setHeight H x) := by
  obtain ⟨hk, hm, y, -, -, hy⟩ := h
  exact Bounded.at hk hm (by rw [hy]) h1 h2

/-- Sizing leaves a height within the bounds, whether it returns or raises. -/
theorem size_bounded (env : Whole.Env) (method : String) (hle : env.minHeight ≤ env.maxHeight)
    (hf : Inside env.minHeight env.maxHeight (env.brent env.minHeight env.maxHeight)) (b : Borehole) (m : Media)
    (s : Whole.State) (hk : Known s.bhe) (hm : mediaOf s.bhe = m)
    (hb : Whole.borehole s.bhe = { b with H := (Whole.borehole s.bhe).H }) :
    Bounded b m env.minHeight env.maxHeight (Whole.size env method s).2.bhe := by
  unfold Whole.size
  rw [St.modify_bind]
  have obj : ∀ y, env.minHeight ≤ y → y ≤ env.maxHeight →
      Preserves (fun s => Bounded b m env.minHeight env.maxHeight s.bhe) (Whole.localObjective env method y) := by
    intro y h1 h2
    unfold Whole.localObjective
    exact Preserves.bind (Preserves.modify fun s hs => hs.setHeight h1 h2) fun _ =>
      Preserves.bind (Preserves.simulate_of env (fun x hx => hx.update _) method) fun _ => Preserves.pure _
  refine Preserves.bind (I := fun s => Bounded b m env.minHeight env.maxHeight s.bhe) Preserves.get (fun s =>
    Preserves.bind ?_ fun _ => Preserves.bind Preserves.get fun _ => Preserves.pure _) _
    (Bounded.at hk hm hb (by linarith) (by linarith))
  unfold GHE.solveRoot
  refine Preserves.bind (obj _ le_rfl hle) fun a => Preserves.bind (obj _ hle le_rfl) fun b =>
    Preserves.bind (Preserves.lift _) fun c => Preserves.bind (Preserves.lift _) fun d => ?_
  split_ifs
  · exact Preserves.run_inside obj hf
  all_goals exact Preserves.pure _

/-! ### the searches -/

/-- The bounds for the height are in order, and the root finder stays within them. -/
structure Bracketed (p : Problem) : Prop where
  order : p.minHeight ≤ p.maxHeight
  finder : Inside p.minHeight p.maxHeight (p.brent p.minHeight p.maxHeight)

/-- The exchanger was made for this problem, and its height is the one given or within the bounds. -/
structure Proper (p : Problem) (x : Held) : Prop where
  known : Known x.state.bhe
  media : mediaOf x.state.bhe = p.media
  borehole : Whole.borehole x.state.bhe = { p.borehole with H := (Whole.borehole x.state.bhe).H }
  height : (Whole.borehole x.state.bhe).H = p.borehole.H ∨
    p.minHeight ≤ (Whole.borehole x.state.bhe).H ∧ (Whole.borehole x.state.bhe).H ≤ p.maxHeight
  limits : x.env.minHeight = p.minHeight ∧ x.env.maxHeight = p.maxHeight
  brent : x.env.brent = p.brent

theorem Proper.of_bounded {p : Problem} {env : Whole.Env} {s : Whole.State}
    (h : Bounded p.borehole p.media p.minHeight p.maxHeight s.bhe)
    (hl : env.minHeight = p.minHeight ∧ env.maxHeight = p.maxHeight) (hb : env.brent = p.brent) : Proper p ⟨env, s⟩ := by
  obtain ⟨hk, hm, y, h1, h2, hy⟩ := h
  refine ⟨hk, hm, ?_, .inr ?_, hl, hb⟩
  · dsimp only; rw [hy]
  · dsimp only; rw [hy]; exact ⟨h1, h2⟩

theorem buildGhe_brent {p : Problem} {flows : ℝ × ℝ} {m : Media} {b : Borehole} {f : Field} {h : Held}
    (hb : buildGhe p flows m b f = .ok h) : h.env.brent = p.brent := by
  unfold buildGhe at hb
  rw [bind_eq_ok] at hb
  obtain ⟨B, -, hb⟩ := hb
  rw [bind_eq_ok] at hb
  obtain ⟨db, -, hb⟩ := hb
  unfold mkGhe at hb
  rw [bind_eq_ok] at hb
  obtain ⟨⟨vb, m⟩, -, hb⟩ := hb
  dsimp only at hb
  rw [bind_eq_ok] at hb
  obtain ⟨x, hx, hb⟩ := hb
  rw [bind_eq_ok] at hb
  obtain ⟨⟨eq, x'⟩, he, hb⟩ := hb
  dsimp only at hb
  rw [bind_eq_ok] at hb
  obtain ⟨sts, -, hb⟩ := hb
  rw [bind_eq_ok] at hb
  obtain ⟨⟨rj, ex⟩, -, hb⟩ := hb
  dsimp only at hb
  rw [bind_eq_ok] at hb
  obtain ⟨⟨cl, hl, hy⟩, -, hb⟩ := hb
  cases hb
  rfl

/-- The exchanger held by the search object, if any, is proper. -/
def AllProper (p : Problem) (c : State) : Prop := ∀ x, c.held = some x → Proper p x

/-- The method leaves a proper exchanger, whether it returns or raises. -/
def Keeps {α : Type} (p : Problem) (m : St State α) : Prop := ∀ c, AllProper p c → AllProper p (m c).2

variable {p : Problem} {α β : Type}

theorem Keeps.bind {m : St State α} {f : α → St State β} (hm : Keeps p m) (hf : ∀ a, Keeps p (f a)) :
    Keeps p (m >>= f) := by
  intro s hs
  have h1 := hm s hs
  rcases hms : m s with ⟨r, s1⟩
  rw [hms] at h1
  cases r with
  | error e => rw [St.bind_error hms]; exact h1
  | ok a => rw [St.bind_ok hms]; exact hf a s1 h1

theorem Keeps.pure (a : α) : Keeps p (Pure.pure a : St State α) := fun _ hs => hs
theorem Keeps.lift (a : Py α) : Keeps p (St.lift a : St State α) := fun _ hs => hs
theorem Keeps.throw (e : PyErr) : Keeps p (St.throw e : St State α) := fun _ hs => hs
theorem Keeps.get : Keeps p (St.get : St State State) := fun _ hs => hs
theorem Keeps.modify {f : State → State} (h : ∀ c, (f c).held = c.held) : Keeps p (St.modify f) := by
  intro c hc x hx
  exact hc x (by rw [← h]; exact hx)

theorem Keeps.assigning {f : State → State} {g : Unit → St State α} (h : ∀ c, (f c).held = c.held)
    (hg : ∀ a, Keeps p (g a)) : Keeps p (St.modify f >>= g) := (Keeps.modify h).bind hg

theorem Keeps.ite {c : Prop} [Decidable c] {m m' : St State α} (h : Keeps p m) (h' : Keeps p m') :
    Keeps p (if c then m else m') := by
  split_ifs
  · exact h
  · exact h'

theorem Keeps.tryExcept {m h : St State α} (e : PyErr) (hm : Keeps p m) (hh : Keeps p h) :
    Keeps p (St.tryExcept m e h) := by
  intro c hc
  have h1 := hm c hc
  unfold St.tryExcept
  rcases hmc : m c with ⟨r, c'⟩
  rw [hmc] at h1
  cases r with
  | ok a => exact h1
  | error e' =>
    dsimp only
    split_ifs
    · exact hh c' h1
    · exact h1

theorem Keeps.onHeld {m : Whole.Env → St Whole.State α}
    (h : ∀ env s, Proper p ⟨env, s⟩ → Proper p ⟨env, (m env s).2⟩) : Keeps p (onHeld m) := by
  intro c hc
  unfold WholeSearch.onHeld
  rcases hh : c.held with - | x
  · exact hc
  · intro y hy
    cases hy
    exact h _ _ (hc x hh)

theorem keeps_initializeGhe (hp : Bracketed p) (f : Field) {H : ℝ} (h1 : p.minHeight ≤ H) (h2 : H ≤ p.maxHeight) :
    Keeps p (initializeGhe p f H) := by
  intro c hc
  unfold initializeGhe
  rcases hh : c.held with - | h
  · have : WholeSearch.onHeld (fun _ => do let s ← St.get; return s.bhe) c = (.error .attributeError, c) := by
      unfold WholeSearch.onHeld
      rw [hh]
    rw [St.bind_error this]
    exact hc
  have hi := hc h hh
  have hget : ∀ (c : State) (h : Held), c.held = some h →
      WholeSearch.onHeld (fun _ => do let s ← St.get; return s.bhe) c = (.ok h.state.bhe, c) := by
    intro c h hc
    obtain ⟨t, hd, tn, hh⟩ := c
    dsimp only at hc
    subst hc
    rfl
  have hset : WholeSearch.onHeld (fun _ => St.modify fun s => s.at H) c =
      (.ok (), { c with held := some ⟨h.env, h.state.at H⟩ }) := by
    unfold WholeSearch.onHeld
    rw [hh]
    rfl
  rw [St.bind_ok (hget c h hh), hi.media]
  cases hfl : retrieveFlow p.flow p.V p.media.fluid.rho f.length with
  | error e => rw [St.lift_error rfl]; exact hc
  | ok flows =>
    rw [St.lift_ok rfl, St.bind_ok hset, St.bind_ok (hget _ ⟨h.env, h.state.at H⟩ rfl)]
    obtain ⟨e1, e2, e3⟩ := setHeight_borehole hi.known H
    have hb : Whole.borehole (h.state.at H).bhe = { p.borehole with H := H } := by
      show Whole.borehole (setHeight H h.state.bhe) = _
      rw [e1, hi.borehole]
    have hm : mediaOf (h.state.at H).bhe = p.media := by
      show mediaOf (setHeight H h.state.bhe) = _
      rw [e3, hi.media]
    dsimp only
    rw [hb, hm]
    cases hbd : buildGhe p flows p.media { p.borehole with H := H } f with
    | error e =>
      rw [St.lift_error rfl]
      intro x hx
      cases hx
      refine ⟨e2, hm, ?_, .inr ?_, hi.limits, hi.brent⟩
      · rw [hb]
      · rw [hb]; exact ⟨h1, h2⟩
    | ok h' =>
      rw [St.lift_ok rfl]
      intro x hx
      cases hx
      have hn := buildGhe_new hbd
      refine ⟨hn.known, hn.media, ?_, .inr ?_, hn.limits.2.2, buildGhe_brent hbd⟩
      · rw [hn.borehole]
      · rw [hn.borehole]; exact ⟨h1, h2⟩

theorem keeps_simulate (env : Whole.Env) (s : Whole.State) (method : String) (h : Proper p ⟨env, s⟩) :
    Proper p ⟨env, (Whole.simulate env method s).2⟩ := by
  obtain ⟨e1, e2, e3⟩ := simulate_borehole env method s
  refine ⟨e2 h.known, e3.trans h.media, ?_, ?_, h.limits, h.brent⟩
  · dsimp only; rw [e1]; exact h.borehole
  · dsimp only; rw [e1]; exact h.height

theorem keeps_calculateExcess (hp : Bracketed p) (f : Field) {H : ℝ} (h1 : p.minHeight ≤ H) (h2 : H ≤ p.maxHeight) :
    Keeps p (calculateExcess p f H) := by
  unfold calculateExcess
  refine (keeps_initializeGhe hp f h1 h2).bind fun _ => (Keeps.onHeld fun env s h => keeps_simulate env s _ h).bind fun q => ?_
  exact Keeps.onHeld fun env s h => h

theorem keeps_bisect (hp : Bracketed p) (d : List Field) (sg : ℤ) :
    ∀ (rem : ℕ) (i xL xR : ℤ), Keeps p (bisect p d sg rem i xL xR)
  | 0, i, xL, xR => Keeps.pure _
  | rem + 1, i, xL, xR => by
    unfold bisect
    dsimp only
    split_ifs
    · exact Keeps.pure _
    · refine (Keeps.lift _).bind fun f => (keeps_calculateExcess hp f hp.order le_rfl).bind fun T =>
        Keeps.assigning (fun _ => rfl) fun _ => (Keeps.lift _).bind fun s => ?_
      split_ifs
      · exact keeps_bisect hp d sg rem _ _ _
      · exact keeps_bisect hp d sg rem _ _ _

theorem keeps_search (hp : Bracketed p) (d : List Field) : Keeps p (search p d) := by
  unfold search
  dsimp only
  refine (Keeps.lift _).bind fun fR => (Keeps.lift _).bind fun fL =>
    (keeps_calculateExcess hp fL le_rfl hp.order).bind fun a => (keeps_calculateExcess hp fL hp.order le_rfl).bind fun b =>
    (keeps_calculateExcess hp fR hp.order le_rfl).bind fun c => Keeps.assigning (fun _ => rfl) fun _ =>
    Keeps.assigning (fun _ => rfl) fun _ => (Keeps.lift _).bind fun s1 => (Keeps.lift _).bind fun s2 => ?_
  have hbis : Keeps p (searchBisection p d 0 ((d.length : ℤ) - 1) b c) := by
    unfold searchBisection
    dsimp only
    exact (Keeps.lift _).bind fun _ => (Keeps.lift _).bind fun _ => (keeps_bisect hp d _ _ _ _ _).bind fun q =>
      (Keeps.lift _).bind fun f => (keeps_calculateExcess hp f hp.order le_rfl).bind fun _ => Keeps.get.bind fun _ =>
      (Keeps.lift _).bind fun _ => (Keeps.lift _).bind fun g => (keeps_initializeGhe hp g hp.order le_rfl).bind fun _ =>
      Keeps.pure _
  refine Keeps.ite ((Keeps.lift _).bind fun f => (keeps_initializeGhe hp f hp.order le_rfl).bind fun _ => Keeps.pure _) ?_
  exact (Keeps.lift _).bind fun s3 => (Keeps.lift _).bind fun s4 => Keeps.ite hbis
    (Keeps.ite (Keeps.throw _) (Keeps.ite (Keeps.throw _) (Keeps.pure _)))

theorem keeps_setup (hp : Bracketed p) (d : List Field) : Keeps p (setup p d) := by
  unfold setup
  refine (Keeps.lift _).bind fun f => (Keeps.lift _).bind fun flows => ?_
  cases hb : buildGhe p flows p.media p.borehole f with
  | error e => intro c hc; rw [St.lift_error rfl]; exact hc
  | ok x =>
    intro c hc
    rw [St.lift_ok rfl, St.modify_bind]
    intro y hy
    cases hy
    have hn := buildGhe_new hb
    refine ⟨hn.known, hn.media, ?_, .inl ?_, hn.limits.2.2, buildGhe_brent hb⟩
    · rw [hn.borehole]
    · rw [hn.borehole]

theorem keeps_computeG : Keeps p (computeG p) := by
  intro c hc
  unfold computeG
  rcases hh : c.held with - | x
  · exact hc
  · dsimp only
    split
    · exact hc
    · intro y hy
      cases hy
      obtain ⟨h1, h2, h3, h4, h5, h6⟩ := hc x hh
      exact ⟨h1, h2, h3, h4, h5, h6⟩

theorem keeps_size (hp : Bracketed p) (env : Whole.Env) (s : Whole.State) (method : String) (h : Proper p ⟨env, s⟩) :
    Proper p ⟨env, (Whole.size env method s).2⟩ := by
  refine Proper.of_bounded ?_ h.limits h.brent
  have h1 := h.limits.1
  have h2 := h.limits.2
  have h3 := h.brent
  dsimp only at h1 h2 h3
  have := size_bounded env method (by rw [h1, h2]; exact hp.order) (by rw [h1, h2, h3]; exact hp.finder) p.borehole p.media
    s h.known h.media h.borehole
  rw [h1, h2] at this
  exact this

theorem keeps_sizeHeld (hp : Bracketed p) : Keeps p (sizeHeld p) := by
  unfold sizeHeld
  exact keeps_computeG.bind fun _ => (Keeps.onHeld fun env s h => keeps_size hp env s _ h).bind fun _ =>
    Keeps.onHeld fun env s h => h

theorem keeps_successiveLoop (hp : Bracketed p) (n : List (List Field)) :
    ∀ (rem : ℕ) (i : ℤ) (old : ℝ), Keeps p (successiveLoop p n rem i old)
  | 0, i, old => Keeps.pure _
  | rem + 1, i, old => by
    unfold successiveLoop
    refine (Keeps.lift _).bind fun d => Keeps.assigning (fun _ => rfl) fun _ =>
      (Keeps.tryExcept _ ((keeps_search hp d).bind fun _ => Keeps.pure _) (Keeps.pure _)).bind fun r => ?_
    rcases r with - | - | ⟨k, f⟩
    · exact Keeps.pure _
    · exact Keeps.throw _
    · refine Keeps.assigning (fun _ => rfl) fun _ => (keeps_sizeHeld hp).bind fun H => ?_
      dsimp only
      refine Keeps.assigning (fun _ => rfl) fun _ => ?_
      split_ifs
      · exact Keeps.pure _
      · exact keeps_successiveLoop hp n rem _ _

theorem keeps_searchSuccessive (hp : Bracketed p) (n : List (List Field)) (k : ℤ) : Keeps p (searchSuccessive p n k) := by
  unfold searchSuccessive
  dsimp only
  exact (keeps_successiveLoop hp n _ _ _).bind fun _ => Keeps.get.bind fun _ => (Keeps.lift _).bind fun _ =>
    (Keeps.lift _).bind fun _ => (Keeps.lift _).bind fun _ => (Keeps.lift _).bind fun _ =>
    Keeps.assigning (fun _ => rfl) fun _ => (Keeps.lift _).bind fun _ => (Keeps.lift _).bind fun _ =>
    (Keeps.lift _).bind fun f => (keeps_initializeGhe hp f hp.order le_rfl).bind fun _ => (keeps_sizeHeld hp).bind fun _ =>
    Keeps.pure _

/-- Whether `find_design` returns or raises, the exchanger left has the height the borehole had or one within the
bounds. -/
theorem keeps_findDesign (hp : Bracketed p) (routine : String) (c : Design.Candidates ℝ) :
    Keeps p (findDesign p routine c) := by
  have flat : ∀ d : List Field, Keeps p (bisection1D p d) := fun d =>
    (keeps_setup hp d).bind fun _ => keeps_search hp d
  unfold findDesign
  split_ifs
  · exact (Keeps.lift _).bind flat
  · exact (Keeps.lift _).bind flat
  · refine (Keeps.lift _).bind fun n => ?_
    unfold bisection2D
    refine (Keeps.lift _).bind fun d => (keeps_setup hp d).bind fun _ => (Keeps.lift _).bind fun o =>
      (keeps_search hp o).bind fun r => ?_
    rcases r with - | ⟨k, f⟩
    · exact Keeps.throw _
    · exact (Keeps.lift _).bind fun i => Keeps.assigning (fun _ => rfl) fun _ => keeps_search hp i
  · refine (Keeps.lift _).bind fun n => Keeps.bind ?_ fun _ => Keeps.pure _
    unfold bisectionZD
    refine (Keeps.lift _).bind fun d => (keeps_setup hp d).bind fun _ => (Keeps.lift _).bind fun o =>
      (keeps_search hp o).bind fun r => ?_
    rcases r with - | ⟨k, f⟩
    · exact Keeps.throw _
    · dsimp only
      exact Keeps.assigning (fun _ => rfl) fun _ => keeps_searchSuccessive hp n _
  · exact Keeps.throw _

/-! ### the height left by a search that raises -/

/-- The search object holds an exchanger with the media of the problem and maximum height. -/
def AtMax (p : Problem) (c : State) : Prop :=
  ∃ x, c.held = some x ∧ Known x.state.bhe ∧ mediaOf x.state.bhe = p.media ∧ (Whole.borehole x.state.bhe).H = p.maxHeight

/-- Once there, always there, whether the method returns or raises. -/
def Stays (p : Problem) (m : St State α) : Prop := ∀ c, AtMax p c → AtMax p (m c).2

theorem Stays.bind {m : St State α} {f : α → St State β} (hm : Stays p m) (hf : ∀ a, Stays p (f a)) :
    Stays p (m >>= f) := by
  intro s hs
  have h1 := hm s hs
  rcases hms : m s with ⟨r, s1⟩
  rw [hms] at h1
  cases r with
  | error e => rw [St.bind_error hms]; exact h1
  | ok a => rw [St.bind_ok hms]; exact hf a s1 h1

theorem Stays.pure (a : α) : Stays p (Pure.pure a : St State α) := fun _ hs => hs
theorem Stays.lift (a : Py α) : Stays p (St.lift a : St State α) := fun _ hs => hs
theorem Stays.throw (e : PyErr) : Stays p (St.throw e : St State α) := fun _ hs => hs
theorem Stays.get : Stays p (St.get : St State State) := fun _ hs => hs

theorem Stays.assigning {f : State → State} {g : Unit → St State α} (h : ∀ c, (f c).held = c.held)
    (hg : ∀ a, Stays p (g a)) : Stays p (St.modify f >>= g) := by
  refine Stays.bind ?_ hg
  rintro c ⟨x, hx, hr⟩
  exact ⟨x, (h c).trans hx, hr⟩

theorem Stays.ite {c : Prop} [Decidable c] {m m' : St State α} (h : Stays p m) (h' : Stays p m') :
    Stays p (if c then m else m') := by
  split_ifs
  · exact h
  · exact h'

/-- The exchanger is made at the height asked for; only an error about the flow leaves the old height. -/
theorem initializeGhe_at (f : Field) (H : ℝ) (c : State) (h : Held) (hh : c.held = some h) (hk : Known h.state.bhe)
    (hm : mediaOf h.state.bhe = p.media) :
    (∃ e, retrieveFlow p.flow p.V p.media.fluid.rho f.length = .error e ∧ initializeGhe p f H c = (.error e, c)) ∨
    ∃ x, (initializeGhe p f H c).2.held = some x ∧ Known x.state.bhe ∧ mediaOf x.state.bhe = p.media ∧
      (Whole.borehole x.state.bhe).H = H := by
  unfold initializeGhe
  have hget : ∀ (c : State) (h : Held), c.held = some h →
      WholeSearch.onHeld (fun _ => do let s ← St.get; return s.bhe) c = (.ok h.state.bhe, c) := by
    intro c h hc
    obtain ⟨t, hd, tn, hh⟩ := c
    dsimp only at hc
    subst hc
    rfl
  have hset : WholeSearch.onHeld (fun _ => St.modify fun s => s.at H) c =
      (.ok (), { c with held := some ⟨h.env, h.state.at H⟩ }) := by
    unfold WholeSearch.onHeld
    rw [hh]
    rfl
  rw [St.bind_ok (hget c h hh), hm]
  cases hfl : retrieveFlow p.flow p.V p.media.fluid.rho f.length with
  | error e => exact .inl ⟨e, rfl, by rw [St.lift_error rfl]⟩
  | ok flows =>
    right
    rw [St.lift_ok rfl, St.bind_ok hset, St.bind_ok (hget _ ⟨h.env, h.state.at H⟩ rfl)]
    obtain ⟨e1, e2, e3⟩ := setHeight_borehole hk H
    dsimp only
    cases hbd : buildGhe p flows (mediaOf (h.state.at H).bhe) (Whole.borehole (h.state.at H).bhe) f with
    | error e =>
      rw [St.lift_error rfl]
      exact ⟨_, rfl, e2, e3.trans hm, by rw [show (h.state.at H).bhe = setHeight H h.state.bhe from rfl, e1]⟩
    | ok h' =>
      rw [St.lift_ok rfl]
      have hm' : mediaOf (h.state.at H).bhe = p.media := e3.trans hm
      rw [hm'] at hbd
      have hn := buildGhe_new hbd
      refine ⟨_, rfl, hn.known, hn.media, ?_⟩
      rw [hn.borehole, show (h.state.at H).bhe = setHeight H h.state.bhe from rfl, e1]

theorem stays_initializeGhe (f : Field) : Stays p (initializeGhe p f p.maxHeight) := by
  rintro c ⟨x, hx, hk, hm, hH⟩
  rcases initializeGhe_at f p.maxHeight c x hx hk hm with ⟨e, -, he⟩ | h
  · rw [he]; exact ⟨x, hx, hk, hm, hH⟩
  · exact h

theorem Stays.onHeld {m : Whole.Env → St Whole.State α} (h : ∀ env s, Whole.borehole (m env s).2.bhe = Whole.borehole s.bhe ∧
    (Known s.bhe → Known (m env s).2.bhe) ∧ mediaOf (m env s).2.bhe = mediaOf s.bhe) : Stays p (onHeld m) := by
  rintro c ⟨x, hx, hk, hm, hH⟩
  unfold WholeSearch.onHeld
  rw [hx]
  obtain ⟨e1, e2, e3⟩ := h x.env x.state
  exact ⟨_, rfl, e2 hk, e3.trans hm, by dsimp only; rw [e1]; exact hH⟩

theorem stays_evaluate (m : String) : Stays p (do
    let (hi, lo) ← WholeSearch.onHeld fun env => Whole.simulate env m
    WholeSearch.onHeld fun env => pure (cost env.maxEFT env.minEFT hi lo)) :=
  (Stays.onHeld fun env s => simulate_borehole env m s).bind fun _ => Stays.onHeld fun _ _ => ⟨rfl, id, rfl⟩

theorem stays_calculateExcess (f : Field) : Stays p (calculateExcess p f p.maxHeight) :=
  (stays_initializeGhe f).bind fun _ => stays_evaluate _

theorem stays_bisect (d : List Field) (sg : ℤ) : ∀ (rem : ℕ) (i xL xR : ℤ), Stays p (bisect p d sg rem i xL xR)
  | 0, i, xL, xR => Stays.pure _
  | rem + 1, i, xL, xR => by
    unfold bisect
    dsimp only
    split_ifs
    · exact Stays.pure _
    · exact (Stays.lift _).bind fun f => (stays_calculateExcess f).bind fun T =>
        Stays.assigning (fun _ => rfl) fun _ => (Stays.lift _).bind fun s =>
        Stays.ite (stays_bisect d sg rem _ _ _) (stays_bisect d sg rem _ _ _)

/-- A search whose first simulation succeeds leaves the maximum height, whether it returns or raises. -/
theorem search_at (d : List Field) (f : Field) (c : State) (x : Held) (hx : c.held = some x) (hk : Known x.state.bhe)
    (hm : mediaOf x.state.bhe = p.media) (hd : d.head? = some f) (v : ℝ)
    (hv : (calculateExcess p f p.minHeight c).1 = .ok v) : AtMax p (search p d c).2 := by
  have hg : pyGet d 0 = .ok f := by
    cases d with
    | nil => cases hd
    | cons a l => cases hd; rfl
  obtain ⟨fR, hR⟩ : ∃ fR, pyGet d ((d.length : ℤ) - 1) = .ok fR := by
    cases d with
    | nil => cases hd
    | cons a l =>
      refine ⟨(a :: l)[l.length], ?_⟩
      rw [pyGet_eq_ok (by simp)]
      simp
  unfold search
  rw [St.lift_ok hR, St.lift_ok hg]
  rcases hc1 : calculateExcess p f p.minHeight c with ⟨r, c1⟩
  rw [hc1] at hv
  dsimp only at hv
  subst hv
  rw [St.bind_ok hc1]
  -- the first simulation made an exchanger, so the flow is fine
  have h1 : ∃ y, c1.held = some y ∧ Known y.state.bhe ∧ mediaOf y.state.bhe = p.media ∧
      ∀ e, retrieveFlow p.flow p.V p.media.fluid.rho f.length ≠ .error e := by
    unfold calculateExcess at hc1
    rcases hi : initializeGhe p f p.minHeight c with ⟨r', c0⟩
    cases r' with
    | error e => rw [St.bind_error hi] at hc1; cases hc1
    | ok u =>
      rw [St.bind_ok hi] at hc1
      have hfl : ∀ e, retrieveFlow p.flow p.V p.media.fluid.rho f.length ≠ .error e := by
        rcases initializeGhe_at f p.minHeight c x hx hk hm with ⟨e, -, he⟩ | ⟨y, hy, hr⟩
        · rw [hi] at he; cases he
        · intro e he
          unfold initializeGhe at hi
          have hget : WholeSearch.onHeld (fun _ => do let s ← St.get; return s.bhe) c = (.ok x.state.bhe, c) := by
            unfold WholeSearch.onHeld
            rw [hx]
            obtain ⟨t, hd, tn, hh⟩ := c
            dsimp only at hx
            subst hx
            rfl
          rw [St.bind_ok hget, hm, he, St.lift_error rfl] at hi
          cases hi
      rcases initializeGhe_at f p.minHeight c x hx hk hm with ⟨e, -, he⟩ | ⟨y, hy, k1, k2, k3⟩
      · rw [hi] at he; cases he
      rw [hi] at hy
      dsimp only at hy
      have hst := stays_evaluate (p := { p with maxHeight := p.minHeight }) p.method c0 ⟨y, hy, k1, k2, k3⟩
      have hc1' := congrArg Prod.snd hc1
      dsimp only at hc1'
      rw [← hc1']
      obtain ⟨z, z1, z2, z3, -⟩ := hst
      exact ⟨z, z1, z2, z3, hfl⟩
  obtain ⟨y, hy, k1, k2, hfl⟩ := h1
  -- from the second on it is the maximum height
  have h2 : AtMax p (calculateExcess p f p.maxHeight c1).2 := by
    unfold calculateExcess
    rcases initializeGhe_at f p.maxHeight c1 y hy k1 k2 with ⟨e, he, -⟩ | ⟨z, hz⟩
    · exact absurd he (hfl e)
    rcases hi : initializeGhe p f p.maxHeight c1 with ⟨r', c0⟩
    rw [hi] at hz
    cases r' with
    | error e => rw [St.bind_error hi]; exact ⟨z, hz⟩
    | ok u => rw [St.bind_ok hi]; exact stays_evaluate _ c0 ⟨z, hz⟩
  rcases hc2 : calculateExcess p f p.maxHeight c1 with ⟨r2, c2⟩
  rw [hc2] at h2
  cases r2 with
  | error e => rw [St.bind_error hc2]; exact h2
  | ok b =>
    rw [St.bind_ok hc2]
    have hbis : ∀ c, Stays p (searchBisection p d 0 ((d.length : ℤ) - 1) b c) := by
      intro c
      unfold searchBisection
      dsimp only
      exact (Stays.lift _).bind fun _ => (Stays.lift _).bind fun _ => (stays_bisect d _ _ _ _ _).bind fun q =>
        (Stays.lift _).bind fun f => (stays_calculateExcess f).bind fun _ => Stays.get.bind fun _ =>
        (Stays.lift _).bind fun _ => (Stays.lift _).bind fun g => (stays_initializeGhe g).bind fun _ => Stays.pure _
    refine Stays.bind (p := p) (stays_calculateExcess fR) (fun c => ?_) c2 h2
    refine Stays.assigning (fun _ => rfl) fun _ => Stays.assigning (fun _ => rfl) fun _ =>
      (Stays.lift _).bind fun s1 => (Stays.lift _).bind fun s2 => ?_
    refine Stays.ite ((Stays.lift _).bind fun f => (stays_initializeGhe f).bind fun _ => Stays.pure _) ?_
    exact (Stays.lift _).bind fun s3 => (Stays.lift _).bind fun s4 => Stays.ite (hbis c)
      (Stays.ite (Stays.throw _) (Stays.ite (Stays.throw _) (Stays.pure _)))

end

end Ghedt.WholeSearch
