import Verif.Lemmas.Commute
import Verif.Model.Script

/-!
# Fields somewhere else

`Motion p F`: a change `F` of the fields that neither the spacing nor the g-functions can tell.  A search among the changed
candidates takes the same course.
-/

namespace Ghedt.Moved
open Ghedt.GHE Ghedt.Bhe Ghedt.Whole Ghedt.Utilities Ghedt.WholeSearch

noncomputable section

/-- The fields of the library. -/
abbrev Fld := List (ℝ × ℝ)

structure Motion (p : Problem) (F : Fld → Fld) : Prop where
  length : ∀ f, (F f).length = f.length
  spacing : ∀ rb f, boreholeSpacing rb (F f) = boreholeSpacing rb f
  gf : ∀ m d f H rb D, p.gf m d (F f) H rb D = p.gf m d f H rb D

/-- The g-function object at the other place. -/
def db (F : Fld → Fld) (x : GF.DB ℝ) : GF.DB ℝ := { x with locations := F x.locations }

def env (F : Fld → Fld) (e : Whole.Env) : Whole.Env := { e with db := db F e.db }

def held (F : Fld → Fld) (h : Held) : Held := ⟨env F h.env, h.state⟩

def state (F : Fld → Fld) (s : WholeSearch.State) : WholeSearch.State := { s with held := s.held.map (held F) }

def candidates (F : Fld → Fld) : Design.Candidates ℝ → Design.Candidates ℝ
  | .flat d => .flat (d.map F)
  | .nested n => .nested (n.map (List.map F))

variable {p : Problem} {F : Fld → Fld}

/-! ### one exchanger -/

theorem buildG_moved (x : GF.DB ℝ) (kind : String) (ext : Bool) (l : List ℤ) :
    GF.buildG (db F x) kind ext l = GF.buildG x kind ext l := by
  induction l with
  | nil => rfl
  | cons i l ih =>
    unfold GF.buildG
    rw [ih]
    simp only [db]

theorem buildTable_moved (x : GF.DB ℝ) (kind : String) (ext : Bool) :
    GF.buildTable (db F x) kind ext = GF.buildTable x kind ext := by
  unfold GF.buildTable
  simp only [buildG_moved]
  simp only [db]

theorem readTable_moved (spl : String → List ℝ → List ℝ → ℝ → ℝ) (x : GF.DB ℝ) (H : ℝ) (w : Bool) :
    GF.readTable spl (db F x) H w = GF.readTable spl x H w := by
  funext t
  unfold GF.readTable
  simp only [db]

theorem request_moved (spl : String → List ℝ → List ℝ → ℝ → ℝ) (x : GF.DB ℝ) (b : ℝ) (kind : String) :
    GF.request spl (db F x) b kind = GF.request spl x b kind := by
  unfold GF.request
  simp only [readTable_moved, buildTable_moved]
  simp only [db]
  rfl

theorem grabG_moved (e : Whole.Env) (b : ℝ) : grabG (env F e) b = grabG e b := by
  unfold grabG requestG
  simp only [env, request_moved]
  simp only [db]

theorem prepare_moved (hF : ∀ f, (F f).length = f.length) (e : Whole.Env) : prepare (env F e) = prepare e := by
  unfold prepare
  simp only [grabG_moved]
  simp only [env, db, hF]

theorem simulate_moved (hF : ∀ f, (F f).length = f.length) (e : Whole.Env) (m : String) :
    Whole.simulate (env F e) m = Whole.simulate e m := by
  unfold Whole.simulate
  rw [prepare_moved hF]
  simp only [gheEnv, env]

theorem localObjective_moved (hF : ∀ f, (F f).length = f.length) (e : Whole.Env) (m : String) :
    Whole.localObjective (env F e) m = Whole.localObjective e m := by
  funext H
  unfold Whole.localObjective
  rw [simulate_moved hF]
  simp only [env]

theorem size_moved (hF : ∀ f, (F f).length = f.length) (e : Whole.Env) (m : String) :
    Whole.size (env F e) m = Whole.size e m := by
  unfold Whole.size
  rw [localObjective_moved hF]
  simp only [env]
  rfl

theorem map_bind {α β γ δ : Type} {x : Py α} {k : α → Py γ} {k' : α → Py δ} {h : γ → δ} (hk : ∀ a, k' a = (k a).map h) :
    (x >>= k') = (x >>= k).map h := by
  cases x with
  | error e => rfl
  | ok a => exact hk a

theorem importDB_moved (toFloat : String → Py ℝ) (d : PyDict (List String) (List ℝ)) (f : Fld) (t : List ℝ) :
    GF.importDB toFloat ⟨d, F f, t⟩ = (GF.importDB toFloat ⟨d, f, t⟩).map (db F) := by
  unfold GF.importDB
  refine map_bind (β := Unit) fun _ => map_bind (β := Unit) fun _ => map_bind (β := Unit) fun _ => map_bind (β := Unit) fun _ =>
    map_bind (β := Unit) fun _ => map_bind (β := Unit) fun _ => rfl

theorem computeLive_moved (fmt : ℝ → String) (toFloat : String → Py ℝ) (gf : ℝ → ℝ → ℝ → Py (List ℝ)) (B : ℝ)
    (Hs rbs Ds t : List ℝ) (f : Fld) : GF.computeLive fmt toFloat gf B Hs rbs Ds t (F f) =
      (GF.computeLive fmt toFloat gf B Hs rbs Ds t f).map (db F) := by
  unfold GF.computeLive
  exact map_bind (β := Unit) fun _ => importDB_moved _ _ _ _

theorem mkGhe_moved (hF : ∀ f, (F f).length = f.length) (V B : ℝ) (d : Media) (b : Borehole) (x : GF.DB ℝ) :
    mkGhe p V B d b (db F x) = (mkGhe p V B d b x).map (held F) := by
  unfold mkGhe
  rw [show (db F x).locations.length = x.locations.length from hF _]
  refine map_bind (β := Unit) fun _ => map_bind (β := Unit) fun _ => map_bind (β := Unit) fun _ => map_bind (β := Unit) fun _ =>
    map_bind (β := Unit) fun _ => map_bind (β := Unit) fun _ => rfl

theorem buildGhe_moved (h : Motion p F) (flows : ℝ × ℝ) (d : Media) (b : Borehole) (f : Fld) :
    buildGhe p flows d b (F f) = (buildGhe p flows d b f).map (held F) := by
  have hg : p.gf flows.2 d (F f) = p.gf flows.2 d f := by
    funext H rb D; exact h.gf _ _ _ _ _ _
  unfold buildGhe
  rw [h.spacing, hg]
  refine map_bind (β := Unit) fun B => ?_
  rw [computeLive_moved]
  cases GF.computeLive p.fmt p.toFloat (p.gf flows.2 d f) B [b.H] [b.rb] [b.D] eskilsonLogTimes f with
  | error e => rfl
  | ok x => exact mkGhe_moved h.length flows.1 B d b x

/-! ### the searches -/

/-- nothing is asked of the search object -/
abbrev Any (_ : WholeSearch.State) : Prop := True

theorem commutes_onHeld {α : Type} {m m' : Whole.Env → St Whole.State α} (h : ∀ e, m' (env F e) = m e) :
    Commutes Any (state F) id (onHeld m) (onHeld m') := by
  intro s _
  rcases hh : s.held with _ | x
  · simp only [onHeld, state, hh]
    exact ⟨rfl, trivial⟩
  · simp only [onHeld, state, hh, Option.map_some, held, h]
    exact ⟨by rw [← Commutes.map_id'], trivial⟩

theorem commutes_outer {k : WholeSearch.State → WholeSearch.State} (hk : ∀ s, k (state F s) = state F (k s)) :
    Commutes Any (state F) id (St.modify k) (St.modify k) :=
  Commutes.modify (fun s _ => hk s) fun _ _ => trivial

theorem commutes_hold (x : Held) : Commutes Any (state F) id
    (St.modify fun s => { s with held := some x }) (St.modify fun s => { s with held := some (held F x) }) :=
  Commutes.modify (fun _ _ => rfl) fun _ _ => trivial

theorem commutes_initialize (h : Motion p F) (f : Fld) (H : ℝ) :
    Commutes Any (state F) id (initializeGhe p f H) (initializeGhe p (F f) H) := by
  unfold initializeGhe
  rw [h.length]
  exact Commutes.bind (commutes_onHeld fun _ => rfl) fun x => Commutes.bind (Commutes.same _) fun flows =>
    Commutes.bind (commutes_onHeld fun _ => rfl) fun _ => Commutes.bind (commutes_onHeld fun _ => rfl) fun y =>
    Commutes.bind_lift (buildGhe_moved h flows _ _ f) fun x _ => commutes_hold x

theorem commutes_excess (h : Motion p F) (f : Fld) (H : ℝ) :
    Commutes Any (state F) id (calculateExcess p f H) (calculateExcess p (F f) H) := by
  unfold calculateExcess
  exact Commutes.bind (commutes_initialize h f H) fun _ => Commutes.bind
    (commutes_onHeld fun e => simulate_moved h.length e _) fun r => commutes_onHeld fun e => rfl

theorem pyGet_moved {α β : Type} (k : α → β) (l : List α) (i : ℤ) : pyGet (l.map k) i = (pyGet l i).map k := by
  unfold pyGet
  simp only [List.length_map, List.getElem?_map]
  split
  · split
    · rfl
    · cases l[(i + (l.length : ℤ)).toNat]? <;> rfl
  · cases l[i.toNat]? <;> rfl

theorem commutes_pick (h : Fld → Fld) (l : List Fld) (i : ℤ) :
    Commutes Any (state F) h (St.lift (pyGet l i)) (St.lift (pyGet (l.map h) i)) :=
  Commutes.lift (pyGet_moved h l i)

theorem commutes_bisect (h : Motion p F) (domain : List Fld) (xs : ℤ) (n : ℕ) :
    ∀ i xL xR, Commutes Any (state F) id (bisect p domain xs n i xL xR) (bisect p (domain.map F) xs n i xL xR) := by
  induction n with
  | zero => intro i xL xR; exact Commutes.pure _ rfl
  | succ n ih =>
    intro i xL xR
    unfold bisect
    refine Commutes.ite (Commutes.pure _ rfl) (Commutes.bind (commutes_pick F _ _) fun f =>
      Commutes.bind (commutes_excess h f p.maxHeight) fun T =>
      Commutes.bind (commutes_outer fun _ => rfl) fun _ => Commutes.bind (Commutes.same _) fun sg =>
      Commutes.ite (ih _ _ _) (ih _ _ _))

/-- the result of a search -/
abbrev result (F : Fld → Fld) : Option (ℤ × Fld) → Option (ℤ × Fld) := Option.map (Prod.map id F)

theorem commutes_searchBisection (h : Motion p F) (domain : List Fld) (xL xR : ℤ) (a b : ℝ) :
    Commutes Any (state F) (result F) (searchBisection p domain xL xR a b) (searchBisection p (domain.map F) xL xR a b) := by
  unfold searchBisection
  refine Commutes.bind (Commutes.same _) fun s1 => Commutes.bind (Commutes.same _) fun s2 =>
    Commutes.bind (commutes_bisect h domain _ _ _ _ _) fun r => Commutes.bind (commutes_pick F _ _) fun co =>
    Commutes.bind (commutes_excess h co p.maxHeight) fun _ => Commutes.bind_get fun s _ =>
    Commutes.bind (Commutes.same _) fun key => Commutes.bind (commutes_pick F _ _) fun sel =>
    Commutes.bind (commutes_initialize h sel p.maxHeight) fun _ => Commutes.pure _ rfl

theorem commutes_search (h : Motion p F) (domain : List Fld) :
    Commutes Any (state F) (result F) (WholeSearch.search p domain) (WholeSearch.search p (domain.map F)) := by
  unfold WholeSearch.search
  rw [List.length_map]
  refine Commutes.bind (commutes_pick F _ _) fun fR => Commutes.bind (commutes_pick F _ _) fun fL =>
    Commutes.bind (commutes_excess h _ _) fun a => Commutes.bind (commutes_excess h _ _) fun b =>
    Commutes.bind (commutes_excess h _ _) fun d =>
    Commutes.bind (commutes_outer fun _ => rfl) fun _ =>
    Commutes.bind (commutes_outer fun _ => rfl) fun _ =>
    Commutes.bind (Commutes.same _) fun s1 => Commutes.bind (Commutes.same _) fun s2 => Commutes.ite
      (Commutes.bind (commutes_pick F _ _) fun f0 => Commutes.bind (commutes_initialize h _ _) fun _ => Commutes.pure _ rfl)
      (Commutes.bind (Commutes.same _) fun s3 => Commutes.bind (Commutes.same _) fun s4 => Commutes.ite
        (commutes_searchBisection h _ _ _ _ _)
        (Commutes.ite (Commutes.throw _) (Commutes.ite (Commutes.throw _) (Commutes.pure _ rfl))))

theorem commutes_setup (h : Motion p F) (domain : List Fld) :
    Commutes Any (state F) id (setup p domain) (setup p (domain.map F)) := by
  unfold setup
  refine Commutes.bind (commutes_pick F _ _) fun co => ?_
  rw [h.length]
  exact Commutes.bind (Commutes.same _) fun flows =>
    Commutes.bind_lift (buildGhe_moved h flows p.media p.borehole co) fun x _ =>
    Commutes.bind (commutes_hold x) fun _ => commutes_outer fun _ => rfl

theorem commutes_1D (h : Motion p F) (domain : List Fld) :
    Commutes Any (state F) (result F) (bisection1D p domain) (bisection1D p (domain.map F)) :=
  Commutes.bind (commutes_setup h domain) fun _ => commutes_search h domain

theorem commutes_domain (nested : List (List Fld)) (i : ℤ) :
    Commutes Any (state F) (List.map F) (St.lift (pyGet nested i)) (St.lift (pyGet (nested.map (List.map F)) i)) :=
  Commutes.lift (pyGet_moved _ nested i)

theorem mapM_moved {α β γ δ : Type} {f : α → Py β} {f' : γ → Py δ} (k : α → γ) (h : β → δ) (hf : ∀ a, f' (k a) = (f a).map h)
    (l : List α) : (l.map k).mapM f' = (l.mapM f).map (List.map h) := by
  induction l with
  | nil => rfl
  | cons a l ih =>
    simp only [List.map_cons, List.mapM_cons, ih, hf]
    cases f a with
    | error e => rfl
    | ok b => cases l.mapM f <;> rfl

theorem outerDomain_moved (nested : List (List Fld)) :
    Search.outerDomain (nested.map (List.map F)) = (Search.outerDomain nested).map (List.map F) := by
  unfold Search.outerDomain
  rw [pyGet_moved]
  cases pyGet nested 0 with
  | error e => rfl
  | ok first =>
    show (pyGet (first.map F) 0 >>= _) = (pyGet first 0 >>= _).map _
    rw [pyGet_moved]
    cases pyGet first 0 with
    | error e => rfl
    | ok head =>
      show ((nested.map (List.map F)).mapM (fun d => pyGet d (-1)) >>= _) = (nested.mapM (fun d => pyGet d (-1)) >>= _).map _
      rw [mapM_moved (List.map F) F (f := fun d : List Fld => pyGet d (-1)) (fun d => pyGet_moved F d (-1))]
      cases nested.mapM (fun d => pyGet d (-1)) <;> rfl

theorem commutes_2D (h : Motion p F) (nested : List (List Fld)) :
    Commutes Any (state F) (result F) (bisection2D p nested) (bisection2D p (nested.map (List.map F))) := by
  unfold bisection2D
  refine Commutes.bind (commutes_domain nested 0) fun first => Commutes.bind (commutes_setup h _) fun _ =>
    Commutes.bind (Commutes.lift (outerDomain_moved nested)) fun outer => Commutes.bind (commutes_search h _) fun r => ?_
  rcases r with _ | ⟨key, x⟩
  · exact Commutes.throw _
  · exact Commutes.bind (commutes_domain nested _) fun inner =>
      Commutes.bind (commutes_outer fun _ => rfl) fun _ => commutes_search h _

theorem commutes_computeG (h : Motion p F) : Commutes Any (state F) id (computeG p) (computeG p) := by
  intro s _
  rcases hh : s.held with _ | x
  · simp only [computeG, state, hh]
    exact ⟨rfl, trivial⟩
  · have hg : p.gf (flowOf x.state.bhe) (mediaOf x.state.bhe) (F x.env.db.locations) =
        p.gf (flowOf x.state.bhe) (mediaOf x.state.bhe) x.env.db.locations := by
      funext H rb D; exact h.gf _ _ _ _ _ _
    refine ⟨?_, trivial⟩
    simp only [computeG, state, hh, Option.map_some, held, env, GF.computeGFunctions]
    rw [show (db F x.env.db).locations = F x.env.db.locations from rfl,
      show (db F x.env.db).logTime = x.env.db.logTime from rfl, hg, computeLive_moved]
    cases GF.computeLive p.fmt p.toFloat (p.gf (flowOf x.state.bhe) (mediaOf x.state.bhe) x.env.db.locations)
        x.env.bSpacing [x.env.minHeight, (x.env.minHeight + x.env.maxHeight) / 2, x.env.maxHeight]
        [(Whole.borehole x.state.bhe).rb, (Whole.borehole x.state.bhe).rb, (Whole.borehole x.state.bhe).rb]
        [(Whole.borehole x.state.bhe).D, (Whole.borehole x.state.bhe).D, (Whole.borehole x.state.bhe).D]
        x.env.db.logTime x.env.db.locations with
    | error e => simp only [Except.map, hh]; rfl
    | ok y => rfl

theorem commutes_sizeHeld (h : Motion p F) : Commutes Any (state F) id (sizeHeld p) (sizeHeld p) := by
  unfold sizeHeld
  exact Commutes.bind (commutes_computeG h) fun _ => Commutes.bind
    (commutes_onHeld fun e => size_moved h.length e "hybrid") fun _ => commutes_onHeld fun e => rfl

theorem commutes_loop (h : Motion p F) (nested : List (List Fld)) (n : ℕ) :
    ∀ i old, Commutes Any (state F) id (successiveLoop p nested n i old)
      (successiveLoop p (nested.map (List.map F)) n i old) := by
  induction n with
  | zero => intro i old; exact Commutes.pure _ rfl
  | succ n ih =>
    intro i old
    unfold successiveLoop
    refine Commutes.bind (commutes_domain nested _) fun domain => Commutes.bind
      (commutes_outer fun _ => rfl) fun _ => Commutes.bind (g := Option.map (result F)) (Commutes.tryExcept _
        (Commutes.bind (commutes_search h _) fun r => Commutes.pure _ rfl) (Commutes.pure _ rfl)) fun r => ?_
    rcases r with _ | _ | ⟨k, sel⟩
    · exact Commutes.pure _ rfl
    · exact Commutes.throw _
    · simp only [Option.map_some, Prod.map_apply, h.length]
      exact Commutes.bind (commutes_outer fun _ => rfl) fun _ =>
        Commutes.bind (commutes_sizeHeld h) fun H => Commutes.bind
        (commutes_outer fun _ => rfl) fun _ => Commutes.ite (Commutes.pure _ rfl) (ih _ _)

theorem commutes_successive (h : Motion p F) (nested : List (List Fld)) (k : ℤ) :
    Commutes Any (state F) (Prod.map id F) (searchSuccessive p nested k)
      (searchSuccessive p (nested.map (List.map F)) k) := by
  unfold searchSuccessive
  rw [List.length_map]
  exact Commutes.bind (commutes_loop h nested _ _ _) fun _ => Commutes.bind_get fun s _ =>
    Commutes.bind (Commutes.same _) fun m => Commutes.bind (Commutes.same _) fun idx =>
    Commutes.bind (Commutes.same _) fun sel => Commutes.bind (Commutes.same _) fun temps =>
    Commutes.bind (commutes_outer fun _ => rfl) fun _ => Commutes.bind (Commutes.same _) fun key =>
    Commutes.bind (commutes_domain nested _) fun domain => Commutes.bind (commutes_pick F _ _) fun selected =>
    Commutes.bind (commutes_initialize h _ _) fun _ => Commutes.bind (commutes_sizeHeld h) fun _ => Commutes.pure _ rfl

theorem commutes_ZD (h : Motion p F) (nested : List (List Fld)) :
    Commutes Any (state F) (Prod.map id F) (bisectionZD p nested) (bisectionZD p (nested.map (List.map F))) := by
  unfold bisectionZD
  refine Commutes.bind (commutes_domain nested 0) fun first => Commutes.bind (commutes_setup h _) fun _ =>
    Commutes.bind (Commutes.lift (outerDomain_moved nested)) fun outer => Commutes.bind (commutes_search h _) fun r => ?_
  rcases r with _ | ⟨key, x⟩
  · exact Commutes.throw _
  · exact Commutes.bind (commutes_outer fun _ => rfl) fun _ => commutes_successive h _ _

theorem asFlat_moved (c : Design.Candidates ℝ) : (candidates F c).asFlat = c.asFlat.map (List.map F) := by
  cases c <;> rfl

theorem asNested_moved (c : Design.Candidates ℝ) : (candidates F c).asNested = c.asNested.map (List.map (List.map F)) := by
  cases c <;> rfl

theorem commutes_findDesign (h : Motion p F) (routine : String) (c : Design.Candidates ℝ) :
    Commutes Any (state F) (result F) (findDesign p routine c) (findDesign p routine (candidates F c)) := by
  unfold findDesign
  exact Commutes.ite (Commutes.bind (Commutes.lift (asFlat_moved c)) fun l => commutes_1D h l) (Commutes.ite
    (Commutes.bind (Commutes.lift (asFlat_moved c)) fun l => commutes_1D h l) (Commutes.ite
    (Commutes.bind (Commutes.lift (asNested_moved c)) fun l => commutes_2D h l) (Commutes.ite
    (Commutes.bind (Commutes.lift (asNested_moved c)) fun l => Commutes.bind (commutes_ZD h l) fun _ => Commutes.pure _ rfl)
    (Commutes.throw _))))

theorem commutes_findAndSize (h : Motion p F) (routine : String) (c : Design.Candidates ℝ) :
    Commutes Any (state F) (result F) (Script.findAndSize ⟨p, routine, c⟩) (Script.findAndSize ⟨p, routine, candidates F c⟩) := by
  unfold Script.findAndSize
  exact Commutes.bind (commutes_findDesign h _ _) fun r => Commutes.bind (commutes_computeG h) fun _ =>
    Commutes.bind (commutes_onHeld fun e => size_moved h.length e "hybrid") fun _ => Commutes.pure _ rfl

theorem oakRidge_moved (hF : ∀ f, (F f).length = f.length) (f : Fld) (e : Whole.Env) :
    Report.oakRidge (F f) (env F e) = Report.oakRidge f e := by
  unfold Report.oakRidge
  simp only [grabG_moved, hF]
  simp only [env]

theorem designToFile_moved (h : Motion p F) (routine : String) (c : Design.Candidates ℝ) (enc : Files.Encoder Files.Json)
    (out : Files.File) (d : Files.Disk) :
    Script.designToFile enc out ⟨p, routine, candidates F c⟩ d = Script.designToFile enc out ⟨p, routine, c⟩ d := by
  have h1 := (commutes_findAndSize h routine c {} trivial).1
  replace h1 : Script.findAndSize ⟨p, routine, candidates F c⟩ {} = ((Script.findAndSize ⟨p, routine, c⟩ {}).1.map (result F),
    state F (Script.findAndSize ⟨p, routine, c⟩ {}).2) := h1
  unfold Script.designToFile
  rw [h1]
  rcases Script.findAndSize ⟨p, routine, c⟩ {} with ⟨r, s⟩
  cases r with
  | error e => rfl
  | ok r =>
    rcases hs : s.held with _ | x
    · simp only [Except.map, state, hs, Option.map_none]
    · simp only [Except.map, state, hs, Option.map_some]
      rcases r with _ | ⟨k, sel⟩
      · rfl
      · simp only [Option.map_some, Prod.map_apply, held, Files.oakRidgeExport, oakRidge_moved h.length]

end

end Ghedt.Moved
