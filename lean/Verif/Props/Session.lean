import Verif.Lemmas.Session
import Verif.Props.DesignExample

/-!
# Sessions with several designs (C128)

All exchangers made with one borehole object have one height.  Which histories of a script can change the exchanger
found by an earlier design, and how.
-/

set_option linter.unusedSectionVars false

namespace Ghedt.Session
open Real Ghedt.GHE Ghedt.Bhe Ghedt.Radial Ghedt.Whole Ghedt.Search Ghedt.WholeSearch

noncomputable section

/-- The variable a statement assigns or uses. -/
def Act.name : Act → Option String
  | .height _ _ => none
  | .design n _ _ _ _ => some n
  | .gFunctions n => some n
  | .simulate n _ => some n
  | .size n _ => some n

/-- The borehole object a statement has to do with, `home` telling which one the exchangers in each variable have. -/
def Act.place (home : String → ℕ) : Act → ℕ
  | .height a _ => a
  | .design _ a _ _ _ => a
  | .gFunctions n => home n
  | .simulate n _ => home n
  | .size n _ => home n

variable {w w' : World}

theorem look_eq {n : String} {r : Result} (h : w.results n = some r) : w.look n = some (w.see r) := by
  unfold World.look; rw [h]; rfl

/-! ### separate boreholes -/

/-- The two worlds look the same to those who use the borehole `a`. -/
def Agree (home : String → ℕ) (a : ℕ) (w w' : World) : Prop :=
  w.boreholes a = w'.boreholes a ∧ ∀ n, home n = a → w.results n = w'.results n

theorem method_agree {home : String → ℕ} {a : ℕ} {α : Type} (say : Py α → Outcome) (m : Problem → St WholeSearch.State α)
    (n : String) (hn : home n = a) (hw : ∀ n r, w.results n = some r → r.place = home n) (h : Agree home a w w') :
    (w.method n say m).1 = (w'.method n say m).1 ∧ Agree home a (w.method n say m).2 (w'.method n say m).2 := by
  unfold World.method
  rw [← h.2 n hn]
  cases hr : w.results n with
  | none => exact ⟨rfl, h⟩
  | some r =>
    have hp : r.place = a := (hw n r hr).trans hn
    have hs : w.see r = w'.see r := by unfold World.see; rw [hp, h.1]
    dsimp only
    rw [← hs]
    cases hq : (m r.problem { held := some (w.see r) }).2.held with
    | none => exact ⟨rfl, h⟩
    | some x =>
      refine ⟨rfl, ?_, ?_⟩
      · show (if a = r.place then _ else _) = (if a = r.place then _ else _)
        rw [if_pos hp.symm, if_pos hp.symm, h.1]
      · intro k hk
        show (if k = n then _ else _) = (if k = n then _ else _)
        split_ifs
        · rfl
        · exact h.2 k hk

theorem method_elsewhere {home : String → ℕ} {a : ℕ} {α : Type} (say : Py α → Outcome)
    (m : Problem → St WholeSearch.State α) (n : String) (hn : home n ≠ a)
    (hw : ∀ n r, w.results n = some r → r.place = home n) : Agree home a (w.method n say m).2 w := by
  unfold World.method
  cases hr : w.results n with
  | none => exact ⟨rfl, fun _ _ => rfl⟩
  | some r =>
    have hp : a ≠ r.place := by rw [hw n r hr]; exact fun h => hn h.symm
    dsimp only
    cases hq : (m r.problem { held := some (w.see r) }).2.held with
    | none => exact ⟨rfl, fun _ _ => rfl⟩
    | some x =>
      refine ⟨?_, ?_⟩
      · show (if a = r.place then _ else _) = _
        rw [if_neg hp]
      · intro k hk
        show (if k = n then _ else _) = _
        rw [if_neg]
        · rfl
        · rintro rfl
          exact hn hk

theorem method_home {home : String → ℕ} {α : Type} (say : Py α → Outcome)
    (m : Problem → St WholeSearch.State α) (n : String) (hw : ∀ n r, w.results n = some r → r.place = home n) :
    ∀ k r, (w.method n say m).2.results k = some r → r.place = home k := by
  unfold World.method
  cases hr : w.results n with
  | none => exact hw
  | some r =>
    dsimp only
    cases hq : (m r.problem { held := some (w.see r) }).2.held with
    | none => exact hw
    | some x =>
      intro k q hk
      change (if k = n then _ else _) = _ at hk
      split_ifs at hk with h
      · cases hk
        rw [h]
        exact hw n r hr
      · exact hw k q hk

theorem step_home {home : String → ℕ} (act : Act) (hact : ∀ n b p ro c, act = .design n b p ro c → b = home n)
    (hw : ∀ n r, w.results n = some r → r.place = home n) :
    ∀ n r, (step w act).2.results n = some r → r.place = home n := by
  cases act with
  | height b H => exact hw
  | design n b p ro c =>
    unfold step
    dsimp only
    cases (findDesign { p with borehole := w.boreholes b } ro c {}).2.held with
    | none => exact hw
    | some x =>
      dsimp only
      cases hq : (findDesign { p with borehole := w.boreholes b } ro c {}).1 with
      | error e => exact hw
      | ok r =>
        intro k q hk
        change (if k = n then _ else _) = _ at hk
        split_ifs at hk with h
        · cases hk
          rw [h]
          exact hact n b p ro c rfl
        · exact hw k q hk
  | gFunctions n => exact method_home _ _ n hw
  | simulate n m => exact method_home _ _ n hw
  | size n m => exact method_home _ _ n hw

theorem step_agree {home : String → ℕ} {a : ℕ} (act : Act) (hact : ∀ n b p ro c, act = .design n b p ro c → b = home n)
    (ha : act.place home = a) (hw : ∀ n r, w.results n = some r → r.place = home n) (h : Agree home a w w') :
    (step w act).1 = (step w' act).1 ∧ Agree home a (step w act).2 (step w' act).2 := by
  cases act with
  | height b H =>
    change b = a at ha
    refine ⟨rfl, ?_, h.2⟩
    show (if a = b then _ else _) = (if a = b then _ else _)
    rw [h.1]
  | design n b p ro c =>
    change b = a at ha
    subst ha
    unfold step
    dsimp only
    rw [← h.1]
    cases (findDesign { p with borehole := w.boreholes b } ro c {}).2.held with
    | none => exact ⟨rfl, h⟩
    | some x =>
      have hb : Agree home b (w.setHeight b (borehole x.state.bhe).H) (w'.setHeight b (borehole x.state.bhe).H) := by
        refine ⟨?_, h.2⟩
        show (if b = b then _ else _) = (if b = b then _ else _)
        rw [h.1]
      dsimp only
      cases (findDesign { p with borehole := w.boreholes b } ro c {}).1 with
      | error e => exact ⟨rfl, hb⟩
      | ok r =>
        refine ⟨rfl, hb.1, ?_⟩
        intro k hk
        show (if k = n then _ else _) = (if k = n then _ else _)
        split_ifs
        · rfl
        · exact h.2 k hk
  | gFunctions n => exact method_agree _ _ n ha hw h
  | simulate n m => exact method_agree _ _ n ha hw h
  | size n m => exact method_agree _ _ n ha hw h

theorem step_elsewhere {home : String → ℕ} {a : ℕ} (act : Act)
    (hact : ∀ n b p ro c, act = .design n b p ro c → b = home n) (ha : act.place home ≠ a)
    (hw : ∀ n r, w.results n = some r → r.place = home n) : Agree home a (step w act).2 w := by
  have hset : ∀ b H, b ≠ a → Agree home a (w.setHeight b H) w := by
    intro b H hb
    refine ⟨?_, fun _ _ => rfl⟩
    show (if a = b then _ else _) = _
    rw [if_neg (Ne.symm hb)]
  cases act with
  | height b H => exact hset b H ha
  | design n b p ro c =>
    unfold step
    dsimp only
    cases (findDesign { p with borehole := w.boreholes b } ro c {}).2.held with
    | none => exact ⟨rfl, fun _ _ => rfl⟩
    | some x =>
      have hb := hset b (borehole x.state.bhe).H ha
      dsimp only
      cases (findDesign { p with borehole := w.boreholes b } ro c {}).1 with
      | error e => exact hb
      | ok r =>
        refine ⟨hb.1, ?_⟩
        intro k hk
        show (if k = n then _ else _) = _
        rw [if_neg]
        · rfl
        · rintro rfl
          exact ha ((hact _ _ _ _ _ rfl).trans hk)
  | gFunctions n => exact method_elsewhere _ _ n ha hw
  | simulate n m => exact method_elsewhere _ _ n ha hw
  | size n m => exact method_elsewhere _ _ n ha hw

theorem run_cons (act : Act) (acts : List Act) :
    run w (act :: acts) = ((step w act).1 :: (run (step w act).2 acts).1, (run (step w act).2 acts).2) := rfl

theorem run_agree {home : String → ℕ} (a : ℕ) (acts : List Act)
    (hacts : ∀ n b p ro c, .design n b p ro c ∈ acts → b = home n) (w w' : World)
    (hw : ∀ n r, w.results n = some r → r.place = home n) (h : Agree home a w w') :
    ((acts.zip (run w acts).1).filter fun q => decide (q.1.place home = a)) =
      (acts.filter fun x => decide (x.place home = a)).zip (run w' (acts.filter fun x => decide (x.place home = a))).1 ∧
    Agree home a (run w acts).2 (run w' (acts.filter fun x => decide (x.place home = a))).2 := by
  induction acts generalizing w w' with
  | nil => exact ⟨rfl, h⟩
  | cons act acts ih =>
    have h1 : ∀ n b p ro c, act = .design n b p ro c → b = home n := by
      rintro n b p ro c rfl
      exact hacts n b p ro c (by simp)
    have h2 := fun n b p ro c hm => hacts n b p ro c (List.mem_cons_of_mem act hm)
    by_cases ha : act.place home = a
    · obtain ⟨e1, e2⟩ := step_agree act h1 ha hw h
      obtain ⟨i1, i2⟩ := ih h2 _ _ (step_home act h1 hw) e2
      rw [List.filter_cons, if_pos (by simpa using ha), run_cons, run_cons]
      refine ⟨?_, i2⟩
      rw [List.zip_cons_cons, List.zip_cons_cons, List.filter_cons, if_pos (by simpa using ha), i1, e1]
    · have e2 := step_elsewhere act h1 ha hw
      obtain ⟨i1, i2⟩ := ih h2 _ w' (step_home act h1 hw) ⟨e2.1.trans h.1, fun n hn => (e2.2 n hn).trans (h.2 n hn)⟩
      rw [List.filter_cons, if_neg (by simpa using ha), run_cons]
      refine ⟨?_, i2⟩
      rw [List.zip_cons_cons, List.filter_cons, if_neg (by simpa using ha), i1]

/-- C128: designs with separate borehole objects do not influence each other.  In any script, what the statements about
the borehole `a` see (values, exceptions, exchangers) is what they would see in the script without all the others. -/
theorem C128_apart (home : String → ℕ) (b : ℕ → Borehole) (acts : List Act)
    (hacts : ∀ n a p ro c, .design n a p ro c ∈ acts → a = home n) (a : ℕ) (mine : List Act)
    (hm : mine = acts.filter fun x => decide (x.place home = a)) :
    ((acts.zip (run ⟨b, fun _ => none⟩ acts).1).filter fun q => decide (q.1.place home = a)) =
      mine.zip (run ⟨b, fun _ => none⟩ mine).1 ∧
    (run ⟨b, fun _ => none⟩ acts).2.boreholes a = (run ⟨b, fun _ => none⟩ mine).2.boreholes a ∧
    ∀ n, home n = a → (run ⟨b, fun _ => none⟩ acts).2.look n = (run ⟨b, fun _ => none⟩ mine).2.look n := by
  subst hm
  have h0 : ∀ n r, (⟨b, fun _ => none⟩ : World).results n = some r → r.place = home n := by
    intro n r h; cases h
  obtain ⟨h1, h2, h3⟩ := run_agree a acts hacts ⟨b, fun _ => none⟩ ⟨b, fun _ => none⟩ h0 ⟨rfl, fun _ _ => rfl⟩
  refine ⟨h1, h2, ?_⟩
  intro n hn
  -- every result found has its home
  have hhome : ∀ (acts : List Act) (w : World), (∀ n a p ro c, .design n a p ro c ∈ acts → a = home n) →
      (∀ n r, w.results n = some r → r.place = home n) → ∀ n r, (run w acts).2.results n = some r → r.place = home n := by
    intro acts
    induction acts with
    | nil => intro w _ hw; exact hw
    | cons act acts ih =>
      intro w ha hw
      rw [run_cons]
      exact ih _ (fun n a p ro c hm => ha n a p ro c (List.mem_cons_of_mem _ hm))
        (step_home act (by rintro n b p ro c rfl; exact ha n b p ro c (by simp)) hw)
  unfold World.look
  rw [h3 n hn]
  cases hr : (run ⟨b, fun _ => none⟩ (acts.filter fun x => decide (x.place home = a))).2.results n with
  | none => rfl
  | some r =>
    have hp : r.place = a := (hhome acts _ hacts h0 n r (by rw [h3 n hn, hr])).trans hn
    simp only [Option.map_some]
    unfold World.see
    rw [hp, h2]

/-! ### heights -/

/-- What is known of a search object: its design is one of the script, and its exchanger has the bounds given there. -/
def Origin (acts : List Act) (r : Result) : Prop :=
  Known r.ghe.state.bhe ∧ (r.ghe.env.minHeight = r.problem.minHeight ∧ r.ghe.env.maxHeight = r.problem.maxHeight) ∧
    r.ghe.env.brent = r.problem.brent ∧ ∃ n ro c, .design n r.place r.problem ro c ∈ acts

/-- The heights C128 allows for the borehole `a`. -/
def Possible (b : ℕ → Borehole) (acts : List Act) (a : ℕ) (h : ℝ) : Prop :=
  h = (b a).H ∨ .height a h ∈ acts ∨
    ∃ n p ro c, .design n a p ro c ∈ acts ∧ p.minHeight ≤ h ∧ h ≤ p.maxHeight

/-- The invariant. -/
def Tracked (b : ℕ → Borehole) (acts : List Act) (w : World) : Prop :=
  (∀ a, w.boreholes a = { b a with H := (w.boreholes a).H } ∧ Possible b acts a (w.boreholes a).H) ∧
  ∀ n r, w.results n = some r → Origin acts r

theorem known_at {s : Whole.State} (h : Known s.bhe) (H : ℝ) : Known (s.at H).bhe := (setHeight_borehole h H).2.1

theorem tracked_set {b : ℕ → Borehole} {acts : List Act} (hw : Tracked b acts w) {a : ℕ} {H : ℝ}
    (hH : Possible b acts a H) : Tracked b acts (w.setHeight a H) := by
  refine ⟨?_, hw.2⟩
  intro k
  by_cases hk : k = a
  · subst hk
    have e : (w.setHeight k H).boreholes k = { w.boreholes k with H := H } := if_pos rfl
    rw [e]
    refine ⟨?_, hH⟩
    rw [(hw.1 k).1]
  · have e : (w.setHeight a H).boreholes k = w.boreholes k := if_neg hk
    rw [e]
    exact hw.1 k

theorem tracked_assign {b : ℕ → Borehole} {acts : List Act} (hw : Tracked b acts w) {n : String} {r : Result}
    (hr : Origin acts r) : Tracked b acts (w.assign n r) := by
  refine ⟨hw.1, ?_⟩
  intro k q hq
  change (if k = n then _ else _) = _ at hq
  split_ifs at hq
  · cases hq; exact hr
  · exact hw.2 k q hq

/-- A method that keeps the kind and bounds of an exchanger and leaves a possible height keeps the invariant. -/
theorem tracked_method {b : ℕ → Borehole} {acts : List Act} {α : Type} (say : Py α → Outcome)
    (m : Problem → St WholeSearch.State α) (n : String) (hw : Tracked b acts w)
    (hm : ∀ r, Origin acts r → Possible b acts r.place (w.boreholes r.place).H → ∀ x,
      (m r.problem { held := some (w.see r) }).2.held = some x →
      Known x.state.bhe ∧ (x.env.minHeight = r.ghe.env.minHeight ∧ x.env.maxHeight = r.ghe.env.maxHeight) ∧
      x.env.brent = r.ghe.env.brent ∧ Possible b acts r.place (borehole x.state.bhe).H) :
    Tracked b acts (w.method n say m).2 := by
  unfold World.method
  cases hr : w.results n with
  | none => exact hw
  | some r =>
    dsimp only
    cases hq : (m r.problem { held := some (w.see r) }).2.held with
    | none => exact hw
    | some x =>
      have ho := hw.2 n r hr
      obtain ⟨h1, h2, h3, h4⟩ := hm r ho (hw.1 _).2 x hq
      refine tracked_assign (tracked_set hw h4) ⟨h1, ?_, ?_, ho.2.2.2⟩
      · exact ⟨h2.1.trans ho.2.1.1, h2.2.trans ho.2.1.2⟩
      · exact h3.trans ho.2.2.1

theorem see_height {r : Result} (h : Known r.ghe.state.bhe) :
    (borehole (w.see r).state.bhe).H = (w.boreholes r.place).H := borehole_setHeight h _

theorem tracked_step {b : ℕ → Borehole} {acts : List Act} {act : Act} (hact : act ∈ acts)
    (hb : ∀ n a p ro c, act = .design n a p ro c → Bracketed p)
    (hbs : ∀ n a p ro c, .design n a p ro c ∈ acts → Bracketed p) (hw : Tracked b acts w) :
    Tracked b acts (step w act).2 := by
  cases act with
  | height a H => exact tracked_set hw (.inr (.inl hact))
  | design n a p ro c =>
    unfold step
    dsimp only
    have hk := keeps_findDesign (p := { p with borehole := w.boreholes a })
      ⟨(hb n a p ro c rfl).order, (hb n a p ro c rfl).finder⟩ ro c {} (by intro x hx; cases hx)
    cases hq : (findDesign { p with borehole := w.boreholes a } ro c {}).2.held with
    | none => exact hw
    | some x =>
      have hx := hk x hq
      have hP : Possible b acts a (borehole x.state.bhe).H := by
        rcases hx.height with h | h
        · rw [h]; exact (hw.1 a).2
        · exact .inr (.inr ⟨n, p, ro, c, hact, h.1, h.2⟩)
      have hset := tracked_set hw hP
      dsimp only
      cases (findDesign { p with borehole := w.boreholes a } ro c {}).1 with
      | error e => exact hset
      | ok r => exact tracked_assign hset ⟨hx.known, hx.limits, hx.brent, n, ro, c, hact⟩
  | gFunctions n =>
    refine tracked_method _ _ n hw ?_
    intro r ho hP x hx
    unfold computeG at hx
    dsimp only at hx
    split at hx
    · cases hx
      refine ⟨known_at ho.1 _, ⟨rfl, rfl⟩, rfl, ?_⟩
      rw [see_height ho.1]; exact hP
    · cases hx
      refine ⟨known_at ho.1 _, ⟨rfl, rfl⟩, rfl, ?_⟩
      have := see_height (w := w) ho.1
      dsimp only at this ⊢
      rw [this]; exact hP
  | simulate n m =>
    refine tracked_method _ _ n hw ?_
    intro r ho hP x hx
    unfold onHeld at hx
    dsimp only at hx
    cases hx
    obtain ⟨e1, e2, -⟩ := simulate_borehole (w.see r).env m (w.see r).state
    refine ⟨e2 (known_at ho.1 _), ⟨rfl, rfl⟩, rfl, ?_⟩
    dsimp only
    rw [e1, see_height ho.1]; exact hP
  | size n m =>
    refine tracked_method _ _ n hw ?_
    intro r ho hP x hx
    unfold onHeld at hx
    dsimp only at hx
    cases hx
    obtain ⟨hk, hl, hbr, n', ro, c, hd⟩ := ho
    have hB := hbs _ _ _ _ _ hd
    have e1 : (w.see r).env.minHeight = r.problem.minHeight := hl.1
    have e2 : (w.see r).env.maxHeight = r.problem.maxHeight := hl.2
    have e3 : (w.see r).env.brent = r.problem.brent := hbr
    obtain ⟨k1, -, y, y1, y2, hy⟩ := size_bounded (w.see r).env m (by rw [e1, e2]; exact hB.order)
      (by rw [e1, e2, e3]; exact hB.finder) (borehole (w.see r).state.bhe) _ (w.see r).state (known_at hk _) rfl rfl
    refine ⟨k1, ⟨rfl, rfl⟩, rfl, .inr (.inr ⟨n', r.problem, ro, c, hd, ?_, ?_⟩)⟩
    · dsimp only; rw [hy]; rw [e1] at y1; exact y1
    · dsimp only; rw [hy]; rw [e2] at y2; exact y2

theorem tracked_run {b : ℕ → Borehole} {all : List Act} (hbs : ∀ n a p ro c, .design n a p ro c ∈ all → Bracketed p) :
    ∀ (acts : List Act) (w : World), (∀ x ∈ acts, x ∈ all) → Tracked b all w → Tracked b all (run w acts).2
  | [], _, _, hw => hw
  | act :: acts, w, hm, hw => by
    rw [run_cons]
    exact tracked_run hbs acts _ (fun x hx => hm x (List.mem_cons_of_mem _ hx))
      (tracked_step (hm act (by simp)) (fun n a p ro c h => hbs n a p ro c (h ▸ hm act (by simp))) hbs hw)

/-- C128: whatever a script does, and whichever of its statements raise, a borehole object has at the end the radius and
burial depth it was made with, and a height that it was made with, that the script gave it, or that lies between the
bounds of a design it was used for. -/
theorem C128_heights (b : ℕ → Borehole) (acts : List Act)
    (hacts : ∀ n a p ro c, .design n a p ro c ∈ acts → Bracketed p) (a : ℕ) :
    ∃ h, (run ⟨b, fun _ => none⟩ acts).2.boreholes a = { b a with H := h } ∧
      (h = (b a).H ∨ .height a h ∈ acts ∨
        ∃ n p ro c, .design n a p ro c ∈ acts ∧ p.minHeight ≤ h ∧ h ≤ p.maxHeight) := by
  obtain ⟨h1, h2⟩ := (tracked_run hacts acts ⟨b, fun _ => none⟩ (fun _ h => h)
    ⟨fun a => ⟨rfl, .inl rfl⟩, by intro n r h; cases h⟩).1 a
  exact ⟨_, h1, h2⟩

/-! ### one borehole for several designs -/

theorem step_other {n : String} {act : Act} (hn : act.name ≠ some n) : (step w act).2.results n = w.results n := by
  have method : ∀ {α : Type} (say : Py α → Outcome) (m : Problem → St WholeSearch.State α) (k : String), k ≠ n →
      (w.method k say m).2.results n = w.results n := by
    intro α say m k hk
    unfold World.method
    cases hr : w.results k with
    | none => rfl
    | some r =>
      dsimp only
      cases hq : (m r.problem { held := some (w.see r) }).2.held with
      | none => rfl
      | some x =>
        show (if n = k then _ else _) = _
        rw [if_neg (Ne.symm hk)]
        rfl
  have hne : ∀ k, act.name = some k → k ≠ n := fun k hk h => hn (by rw [hk, h])
  cases act with
  | height a H => rfl
  | design k a p ro c =>
    unfold step
    dsimp only
    cases (findDesign { p with borehole := w.boreholes a } ro c {}).2.held with
    | none => rfl
    | some x =>
      dsimp only
      cases (findDesign { p with borehole := w.boreholes a } ro c {}).1 with
      | error e => rfl
      | ok r =>
        show (if n = k then _ else _) = _
        rw [if_neg (Ne.symm (hne k rfl))]
        rfl
  | gFunctions k => exact method _ _ k (hne k rfl)
  | simulate k m => exact method _ _ k (hne k rfl)
  | size k m => exact method _ _ k (hne k rfl)

theorem run_other {n : String} : ∀ (acts : List Act) (w : World), (∀ x ∈ acts, x.name ≠ some n) →
    (run w acts).2.results n = w.results n
  | [], _, _ => rfl
  | act :: acts, w, h => by
    rw [run_cons]
    exact (run_other acts _ fun x hx => h x (List.mem_cons_of_mem _ hx)).trans (step_other (h act (by simp)))

theorem step_found {n : String} {a : ℕ} {p : Problem} {ro : String} (hz : ro ≠ "bi-zoned") {c : Design.Candidates ℝ}
    {r : Option (ℤ × Field)} (h : (step w (.design n a p ro c)).1 = .found (.ok r)) :
    ∃ x, Whole.borehole x.state.bhe = { w.boreholes a with H := p.maxHeight } ∧
      (step w (.design n a p ro c)).2 = (w.setHeight a p.maxHeight).assign n ⟨a, p, x⟩ := by
  unfold step at h ⊢
  dsimp only at h ⊢
  rcases hq : findDesign { p with borehole := w.boreholes a } ro c {} with ⟨q, c'⟩
  rw [hq] at h
  dsimp only at h ⊢
  have hqr : q = .ok r := by
    revert h
    cases c'.held with
    | none => intro h; cases h; rfl
    | some x =>
      dsimp only
      cases q with
      | error e => intro h; cases h
      | ok s => intro h; cases h; rfl
  subst hqr
  obtain ⟨x, hh, hb, -⟩ := C94_repeat (p := { p with borehole := w.boreholes a }) ro hz c c' r hq
  rw [hh]
  refine ⟨x, hb, ?_⟩
  dsimp only
  rw [hb]

/-- C128: a design that returns (near-square, rectangle, bi-rectangle) changes the exchanger found by every earlier design
with the same borehole object: it now has the maximum height of the new design, with the temperatures simulated
before, and simulating it uses that height. -/
theorem C128_changed (a : ℕ) (old new : String) (hne : old ≠ new) (q : Result) (hq : w.results old = some q)
    (ha : q.place = a) (x : Held) (hx : w.look old = some x) (p : Problem) (ro : String) (hz : ro ≠ "bi-zoned")
    (c : Design.Candidates ℝ) (r : Option (ℤ × Field)) (w' : World)
    (h : step w (.design new a p ro c) = (.found (.ok r), w')) :
    w'.look old = some ⟨x.env, x.state.at p.maxHeight⟩ ∧
    (x.state.at p.maxHeight).HPEFT = x.state.HPEFT ∧
    (Known x.state.bhe → (borehole (x.state.at p.maxHeight).bhe).H = p.maxHeight) ∧
    (∃ y, w'.look new = some y ∧ (borehole y.state.bhe).H = p.maxHeight) ∧
    ∀ m, (step w' (.simulate old m)).1 = .temperatures (Whole.simulate x.env m (x.state.at p.maxHeight)).1 := by
  obtain ⟨y, hy, e⟩ := step_found hz (by rw [h] : (step w (.design new a p ro c)).1 = .found (.ok r))
  rw [h] at e
  change w' = _ at e
  rw [look_eq hq] at hx
  cases hx
  have hb : w'.boreholes a = { w.boreholes a with H := p.maxHeight } := by
    rw [e]
    exact if_pos rfl
  have hro : w'.results old = some q := by
    rw [e]
    exact (if_neg hne).trans hq
  have hrn : w'.results new = some ⟨a, p, y⟩ := by
    rw [e]
    exact if_pos rfl
  have hsee : w'.see q = ⟨(w.see q).env, (w.see q).state.at p.maxHeight⟩ := by
    unfold World.see
    rw [ha, hb]
    show _ = (⟨_, { q.ghe.state with bhe := setHeight p.maxHeight (setHeight _ q.ghe.state.bhe) }⟩ : Held)
    rw [setHeight_setHeight]
    rfl
  refine ⟨by rw [look_eq hro, hsee], rfl, fun hk => borehole_setHeight hk _, ⟨_, look_eq hrn, ?_⟩, ?_⟩
  · show (borehole (setHeight (w'.boreholes a).H y.state.bhe)).H = _
    rw [hb]
    cases hc : y.state.bhe with
    | other =>
      have h1 := congrArg Borehole.H hy
      rw [hc] at h1
      exact h1
    | _ => rfl
  · intro m
    show (w'.method old _ _).1 = _
    unfold World.method
    rw [hro]
    dsimp only
    rw [hsee]
    rfl

/-- C128: a design (near-square, rectangle) that raises does so as well: when the first field could be made and simulated
at minimum height, the borehole has the maximum height afterwards, whether the design returned or raised, and so have the
exchangers of all earlier designs with it. -/
theorem C128_raised (a : ℕ) (n : String) (p : Problem) (ro : String) (hro : ro = "near-square" ∨ ro = "rectangle")
    (d : List Field) (f : Field) (hd : d.head? = some f) (p' : Problem) (hp : p' = { p with borehole := w.boreholes a })
    (hmade : ∃ y, fresh p' f p'.borehole.H = .ok y) (hsim : ∃ hi lo, Extremes p' f p.minHeight hi lo)
    (w' : World) (hw : (step w (.design n a p ro (.flat d))).2 = w') :
    w'.boreholes a = { w.boreholes a with H := p.maxHeight } ∧
    ∀ old q x, old ≠ n → w.results old = some q → q.place = a → w.look old = some x →
      w'.look old = some ⟨x.env, x.state.at p.maxHeight⟩ := by
  obtain ⟨y, hy⟩ := hmade
  obtain ⟨hi, lo, z, hz, hs⟩ := hsim
  have hq : findDesign p' ro (.flat d) {} = search p' d { held := some y } := by
    have h1 : findDesign p' ro (.flat d) {} = bisection1D p' d {} := by
      rcases hro with rfl | rfl <;> rfl
    rw [h1]
    unfold WholeSearch.bisection1D
    rw [St.bind_ok (setup_ok hd hy)]
  have hn := fresh_new hy
  obtain ⟨v, hv⟩ : ∃ v, (calculateExcess p' f p'.minHeight { held := some y }).1 = .ok v := by
    obtain ⟨c', hc', -, -, -, h', hh', hi', hx⟩ := initializeGhe_eq p' f p'.minHeight { held := some y } y rfl
      (hn.intact rfl rfl)
    have hmin : p'.minHeight = p.minHeight := by rw [hp]
    rw [hmin] at hc' hx ⊢
    rw [hz] at hc'
    have hz' := hx z hz
    subst hz'
    unfold WholeSearch.calculateExcess
    rw [St.bind_ok hc']
    rcases hsim : Whole.simulate h'.env p'.method h'.state with ⟨r, st⟩
    rw [hsim] at hs
    dsimp only at hs
    subst hs
    have hon : onHeld (fun env => Whole.simulate env p'.method) c' =
        (.ok (hi, lo), { c' with held := some ⟨h'.env, st⟩ }) := by
      unfold onHeld
      rw [hh']
      dsimp only
      rw [hsim]
    rw [St.bind_ok hon]
    exact ⟨_, rfl⟩
  obtain ⟨x, hx, -, -, hH⟩ := search_at d f { held := some y } y rfl hn.known hn.media hd v hv
  have hmax : p'.maxHeight = p.maxHeight := by rw [hp]
  have hb : w'.boreholes a = { w.boreholes a with H := p.maxHeight } ∧ ∀ old, old ≠ n → w'.results old = w.results old := by
    rw [← hw]
    unfold step
    dsimp only
    rw [← hp, hq, hx]
    dsimp only
    rw [hH, hmax]
    cases (search p' d { held := some y }).1 with
    | error e => exact ⟨if_pos rfl, fun _ _ => rfl⟩
    | ok r => exact ⟨if_pos rfl, fun old ho => if_neg ho⟩
  refine ⟨hb.1, ?_⟩
  intro old q x ho hr ha hx
  rw [look_eq hr] at hx
  cases hx
  rw [look_eq ((hb.2 old ho).trans hr)]
  unfold World.see
  rw [ha, hb.1]
  show _ = some (⟨_, { q.ghe.state with bhe := setHeight p.maxHeight (setHeight _ q.ghe.state.bhe) }⟩ : Held)
  rw [setHeight_setHeight]
  rfl

/-- Sizing overwrites the height first. -/
theorem size_at (env : Whole.Env) (m : String) (s : Whole.State) (H : ℝ) :
    Whole.size env m (s.at H) = Whole.size env m s := by
  unfold Whole.size
  rw [St.modify_bind, St.modify_bind]
  unfold State.at
  dsimp only
  rw [setHeight_setHeight]

theorem size_method {n : String} (m : String) {r r' : Result} (hr : w.results n = some r) (hr' : w'.results n = some r')
    (hp : r'.place = r.place) (he : r'.ghe.env = r.ghe.env) {H : ℝ} (hs : r'.ghe.state = r.ghe.state.at H) :
    (step w' (.size n m)).1 = (step w (.size n m)).1 ∧ (step w' (.size n m)).2.look n = (step w (.size n m)).2.look n := by
  show (w'.method n _ _).1 = (w.method n _ _).1 ∧ (w'.method n _ _).2.look n = (w.method n _ _).2.look n
  unfold World.method
  rw [hr, hr']
  dsimp only [onHeld, World.see]
  rw [he, hp, hs, size_at, size_at, size_at]
  refine ⟨rfl, ?_⟩
  rw [look_eq (r := ⟨r.place, r'.problem, _⟩) (if_pos rfl), look_eq (r := ⟨r.place, r.problem, _⟩) (if_pos rfl)]
  unfold World.see
  congr 3
  show Borehole.H (if r.place = r.place then _ else _) = Borehole.H (if r.place = r.place then _ else _)
  rw [if_pos rfl, if_pos rfl]

/-- Computing g-functions does not look at the height. -/
theorem gFunctions_method {n : String} {r : Result} (hr : w.results n = some r) (hr' : w'.results n = some r) :
    (step w' (.gFunctions n)).1 = (step w (.gFunctions n)).1 ∧
    ∃ y y' : Result, (step w (.gFunctions n)).2.results n = some y ∧ (step w' (.gFunctions n)).2.results n = some y' ∧
      y'.place = y.place ∧ y'.ghe.env = y.ghe.env ∧ ∃ H, y'.ghe.state = y.ghe.state.at H := by
  have e1 : ∀ (H : ℝ) (x : Exchanger), flowOf (setHeight H x) = flowOf x := by intro H x; cases x <;> rfl
  have e2 : ∀ (H : ℝ) (x : Exchanger), mediaOf (setHeight H x) = mediaOf x := by intro H x; cases x <;> rfl
  have e3 : ∀ (H : ℝ) (x : Exchanger), (borehole (setHeight H x)).rb = (borehole x).rb := by intro H x; cases x <;> rfl
  have e4 : ∀ (H : ℝ) (x : Exchanger), (borehole (setHeight H x)).D = (borehole x).D := by intro H x; cases x <;> rfl
  show (w'.method n _ _).1 = (w.method n _ _).1 ∧ ∃ y y', (w.method n _ _).2.results n = _ ∧
    (w'.method n _ _).2.results n = _ ∧ _
  unfold World.method
  rw [hr, hr']
  dsimp only [computeG, World.see, State.at]
  simp only [e1, e2, e3, e4]
  cases GF.computeGFunctions r.problem.fmt r.problem.toFloat
      (r.problem.gf (flowOf r.ghe.state.bhe) (mediaOf r.ghe.state.bhe) r.ghe.env.db.locations) r.ghe.env.bSpacing
      r.ghe.env.minHeight r.ghe.env.maxHeight (borehole r.ghe.state.bhe).rb (borehole r.ghe.state.bhe).D r.ghe.env.db with
  | error e =>
    refine ⟨rfl, _, _, if_pos rfl, if_pos rfl, rfl, rfl, (w'.boreholes r.place).H, ?_⟩
    dsimp only
    rw [setHeight_setHeight]
  | ok db =>
    refine ⟨rfl, _, _, if_pos rfl, if_pos rfl, rfl, rfl, (w'.boreholes r.place).H, ?_⟩
    dsimp only
    rw [setHeight_setHeight]

/-- C128: sizing is not affected.  Whatever was done with other search objects, on the same borehole or others, sizing an
exchanger, with or without computing its g-functions before, gives the same value or exception and leaves the
same exchanger as without all that. -/
theorem C128_size (w : World) (acts : List Act) (n m : String) (hn : ∀ x ∈ acts, x.name ≠ some n) :
    (run (run w acts).2 [.size n m]).1 = (run w [.size n m]).1 ∧
    (run (run w acts).2 [.size n m]).2.look n = (run w [.size n m]).2.look n ∧
    (run (run w acts).2 [.gFunctions n, .size n m]).1 = (run w [.gFunctions n, .size n m]).1 ∧
    (run (run w acts).2 [.gFunctions n, .size n m]).2.look n = (run w [.gFunctions n, .size n m]).2.look n := by
  have hsame := run_other acts w hn
  generalize (run w acts).2 = w' at *
  simp only [run]
  cases hr : w.results n with
  | none =>
    rw [hr] at hsame
    have hm : ∀ {α : Type} (say : Py α → Outcome) (m : Problem → St WholeSearch.State α),
        w.method n say m = (.nameError, w) ∧ w'.method n say m = (.nameError, w') := by
      intro α say m
      unfold World.method
      rw [hr, hsame]
      exact ⟨rfl, rfl⟩
    have hl : w'.look n = w.look n := by unfold World.look; rw [hr, hsame]; rfl
    simp only [step, (hm _ _).1, (hm _ _).2, hl, and_self]
  | some r =>
    rw [hr] at hsame
    obtain ⟨e1, e2⟩ := size_method m hr hsame rfl rfl (H := (borehole r.ghe.state.bhe).H)
      (by unfold State.at; rw [setHeight_self])
    obtain ⟨g1, y, y', hy, hy', g2, g3, H, g4⟩ := gFunctions_method hr hsame
    obtain ⟨f1, f2⟩ := size_method m hy hy' g2 g3 g4
    exact ⟨by rw [e1], e2, by rw [g1, f1], f2⟩

theorem run_tracked (b : ℕ → Borehole) (before acts : List Act)
    (hall : ∀ n a p ro c, .design n a p ro c ∈ before ++ acts → Bracketed p) :
    Tracked b (before ++ acts) (run ⟨b, fun _ => none⟩ before).2 :=
  tracked_run hall before _ (fun _ h => List.mem_append_left _ h) ⟨fun a => ⟨rfl, .inl rfl⟩, by intro n r h; cases h⟩

/-- A method that leaves the height alone leaves all heights alone. -/
theorem method_heights {b : ℕ → Borehole} {all : List Act} (hw : Tracked b all w) {α : Type} (say : Py α → Outcome)
    (m : Problem → St WholeSearch.State α) (n : String)
    (hm : ∀ p x y, Known x.state.bhe → (m p { held := some x }).2.held = some y →
      (borehole y.state.bhe).H = (borehole x.state.bhe).H) (a : ℕ) :
    ((w.method n say m).2.boreholes a).H = (w.boreholes a).H := by
  unfold World.method
  cases hr : w.results n with
  | none => rfl
  | some r =>
    dsimp only
    cases hq : (m r.problem { held := some (w.see r) }).2.held with
    | none => rfl
    | some x =>
      have hk := (hw.2 n r hr).1
      show Borehole.H (if a = r.place then _ else _) = _
      split_ifs with h
      · subst h
        exact (hm _ _ _ (known_at hk _) hq).trans (see_height hk)
      · rfl

/-- C128: nothing happens to an exchanger as long as its borehole is used only for designs (near-square, rectangle,
bi-rectangle) that return and have its height for their maximum height, for computing g-functions and for simulating;
other boreholes may be given other heights and used for other designs. -/
theorem C128_kept (b : ℕ → Borehole) (before acts : List Act)
    (hall : ∀ n a p ro c, .design n a p ro c ∈ before ++ acts → Bracketed p) (w : World)
    (hw : w = (run ⟨b, fun _ => none⟩ before).2) (n : String) (r : Result) (hr : w.results n = some r)
    (hacts : ∀ x ∈ acts, x.name ≠ some n ∧
      ((∃ a H, x = .height a H ∧ a ≠ r.place) ∨
       (∃ k a p ro c, x = .design k a p ro c ∧ ro ≠ "bi-zoned" ∧ (a = r.place → p.maxHeight = (w.boreholes a).H)) ∨
       (∃ k, x = .gFunctions k) ∨ ∃ k m, x = .simulate k m))
    (hok : ∀ e, .found (.error e) ∉ (run w acts).1) :
    (run w acts).2.look n = w.look n := by
  have main : ∀ (all acts : List Act) (H : ℝ) (w : World),
      (∀ n a p ro c, .design n a p ro c ∈ all → Bracketed p) → (∀ x ∈ acts, x ∈ all) → Tracked b all w →
      (w.boreholes r.place).H = H →
      (∀ x ∈ acts, ((∃ a H, x = .height a H ∧ a ≠ r.place) ∨
       (∃ k a p ro c, x = .design k a p ro c ∧ ro ≠ "bi-zoned" ∧ (a = r.place → p.maxHeight = H)) ∨
       (∃ k, x = .gFunctions k) ∨ ∃ k m, x = .simulate k m)) →
      (∀ e, .found (.error e) ∉ (run w acts).1) → ((run w acts).2.boreholes r.place).H = H := by
    intro all acts H
    induction acts with
    | nil => intro w _ _ _ h _ _; exact h
    | cons act acts ih =>
      intro w hb hm ht hH ha hok
      rw [run_cons] at hok ⊢
      refine ih _ hb (fun x hx => hm x (List.mem_cons_of_mem _ hx))
        (tracked_step (hm act (by simp)) (fun n a p ro c h => hb n a p ro c (h ▸ hm act (by simp))) hb ht) ?_
        (fun x hx => ha x (List.mem_cons_of_mem _ hx)) (fun e he => hok e (List.mem_cons_of_mem _ he))
      rcases ha act (by simp) with ⟨a, K, rfl, hne⟩ | ⟨k, a, p, ro, c, rfl, hz, hmax⟩ | ⟨k, rfl⟩ | ⟨k, m, rfl⟩
      · show Borehole.H (if r.place = a then _ else _) = H
        rw [if_neg (Ne.symm hne), hH]
      · have hf : ∃ s, (step w (.design k a p ro c)).1 = .found (.ok s) := by
          have : ∃ q, (step w (.design k a p ro c)).1 = .found q := by
            unfold step
            dsimp only
            cases (findDesign { p with borehole := w.boreholes a } ro c {}).2.held with
            | none => exact ⟨_, rfl⟩
            | some x =>
              dsimp only
              cases (findDesign { p with borehole := w.boreholes a } ro c {}).1 with
              | error e => exact ⟨_, rfl⟩
              | ok s => exact ⟨_, rfl⟩
          obtain ⟨q, hq⟩ := this
          cases q with
          | error e => exact absurd (by rw [hq]; simp) (hok e)
          | ok s => exact ⟨s, hq⟩
        obtain ⟨s, hs⟩ := hf
        obtain ⟨x, -, e⟩ := step_found hz hs
        rw [e]
        show Borehole.H (if r.place = a then _ else _) = H
        split_ifs with h
        · exact hmax h.symm
        · exact hH
      · refine (method_heights ht _ _ k ?_ _).trans hH
        intro p x y hk hy
        unfold computeG at hy
        dsimp only at hy
        split at hy <;> (cases hy; rfl)
      · refine (method_heights ht _ _ k ?_ _).trans hH
        intro p x y hk hy
        unfold onHeld at hy
        dsimp only at hy
        cases hy
        dsimp only
        rw [(simulate_borehole x.env m x.state).1]
  subst hw
  have hH := main (before ++ acts) acts _ _ hall (fun x hx => List.mem_append_right _ hx) (run_tracked b before acts hall)
    rfl (fun x hx => by
      rcases (hacts x hx).2 with h | ⟨k, a, p, ro, c, rfl, hz, hmax⟩ | h | h
      · exact .inl h
      · exact .inr (.inl ⟨k, a, p, ro, c, rfl, hz, fun ha => by rw [hmax ha, ha]⟩)
      · exact .inr (.inr (.inl h))
      · exact .inr (.inr (.inr h))) hok
  rw [look_eq hr, look_eq ((run_other acts _ fun x hx => (hacts x hx).1).trans hr)]
  unfold World.see
  rw [hH]

end

end Ghedt.Session
