import Verif.Model.Compare
import Verif.Props.Script
import Verif.Props.Session

/-!
# Scripts that compare exchangers (C143)
-/

namespace Ghedt.Compare
open Ghedt.GHE Ghedt.Search Ghedt.WholeSearch Ghedt.Script

noncomputable section

variable {b : Bhe.Borehole}

/-- The first candidate field of the design can be made with a borehole of height `h`. -/
def Starts (b : Bhe.Borehole) (i : Saved) (f : Field) (h : ℝ) : Prop :=
  Leads i.candidates f ∧ ∃ x, fresh { i.problem with borehole := b } f h = .ok x

/-- A design does the same whichever height the borehole starts with. -/
theorem block_height {i : Saved} {f : Field} {h h' : ℝ} (h1 : Starts b i f h) (h2 : Starts b i f h') :
    block { b with H := h' } i = block { b with H := h } i := by
  obtain ⟨hl, x, hx⟩ := h1
  obtain ⟨-, y, hy⟩ := h2
  have key := C94_initial_height (p := { i.problem with borehole := { b with H := h } }) i.routine i.candidates f hl h' x y hx hy
  change (findDesign { i.problem with borehole := { b with H := h' } } i.routine i.candidates {}).1 =
    (findDesign { i.problem with borehole := { b with H := h } } i.routine i.candidates {}).1 ∧ (∀ r c',
    findDesign { i.problem with borehole := { b with H := h } } i.routine i.candidates {} = (.ok r, c') →
    findDesign { i.problem with borehole := { b with H := h' } } i.routine i.candidates {} = (.ok r, c')) at key
  unfold block findAndSize
  dsimp only
  rcases hq : findDesign { i.problem with borehole := { b with H := h } } i.routine i.candidates {} with ⟨e | r, c'⟩
  · rcases hq' : findDesign { i.problem with borehole := { b with H := h' } } i.routine i.candidates {} with ⟨e' | r', c''⟩
    · rw [St.bind_error hq, St.bind_error hq']
      rw [hq, hq'] at key
      cases key.1
      rfl
    · rw [hq, hq'] at key
      cases key.1
  · rw [St.bind_ok hq, St.bind_ok (key.2 r c' hq)]
    rfl

/-- what a script with one design does -/
theorem compare_one (b : Bhe.Borehole) (i : Saved) :
    compare b [i] = match block b i with
      | .error e => ([], some e)
      | .ok (s, _) => ([s], none) := by
  unfold compare
  rcases block b i with e | ⟨s, b'⟩ <;> rfl

/-- the borehole afterwards has the height reported -/
theorem block_borehole {i : Saved} {s : Summary} {b' : Bhe.Borehole} (h : block b i = .ok (s, b')) :
    b' = { b with H := s.height } := by
  unfold block at h
  split at h
  · cases h
  · split at h
    · cases h
    · cases h; rfl

/-- The heights the borehole has when a design of the script is started: its own, and those reported for other designs. -/
def Met (b : Bhe.Borehole) (ds : List Saved) (h : ℝ) : Prop :=
  h = b.H ∨ ∃ j ∈ ds, ∃ s ∈ (compare b [j]).1, s.height = h

/-- C143: what a script prints that makes several designs with one borehole object, each found, sized and reported before the
next one: for each design what a script with that design alone prints, up to the first one that raises; that ends the script.
It is assumed that the first candidate field of each design can be made with the heights the borehole is left with. -/
theorem C143_alone (b : Bhe.Borehole) (ds : List Saved)
    (hmade : ∀ i ∈ ds, ∃ f, ∀ h, Met b ds h → Starts b i f h) :
    ((∀ i ∈ ds, (compare b [i]).2 = none) →
      compare b ds = ((ds.map fun i => (compare b [i]).1).flatten, none)) ∧
    ∀ before i after e, ds = before ++ i :: after → (∀ j ∈ before, (compare b [j]).2 = none) →
      (compare b [i]).2 = some e →
      compare b ds = ((before.map fun i => (compare b [i]).1).flatten, some e) := by
  have step : ∀ (cs : List Saved) (h : ℝ), Met b ds h → (∀ i ∈ cs, i ∈ ds) →
      ((∀ i ∈ cs, (compare b [i]).2 = none) →
        compare { b with H := h } cs = ((cs.map fun i => (compare b [i]).1).flatten, none)) ∧
      ∀ before i after e, cs = before ++ i :: after → (∀ j ∈ before, (compare b [j]).2 = none) →
        (compare b [i]).2 = some e →
        compare { b with H := h } cs = ((before.map fun i => (compare b [i]).1).flatten, some e) := by
    intro cs
    induction cs with
    | nil =>
      intro h _ _
      refine ⟨fun _ => rfl, ?_⟩
      intro before i after e he
      cases before <;> cases he
    | cons i cs ih =>
      intro h hm hsub
      obtain ⟨f, hf⟩ := hmade i (hsub i (by simp))
      have hb : block { b with H := h } i = block b i := block_height (hf b.H (.inl rfl)) (hf h hm)
      have hone := compare_one b i
      rcases hq : block b i with e | ⟨s, b'⟩
      · rw [hq] at hone
        have hc : compare { b with H := h } (i :: cs) = ([], some e) := by
          rw [compare, hb, hq]
        refine ⟨fun hall => ?_, ?_⟩
        · have := hall i (by simp)
          rw [hone] at this
          cases this
        · intro before j after e' he hbef hj
          cases before with
          | nil =>
            cases he
            rw [hone] at hj
            cases hj
            exact hc
          | cons a before =>
            cases he
            have := hbef i (by simp)
            rw [hone] at this
            cases this
      · rw [hq] at hone
        dsimp only at hone
        have hb' := block_borehole hq
        subst hb'
        have hc : compare { b with H := h } (i :: cs) =
            (s :: (compare { b with H := s.height } cs).1, (compare { b with H := s.height } cs).2) := by
          rw [compare, hb, hq]
        obtain ⟨ih1, ih2⟩ := ih s.height (.inr ⟨i, hsub i (by simp), s, by rw [hone]; simp, rfl⟩)
          (fun j hj => hsub j (List.mem_cons_of_mem _ hj))
        refine ⟨fun hall => ?_, ?_⟩
        · rw [hc, ih1 fun j hj => hall j (List.mem_cons_of_mem _ hj), List.map_cons, List.flatten_cons, hone]
          rfl
        · intro before j after e' he hbef hj
          cases before with
          | nil =>
            cases he
            rw [hone] at hj
            cases hj
          | cons a before =>
            cases he
            rw [hc, ih2 before j after e' rfl (fun k hk => hbef k (List.mem_cons_of_mem _ hk)) hj, List.map_cons,
              List.flatten_cons, hone]
            rfl
  exact step ds b.H (.inl rfl) fun _ h => h

/-- C143: the order of the designs does not matter to what is printed about each of them, if none of them raises. -/
theorem C143_order (b : Bhe.Borehole) (ds ds' : List Saved) (hp : ds'.Perm ds)
    (hmade : ∀ i ∈ ds, ∃ f, ∀ h, Met b ds h → Starts b i f h) (hok : ∀ i ∈ ds, (compare b [i]).2 = none) :
    (compare b ds').1.Perm (compare b ds).1 ∧ (compare b ds').2 = none ∧ (compare b ds).2 = none := by
  have hmet : ∀ h, Met b ds' h → Met b ds h := by
    rintro h (rfl | ⟨j, hj, s, hs, e⟩)
    · exact .inl rfl
    · exact .inr ⟨j, hp.mem_iff.1 hj, s, hs, e⟩
  have h1 := (C143_alone b ds hmade).1 hok
  have h2 := (C143_alone b ds' fun i hi => by
    obtain ⟨f, hf⟩ := hmade i (hp.mem_iff.1 hi)
    exact ⟨f, fun h hm => hf h (hmet h hm)⟩).1 fun i hi => hok i (hp.mem_iff.1 hi)
  rw [h1, h2]
  exact ⟨(hp.map _).flatten, rfl, rfl⟩

/-! ### what is printed -/

theorem computeLive_locations {fmt : ℝ → String} {toFloat : String → Py ℝ} {gf : ℝ → ℝ → ℝ → Py (List ℝ)} {B : ℝ}
    {Hs rbs Ds logTime : List ℝ} {locations : List (ℝ × ℝ)} {db : GF.DB ℝ}
    (h : GF.computeLive fmt toFloat gf B Hs rbs Ds logTime locations = .ok db) : db.locations = locations := by
  unfold GF.computeLive at h
  rw [bind_eq_ok] at h
  obtain ⟨d, -, h⟩ := h
  unfold GF.importDB at h
  rw [bind_eq_ok] at h
  obtain ⟨_, -, h⟩ := h
  rw [bind_eq_ok] at h
  obtain ⟨_, -, h⟩ := h
  rw [bind_eq_ok] at h
  obtain ⟨_, -, h⟩ := h
  rw [bind_eq_ok] at h
  obtain ⟨_, -, h⟩ := h
  rw [bind_eq_ok] at h
  obtain ⟨_, -, h⟩ := h
  rw [bind_eq_ok] at h
  obtain ⟨_, -, h⟩ := h
  cases h
  rfl

/-- an exchanger made for a field has the coordinates of that field -/
theorem fresh_locations {p : Problem} {f : Field} {H : ℝ} {x : Held} (h : fresh p f H = .ok x) :
    x.env.db.locations = f := by
  unfold fresh at h
  rw [bind_eq_ok] at h
  obtain ⟨_, -, h⟩ := h
  unfold buildGhe at h
  rw [bind_eq_ok] at h
  obtain ⟨_, -, h⟩ := h
  rw [bind_eq_ok] at h
  obtain ⟨db, hdb, h⟩ := h
  unfold mkGhe at h
  rw [bind_eq_ok] at h
  obtain ⟨_, -, h⟩ := h
  rw [bind_eq_ok] at h
  obtain ⟨_, -, h⟩ := h
  rw [bind_eq_ok] at h
  obtain ⟨_, -, h⟩ := h
  rw [bind_eq_ok] at h
  obtain ⟨_, -, h⟩ := h
  rw [bind_eq_ok] at h
  obtain ⟨_, -, h⟩ := h
  rw [bind_eq_ok] at h
  obtain ⟨_, -, h⟩ := h
  cases h
  exact computeLive_locations hdb

theorem computeG_locations {p : Problem} {c : WholeSearch.State} {x : Held} (hx : c.held = some x) {c' : WholeSearch.State}
    (h : computeG p c = (.ok (), c')) : ∃ y, c'.held = some y ∧ c' = { c with held := some y } ∧
      y.env.db.locations = x.env.db.locations := by
  unfold computeG at h
  rw [hx] at h
  dsimp only at h
  split at h
  · cases h
  · rename_i db hdb
    cases h
    exact ⟨_, rfl, rfl, computeLive_locations hdb⟩

/-- what `find_design` leaves has the coordinates of the field returned -/
theorem holds_locations {p : Problem} {routine : String} {f : Field} {c : WholeSearch.State} (h : Holds p routine f c) :
    ∃ x, c.held = some x ∧ x.env.db.locations = f := by
  unfold Holds at h
  split at h
  · obtain ⟨x, H, y, hx, hs, hy, -⟩ := h
    refine ⟨y, hy, ?_⟩
    unfold WholeSearch.sizeHeld at hs
    rw [St.bind_eq_ok] at hs
    obtain ⟨u, c1, h1, hs⟩ := hs
    obtain ⟨z, -, rfl, h2⟩ := computeG_locations rfl h1
    rw [St.bind_eq_ok] at hs
    obtain ⟨w, c2, h3, hs⟩ := hs
    unfold onHeld at h3 hs
    dsimp only at h3
    rcases hw : Whole.size z.env "hybrid" z.state with ⟨r, st⟩
    simp only [hw] at h3
    cases h3
    cases hs
    exact h2.trans (fresh_locations hx)
  · obtain ⟨x, hx, hy⟩ := h
    exact ⟨x, hy, fresh_locations hx⟩

/-- C143: what is printed about a design: `find_design` returned one of the candidates, its g-functions were computed and it
was sized by the hybrid method; the height printed is the one it was left with, within the bounds; the number of boreholes is
that of the field, and the total drilling their product. -/
theorem C143_report (b : Bhe.Borehole) (i : Saved) (hb : Bracketed i.problem) (p : Problem)
    (hp : p = { i.problem with borehole := b }) (s : Summary) (h : compare b [i] = ([s], none)) :
    ∃ (k : ℤ) (f : Field) (c' : WholeSearch.State) (y : Held) (w : List Warning) (st : Whole.State),
      findDesign p i.routine i.candidates {} = (.ok (some (k, f)), c') ∧
      computeG p c' = (.ok (), { c' with held := some y }) ∧
      Whole.size y.env "hybrid" y.state = (.ok w, st) ∧
      s.height = (Whole.borehole st.bhe).H ∧ p.minHeight ≤ s.height ∧ s.height ≤ p.maxHeight ∧
      s.boreholes = f.length ∧ s.drilling = s.height * f.length := by
  subst hp
  rw [compare_one] at h
  unfold block findAndSize at h
  dsimp only at h
  set p : Problem := { i.problem with borehole := b } with hp
  have hbp : Bracketed p := ⟨hb.order, hb.finder⟩
  rcases hq : findDesign p i.routine i.candidates {} with ⟨e | r, c'⟩
  · rw [St.bind_error hq] at h
    cases h
  rw [St.bind_ok hq] at h
  have hprop := keeps_findDesign hbp i.routine i.candidates {} (by intro x hx; cases hx)
  rw [hq] at hprop
  have hr : ∃ k f, r = some (k, f) ∧ Holds p i.routine f c' := by
    have htop := top_findDesign (p := p) i.routine i.candidates
    rw [hq] at htop
    rcases htop with ⟨e, -, he⟩ | ⟨v, w, -, hw, hvw, -, hh⟩
    · cases he
    · cases hw
      subst hvw
      by_cases hz : i.routine = "bi-zoned"
      · rw [hz] at hq
        obtain ⟨k, f, _, _, _, _, _, hv, -⟩ := C93_zoned _ _ _ hq
        exact ⟨k, f, hv, hh _ _ hv⟩
      · obtain ⟨k, f, _, _, _, hv, -⟩ := C93_returned _ hz _ _ _ hq
        exact ⟨k, f, hv, hh _ _ hv⟩
  obtain ⟨k, f, rfl, hh⟩ := hr
  obtain ⟨x, hx, hf⟩ := holds_locations hh
  rcases hg : computeG p c' with ⟨e | u, c1⟩
  · rw [St.bind_error hg] at h
    cases h
  obtain ⟨y, hy, hc1, hl⟩ := computeG_locations hx hg
  rw [St.bind_ok hg] at h
  subst hc1
  have hprop1 := keeps_computeG c' hprop
  rw [hg] at hprop1
  have hP := hprop1 y rfl
  have h1 := hP.limits.1
  have h2 := hP.limits.2
  have hB := size_bounded y.env "hybrid" (by rw [h1, h2]; exact hbp.order)
    (by rw [h1, h2, hP.brent]; exact hbp.finder) p.borehole p.media y.state hP.known hP.media hP.borehole
  rcases hs : Whole.size y.env "hybrid" y.state with ⟨e | w, st⟩
  · rw [St.bind_error (s' := { c' with held := some ⟨y.env, st⟩ }) (e := e) (by
      unfold onHeld
      dsimp only
      rw [hs])] at h
    cases h
  · rw [St.bind_ok (s' := { c' with held := some ⟨y.env, st⟩ }) (a := w) (by
      unfold onHeld
      dsimp only
      rw [hs])] at h
    cases h
    rw [hs] at hB
    obtain ⟨-, -, z, z1, z2, hz⟩ := hB
    have hH : (Whole.borehole st.bhe).H = z := by rw [hz]
    refine ⟨k, f, c', y, w, st, rfl, hg, hs, rfl, ?_, ?_, ?_, ?_⟩
    · rw [← h1]; show _ ≤ (Whole.borehole st.bhe).H; rw [hH]; exact z1
    · rw [← h2]; show (Whole.borehole st.bhe).H ≤ _; rw [hH]; exact z2
    · show y.env.db.locations.length = _
      rw [hl, hf]
    · show (Whole.borehole st.bhe).H * (y.env.db.locations.length : ℝ) = _
      rw [hl, hf]

end

end Ghedt.Compare
