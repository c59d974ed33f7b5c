import Verif.Lemmas.WholeSearch
import Verif.Props.SearchRoutines
import Verif.Props.NestedSearch
import Verif.Props.GroundHeatExchangers

/-!
# The searches with the exchangers they build (C93, C94)

`fresh p f H` is what a user gets who makes an exchanger for the field `f` and the height `H` by hand, from the
same media, flow rate, borehole radius, burial depth, loads and limits.
-/

set_option linter.unusedSectionVars false

namespace Ghedt.WholeSearch
open Real Ghedt.GHE Ghedt.Bhe Ghedt.Radial Ghedt.Whole Ghedt.Search Ghedt.Utilities

noncomputable section

variable {p : Problem}

/-- The extreme fluid temperatures of a newly made exchanger. -/
def Extremes (p : Problem) (f : Field) (H hi lo : ℝ) : Prop :=
  ∃ x, fresh p f H = .ok x ∧ (Whole.simulate x.env p.method x.state).1 = .ok (hi, lo)

/-- Both temperature limits hold. -/
def WithinLimits (p : Problem) (hi lo : ℝ) : Prop := hi ≤ p.maxEFT ∧ p.minEFT ≤ lo

theorem sim_extremes {f : Field} {H v : ℝ} (h : (absEnv p).sim f H = .ok v) :
    ∃ hi lo, Extremes p f H hi lo ∧ v = max (hi - p.maxEFT) (p.minEFT - lo) := by
  change (fresh p f H >>= _) = _ at h
  rw [bind_eq_ok] at h
  obtain ⟨x, hx, h⟩ := h
  rw [bind_eq_ok] at h
  obtain ⟨⟨hi, lo⟩, hs, h⟩ := h
  cases h
  exact ⟨hi, lo, ⟨x, hx, hs⟩, rfl⟩

theorem within_iff {hi lo : ℝ} : max (hi - p.maxEFT) (p.minEFT - lo) ≤ 0 ↔ WithinLimits p hi lo := by
  unfold WithinLimits
  rw [max_le_iff, sub_nonpos, sub_nonpos]

theorem violates_iff {hi lo : ℝ} :
    0 < max (hi - p.maxEFT) (p.minEFT - lo) ↔ ¬ WithinLimits p hi lo := by
  rw [← within_iff, not_le]

/-- The candidate fields in the order of the search; for the nested ones, one of the lists. -/
def Candidate (c : Design.Candidates ℝ) (k : ℕ) (f : Field) : Prop :=
  match c with
  | .flat d => d[k]? = some f
  | .nested n => ∃ d ∈ n, d[k]? = some f

/-- What the search for one list guarantees, in terms of newly made exchangers. -/
theorem verdict {f : Field} {k : ℕ} {v : ℝ} (hv : (absEnv p).sim f (absEnv p).maxHeight = .ok v)
    (hc : v ≤ 0 ∨ k = 0 ∧ ∃ a, (absEnv p).sim f (absEnv p).minHeight = .ok a ∧ a * v < 0) :
    ∃ hi lo, Extremes p f p.maxHeight hi lo ∧
      (WithinLimits p hi lo ∨ k = 0 ∧ ∃ hi' lo', Extremes p f p.minHeight hi' lo' ∧ WithinLimits p hi' lo') := by
  obtain ⟨hi, lo, h1, rfl⟩ := sim_extremes hv
  refine ⟨hi, lo, h1, ?_⟩
  rcases hc with hc | ⟨hk, a, ha, hav⟩
  · exact .inl (within_iff.1 hc)
  · obtain ⟨hi', lo', h2, rfl⟩ := sim_extremes ha
    by_cases hw : WithinLimits p hi lo
    · exact .inl hw
    · right
      refine ⟨hk, hi', lo', h2, within_iff.1 ?_⟩
      have := violates_iff.2 hw
      nlinarith

/-- The exchanger held after a successful call. -/
def Holds (p : Problem) (routine : String) (f : Field) (c : State) : Prop :=
  if routine = "bi-zoned" then
    ∃ x H y, fresh p f p.maxHeight = .ok x ∧ sizeHeld p { held := some x } = (.ok H, { held := some y }) ∧
      c.held = some y ∧ (Whole.borehole y.state.bhe).H = H
  else ∃ x, fresh p f p.maxHeight = .ok x ∧ c.held = some x

/-- `find_design` with real exchangers and the one of `Model/Design.lean` agree. -/
theorem top_findDesign (routine : String) (c : Design.Candidates ℝ) :
    Top (Design.findDesign (absEnv p) routine c {}) (findDesign p routine c {}) (fun v w s t =>
      v = w ∧ (s.temps = t.temps ∧ s.tempsNested = t.tempsNested ∧ s.heights = t.heights) ∧
        ∀ k f, v = some (k, f) → Holds p routine f t) := by
  have flat : routine ≠ "bi-zoned" → ∀ d : List Field, Top (Search.bisection1D (absEnv p) d {}) (bisection1D p d {})
      (fun v w s t => v = w ∧ (s.temps = t.temps ∧ s.tempsNested = t.tempsNested ∧ s.heights = t.heights) ∧
        ∀ k f, v = some (k, f) → Holds p routine f t) := by
    intro hz d
    refine (top_bisection1D d {} {} ⟨rfl, rfl, rfl⟩).imp id ?_
    rintro ⟨v, w, h1, h2, hR, h3, h4⟩
    refine ⟨v, w, h1, h2, h3, hR.1, fun k f hk => ?_⟩
    unfold Holds
    rw [if_neg hz]
    obtain ⟨-, x, hx, hh⟩ := h4 k f hk
    exact ⟨x, hx, hh⟩
  unfold Design.findDesign findDesign
  by_cases h1 : routine = "near-square"
  · rw [if_pos h1, if_pos h1]
    exact Top.lift _ fun d _ => flat (by rw [h1]; decide) d
  · rw [if_neg h1, if_neg h1]
    by_cases h2 : routine = "rectangle"
    · rw [if_pos h2, if_pos h2]
      exact Top.lift _ fun d _ => flat (by rw [h2]; decide) d
    · rw [if_neg h2, if_neg h2]
      by_cases h3 : routine = "bi-rectangle"
      · rw [if_pos h3, if_pos h3]
        refine Top.lift _ fun d _ => ?_
        refine (top_bisection2D d {} {} ⟨rfl, rfl, rfl⟩).imp id ?_
        rintro ⟨v, w, h1, h2, hR, h5, h4⟩
        refine ⟨v, w, h1, h2, h5, hR.1, fun k f hk => ?_⟩
        unfold Holds
        rw [if_neg (by rw [h3]; decide)]
        obtain ⟨-, x, hx, hh⟩ := h4 k f hk
        exact ⟨x, hx, hh⟩
      · rw [if_neg h3, if_neg h3]
        by_cases h4 : routine = "bi-zoned"
        · rw [if_pos h4, if_pos h4]
          refine Top.lift _ fun d _ => Top.bind (top_bisectionZD d {} {} ⟨rfl, rfl, rfl⟩) fun v w s t hm => ?_
          obtain ⟨hR, rfl, hs⟩ := hm
          refine .inr ⟨some v, some v, rfl, rfl, rfl, hR.1, fun k f hk => ?_⟩
          cases hk
          unfold Holds
          rw [if_pos h4]
          obtain ⟨x, H, y, a1, a2, -, a3, a4⟩ := hs
          exact ⟨x, H, y, a1, a2, a3, a4⟩
        · rw [if_neg h4, if_neg h4]
          exact .inl ⟨_, rfl, rfl⟩

theorem pyGet_mem' {α : Type} {l : List α} {i : ℤ} {a : α} (h : pyGet l i = .ok a) : a ∈ l := by
  unfold pyGet at h
  dsimp only at h
  generalize (if i < 0 then i + (l.length : ℤ) else i) = j at h
  split_ifs at h
  cases hj : l[j.toNat]? with
  | none => rw [hj] at h; cases h
  | some b => rw [hj] at h; cases h; exact List.mem_of_getElem? hj

/-- for the abstract search object -/
theorem setup_temps {env : Search.Env Field ℝ} {d : List Field} {s s' : Search.State Field ℝ} {u : Unit}
    (h : Search.setup env d s = (.ok u, s')) : s'.temps = [] := by
  unfold Search.setup at h
  rw [St.lift_eq_ok] at h
  obtain ⟨c, -, h⟩ := h
  rw [St.bind_eq_ok] at h
  obtain ⟨u', s2, -, h⟩ := h
  simp only [St.modify_apply, Prod.mk.injEq] at h
  rw [← h.2]

/-- C93: whatever the external code does, if `find_design` returns for the near-square, rectangle or
bi-rectangle routine, it returns one of the candidate fields with its index, and the exchanger it leaves is
exactly the one made by hand for that field at maximum height: nothing of the exchangers tried on the way is
left in it.  That exchanger, when simulated, is within the temperature limits, unless the search took the
single-field shortcut (index 0); then it is within the limits at minimum height. -/
theorem C93_returned (routine : String) (hz : routine ≠ "bi-zoned") (c : Design.Candidates ℝ) (c' : State)
    (r : Option (ℤ × Field)) (h : findDesign p routine c {} = (.ok r, c')) :
    ∃ (k : ℕ) (f : Field) (x : Held) (hi lo : ℝ), r = some ((k : ℤ), f) ∧ Candidate c k f ∧
      fresh p f p.maxHeight = .ok x ∧ c'.held = some x ∧
      (Whole.simulate x.env p.method x.state).1 = .ok (hi, lo) ∧
      (WithinLimits p hi lo ∨
        k = 0 ∧ ∃ hi' lo', Extremes p f p.minHeight hi' lo' ∧ WithinLimits p hi' lo') := by
  have htop := top_findDesign (p := p) routine c
  rw [h] at htop
  rcases htop with ⟨e, -, he⟩ | ⟨v, w, hv, hw, hvw, -, hh⟩
  · cases he
  cases hvw
  cases hw
  have key : ∃ (k : ℕ) (f : Field) (e : ℝ), r = some ((k : ℤ), f) ∧ Candidate c k f ∧
      (absEnv p).sim f (absEnv p).maxHeight = .ok e ∧
      (e ≤ 0 ∨ k = 0 ∧ ∃ a, (absEnv p).sim f (absEnv p).minHeight = .ok a ∧ a * e < 0) := by
    have flat : ∀ d s', c = .flat d → Search.bisection1D (absEnv p) d {} = (.ok r, s') →
      ∃ (k : ℕ) (f : Field) (e : ℝ), r = some ((k : ℤ), f) ∧ Candidate c k f ∧
      (absEnv p).sim f (absEnv p).maxHeight = .ok e ∧
      (e ≤ 0 ∨ k = 0 ∧ ∃ a, (absEnv p).sim f (absEnv p).minHeight = .ok a ∧ a * e < 0) := by
      intro d s' hc hb
      unfold Search.bisection1D at hb
      rw [St.bind_eq_ok] at hb
      obtain ⟨u, s1, h1, h2⟩ := hb
      obtain ⟨k, f, e, a1, a2, a3, a4⟩ := C30_feasible _ _ _ _ (setup_temps h1) _ h2
      exact ⟨k, f, e, a1, by rw [hc]; exact a2, a3, a4⟩
    rcases hd : Design.findDesign (absEnv p) routine c {} with ⟨r', s'⟩
    rw [hd] at hv
    change r' = _ at hv
    subst hv
    unfold Design.findDesign at hd
    split_ifs at hd with q1 q2 q3
    · rw [St.lift_eq_ok] at hd
      obtain ⟨d, hc, hd⟩ := hd
      cases c with
      | nested n => cases hc
      | flat d' => cases hc; exact flat _ _ rfl hd
    · rw [St.lift_eq_ok] at hd
      obtain ⟨d, hc, hd⟩ := hd
      cases c with
      | nested n => cases hc
      | flat d' => cases hc; exact flat _ _ rfl hd
    · rw [St.lift_eq_ok] at hd
      obtain ⟨d, hc, hd⟩ := hd
      cases c with
      | flat n => cases hc
      | nested n =>
        cases hc
        obtain ⟨outer, key, g, inner, k, f, e, -, -, hin, hk, hr, he, -, hh⟩ := C36_returned_field _ _ _ _ _ hd
        refine ⟨k, f, e, hr, ?_, he, hh⟩
        exact ⟨inner, pyGet_mem' hin, hk⟩
    · cases hd
  obtain ⟨k, f, e, rfl, hcand, he, hc⟩ := key
  obtain ⟨hi, lo, ⟨x, hx, hs⟩, hver⟩ := verdict he hc
  have := hh k f rfl
  unfold Holds at this
  rw [if_neg hz] at this
  obtain ⟨y, hy, hheld⟩ := this
  rw [hx] at hy
  cases hy
  exact ⟨k, f, x, hi, lo, rfl, hcand, hx, hheld, hs, hver⟩

/-- C93, bi-zoned routine: the field returned is a candidate which, made by hand at maximum height, is within
the limits; the exchanger left is that one after `compute_g_functions()` and `size('hybrid')`. -/
theorem C93_zoned (c : Design.Candidates ℝ) (c' : State)
    (r : Option (ℤ × Field)) (h : findDesign p "bi-zoned" c {} = (.ok r, c')) :
    ∃ (k : ℕ) (f : Field) (x y : Held) (H hi lo : ℝ), r = some ((k : ℤ), f) ∧ Candidate c k f ∧
      fresh p f p.maxHeight = .ok x ∧ (Whole.simulate x.env p.method x.state).1 = .ok (hi, lo) ∧
      WithinLimits p hi lo ∧
      sizeHeld p { held := some x } = (.ok H, { held := some y }) ∧ c'.held = some y ∧
      (Whole.borehole y.state.bhe).H = H := by
  have htop := top_findDesign (p := p) "bi-zoned" c
  rw [h] at htop
  rcases htop with ⟨e, -, he⟩ | ⟨v, w, hv, hw, hvw, -, hh⟩
  · cases he
  cases hvw
  cases hw
  rcases hd : Design.findDesign (absEnv p) "bi-zoned" c {} with ⟨r', s'⟩
  rw [hd] at hv
  change r' = _ at hv
  subst hv
  unfold Design.findDesign at hd
  rw [if_neg (by decide), if_neg (by decide), if_neg (by decide), if_pos rfl, St.lift_eq_ok] at hd
  obtain ⟨d, hc, hd⟩ := hd
  rw [St.bind_eq_ok] at hd
  obtain ⟨⟨key, f⟩, s1, hd, hr⟩ := hd
  cases hr
  obtain ⟨outer, key', g, s0, s1, s2, -, -, -, hk', b1, b2, b3⟩ := C37_start _ _ _ _ rfl _ hd
  obtain ⟨totals, m, best, dom, temps, e, H', -, -, -, -, -, -, -, -, -, -, g1, g2, g3, g4, -, g5, -, g6, -⟩ :=
    C37_successive _ _ _ (by split_ifs <;> omega) _ _ b1 b2 _ _ b3
  obtain ⟨hi, lo, ⟨x, hx, hs⟩, rfl⟩ := sim_extremes g4
  have := hh key f rfl
  unfold Holds at this
  rw [if_pos rfl] at this
  obtain ⟨x', H, y, a1, a2, a3, a4⟩ := this
  change fresh p f p.maxHeight = _ at hx
  rw [hx] at a1
  cases a1
  refine ⟨key.toNat, f, x, y, H, hi, lo, by rw [Int.toNat_of_nonneg g2], ?_, hx, hs, within_iff.1 g5, a2, a3, a4⟩
  cases c with
  | flat n => cases hc
  | nested n =>
    cases hc
    exact ⟨dom, pyGet_mem' g1, (pyGet_eq_ok g2).1 g3⟩

/-! ## C94 — the height the borehole has before the search -/

/-- The user's borehole with another height. -/
def Problem.withHeight (p : Problem) (H : ℝ) : Problem := { p with borehole := { p.borehole with H := H } }

theorem initializeGhe_height (H : ℝ) (f : Field) (y : ℝ) :
    initializeGhe (p.withHeight H) f y = initializeGhe p f y := rfl

theorem calculateExcess_height (H : ℝ) (f : Field) (y : ℝ) :
    calculateExcess (p.withHeight H) f y = calculateExcess p f y := rfl

theorem bisect_height (H : ℝ) (domain : List Field) (x : ℤ) :
    ∀ n i xL xR, bisect (p.withHeight H) domain x n i xL xR = bisect p domain x n i xL xR := by
  intro n
  induction n with
  | zero => intro i xL xR; rfl
  | succ n ih =>
    intro i xL xR
    unfold bisect
    simp only [ih]
    rfl

theorem searchBisection_height (H : ℝ) (domain : List Field) (xL xR : ℤ) (a b : ℝ) :
    searchBisection (p.withHeight H) domain xL xR a b = searchBisection p domain xL xR a b := by
  unfold searchBisection
  simp only [bisect_height]
  rfl

theorem search_height (H : ℝ) (domain : List Field) :
    search (p.withHeight H) domain = search p domain := by
  unfold search
  simp only [searchBisection_height]
  rfl

theorem sizeHeld_height (H : ℝ) : sizeHeld (p.withHeight H) = sizeHeld p := rfl

theorem successiveLoop_height (H : ℝ) (nested : List (List Field)) :
    ∀ n i old, successiveLoop (p.withHeight H) nested n i old = successiveLoop p nested n i old := by
  intro n
  induction n with
  | zero => intro i old; rfl
  | succ n ih =>
    intro i old
    unfold successiveLoop
    simp only [ih, search_height]
    rfl

theorem searchSuccessive_height (H : ℝ) (nested : List (List Field)) (k : ℤ) :
    searchSuccessive (p.withHeight H) nested k = searchSuccessive p nested k := by
  unfold searchSuccessive
  simp only [successiveLoop_height]
  rfl

/-- Two search objects with the same records and exchangers of the same media. -/
def Both (p : Problem) (t1 t2 : State) : Prop := ∃ a, R p a t1 ∧ R p a t2

theorem State.eq_of {t1 t2 : State} (h1 : t1.temps = t2.temps) (h2 : t1.tempsNested = t2.tempsNested)
    (h3 : t1.heights = t2.heights) (h4 : t1.held = t2.held) : t1 = t2 := by
  cases t1; cases t2
  dsimp only at *
  subst h1 h2 h3 h4
  rfl

theorem search_agree (d : List Field) {t1 t2 : State} (h : Both p t1 t2) :
    (search p d t1).1 = (search p d t2).1 ∧ Both p (search p d t1).2 (search p d t2).2 ∧
      ∀ k f, (search p d t1).1 = .ok (some (k, f)) → (search p d t1).2 = (search p d t2).2 := by
  obtain ⟨a, r1, r2⟩ := h
  obtain ⟨s1, h1⟩ := sim_search d a t1 r1 trivial
  obtain ⟨s2, h2⟩ := sim_search d a t2 r2 trivial
  refine ⟨?_, ⟨_, s1, s2⟩, ?_⟩
  · rcases h1 with ⟨e, e1, e2⟩ | ⟨v, w, e1, e2, rfl, -⟩
    · rcases h2 with ⟨e', e1', e2'⟩ | ⟨v', w', e1', e2', rfl, -⟩
      · rw [e1] at e1'; cases e1'; rw [e2, e2']
      · rw [e1] at e1'; cases e1'
    · rcases h2 with ⟨e', e1', e2'⟩ | ⟨v', w', e1', e2', rfl, -⟩
      · rw [e1] at e1'; cases e1'
      · rw [e1] at e1'; cases e1'; rw [e2, e2']
  · intro k f hk
    rcases h1 with ⟨e, e1, e2⟩ | ⟨v, w, e1, e2, rfl, hF⟩
    · rw [e2] at hk; cases hk
    · rw [e2] at hk; cases hk
      rcases h2 with ⟨e', e1', e2'⟩ | ⟨v', w', e1', e2', rfl, hF'⟩
      · rw [e1] at e1'; cases e1'
      · rw [e1] at e1'; cases e1'
        obtain ⟨-, x, hx, hh⟩ := hF k f rfl
        obtain ⟨-, y, hy, hh'⟩ := hF' k f rfl
        rw [hx] at hy; cases hy
        exact State.eq_of (s1.1.1.symm.trans s2.1.1) (s1.1.2.1.symm.trans s2.1.2.1)
          (s1.1.2.2.symm.trans s2.1.2.2) (hh.trans hh'.symm)

/-- The first field a search makes an exchanger for. -/
def Leads (c : Design.Candidates ℝ) (f : Field) : Prop :=
  match c with
  | .flat d => d.head? = some f
  | .nested n => ∃ d, n.head? = some d ∧ d.head? = some f

theorem setup_ok {d : List Field} {f : Field} {x : Held} (hd : d.head? = some f) (hx : fresh p f p.borehole.H = .ok x) :
    setup p d {} = (.ok (), { held := some x }) := by
  unfold setup
  have hg : pyGet d 0 = .ok f := by
    cases d with
    | nil => cases hd
    | cons a l => cases hd; rfl
  have hfr : fresh p f p.borehole.H = (retrieveFlow p.flow p.V p.media.fluid.rho f.length >>= fun flows =>
      buildGhe p flows p.media p.borehole f) := rfl
  rw [hx] at hfr
  have hfr := hfr.symm
  rw [bind_eq_ok] at hfr
  obtain ⟨flows, h1, h2⟩ := hfr
  rw [St.lift_ok hg, St.lift_ok h1, St.lift_ok h2]
  rfl

theorem both_setup {d : List Field} {f : Field} {x y : Held} {H H' : ℝ} (hx : fresh p f H = .ok x)
    (hy : fresh p f H' = .ok y) : Both p { held := some x } { held := some y } :=
  ⟨{}, ⟨⟨rfl, rfl, rfl⟩, x, rfl, (fresh_new hx).intact rfl rfl⟩, ⟨rfl, rfl, rfl⟩, y, rfl, (fresh_new hy).intact rfl rfl⟩

/-- Same result; on success also the same search object. -/
def SameOutcome {α : Type} (r1 r2 : Except PyErr α × State) : Prop :=
  r1.1 = r2.1 ∧ ∀ v, r1.1 = .ok v → r1 = r2

theorem sameOutcome_search (d : List Field) {t1 t2 : State} (h : Both p t1 t2) (ht : t1.temps = []) :
    SameOutcome (search p d t1) (search p d t2) := by
  obtain ⟨e1, -, e3⟩ := search_agree d h
  refine ⟨e1, fun v hv => ?_⟩
  obtain ⟨a, r1, -⟩ := h
  obtain ⟨-, h1⟩ := sim_search d a t1 r1 trivial
  rcases h1 with ⟨e, -, e2⟩ | ⟨v', w, e4, e5, rfl, -⟩
  · rw [hv] at e2; cases e2
  · rw [hv] at e5; cases e5
    rcases hs : Search.search (absEnv p) d a with ⟨r', s'⟩
    rw [hs] at e4
    change r' = _ at e4
    subst e4
    obtain ⟨k, f, -, rfl, -⟩ := C30_feasible _ _ _ _ (by rw [r1.1.1, ht]) _ hs
    exact Prod.ext e1 (e3 _ _ hv)

theorem sameOutcome_successive (n : List (List Field)) (k : ℤ) {t1 t2 : State} (h : Both p t1 t2) :
    SameOutcome (searchSuccessive p n k t1) (searchSuccessive p n k t2) := by
  obtain ⟨a, r1, r2⟩ := h
  obtain ⟨s1, h1⟩ := sim_searchSuccessive n k a t1 r1 trivial
  obtain ⟨s2, h2⟩ := sim_searchSuccessive n k a t2 r2 trivial
  have e : (searchSuccessive p n k t1).1 = (searchSuccessive p n k t2).1 := by
    rcases h1 with ⟨e, e1, e2⟩ | ⟨v, w, e1, e2, rfl, -⟩
    · rcases h2 with ⟨e', e1', e2'⟩ | ⟨v', w', e1', e2', rfl, -⟩
      · rw [e1] at e1'; cases e1'; rw [e2, e2']
      · rw [e1] at e1'; cases e1'
    · rcases h2 with ⟨e', e1', e2'⟩ | ⟨v', w', e1', e2', rfl, -⟩
      · rw [e1] at e1'; cases e1'
      · rw [e1] at e1'; cases e1'; rw [e2, e2']
  refine ⟨e, fun v hv => Prod.ext e ?_⟩
  rcases h1 with ⟨e, e1, e2⟩ | ⟨v, w, e1, e2, rfl, hF⟩
  · rw [e2] at hv; cases hv
  · rw [e2] at hv; cases hv
    rcases h2 with ⟨e', e1', e2'⟩ | ⟨v', w', e1', e2', rfl, hF'⟩
    · rw [e1] at e1'; cases e1'
    · rw [e1] at e1'; cases e1'
      obtain ⟨x, H, y, hx, hy, -, hh, -⟩ := hF
      obtain ⟨x', H', y', hx', hy', -, hh', -⟩ := hF'
      rw [hx] at hx'; cases hx'
      rw [hy] at hy'
      have : (some y : Option Held) = some y' := congrArg (fun r => r.2.held) hy'
      cases this
      exact State.eq_of (s1.1.1.symm.trans s2.1.1) (s1.1.2.1.symm.trans s2.1.2.1)
        (s1.1.2.2.symm.trans s2.1.2.2) (hh.trans hh'.symm)

theorem SameOutcome.refl {α : Type} (r : Except PyErr α × State) : SameOutcome r r := ⟨rfl, fun _ _ => rfl⟩

theorem SameOutcome.error {α : Type} {e : PyErr} {t1 t2 : State} :
    SameOutcome ((.error e, t1) : Except PyErr α × State) (.error e, t2) := ⟨rfl, fun _ h => by cases h⟩

/-- after an agreeing search, going on from its result -/
theorem SameOutcome.after {α β : Type} {m m' : St State α} {g : α → St State β} {t1 t2 : State}
    (h : SameOutcome (m t1) (m' t2)) : SameOutcome ((m >>= g) t1) ((m' >>= g) t2) := by
  rcases h1 : m t1 with ⟨r1, s1⟩
  rcases h2 : m' t2 with ⟨r2, s2⟩
  rw [h1, h2] at h
  obtain ⟨e1, e2⟩ := h
  change r1 = r2 at e1
  subst e1
  cases r1 with
  | error e => rw [St.bind_error h1, St.bind_error h2]; exact .error
  | ok v =>
    have := e2 v rfl
    rw [St.bind_ok h1, St.bind_ok h2, show s1 = s2 from congrArg Prod.snd this]
    exact .refl _

/-- C94: the height that the user's borehole has before `find_design` does not matter: if the first candidate
field can be made at both heights at all, the outcome — field, index or exception — is the same, and on success
so are the records and the exchanger left. -/
theorem C94_initial_height (routine : String) (c : Design.Candidates ℝ) (f : Field) (hf : Leads c f) (H : ℝ)
    (x y : Held) (hx : fresh p f p.borehole.H = .ok x) (hy : fresh p f H = .ok y) :
    (findDesign (p.withHeight H) routine c {}).1 = (findDesign p routine c {}).1 ∧
    ∀ r c', findDesign p routine c {} = (.ok r, c') →
      findDesign (p.withHeight H) routine c {} = (.ok r, c') := by
  suffices hs : SameOutcome (findDesign p routine c {}) (findDesign (p.withHeight H) routine c {}) by
    refine ⟨hs.1.symm, fun r c' hr => ?_⟩
    have := hs.2 r (by rw [hr])
    rw [← this, hr]
  have hy' : fresh (p.withHeight H) f (p.withHeight H).borehole.H = .ok y := hy
  have hB := both_setup (d := []) hx hy
  have flat : ∀ d : List Field, d.head? = some f →
      SameOutcome (bisection1D p d {}) (bisection1D (p.withHeight H) d {}) := by
    intro d hd
    unfold bisection1D
    rw [St.bind_ok (setup_ok hd hx), St.bind_ok (setup_ok hd hy'), search_height]
    exact sameOutcome_search d hB rfl
  unfold findDesign
  by_cases h1 : routine = "near-square"
  · rw [if_pos h1, if_pos h1]
    cases c with
    | nested n => exact .error
    | flat d => exact flat d hf
  · rw [if_neg h1, if_neg h1]
    by_cases h2 : routine = "rectangle"
    · rw [if_pos h2, if_pos h2]
      cases c with
      | nested n => exact .error
      | flat d => exact flat d hf
    · rw [if_neg h2, if_neg h2]
      have first : ∀ (n : List (List Field)) (d : List Field), n.head? = some d → pyGet n 0 = .ok d := by
        intro n d hn
        cases n with
        | nil => cases hn
        | cons a l => cases hn; rfl
      by_cases h3 : routine = "bi-rectangle"
      · rw [if_pos h3, if_pos h3]
        cases c with
        | flat n => exact .error
        | nested n =>
          obtain ⟨d, hn, hd⟩ := hf
          show SameOutcome (bisection2D p n {}) (bisection2D (p.withHeight H) n {})
          unfold bisection2D
          rw [St.lift_ok (first n d hn), St.lift_ok (first n d hn), St.bind_ok (setup_ok hd hx),
            St.bind_ok (setup_ok hd hy')]
          simp only [search_height]
          cases ho : outerDomain n with
          | error e => exact .error
          | ok outer =>
            rw [St.lift_ok rfl, St.lift_ok rfl]
            exact (sameOutcome_search outer hB rfl).after
      · rw [if_neg h3, if_neg h3]
        by_cases h4 : routine = "bi-zoned"
        · rw [if_pos h4, if_pos h4]
          cases c with
          | flat n => exact .error
          | nested n =>
            obtain ⟨d, hn, hd⟩ := hf
            show SameOutcome ((bisectionZD p n >>= fun r => (pure (some r) : St State _)) {})
              ((bisectionZD (p.withHeight H) n >>= fun r => (pure (some r) : St State _)) {})
            refine SameOutcome.after ?_
            unfold bisectionZD
            rw [St.lift_ok (first n d hn), St.lift_ok (first n d hn), St.bind_ok (setup_ok hd hx),
              St.bind_ok (setup_ok hd hy')]
            simp only [search_height, searchSuccessive_height]
            cases ho : outerDomain n with
            | error e => exact .error
            | ok outer =>
              rw [St.lift_ok rfl, St.lift_ok rfl]
              exact (sameOutcome_search outer hB rfl).after
        · rw [if_neg h4, if_neg h4]
          exact .error

/-- a search that returns has made an exchanger for its first field at maximum height -/
theorem search_made {d : List Field} {t t' : State} {r : Option (ℤ × Field)} (hi : ∃ a, R p a t)
    (h : search p d t = (.ok r, t')) : ∃ f x, d.head? = some f ∧ fresh p f p.maxHeight = .ok x := by
  obtain ⟨a, hR⟩ := hi
  obtain ⟨-, h1⟩ := sim_search d a t hR trivial
  rw [h] at h1
  rcases h1 with ⟨e, -, e2⟩ | ⟨v, w, e1, e2, -⟩
  · cases e2
  · rcases hs : Search.search (absEnv p) d a with ⟨r', s'⟩
    rw [hs] at e1
    change r' = _ at e1
    subst e1
    obtain ⟨f0, fl, a', b, c, h0, hl, hb0, hb1, -⟩ := search_inv hs
    change (fresh p f0 p.maxHeight >>= _) = _ at hb1
    rw [bind_eq_ok] at hb1
    obtain ⟨x, hx, -⟩ := hb1
    rw [pyGet_eq_ok le_rfl] at h0
    exact ⟨f0, x, by rw [List.head?_eq_getElem?]; exact h0, hx⟩

theorem setup_inv {d : List Field} {u : Unit} {t : State} (h : setup p d {} = (.ok u, t)) :
    ∃ f x, d.head? = some f ∧ fresh p f p.borehole.H = .ok x ∧ t = { held := some x } := by
  unfold setup at h
  rw [St.lift_eq_ok] at h
  obtain ⟨f, hf, h⟩ := h
  rw [St.lift_eq_ok] at h
  obtain ⟨flows, h1, h⟩ := h
  rw [St.lift_eq_ok] at h
  obtain ⟨x, h2, h⟩ := h
  cases h
  rw [pyGet_eq_ok le_rfl] at hf
  refine ⟨f, x, by rw [List.head?_eq_getElem?]; exact hf, ?_, rfl⟩
  show (retrieveFlow p.flow p.V p.media.fluid.rho f.length >>= fun flows => buildGhe p flows p.media p.borehole f) = _
  rw [h1, Except.ok_bind, h2]

/-- a successful call has made an exchanger for the first field at the borehole's height and at maximum height -/
theorem findDesign_made (routine : String) (c : Design.Candidates ℝ) (c' : State) (r : Option (ℤ × Field))
    (h : findDesign p routine c {} = (.ok r, c')) :
    ∃ f x y, Leads c f ∧ fresh p f p.borehole.H = .ok x ∧ fresh p f p.maxHeight = .ok y := by
  have intact : ∀ {f : Field} {x : Held}, fresh p f p.borehole.H = .ok x → ∃ a, R p a { held := some x } :=
    fun hx => ⟨{}, ⟨rfl, rfl, rfl⟩, _, rfl, (fresh_new hx).intact rfl rfl⟩
  have flat : ∀ d : List Field, bisection1D p d {} = (.ok r, c') →
      ∃ f x y, Leads (.flat d) f ∧ fresh p f p.borehole.H = .ok x ∧ fresh p f p.maxHeight = .ok y := by
    intro d hb
    unfold bisection1D at hb
    rw [St.bind_eq_ok] at hb
    obtain ⟨u, t, h1, h2⟩ := hb
    obtain ⟨f, x, hf, hx, rfl⟩ := setup_inv h1
    obtain ⟨f', y, hf', hy⟩ := search_made (intact hx) h2
    rw [hf] at hf'; cases hf'
    exact ⟨f, x, y, hf, hx, hy⟩
  have outer : ∀ (n : List (List Field)) {d : List Field} {f : Field} {o : List Field}, pyGet n 0 = .ok d →
      d.head? = some f → outerDomain n = .ok o → o.head? = some f ∧ n.head? = some d := by
    intro n d f o hn hd ho
    unfold outerDomain at ho
    rw [bind_eq_ok] at ho
    obtain ⟨d', h1, ho⟩ := ho
    rw [hn] at h1; cases h1
    rw [bind_eq_ok] at ho
    obtain ⟨f', h1, ho⟩ := ho
    rw [bind_eq_ok] at ho
    obtain ⟨l, -, ho⟩ := ho
    cases ho
    rw [pyGet_eq_ok le_rfl] at h1 hn
    rw [List.head?_eq_getElem?] at hd
    refine ⟨?_, by rw [List.head?_eq_getElem?]; exact hn⟩
    rw [List.head?_cons, ← hd]
    exact h1.symm
  unfold findDesign at h
  split_ifs at h with q1 q2 q3 q4
  · rw [St.lift_eq_ok] at h
    obtain ⟨d, hc, h⟩ := h
    cases c with
    | nested n => cases hc
    | flat d' => cases hc; exact flat _ h
  · rw [St.lift_eq_ok] at h
    obtain ⟨d, hc, h⟩ := h
    cases c with
    | nested n => cases hc
    | flat d' => cases hc; exact flat _ h
  · rw [St.lift_eq_ok] at h
    obtain ⟨n, hc, h⟩ := h
    cases c with
    | flat n => cases hc
    | nested n' =>
      cases hc
      unfold bisection2D at h
      rw [St.lift_eq_ok] at h
      obtain ⟨d, hn, h⟩ := h
      rw [St.bind_eq_ok] at h
      obtain ⟨u, t, h1, h⟩ := h
      obtain ⟨f, x, hf, hx, rfl⟩ := setup_inv h1
      rw [St.lift_eq_ok] at h
      obtain ⟨o, ho, h⟩ := h
      rw [St.bind_eq_ok] at h
      obtain ⟨r1, t1, h2, -⟩ := h
      obtain ⟨o1, o2⟩ := outer n hn hf ho
      obtain ⟨f', y, hf', hy⟩ := search_made (intact hx) h2
      rw [o1] at hf'; cases hf'
      exact ⟨f, x, y, ⟨d, o2, hf⟩, hx, hy⟩
  · rw [St.lift_eq_ok] at h
    obtain ⟨n, hc, h⟩ := h
    cases c with
    | flat n => cases hc
    | nested n' =>
      cases hc
      rw [St.bind_eq_ok] at h
      obtain ⟨r0, t0, h, -⟩ := h
      unfold bisectionZD at h
      rw [St.lift_eq_ok] at h
      obtain ⟨d, hn, h⟩ := h
      rw [St.bind_eq_ok] at h
      obtain ⟨u, t, h1, h⟩ := h
      obtain ⟨f, x, hf, hx, rfl⟩ := setup_inv h1
      rw [St.lift_eq_ok] at h
      obtain ⟨o, ho, h⟩ := h
      rw [St.bind_eq_ok] at h
      obtain ⟨r1, t1, h2, -⟩ := h
      obtain ⟨o1, o2⟩ := outer n hn hf ho
      obtain ⟨f', y, hf', hy⟩ := search_made (intact hx) h2
      rw [o1] at hf'; cases hf'
      exact ⟨f, x, y, ⟨d, o2, hf⟩, hx, hy⟩
  · cases h

/-- C94: `find_design` can be repeated.  It overwrites the height of the user's borehole: afterwards that is the
height of the exchanger left, since all exchangers share that object.  For the near-square, rectangle and
bi-rectangle routines it is the maximum height, and calling `find_design` again from there gives the same field, index, records and
exchanger. -/
theorem C94_repeat (routine : String) (hz : routine ≠ "bi-zoned") (c : Design.Candidates ℝ) (c' : State)
    (r : Option (ℤ × Field)) (h : findDesign p routine c {} = (.ok r, c')) :
    ∃ x, c'.held = some x ∧ (Whole.borehole x.state.bhe) = { p.borehole with H := p.maxHeight } ∧
      findDesign { p with borehole := Whole.borehole x.state.bhe } routine c {} = (.ok r, c') := by
  obtain ⟨k, f, x, hi, lo, -, -, hx, hh, -⟩ := C93_returned routine hz c c' r h
  obtain ⟨f0, x0, y0, hl, h1, h2⟩ := findDesign_made routine c c' r h
  have hb := (fresh_new hx).borehole
  refine ⟨x, hh, hb, ?_⟩
  rw [hb]
  exact (C94_initial_height routine c f0 hl p.maxHeight x0 y0 h1 h2).2 r c' h

/-- C94, bi-zoned routine: the borehole is left with the height found by sizing; repeating gives the same if the
first candidate field can be made at that height. -/
theorem C94_repeat_zoned (c : Design.Candidates ℝ) (c' : State)
    (r : Option (ℤ × Field)) (h : findDesign p "bi-zoned" c {} = (.ok r, c')) :
    ∃ x H, c'.held = some x ∧ (Whole.borehole x.state.bhe).H = H ∧
      ∀ f y, Leads c f → fresh p f H = .ok y →
        findDesign (p.withHeight H) "bi-zoned" c {} = (.ok r, c') := by
  obtain ⟨k, f, x, y, H, hi, lo, -, -, hx, -, -, -, hh, hH⟩ := C93_zoned c c' r h
  obtain ⟨f0, x0, y0, hl, h1, h2⟩ := findDesign_made "bi-zoned" c c' r h
  refine ⟨y, H, hh, hH, fun f z hf hz => ?_⟩
  have : f = f0 := by
    cases c with
    | flat d => exact Option.some.inj (hf.symm.trans hl)
    | nested n =>
      obtain ⟨d, hd, hf⟩ := hf
      obtain ⟨d', hd', hf'⟩ := hl
      rw [hd] at hd'; cases hd'
      exact Option.some.inj (hf.symm.trans hf')
  subst this
  exact (C94_initial_height "bi-zoned" c f hl H x0 z h1 hz).2 r c' h

end

end Ghedt.WholeSearch
