import Verif.Lemmas.SearchRoutines
import Verif.Model.Design

/-!
# Two searches whose excesses have the same signs and the same order
-/

set_option linter.unusedSectionVars false

namespace Ghedt.Search
open Utilities

variable {F K : Type} [Field K] [LinearOrder K] [IsStrictOrderedRing K] [FloorRing K]

/-- Excesses `a` and `b` of two runs: the pairs that stand for the same field at maximum height. -/
structure Ordered (V : K → K → Prop) : Prop where
  le : ∀ a b c d, V a b → V c d → (a ≤ c ↔ b ≤ d)
  neg : ∀ a b, V a b → (a < 0 ↔ b < 0)
  pos : ∀ a b, V a b → (0 < a ↔ 0 < b)

theorem sign_same {a b : K} (hn : a < 0 ↔ b < 0) (hp : 0 < a ↔ 0 < b) : sign a = sign b := by
  by_cases ha : a = 0
  · have hb : b = 0 := by
      subst ha
      have h1 := (not_congr hn).1 (lt_irrefl _)
      have h2 := (not_congr hp).1 (lt_irrefl _)
      exact le_antisymm (not_lt.1 h2) (not_lt.1 h1)
    rw [ha, hb]
  · have hb : b ≠ 0 := by
      rcases lt_or_gt_of_ne ha with h | h
      · exact (hn.1 h).ne
      · exact (hp.1 h).ne'
    rw [sign_ok ha, sign_ok hb]
    simp only [hp]

section
variable {V : K → K → Prop}

theorem Ordered.eq (hV : Ordered V) {a b c d : K} (h1 : V a b) (h2 : V c d) : a = c ↔ b = d := by
  rw [le_antisymm_iff, le_antisymm_iff, hV.le _ _ _ _ h1 h2, hV.le _ _ _ _ h2 h1]

theorem foldl_max_same (hV : Ordered V) : ∀ {l l' : List K}, List.Forall₂ V l l' → ∀ {a b : K}, V a b →
    V (l.foldl max a) (l'.foldl max b) := by
  intro l l' h
  induction h with
  | nil => intro a b hab; exact hab
  | @cons x y l l' hxy _ ih =>
    intro a b hab
    apply ih
    by_cases hc : a ≤ x
    · rw [max_eq_right hc, max_eq_right ((hV.le _ _ _ _ hab hxy).1 hc)]
      exact hxy
    · have := (not_congr (hV.le _ _ _ _ hab hxy)).1 hc
      rw [max_eq_left (not_le.1 hc).le, max_eq_left (not_le.1 this).le]
      exact hab

theorem filter_same (hV : Ordered V) {l l' : List K} (h : List.Forall₂ V l l') :
    List.Forall₂ V (l.filter fun v => decide (v ≤ 0)) (l'.filter fun v => decide (v ≤ 0)) := by
  induction h with
  | nil => exact .nil
  | @cons x y l l' hxy _ ih =>
    have : x ≤ 0 ↔ y ≤ 0 := by rw [← not_lt, ← not_lt, hV.pos _ _ hxy]
    by_cases hc : x ≤ 0
    · rw [List.filter_cons_of_pos (by simpa using hc), List.filter_cons_of_pos (by simpa using this.1 hc)]
      exact .cons hxy ih
    · rw [List.filter_cons_of_neg (by simpa using hc), List.filter_cons_of_neg (by simpa using (not_congr this).1 hc)]
      exact ih

theorem indexOf_same (hV : Ordered V) {m m' : K} (hm : V m m') {l l' : List K} (h : List.Forall₂ V l l') :
    pyIndexOf l m = pyIndexOf l' m' := by
  have : l.findIdx? (fun y => decide (y = m)) = l'.findIdx? (fun y => decide (y = m')) := by
    induction h with
    | nil => rfl
    | @cons x y l l' hxy _ ih =>
      rw [List.findIdx?_cons, List.findIdx?_cons, ih]
      simp only [hV.eq hxy hm]
  unfold pyIndexOf
  rw [this]

/-- books with the same keys in the same order -/
def Books (V : K → K → Prop) (d d' : PyDict ℤ K) : Prop := List.Forall₂ (fun a b => a.1 = b.1 ∧ V a.2 b.2) d d'

theorem Books.set {d d' : PyDict ℤ K} (h : Books V d d') (k : ℤ) {v v' : K} (hv : V v v') :
    Books V (PyDict.set d k v) (PyDict.set d' k v') := by
  induction h with
  | nil => exact .cons ⟨rfl, hv⟩ .nil
  | @cons a b l l' hab hl ih =>
    obtain ⟨ka, va⟩ := a
    obtain ⟨kb, vb⟩ := b
    obtain ⟨hk, hv'⟩ := hab
    change ka = kb at hk
    subst hk
    unfold PyDict.set
    by_cases hc : ka = k
    · rw [if_pos hc, if_pos hc]
      exact .cons ⟨rfl, hv⟩ hl
    · rw [if_neg hc, if_neg hc]
      exact .cons ⟨rfl, hv'⟩ ih

theorem selectKey_same (hV : Ordered V) {d d' : PyDict ℤ K} (h : Books V d d') : selectKey d = selectKey d' := by
  have hk : PyDict.keys d = PyDict.keys d' := by
    unfold PyDict.keys
    induction h with
    | nil => rfl
    | cons hab _ ih => rw [List.map_cons, List.map_cons, ih, hab.1]
  have hv : List.Forall₂ V (PyDict.values d) (PyDict.values d') := by
    unfold PyDict.values
    clear hk
    induction h with
    | nil => exact .nil
    | cons hab _ ih => rw [List.map_cons, List.map_cons]; exact .cons hab.2 ih
  unfold selectKey
  rw [hk]
  have hf := filter_same hV hv
  dsimp only
  generalize (PyDict.values d).filter (fun v => decide (v ≤ 0)) = l at hf
  generalize (PyDict.values d').filter (fun v => decide (v ≤ 0)) = l' at hf
  cases hf with
  | nil => rfl
  | @cons a b l l' hab hl =>
    have := indexOf_same hV (foldl_max_same hV hl hab) hv
    show (do let idx ← pyIndexOf (PyDict.values d) (l.foldl max a); pyGet (PyDict.keys d') idx) =
      (do let idx ← pyIndexOf (PyDict.values d') (l'.foldl max b); pyGet (PyDict.keys d') idx)
    rw [this]

/-- two runs side by side: the same exception, or results and books that correspond -/
def Par {α β : Type} (V : K → K → Prop) (P : α → β → Prop) (x : St (State F K) α) (y : St (State F K) β) : Prop :=
  ∀ s t, Books V s.temps t.temps → (∃ e, (x s).1 = .error e ∧ (y t).1 = .error e) ∨
    ∃ a b, (x s).1 = .ok a ∧ (y t).1 = .ok b ∧ P a b ∧ Books V (x s).2.temps (y t).2.temps

theorem Par.bind {α β γ δ : Type} {P : α → β → Prop} {P' : γ → δ → Prop} {x : St (State F K) α} {y : St (State F K) β}
    {f : α → St (State F K) γ} {g : β → St (State F K) δ} (h : Par V P x y) (hf : ∀ a b, P a b → Par V P' (f a) (g b)) :
    Par V P' (x >>= f) (y >>= g) := by
  intro s t hb
  rcases hx : x s with ⟨rx, s'⟩
  rcases hy : y t with ⟨ry, t'⟩
  have := h s t hb
  rw [hx, hy] at this
  rcases this with ⟨e, h1, h2⟩ | ⟨a, b, h1, h2, hP, hB⟩
  · change rx = _ at h1
    change ry = _ at h2
    subst h1 h2
    rw [St.bind_error hx, St.bind_error hy]
    exact .inl ⟨e, rfl, rfl⟩
  · change rx = _ at h1
    change ry = _ at h2
    subst h1 h2
    rw [St.bind_ok hx, St.bind_ok hy]
    exact hf a b hP s' t' hB

theorem Par.lift {α : Type} (x : Py α) : Par (F := F) V (fun a b => a = b ∧ x = .ok a) (St.lift x) (St.lift x) := by
  intro s t hb
  cases hx : x with
  | error e => exact .inl ⟨e, rfl, rfl⟩
  | ok a => exact .inr ⟨a, a, rfl, rfl, ⟨rfl, rfl⟩, hb⟩

theorem Par.pure {α β : Type} {P : α → β → Prop} {a : α} {b : β} (h : P a b) :
    Par (F := F) V P (Pure.pure a) (Pure.pure b) := fun _ _ hb => .inr ⟨a, b, rfl, rfl, h, hb⟩

theorem Par.throw {α β : Type} {P : α → β → Prop} (e : PyErr) : Par (F := F) (α := α) (β := β) V P (St.throw e) (St.throw e) :=
  fun _ _ _ => .inl ⟨e, rfl, rfl⟩

theorem Par.modify {f g : State F K → State F K}
    (h : ∀ s t, Books V s.temps t.temps → Books V (f s).temps (g t).temps) :
    Par V (fun _ _ => True) (St.modify f) (St.modify g) := fun s t hb => .inr ⟨(), (), rfl, rfl, trivial, h s t hb⟩

end

/-- Two environments that build the same exchangers and whose simulations answer for the fields of `D`, with excesses of the
same sign at both heights and in the same order at maximum height. -/
structure SameOrder (env env' : Env F K) (D : F → Prop) : Prop where
  build : env'.build = env.build
  minHeight : env'.minHeight = env.minHeight
  maxHeight : env'.maxHeight = env.maxHeight
  boreholeH : env'.boreholeH = env.boreholeH
  maxIter : env'.maxIter = env.maxIter
  signs : ∀ f, D f → ∀ H, H = env.minHeight ∨ H = env.maxHeight → ∃ a a', env.sim f H = .ok a ∧ env'.sim f H = .ok a' ∧
    (a < 0 ↔ a' < 0) ∧ (0 < a ↔ 0 < a')
  order : ∀ f g, D f → D g → ∀ a a' b b', env.sim f env.maxHeight = .ok a → env'.sim f env.maxHeight = .ok a' →
    env.sim g env.maxHeight = .ok b → env'.sim g env.maxHeight = .ok b' → (a ≤ b ↔ a' ≤ b')

section
variable {env env' : Env F K} {D : F → Prop}

/-- the excesses of one field at maximum height -/
def Pair (env env' : Env F K) (D : F → Prop) (a b : K) : Prop :=
  ∃ f, D f ∧ env.sim f env.maxHeight = .ok a ∧ env'.sim f env.maxHeight = .ok b

theorem SameOrder.ordered (h : SameOrder env env' D) : Ordered (Pair env env' D) where
  le := by
    rintro a b c d ⟨f, hf, h1, h2⟩ ⟨g, hg, h3, h4⟩
    exact h.order f g hf hg _ _ _ _ h1 h2 h3 h4
  neg := by
    rintro a b ⟨f, hf, h1, h2⟩
    obtain ⟨x, y, h3, h4, h5, -⟩ := h.signs f hf _ (.inr rfl)
    rw [h1] at h3
    rw [h2] at h4
    cases h3
    cases h4
    exact h5
  pos := by
    rintro a b ⟨f, hf, h1, h2⟩
    obtain ⟨x, y, h3, h4, -, h5⟩ := h.signs f hf _ (.inr rfl)
    rw [h1] at h3
    rw [h2] at h4
    cases h3
    cases h4
    exact h5

theorem SameOrder.initialize (h : SameOrder env env' D) {V : K → K → Prop} (f : F) (H : K) :
    Par V (fun _ _ => True) (initializeGhe env f H) (initializeGhe env' f H) := by
  unfold initializeGhe
  rw [h.build]
  exact Par.bind (Par.lift _) fun _ _ _ => Par.modify fun s t hb => hb

theorem SameOrder.excess (h : SameOrder env env' D) {V : K → K → Prop} {f : F} (hf : D f) {H : K}
    (hH : H = env.minHeight ∨ H = env.maxHeight) :
    Par V (fun a b => env.sim f H = .ok a ∧ env'.sim f H = .ok b ∧ (a < 0 ↔ b < 0) ∧ (0 < a ↔ 0 < b))
      (calculateExcess env f H) (calculateExcess env' f H) := by
  unfold calculateExcess
  refine Par.bind (h.initialize f H) fun _ _ _ => Par.bind (Par.modify fun s t hb => hb) fun _ _ _ => ?_
  obtain ⟨a, b, h1, h2, h3, h4⟩ := h.signs f hf H hH
  intro s t hb
  exact .inr ⟨a, b, h1, h2, ⟨h1, h2, h3, h4⟩, hb⟩

theorem pyGet_in {α : Type} {l : List α} {i : ℤ} {a : α} (h : pyGet l i = .ok a) : a ∈ l := by
  unfold pyGet at h
  dsimp only at h
  generalize (if i < 0 then i + (l.length : ℤ) else i) = j at h
  split_ifs at h
  cases hj : l[j.toNat]? with
  | none => rw [hj] at h; cases h
  | some b => rw [hj] at h; cases h; exact List.mem_of_getElem? hj

theorem SameOrder.bisect (h : SameOrder env env' D) {domain : List F} (hD : ∀ f ∈ domain, D f) (sg : ℤ) :
    ∀ (rem : ℕ) (i xL xR : ℤ), Par (Pair env env' D) Eq (bisect env domain sg rem i xL xR) (bisect env' domain sg rem i xL xR) := by
  intro rem
  induction rem with
  | zero => intro i xL xR; exact Par.pure rfl
  | succ rem ih =>
    intro i xL xR
    unfold Search.bisect
    dsimp only
    split_ifs with hc
    · exact Par.pure rfl
    · refine Par.bind (Par.lift _) ?_
      rintro f _ ⟨rfl, hf⟩
      have hDf := hD f (pyGet_in hf)
      rw [h.maxHeight]
      refine Par.bind (h.excess hDf (.inr rfl)) ?_
      rintro T T' ⟨h1, h2, h3, h4⟩
      refine Par.bind (Par.modify fun s t hb => hb.set _ ⟨f, hDf, h1, h2⟩) fun _ _ _ => ?_
      rw [sign_same h3 h4]
      refine Par.bind (Par.lift _) ?_
      rintro c _ ⟨rfl, -⟩
      split_ifs
      · exact ih _ _ _
      · exact ih _ _ _

theorem SameOrder.searchBisection (h : SameOrder env env' D) {domain : List F} (hD : ∀ f ∈ domain, D f) (xL xR : ℤ)
    {a a' b b' : K} (h1 : a < 0 ↔ a' < 0) (h2 : 0 < a ↔ 0 < a') (h3 : b < 0 ↔ b' < 0) (h4 : 0 < b ↔ 0 < b') :
    Par (Pair env env' D) Eq (searchBisection env domain xL xR a b) (searchBisection env' domain xL xR a' b') := by
  unfold Search.searchBisection
  rw [sign_same h1 h2, sign_same h3 h4, h.maxIter, h.maxHeight]
  refine Par.bind (Par.lift _) ?_
  rintro s1 _ ⟨rfl, -⟩
  refine Par.bind (Par.lift _) ?_
  rintro s2 _ ⟨rfl, -⟩
  refine Par.bind (h.bisect hD _ _ _ _ _) ?_
  rintro ⟨i, u, v⟩ _ rfl
  refine Par.bind (Par.lift _) ?_
  rintro f _ ⟨rfl, hf⟩
  refine Par.bind (h.excess (hD f (pyGet_in hf)) (.inr rfl)) fun _ _ _ => ?_
  have hget : Par (Pair env env' D) (fun s t : State F K => Books (Pair env env' D) s.temps t.temps) St.get St.get :=
    fun s t hb => .inr ⟨s, t, rfl, rfl, hb, hb⟩
  refine Par.bind hget fun s t hb => ?_
  rw [selectKey_same h.ordered hb]
  refine Par.bind (Par.lift _) ?_
  rintro k _ ⟨rfl, -⟩
  refine Par.bind (Par.lift _) ?_
  rintro g _ ⟨rfl, -⟩
  exact Par.bind (h.initialize _ _) fun _ _ _ => Par.pure rfl

theorem SameOrder.search (h : SameOrder env env' D) {domain : List F} (hD : ∀ f ∈ domain, D f) :
    Par (Pair env env' D) Eq (search env domain) (search env' domain) := by
  unfold Search.search
  rw [h.minHeight, h.maxHeight]
  dsimp only
  refine Par.bind (Par.lift _) ?_
  rintro fR _ ⟨rfl, hR⟩
  refine Par.bind (Par.lift _) ?_
  rintro fL _ ⟨rfl, hL⟩
  have hR' := hD _ (pyGet_in hR)
  have hL' := hD _ (pyGet_in hL)
  refine Par.bind (h.excess hL' (.inl rfl)) ?_
  rintro a a' ⟨-, -, a3, a4⟩
  refine Par.bind (h.excess hL' (.inr rfl)) ?_
  rintro b b' ⟨b1, b2, b3, b4⟩
  refine Par.bind (h.excess hR' (.inr rfl)) ?_
  rintro c c' ⟨c1, c2, c3, c4⟩
  refine Par.bind (Par.modify fun s t hb => hb.set _ ⟨fL, hL', b1, b2⟩) fun _ _ _ => ?_
  refine Par.bind (Par.modify fun s t hb => hb.set _ ⟨fR, hR', c1, c2⟩) fun _ _ _ => ?_
  rw [sign_same a3 a4, sign_same b3 b4, sign_same c3 c4]
  refine Par.bind (Par.lift _) ?_
  rintro s1 _ ⟨rfl, -⟩
  refine Par.bind (Par.lift _) ?_
  rintro s2 _ ⟨rfl, -⟩
  by_cases q1 : checkBracket s1 s2 = true
  · rw [if_pos q1, if_pos q1]
    refine Par.bind (Par.lift _) ?_
    rintro f0 _ ⟨rfl, -⟩
    exact Par.bind (h.initialize _ _) fun _ _ _ => Par.pure rfl
  rw [if_neg q1, if_neg q1]
  refine Par.bind (Par.lift _) ?_
  rintro s3 _ ⟨rfl, -⟩
  refine Par.bind (Par.lift _) ?_
  rintro s4 _ ⟨rfl, -⟩
  simp only [gt_iff_lt, b3, b4, c3, c4]
  split_ifs
  · exact h.searchBisection hD _ _ b3 b4 c3 c4
  · exact Par.throw _
  · exact Par.throw _
  · exact Par.pure rfl

theorem SameOrder.setup (h : SameOrder env env' D) {V : K → K → Prop} (domain : List F) :
    Par V (fun _ _ => True) (setup env domain) (setup env' domain) := by
  unfold Search.setup
  rw [h.boreholeH]
  refine Par.bind (Par.lift _) ?_
  rintro f _ ⟨rfl, -⟩
  exact Par.bind (h.initialize _ _) fun _ _ _ => Par.modify fun _ _ _ => .nil

theorem SameOrder.bisection1D (h : SameOrder env env' D) {domain : List F} (hD : ∀ f ∈ domain, D f) :
    Par (Pair env env' D) Eq (bisection1D env domain) (bisection1D env' domain) :=
  Par.bind (h.setup domain) fun _ _ _ => h.search hD

theorem outerDomain_mem {nested : List (List F)} {outer : List F} (h : outerDomain nested = .ok outer) :
    ∀ f ∈ outer, ∃ d ∈ nested, f ∈ d := by
  unfold outerDomain at h
  rw [bind_eq_ok] at h
  obtain ⟨first, h1, h⟩ := h
  rw [bind_eq_ok] at h
  obtain ⟨head, h2, h⟩ := h
  rw [bind_eq_ok] at h
  obtain ⟨lasts, h3, h⟩ := h
  cases h
  intro f hf
  rcases List.mem_cons.1 hf with rfl | hf
  · exact ⟨first, pyGet_in h1, pyGet_in h2⟩
  · have : ∀ (n : List (List F)) (l : List F), (n.mapM fun d => pyGet d (-1)) = .ok l → ∀ f ∈ l, ∃ d ∈ n, f ∈ d := by
      intro n
      induction n with
      | nil => intro l hl; cases hl; simp
      | cons d n ih =>
        intro l hl
        rw [List.mapM_cons, bind_eq_ok] at hl
        obtain ⟨x, hx, hl⟩ := hl
        rw [bind_eq_ok] at hl
        obtain ⟨l', hl', hl⟩ := hl
        cases hl
        intro f hf
        rcases List.mem_cons.1 hf with rfl | hf
        · exact ⟨d, by simp, pyGet_in hx⟩
        · obtain ⟨d', h1, h2⟩ := ih l' hl' f hf
          exact ⟨d', by simp [h1], h2⟩
    exact this _ _ h3 f hf

theorem SameOrder.bisection2D (h : SameOrder env env' D) {nested : List (List F)} (hD : ∀ d ∈ nested, ∀ f ∈ d, D f) :
    Par (Pair env env' D) Eq (bisection2D env nested) (bisection2D env' nested) := by
  unfold Search.bisection2D
  refine Par.bind (Par.lift _) ?_
  rintro first _ ⟨rfl, -⟩
  refine Par.bind (h.setup _) fun _ _ _ => Par.bind (Par.lift _) ?_
  rintro outer _ ⟨rfl, ho⟩
  refine Par.bind (h.search (domain := outer) fun f hf => ?_) ?_
  · obtain ⟨d, h1, h2⟩ := outerDomain_mem ho f hf
    exact hD d h1 f h2
  rintro r _ rfl
  match r with
  | none => exact Par.throw _
  | some (key, g) =>
    refine Par.bind (Par.lift _) ?_
    rintro inner _ ⟨rfl, hi⟩
    exact Par.bind (Par.modify fun _ _ _ => .nil) fun _ _ _ => h.search (hD _ (pyGet_in hi))

end

end Ghedt.Search
