import Verif.Props.GKinds
import Verif.Lemmas.GKinds

/-!
# C116 — requests on a g-function object whose data do not match

A `GFunction` is made from whatever dictionaries it is given: nothing checks that the curves are as
long as the times, or that every height has a burial depth.
-/

set_option linter.unusedSectionVars false

namespace Ghedt.GF

variable {K : Type} [Field K] [LinearOrder K] [IsStrictOrderedRing K]

/-! ## A curve that is too short -/

/-- reading an index from several lists fails with `IndexError` or not at all; it fails if one of them
is too short -/
theorem mapM_pyGet (l : List (List K)) (i : ℕ) :
    ((∃ y, l.mapM (fun c => pyGet c (i : ℤ)) = .ok y ∧ y.length = l.length) ∧ ∀ c ∈ l, i < c.length) ∨
      l.mapM (fun c => pyGet c (i : ℤ)) = .error .indexError := by
  induction l with
  | nil => exact .inl ⟨⟨[], rfl, rfl⟩, by simp⟩
  | cons c l ih =>
    rw [List.mapM_cons]
    by_cases hc : i < c.length
    · have h1 : pyGet c (i : ℤ) = .ok c[i] := by
        rw [pyGet_eq_ok (by omega)]; simp
      rw [h1]
      rcases ih with ⟨⟨y, hy, hl⟩, ha⟩ | he
      · refine .inl ⟨⟨c[i] :: y, by rw [hy]; rfl, by simp [hl]⟩, ?_⟩
        intro c' hc'
        rcases List.mem_cons.1 hc' with rfl | h
        · exact hc
        · exact ha c' h
      · right; rw [he]; rfl
    · right
      have h1 : pyGet c (i : ℤ) = .error .indexError := by
        unfold pyGet
        simp [show ¬ ((i : ℤ) < 0) by omega, List.getElem?_eq_none (by omega : c.length ≤ i)]
      rw [h1]; rfl

theorem buildG_short {db : DB K} {k : String} (hk : Fits db.g.length k) (ext : Bool)
    {e : K × List K} (he : e ∈ db.g) (hs : e.2.length < db.logTime.length) (m : ℕ) :
    ∀ (j : ℕ) (t : Table K), j + m = db.logTime.length → j ≤ e.2.length → t.g.isSome →
    ∃ t', buildG db k ext (pyRange j db.logTime.length) t = (.error .indexError, t') ∧
      t'.g.isSome ∧ t'.rb = t.rb := by
  induction m with
  | zero => intro j t hj hje; omega
  | succ m ih =>
    intro j t hj hje ht
    rw [pyRange_cons (by omega), buildG]
    rcases mapM_pyGet (PyDict.values db.g) j with ⟨⟨y, hy, hl⟩, ha⟩ | hf
    · have hlt : j < e.2.length := ha _ (List.mem_map.2 ⟨e, he, rfl⟩)
      rw [St.lift_ok hy, St.lift_ok (mkCurveK_ok hk (by simp [PyDict.keys])
        (by rw [hl]; simp [PyDict.values]) ext), St.modify_bind]
      have e1 : ((j : ℤ) + 1) = ((j + 1 : ℕ) : ℤ) := by push_cast; rfl
      rw [e1]
      obtain ⟨t', h1, h2, h3⟩ := ih (j + 1) { t with g := some (t.g.getD [] ++
        [⟨k, PyDict.keys db.g, y, ext⟩]) } (by omega) (by omega) rfl
      exact ⟨t', h1, h2, h3⟩
    · exact ⟨t, St.lift_error hf, ht, rfl⟩

theorem buildTable_short {db : DB K} {k : String} (hk : Fits db.g.length k) (ext : Bool)
    {e : K × List K} (he : e ∈ db.g) (hs : e.2.length < db.logTime.length) (t : Table K) :
    ∃ t', buildTable db k ext t = (.error .indexError, t') ∧ t'.g.isSome ∧ t'.rb = t.rb := by
  unfold buildTable
  rw [St.modify_bind]
  obtain ⟨t', h1, h2, h3⟩ := buildG_short hk ext he hs db.logTime.length 0 { t with g := some [] }
    (by simp) (by omega) rfl
  exact ⟨t', St.bind_error h1, h2, h3⟩

theorem range_exists {db : DB K} (h2 : 2 ≤ db.g.length) : ∃ lo hi, Range db lo hi := by
  have hne : PyDict.keys db.g ≠ [] := by
    intro e
    have : (PyDict.keys db.g).length = db.g.length := by simp [PyDict.keys]
    rw [e] at this; simp at this; omega
  obtain ⟨hi, hhi⟩ := pyMax_ok_of_ne_nil hne
  obtain ⟨lo, hlo⟩ := pyMin_ok_of_ne_nil hne
  obtain ⟨m1, m2⟩ := pyMax_eq_ok hhi
  obtain ⟨m3, m4⟩ := pyMin_eq_ok hlo
  exact ⟨lo, hi, m3, m1, fun x hx => ⟨m4 x hx, m2 x hx⟩⟩

/-- a request for `B/H = 0` raises `ZeroDivisionError` and leaves no trace -/
theorem request_zero_run (spl : String → List K → List K → K → K) (db : DB K) (kind : String)
    (t : Table K) : request spl db 0 kind t = (.error .zeroDivisionError, t) := by
  unfold request
  exact St.lift_error (by simp [pyDiv])

/-- the request `r` gets as far as the interpolation table -/
def Reaches (n : ℕ) (r : K × String) : Prop := r.1 ≠ 0 ∧ kindUsed n r.2 ≠ none

theorem request_short {spl : String → List K → List K → K → K} {db : DB K} (h2 : 2 ≤ db.g.length)
    {e : K × List K} (he : e ∈ db.g) (hs : e.2.length < db.logTime.length) (r : K × String)
    {t : Table K} (ht : t.rb = none) :
    (¬ Reaches db.g.length r → (request spl db r.1 r.2 t).2 = t) ∧
    (Reaches db.g.length r →
      (request spl db r.1 r.2 t).1 = .error (if t.g.isSome then .keyError else .indexError) ∧
      (request spl db r.1 r.2 t).2.rb = none ∧ (request spl db r.1 r.2 t).2.g.isSome) := by
  obtain ⟨q, kind⟩ := r
  constructor
  · intro h
    dsimp only
    by_cases hq : q = 0
    · rw [hq, request_zero_run]
    · have : kindUsed db.g.length kind = none := by
        by_contra hk
        exact h ⟨hq, hk⟩
      rw [C108_unknown spl db h2 q hq kind this]
  · rintro ⟨hq, hk⟩
    dsimp only at hq hk ⊢
    obtain ⟨k, hk⟩ := Option.ne_none_iff_exists'.1 hk
    obtain ⟨lo, hi, hr⟩ := range_exists h2
    rw [requestK_run h2 hr hq hk]
    by_cases hg : t.g.isNone = true
    · have hg' : t.g.isSome = false := by
        cases h : t.g <;> simp_all
      rw [if_pos hg]
      obtain ⟨t', h1, h3, h4⟩ := buildTable_short (kindUsed_fits hk) (extFlag lo hi (db.B / q)) he hs t
      rw [St.bind_error h1, hg']
      exact ⟨rfl, h4.trans ht, h3⟩
    · have hg' : t.g.isSome = true := by
        cases h : t.g <;> simp_all
      rw [if_neg hg, hg']
      refine ⟨?_, ht, rfl⟩
      unfold readTable
      rw [ht]
      rfl

/-- C116: a database of two or more curves, one of which is shorter than the times.  The first
request with a known kind (and `B/H ≠ 0`) raises `IndexError`, every later one `KeyError`,
whatever was asked for in between; no request is ever answered. -/
theorem C116_short_curve (spl : String → List K → List K → K → K) (db : DB K)
    (h2 : 2 ≤ db.g.length) (hs : ∃ e ∈ db.g, e.2.length < db.logTime.length)
    (hist : List (K × String)) (q : K) (hq : q ≠ 0) (kind : String)
    (hk : kindUsed db.g.length kind ≠ none) :
    ((∀ r ∈ hist, r.1 = 0 ∨ kindUsed db.g.length r.2 = none) →
      (request spl db q kind (tableAfterAll spl db hist)).1 = .error .indexError) ∧
    ((∃ r ∈ hist, r.1 ≠ 0 ∧ kindUsed db.g.length r.2 ≠ none) →
      (request spl db q kind (tableAfterAll spl db hist)).1 = .error .keyError) := by
  obtain ⟨e, he, hs⟩ := hs
  have main : ∀ (hist : List (K × String)) (t : Table K), t.rb = none →
      (hist.foldl (fun t r => (request spl db r.1 r.2 t).2) t).rb = none ∧
      ((hist.foldl (fun t r => (request spl db r.1 r.2 t).2) t).g.isSome = true ↔
        t.g.isSome = true ∨ ∃ r ∈ hist, Reaches db.g.length r) := by
    intro hist
    induction hist with
    | nil => intro t ht; simp [ht]
    | cons r hist ih =>
      intro t ht
      obtain ⟨h1, h3⟩ := request_short (spl := spl) h2 he hs r ht
      rw [List.foldl_cons]
      by_cases hr : Reaches db.g.length r
      · obtain ⟨-, h4, h5⟩ := h3 hr
        obtain ⟨i1, i2⟩ := ih _ h4
        refine ⟨i1, i2.trans ⟨fun _ => .inr ⟨r, List.mem_cons_self, hr⟩, fun _ => .inl h5⟩⟩
      · rw [h1 hr]
        obtain ⟨i1, i2⟩ := ih _ ht
        refine ⟨i1, i2.trans ?_⟩
        simp [hr]
  obtain ⟨m1, m2⟩ := main hist {} rfl
  have m3 := ((request_short (spl := spl) h2 he hs (q, kind) m1).2 ⟨hq, hk⟩).1
  have h0 : ({} : Table K).g.isSome = true ↔ False := by simp
  rw [h0, false_or] at m2
  constructor
  · intro h
    have : ¬ ∃ r ∈ hist, Reaches db.g.length r := by
      rintro ⟨r, hr, h3, h4⟩
      rcases h r hr with h5 | h5
      · exact h3 h5
      · exact h4 h5
    rw [if_neg (fun h => this (m2.1 h))] at m3
    exact m3
  · rintro ⟨r, hr, h3⟩
    rw [if_pos (m2.2 ⟨r, hr, h3⟩)] at m3
    exact m3

/-! ## Curves that are longer than the times -/

/-- the same database with every curve cut to the number of times -/
def cut (db : DB K) : DB K :=
  { db with g := db.g.map fun e => (e.1, e.2.take db.logTime.length) }

theorem keys_cut (db : DB K) : PyDict.keys (cut db).g = PyDict.keys db.g := by
  simp [PyDict.keys, cut, Function.comp_def]

theorem pyGet_take (c : List K) {n i : ℕ} (hi : i < n) :
    pyGet (c.take n) (i : ℤ) = pyGet c (i : ℤ) := by
  unfold pyGet
  simp only [show ¬ ((i : ℤ) < 0) by omega, if_false, Int.toNat_natCast]
  rw [List.getElem?_take, if_pos hi]

theorem buildG_cut (db : DB K) (k : String) (ext : Bool) (m : ℕ) :
    ∀ (j : ℕ) (t : Table K), j + m = db.logTime.length →
    buildG (cut db) k ext (pyRange j db.logTime.length) t =
      buildG db k ext (pyRange j db.logTime.length) t := by
  induction m with
  | zero => intro j t hj; rw [pyRange_empty (by omega)]; rfl
  | succ m ih =>
    intro j t hj
    rw [pyRange_cons (by omega), buildG, buildG]
    have e0 : (PyDict.values (cut db).g).mapM (fun c => pyGet c (j : ℤ)) =
        (PyDict.values db.g).mapM (fun c => pyGet c (j : ℤ)) := by
      have : PyDict.values (cut db).g =
          (PyDict.values db.g).map (fun c => c.take db.logTime.length) := by
        simp [PyDict.values, cut, Function.comp_def]
      rw [this, List.mapM_map]
      congr 1
      funext c
      exact pyGet_take c (by omega)
    rw [e0, keys_cut]
    have e1 : ((j : ℤ) + 1) = ((j + 1 : ℕ) : ℤ) := by push_cast; rfl
    rw [e1]
    cases h1 : (PyDict.values db.g).mapM (fun c => pyGet c (j : ℤ)) with
    | error er => rw [St.lift_error rfl, St.lift_error rfl]
    | ok y =>
      rw [St.lift_ok rfl, St.lift_ok rfl]
      cases h3 : mkCurve k (PyDict.keys db.g) y ext with
      | error er => rw [St.lift_error rfl, St.lift_error rfl]
      | ok c =>
        rw [St.lift_ok rfl, St.lift_ok rfl, St.modify_bind, St.modify_bind]
        exact ih (j + 1) _ (by omega)

theorem buildTable_cut (db : DB K) (k : String) (ext : Bool) (t : Table K) :
    buildTable (cut db) k ext t = buildTable db k ext t := by
  have h := buildG_cut db k ext db.logTime.length 0
  unfold buildTable
  rw [St.modify_bind, St.modify_bind]
  have hl : (cut db).logTime = db.logTime := rfl
  have h' := h { t with g := some [] } (by simp)
  rcases hb : buildG db k ext (pyRange 0 db.logTime.length) { t with g := some [] } with ⟨r, t'⟩
  rw [show ((0 : ℕ) : ℤ) = 0 from rfl, hb] at h'
  rw [hl]
  cases r with
  | error er => rw [St.bind_error h', St.bind_error hb]
  | ok u => rw [St.bind_ok h', St.bind_ok hb]; rfl

/-- C116: values of a curve beyond the number of times are never used: with two or more curves every
request is answered, or refused, as if the curves ended there. -/
theorem C116_long_curve (spl : String → List K → List K → K → K) (db : DB K)
    (h2 : 2 ≤ db.g.length) (hist : List (K × String)) (q : K) (kind : String) :
    request spl db q kind (tableAfterAll spl db hist) =
      request spl (cut db) q kind (tableAfterAll spl (cut db) hist) := by
  have hlen : (cut db).g.length = db.g.length := by simp [cut]
  have one : ∀ (q : K) (kind : String) (t : Table K),
      request spl db q kind t = request spl (cut db) q kind t := by
    intro q kind t
    by_cases hq : q = 0
    · rw [hq, request_zero_run, request_zero_run]
    cases hk : kindUsed db.g.length kind with
    | none =>
      rw [C108_unknown spl db h2 q hq kind hk, C108_unknown spl (cut db) (by omega) q hq kind
        (by rw [hlen]; exact hk)]
    | some k =>
      obtain ⟨lo, hi, hr⟩ := range_exists h2
      have hr' : Range (cut db) lo hi := by
        refine ⟨?_, ?_, ?_⟩ <;> rw [keys_cut]
        exacts [hr.lo_mem, hr.hi_mem, hr.bounds]
      rw [requestK_run h2 hr hq hk, requestK_run (by omega) hr' hq (by rw [hlen]; exact hk)]
      have hB : (cut db).B = db.B := rfl
      rw [hB]
      split_ifs
      · rcases hb : buildTable db k (extFlag lo hi (db.B / q)) t with ⟨r, t'⟩
        have hb' := (buildTable_cut db k (extFlag lo hi (db.B / q)) t).trans hb
        cases r with
        | error er => rw [St.bind_error hb, St.bind_error hb']
        | ok u => rw [St.bind_ok hb, St.bind_ok hb']; rfl
      · rfl
  have hist' : ∀ (hist : List (K × String)) (t : Table K),
      hist.foldl (fun t r => (request spl db r.1 r.2 t).2) t =
        hist.foldl (fun t r => (request spl (cut db) r.1 r.2 t).2) t := by
    intro hist
    induction hist with
    | nil => intro t; rfl
    | cons r hist ih => intro t; rw [List.foldl_cons, List.foldl_cons, one, ih]
  unfold tableAfterAll
  rw [hist', one]

/-! ## A height without a burial depth -/

/-- tables that agree on the g-functions and radii, the first without burial depths -/
def SameBut (t t' : Table K) : Prop := t.g = t'.g ∧ t.rb = t'.rb ∧ t.D = none

theorem readTable_noDepth {spl : String → List K → List K → K → K} (db : DB K) (full : PyDict K K)
    {t t' : Table K} (h : SameBut t t') (H : K) (w : Bool) :
    readTable spl db H w t =
      (readTable spl { db with D := full } H w t').map fun a => { a with D := none } := by
  obtain ⟨h1, h2, h3⟩ := h
  unfold readTable
  rw [h1, h2, h3]
  cases t'.rb with
  | none => rfl
  | some c =>
    rw [Except.ok_bind, Except.ok_bind]
    cases evalCurve spl c H with
    | error er => rfl
    | ok v =>
      rw [Except.ok_bind, Except.ok_bind]
      cases t'.g with
      | none => rfl
      | some cs =>
        rw [Except.ok_bind, Except.ok_bind]
        dsimp only
        cases (pyRange 0 (db.logTime.length : ℤ)).mapM (fun i : ℤ => do
            let c ← pyGet cs i
            evalCurve spl c H) with
        | error er => rfl
        | ok g => rfl

theorem buildG_same (db : DB K) (full : PyDict K K) (k : String) (ext : Bool) (is : List ℤ) :
    ∀ {t t' : Table K}, SameBut t t' →
      (buildG db k ext is t).1 = (buildG { db with D := full } k ext is t').1 ∧
      SameBut (buildG db k ext is t).2 (buildG { db with D := full } k ext is t').2 := by
  induction is with
  | nil => intro t t' h; exact ⟨rfl, h⟩
  | cons i is ih =>
    intro t t' h
    rw [buildG, buildG]
    dsimp only
    cases h1 : (PyDict.values db.g).mapM (fun c => pyGet c i) with
    | error er => rw [St.lift_error rfl, St.lift_error rfl]; exact ⟨rfl, h⟩
    | ok y =>
      rw [St.lift_ok rfl, St.lift_ok rfl]
      cases h3 : mkCurve k (PyDict.keys db.g) y ext with
      | error er => rw [St.lift_error rfl, St.lift_error rfl]; exact ⟨rfl, h⟩
      | ok c =>
        rw [St.lift_ok rfl, St.lift_ok rfl, St.modify_bind, St.modify_bind]
        refine ih ⟨?_, h.2.1, h.2.2⟩
        dsimp only
        rw [h.1]

theorem mkCurve_few {k : String} {x y : List K} (h : y.length < x.length) (ext : Bool) :
    ∃ e, mkCurve k x y ext = .error e := by
  unfold mkCurve
  split_ifs with h1 h3 <;> first | exact ⟨_, rfl⟩ | omega

theorem buildTable_same (db : DB K) (full : PyDict K K)
    (hm : ∃ h ∈ PyDict.keys db.rb, PyDict.find? db.D h = none) (k : String) (ext : Bool)
    {t t' : Table K} (h : SameBut t t') :
      (buildTable db k ext t).1 = (buildTable { db with D := full } k ext t').1 ∧
      SameBut (buildTable db k ext t).2 (buildTable { db with D := full } k ext t').2 := by
  have hg : SameBut { t with g := some [] } { t' with g := some [] } := ⟨rfl, h.2.1, h.2.2⟩
  obtain ⟨b1, b2⟩ := buildG_same db full k ext (pyRange 0 db.logTime.length) hg
  have few : ((PyDict.keys db.rb).filterMap fun h => PyDict.find? db.D h).length <
      (PyDict.keys db.rb).length := by
    rw [List.length_filterMap_eq_countP]
    obtain ⟨h, hh, hn⟩ := hm
    refine lt_of_le_of_ne List.countP_le_length ?_
    intro e
    rw [List.countP_eq_length] at e
    have := e h hh
    rw [hn] at this
    simp at this
  obtain ⟨er, her⟩ := mkCurve_few (k := k) few ext
  unfold buildTable
  rw [St.modify_bind, St.modify_bind]
  dsimp only
  rcases hb : buildG db k ext (pyRange 0 db.logTime.length) { t with g := some [] } with ⟨r, s⟩
  rcases hb' : buildG { db with D := full } k ext (pyRange 0 db.logTime.length)
    { t' with g := some [] } with ⟨r', s'⟩
  rw [hb, hb'] at b1 b2
  dsimp only at b1 b2
  subst b1
  cases r with
  | error e => rw [St.bind_error hb, St.bind_error hb']; exact ⟨rfl, b2⟩
  | ok u =>
    rw [St.bind_ok hb, St.bind_ok hb']
    cases hc : mkCurve k (PyDict.keys db.rb) (PyDict.values db.rb) ext with
    | error e => rw [St.lift_error rfl, St.lift_error rfl]; exact ⟨rfl, b2⟩
    | ok c =>
      rw [St.lift_ok rfl, St.lift_ok rfl, St.modify_bind, St.modify_bind, her]
      dsimp only
      cases mkCurve k (PyDict.keys db.rb)
          ((PyDict.keys db.rb).filterMap fun h => PyDict.find? full h) ext with
      | error e => exact ⟨rfl, b2.1, rfl, b2.2.2⟩
      | ok c => exact ⟨rfl, b2.1, rfl, b2.2.2⟩

/-- C116: if some height with a radius has no burial depth, no burial depth is ever returned, for any
height; otherwise every request is answered, or refused, as if all burial depths were there. -/
theorem C116_no_depth (spl : String → List K → List K → K → K) (db : DB K) (h2 : 2 ≤ db.g.length)
    (hm : ∃ h ∈ PyDict.keys db.rb, PyDict.find? db.D h = none) (full : PyDict K K)
    (hist : List (K × String)) (q : K) (kind : String) :
    (request spl db q kind (tableAfterAll spl db hist)).1 =
      (request spl { db with D := full } q kind (tableAfterAll spl { db with D := full } hist)).1.map
        fun a => { a with D := none } := by
  have one : ∀ (q : K) (kind : String) (t t' : Table K), SameBut t t' →
      (request spl db q kind t).1 =
        (request spl { db with D := full } q kind t').1.map (fun a => { a with D := none }) ∧
      SameBut (request spl db q kind t).2 (request spl { db with D := full } q kind t').2 := by
    intro q kind t t' h
    by_cases hq : q = 0
    · rw [hq, request_zero_run, request_zero_run]; exact ⟨rfl, h⟩
    cases hk : kindUsed db.g.length kind with
    | none =>
      rw [C108_unknown spl db h2 q hq kind hk, C108_unknown spl { db with D := full } h2 q hq kind hk]
      exact ⟨rfl, h⟩
    | some k =>
      obtain ⟨lo, hi, hr⟩ := range_exists h2
      have hr' : Range { db with D := full } lo hi := ⟨hr.lo_mem, hr.hi_mem, hr.bounds⟩
      rw [requestK_run h2 hr hq hk, requestK_run (db := { db with D := full }) h2 hr' hq hk]
      dsimp only
      have hgg : t.g.isNone = t'.g.isNone := by rw [h.1]
      rw [hgg]
      split_ifs
      · obtain ⟨b1, b2⟩ := buildTable_same db full hm k (extFlag lo hi (db.B / q)) h
        rcases hb : buildTable db k (extFlag lo hi (db.B / q)) t with ⟨r, s⟩
        rcases hb' : buildTable { db with D := full } k (extFlag lo hi (db.B / q)) t' with ⟨r', s'⟩
        rw [hb, hb'] at b1 b2
        dsimp only at b1 b2
        subst b1
        cases r with
        | error e => rw [St.bind_error hb, St.bind_error hb']; exact ⟨rfl, b2⟩
        | ok u =>
          rw [St.bind_ok hb, St.bind_ok hb', St.get_bind, St.get_bind]
          exact ⟨readTable_noDepth db full b2 _ _, b2⟩
      · exact ⟨readTable_noDepth db full h _ _, h⟩
  have run : ∀ (hist : List (K × String)) (t t' : Table K), SameBut t t' →
      SameBut (hist.foldl (fun t r => (request spl db r.1 r.2 t).2) t)
        (hist.foldl (fun t r => (request spl { db with D := full } r.1 r.2 t).2) t') := by
    intro hist
    induction hist with
    | nil => intro t t' h; exact h
    | cons r hist ih => intro t t' h; exact ih _ _ (one r.1 r.2 t t' h).2
  exact (one q kind _ _ (run hist {} {} ⟨rfl, rfl, rfl⟩)).1

/-! ## Examples -/

/-- two curves, the second one value short -/
def exShort : DB ℚ where
  B := 5
  rb := [(50, 1/10), (100, 1/10)]
  D := [(50, 2), (100, 2)]
  g := [(50, [1, 2, 3]), (100, [1, 2])]
  logTime := [-8, -4, 0]
  locations := [(0, 0), (5, 0)]

/-- the first request fails with one exception, the next with another, and an unknown kind in
between changes nothing -/
example (spl : String → List ℚ → List ℚ → ℚ → ℚ) :
    (request spl exShort (5 / 75) "default" {}).1 = .error .indexError ∧
    (request spl exShort (5 / 75) "linear"
      (tableAfterAll spl exShort [(5 / 75, "spline")])).1 = .error .indexError ∧
    (request spl exShort (5 / 75) "linear"
      (tableAfterAll spl exShort [(5 / 75, "spline"), (5 / 80, "default")])).1 = .error .keyError :=
  ⟨(C116_short_curve spl exShort (by decide) ⟨(100, [1, 2]), by simp [exShort], by decide⟩ [] _
      (by norm_num) _ (by decide)).1 (by simp),
    (C116_short_curve spl exShort (by decide) ⟨(100, [1, 2]), by simp [exShort], by decide⟩ _ _
      (by norm_num) _ (by decide)).1 (by decide +kernel),
    (C116_short_curve spl exShort (by decide) ⟨(100, [1, 2]), by simp [exShort], by decide⟩ _ _
      (by norm_num) _ (by decide)).2 ⟨(5 / 80, "default"), by simp, by norm_num, by decide⟩⟩

/-- linear interpolation between two points -/
def exLine (_ : String) (x y : List ℚ) (h : ℚ) : ℚ :=
  y.getD 0 0 + (h - x.getD 0 0) * (y.getD 1 0 - y.getD 0 0) / (x.getD 1 0 - x.getD 0 0)

/-- one value too many in the second curve, no burial depth for the first height -/
def exNoDepth : DB ℚ where
  B := 5
  rb := [(50, 1/10), (100, 1/10)]
  D := [(100, 2)]
  g := [(50, [1, 2]), (100, [2, 4, 9])]
  logTime := [-8, -4]
  locations := [(0, 0), (5, 0)]

example : (request exLine exNoDepth (5 / 75) "default" {}).1 =
    .ok ⟨[3 / 2, 3], 1 / 10, none, 75, false⟩ := by decide +kernel

example := C116_long_curve exLine exNoDepth (by decide) [(1 / 10, "linear"), (1, "cubic")] (5 / 75) "default"
example := C116_no_depth exLine exNoDepth (by decide) ⟨50, by decide +kernel, by decide +kernel⟩ [(50, 2), (100, 2)]
  [(1 / 10, "linear"), (1, "cubic")] (5 / 75) "default"

end Ghedt.GF
