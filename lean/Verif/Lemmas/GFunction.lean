import Verif.Model.GFunction
import Verif.Lemmas.SearchRoutines

set_option linter.unusedSectionVars false

namespace Ghedt.GF

variable {K : Type} [Field K] [LinearOrder K] [IsStrictOrderedRing K]

/-- A database as `compute_live_g_function` or an import with burial depths produces it: at least two
curves, heights distinct, every curve as long as the time vector, a radius and a burial depth for
every height. -/
structure Valid (db : DB K) : Prop where
  two : 2 ≤ db.g.length
  nodup : (PyDict.keys db.g).Nodup
  len : ∀ e ∈ db.g, e.2.length = db.logTime.length
  rb : PyDict.keys db.rb = PyDict.keys db.g
  D : PyDict.keys db.D = PyDict.keys db.g

/-- kind of interpolation used by default for `n ≥ 2` curves -/
def defaultKind (n : ℕ) : String :=
  if 5 ≤ n then "cubic" else if 3 ≤ n then "quadratic" else "linear"

theorem defaultKind_ne (n : ℕ) : defaultKind n ≠ "lagrange" := by
  unfold defaultKind; split_ifs <;> decide

/-- the g-values of all curves at the `i`-th time -/
def column (db : DB K) (i : ℕ) : List K := (PyDict.values db.g).map fun c => c.getD i 0

theorem mkCurve_ok {n : ℕ} (hn : 2 ≤ n) {x y : List K} (hx : x.length = n) (hy : y.length = n)
    (ext : Bool) : mkCurve (defaultKind n) x y ext = .ok ⟨defaultKind n, x, y, ext⟩ := by
  unfold mkCurve
  rw [if_neg (defaultKind_ne n), if_neg (by simp [hx, hy]), if_neg]
  rintro (⟨h1, h2⟩ | ⟨h1, h2⟩)
  · unfold defaultKind at h1
    split_ifs at h1 with h3 h4
    · exact absurd h1 (by decide)
    · omega
    · exact absurd h1 (by decide)
  · unfold defaultKind at h1
    split_ifs at h1 with h3 h4
    · omega
    · exact absurd h1 (by decide)
    · exact absurd h1 (by decide)

theorem find?_keys {β : Type} (d : PyDict K β) (hd : (PyDict.keys d).Nodup) :
    (PyDict.keys d).filterMap (fun h => PyDict.find? d h) = PyDict.values d := by
  induction d with
  | nil => rfl
  | cons e d ih =>
    obtain ⟨k, v⟩ := e
    simp only [PyDict.keys, List.map_cons, List.nodup_cons] at hd ⊢
    rw [List.filterMap_cons]
    simp only [PyDict.find?, if_true, PyDict.values, List.map_cons]
    congr 1
    refine Eq.trans ?_ (ih hd.2)
    apply List.filterMap_congr
    intro h hh
    rw [if_neg]
    rintro rfl
    exact hd.1 hh

theorem column_ok {db : DB K} (hv : Valid db) {i : ℕ} (hi : i < db.logTime.length) :
    (PyDict.values db.g).mapM (fun c => pyGet c (i : ℤ)) = .ok (column db i) := by
  unfold column
  apply mapM_ok
  intro c hc
  obtain ⟨e, he, rfl⟩ := List.mem_map.1 hc
  have := hv.len e he
  rw [pyGet_ok (by omega)]
  congr 1
  rw [List.getD_eq_getElem?_getD, List.getElem?_eq_getElem (by omega)]
  rfl

/-- the table built for the flag `ext` -/
def tableOf (db : DB K) (ext : Bool) : Table K where
  g := some ((List.range db.logTime.length).map fun i =>
    ⟨defaultKind db.g.length, PyDict.keys db.g, column db i, ext⟩)
  rb := some ⟨defaultKind db.g.length, PyDict.keys db.g, PyDict.values db.rb, ext⟩
  D := some ⟨defaultKind db.g.length, PyDict.keys db.g, PyDict.values db.D, ext⟩

theorem buildG_ok {db : DB K} (hv : Valid db) (ext : Bool) (m : ℕ) :
    ∀ (k : ℕ) (t : Table K), k + m = db.logTime.length →
    buildG db (defaultKind db.g.length) ext (pyRange k db.logTime.length) t =
      (.ok (), { t with g := some (t.g.getD [] ++ (List.range' k m).map fun i =>
        ⟨defaultKind db.g.length, PyDict.keys db.g, column db i, ext⟩) }) ∨
      (m = 0 ∧ buildG db (defaultKind db.g.length) ext (pyRange k db.logTime.length) t =
        (.ok (), t)) := by
  induction m with
  | zero =>
    intro k t hk
    right
    refine ⟨rfl, ?_⟩
    rw [pyRange_empty (by omega)]; rfl
  | succ m ih =>
    intro k t hk
    left
    rw [pyRange_cons (by omega), buildG, St.lift_ok (column_ok hv (by omega)),
      St.lift_ok (mkCurve_ok hv.two (by simp [PyDict.keys]) (by simp [column, PyDict.values]) ext),
      St.modify_bind]
    have e : ((k : ℤ) + 1) = ((k + 1 : ℕ) : ℤ) := by push_cast; rfl
    rw [e]
    rcases ih (k + 1) { t with g := some (t.g.getD [] ++
      [⟨defaultKind db.g.length, PyDict.keys db.g, column db k, ext⟩]) } (by omega) with h | ⟨h0, h⟩
    · rw [h]
      simp [List.range'_succ]
    · rw [h]
      subst h0
      simp

theorem buildTable_ok {db : DB K} (hv : Valid db) (ext : Bool) (t : Table K) :
    buildTable db (defaultKind db.g.length) ext t = (.ok (), tableOf db ext) := by
  unfold buildTable
  rw [St.modify_bind]
  have hb : buildG db (defaultKind db.g.length) ext (pyRange 0 db.logTime.length)
      { t with g := some [] } = (.ok (), { t with g := (tableOf db ext).g }) := by
    have := buildG_ok hv ext db.logTime.length 0 { t with g := some [] } (by simp)
    rw [show ((0 : ℕ) : ℤ) = 0 from rfl] at this
    rcases this with h | ⟨h0, h⟩
    · rw [h]; simp [tableOf, List.range_eq_range']
    · rw [h]; simp [tableOf, h0]
  rw [St.bind_ok hb]
  have h1 : (PyDict.keys db.rb).length = db.g.length := by rw [hv.rb]; simp [PyDict.keys]
  have h2 : (PyDict.values db.rb).length = db.g.length := by
    rw [← h1]; simp [PyDict.keys, PyDict.values]
  have h3 : (PyDict.values db.D).length = db.g.length := by
    have : (PyDict.keys db.D).length = db.g.length := by rw [hv.D]; simp [PyDict.keys]
    rw [← this]; simp [PyDict.keys, PyDict.values]
  have h4 : (PyDict.keys db.rb).filterMap (fun h => PyDict.find? db.D h) = PyDict.values db.D := by
    rw [hv.rb, ← hv.D, find?_keys _ (by rw [hv.D]; exact hv.nodup)]
  rw [St.lift_ok (mkCurve_ok hv.two h1 h2 ext), St.modify_bind, h4, mkCurve_ok hv.two h1 h3 ext]
  simp only [St.modify_apply, hv.rb, tableOf]

/-! ### The height a request stands for -/

/-- smallest and largest stored height -/
structure Range (db : DB K) (lo hi : K) : Prop where
  lo_mem : lo ∈ PyDict.keys db.g
  hi_mem : hi ∈ PyDict.keys db.g
  bounds : ∀ h ∈ PyDict.keys db.g, lo ≤ h ∧ h ≤ hi

theorem Range.max {db : DB K} {lo hi : K} (h : Range db lo hi) :
    pyMax (PyDict.keys db.g) = .ok hi := by
  obtain ⟨v, hv⟩ := pyMax_ok_of_ne_nil (List.ne_nil_of_mem h.lo_mem)
  obtain ⟨h1, h2⟩ := pyMax_eq_ok hv
  rw [hv, le_antisymm (h.bounds v h1).2 (h2 hi h.hi_mem)]

theorem Range.min {db : DB K} {lo hi : K} (h : Range db lo hi) :
    pyMin (PyDict.keys db.g) = .ok lo := by
  obtain ⟨v, hv⟩ := pyMin_ok_of_ne_nil (List.ne_nil_of_mem h.lo_mem)
  obtain ⟨h1, h2⟩ := pyMin_eq_ok hv
  rw [hv, le_antisymm (h2 lo h.lo_mem) (h.bounds v h1).1]

/-- the height after snapping to the outermost stored heights -/
def snap (lo hi H : K) : K :=
  let H1 := if |H - hi| < 1 / 1000000 then hi else H
  if |H1 - lo| < 1 / 1000000 then lo else H1

/-- whether `extrapolate` is passed on -/
def extFlag (lo hi H : K) : Bool :=
  if lo ≤ snap lo hi H ∧ snap lo hi H ≤ hi then false
  else if |lo - snap lo hi H| < 1 / 1000 then false else true

theorem snap_mem {lo hi H : K} (hle : lo ≤ hi) (h1 : lo - 1 / 1000000 < H)
    (h2 : H < hi + 1 / 1000000) : lo ≤ snap lo hi H ∧ snap lo hi H ≤ hi := by
  unfold snap
  dsimp only
  by_cases c1 : |H - hi| < 1 / 1000000
  · rw [if_pos c1]; split_ifs <;> constructor <;> linarith
  · rw [if_neg c1]
    by_cases c2 : |H - lo| < 1 / 1000000
    · rw [if_pos c2]; exact ⟨le_rfl, hle⟩
    · rw [if_neg c2]
      rw [not_lt] at c1 c2
      constructor
      · by_contra h
        rw [abs_of_nonpos (by linarith)] at c2; linarith
      · by_contra h
        rw [abs_of_nonneg (by linarith)] at c1; linarith

theorem snap_below {lo hi H : K} (hle : lo ≤ hi) (h1 : H ≤ lo - 1 / 1000000) :
    snap lo hi H = H := by
  have p : (0 : K) < 1 / 1000000 := by norm_num
  unfold snap
  dsimp only
  have e1 : ¬ |H - hi| < 1 / 1000000 := by
    rw [not_lt, abs_of_nonpos (by linarith)]; linarith
  rw [if_neg e1, if_neg]
  rw [not_lt, abs_of_nonpos (by linarith)]; linarith

theorem snap_above {lo hi H : K} (hle : lo ≤ hi) (h1 : hi + 1 / 1000000 ≤ H) :
    snap lo hi H = H := by
  have p : (0 : K) < 1 / 1000000 := by norm_num
  unfold snap
  dsimp only
  have e1 : ¬ |H - hi| < 1 / 1000000 := by
    rw [not_lt, abs_of_nonneg (by linarith)]; linarith
  rw [if_neg e1, if_neg]
  rw [not_lt, abs_of_nonneg (by linarith)]; linarith

theorem extFlag_eq {lo hi H : K} (hle : lo + 1 / 1000 ≤ hi) :
    extFlag lo hi H = true ↔ H ≤ lo - 1 / 1000 ∨ hi + 1 / 1000000 ≤ H := by
  have p : (0 : K) < 1 / 1000000 := by norm_num
  have q : (1 : K) / 1000000 ≤ 1 / 1000 := by norm_num
  have hgap := hle
  replace hle : lo ≤ hi := by linarith
  unfold extFlag
  by_cases c1 : lo - 1 / 1000000 < H
  · by_cases c2 : H < hi + 1 / 1000000
    · rw [if_pos (snap_mem hle c1 c2)]
      constructor
      · intro h; cases h
      · rintro (h | h) <;> linarith
    · rw [not_lt] at c2
      rw [snap_above hle c2, if_neg (by intro h; linarith [h.2])]
      rw [if_neg]
      · simp only [true_iff]; right; exact c2
      · rw [not_lt, abs_of_nonpos (by linarith)]; linarith
  · rw [not_lt] at c1
    rw [snap_below hle c1, if_neg (by intro h; linarith [h.1]), abs_of_nonneg (by linarith)]
    by_cases c3 : lo - H < 1 / 1000
    · rw [if_pos c3]
      constructor
      · intro h; cases h
      · rintro (h | h) <;> linarith
    · rw [if_neg c3]
      rw [not_lt] at c3
      simp only [true_iff]
      left; linarith

/-! ### Evaluating the table -/

theorem evalCurve_ok {spl : String → List K → List K → K → K} {c : Curve K} {h lo hi : K}
    (hlo : lo ∈ c.x) (hhi : hi ∈ c.x) (h1 : c.extrapolate = true ∨ lo ≤ h ∧ h ≤ hi) :
    evalCurve spl c h = .ok (spl c.kind c.x c.y h) := by
  unfold evalCurve
  rw [if_neg]
  rintro ⟨-, h2, h3⟩
  rcases h1 with h1 | ⟨h1, h1'⟩
  · rw [h1] at h2; cases h2
  · rcases h3 with h3 | h3
    · exact absurd (h3 lo hlo) (not_lt.2 h1)
    · exact absurd (h3 hi hhi) (not_lt.2 h1')

theorem evalCurve_error {spl : String → List K → List K → K → K} {c : Curve K} {h lo hi : K}
    (hk : c.kind ≠ "lagrange") (hb : ∀ v ∈ c.x, lo ≤ v ∧ v ≤ hi) (he : c.extrapolate = false)
    (h1 : h < lo ∨ hi < h) : evalCurve spl c h = .error .valueError := by
  unfold evalCurve
  rw [if_pos]
  refine ⟨hk, he, ?_⟩
  rcases h1 with h1 | h1
  · left; intro v hv; exact h1.trans_le (hb v hv).1
  · right; intro v hv; exact (hb v hv).2.trans_lt h1

/-- the answer read from a table, at height `h` -/
def answerAt (spl : String → List K → List K → K → K) (db : DB K) (h : K) (w : Bool) : Answer K where
  g := (List.range db.logTime.length).map fun i =>
    spl (defaultKind db.g.length) (PyDict.keys db.g) (column db i) h
  rb := spl (defaultKind db.g.length) (PyDict.keys db.g) (PyDict.values db.rb) h
  D := some (spl (defaultKind db.g.length) (PyDict.keys db.g) (PyDict.values db.D) h)
  Heq := h
  warned := w

theorem readTable_ok {spl : String → List K → List K → K → K} {db : DB K} {lo hi h : K}
    (hr : Range db lo hi) {ext w : Bool} (h1 : ext = true ∨ lo ≤ h ∧ h ≤ hi) :
    readTable spl db h w (tableOf db ext) = .ok (answerAt spl db h w) := by
  have he : ∀ (y : List K), evalCurve spl
      ⟨defaultKind db.g.length, PyDict.keys db.g, y, ext⟩ h =
      .ok (spl (defaultKind db.g.length) (PyDict.keys db.g) y h) := fun y =>
    evalCurve_ok (c := ⟨defaultKind db.g.length, PyDict.keys db.g, y, ext⟩) hr.lo_mem hr.hi_mem h1
  have hmap : (pyRange 0 db.logTime.length).mapM (fun i : ℤ => do
      let c ← pyGet ((List.range db.logTime.length).map fun i =>
        (⟨defaultKind db.g.length, PyDict.keys db.g, column db i, ext⟩ : Curve K)) i
      evalCurve spl c h) = .ok ((pyRange 0 db.logTime.length).map fun i : ℤ =>
        spl (defaultKind db.g.length) (PyDict.keys db.g) (column db i.toNat) h) := by
    apply mapM_ok
    intro i hi
    rw [mem_pyRange] at hi
    rw [pyGet_nonneg _ hi.1 (by simp; omega), Except.ok_bind]
    simp only [List.getElem_map, List.getElem_range]
    exact he _
  unfold readTable tableOf
  simp only
  rw [Except.ok_bind, he, Except.ok_bind, Except.ok_bind, hmap, Except.ok_bind]
  unfold answerAt
  congr 2
  · unfold pyRange
    simp [Function.comp_def]
  · rw [he]

theorem readTable_error {spl : String → List K → List K → K → K} {db : DB K} {lo hi h : K}
    (hr : Range db lo hi) {w : Bool} (h1 : h < lo ∨ hi < h) :
    readTable spl db h w (tableOf db false) = .error .valueError := by
  unfold readTable tableOf
  simp only
  rw [Except.ok_bind, evalCurve_error (defaultKind_ne _) hr.bounds rfl h1]
  rfl

/-! ### A default request -/

theorem curvesNeeded_default {n : ℕ} (hn : 2 ≤ n) :
    ∃ m, curvesNeeded (defaultKind n) = .ok m ∧ m ≤ n := by
  unfold defaultKind
  split_ifs with h1 h2
  · exact ⟨4, rfl, by omega⟩
  · exact ⟨3, rfl, by omega⟩
  · exact ⟨2, rfl, by omega⟩

/-- a default request on a database of two or more curves -/
theorem request_eq {spl : String → List K → List K → K → K} {db : DB K} {lo hi q : K}
    (hv : Valid db) (hr : Range db lo hi) (hq : q ≠ 0) (t : Table K) :
    request spl db q "default" t =
      if t.g.isNone = true then
        (readTable spl db (snap lo hi (db.B / q)) (extFlag lo hi (db.B / q))
          (tableOf db (extFlag lo hi (db.B / q))), tableOf db (extFlag lo hi (db.B / q)))
      else
        (readTable spl db (snap lo hi (db.B / q)) (extFlag lo hi (db.B / q)) t, t) := by
  have hlen : (PyDict.keys db.g).length = db.g.length := by simp [PyDict.keys]
  have h2 := hv.two
  obtain ⟨m, hm, hmn⟩ := curvesNeeded_default hv.two
  have hB : (1 / q) * db.B = db.B / q := by ring
  unfold request
  rw [St.lift_ok (pyDiv_ok hq)]
  simp only [hB]
  rw [St.lift_ok hr.max, St.lift_ok hr.min]
  simp only [hlen]
  rw [if_neg (by simp; omega), if_neg (by omega)]
  have hk : (if True then (if 5 ≤ db.g.length then "cubic" else if 3 ≤ db.g.length then "quadratic"
      else "linear") else "default") = defaultKind db.g.length := by simp [defaultKind]
  rw [hk, St.lift_ok hm, if_neg (by omega), St.lift_ok rfl, St.get_bind]
  by_cases ht : t.g.isNone = true
  · rw [if_pos ht, if_pos ht, St.bind_ok (buildTable_ok hv _ t), St.get_bind]
    rfl
  · rw [if_neg ht, if_neg ht]
    rfl

/-- The table after a sequence of requests (whether answered or not). -/
def tableAfter (spl : String → List K → List K → K → K) (db : DB K) (hist : List K) : Table K :=
  hist.foldl (fun t q => (request spl db q "default" t).2) {}

theorem tableAfter_eq {spl : String → List K → List K → K → K} {db : DB K} {lo hi : K}
    (hv : Valid db) (hr : Range db lo hi) (q : K) (hist : List K) (hq : q ≠ 0)
    (hh : ∀ r ∈ hist, r ≠ 0) :
    tableAfter spl db (q :: hist) = tableOf db (extFlag lo hi (db.B / q)) := by
  unfold tableAfter
  rw [List.foldl_cons, request_eq hv hr hq, if_pos (by simp)]
  induction hist with
  | nil => rfl
  | cons r hist ih =>
    rw [List.foldl_cons, request_eq hv hr (hh r (by simp)), if_neg (by simp [tableOf])]
    exact ih fun x hx => hh x (by simp [hx])

end Ghedt.GF
