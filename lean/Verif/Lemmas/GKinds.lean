import Verif.Lemmas.GFunction

/-! Lemmas for requests with any kind of interpolation (C108). -/

set_option linter.unusedSectionVars false

namespace Ghedt.GF

variable {K : Type} [Field K] [LinearOrder K] [IsStrictOrderedRing K]

/-- `k` is a kind that `n` curves suffice for -/
def Fits (n : ℕ) (k : String) : Prop :=
  k = "linear" ∨ k = "quadratic" ∧ 3 ≤ n ∨ k = "cubic" ∧ 4 ≤ n ∨ k = "lagrange"

theorem mkCurveK_ok {n : ℕ} {k : String} (hk : Fits n k) {x y : List K} (hx : x.length = n)
    (hy : y.length = n) (ext : Bool) : mkCurve k x y ext = .ok ⟨k, x, y, ext⟩ := by
  unfold mkCurve
  by_cases hl : k = "lagrange"
  · rw [if_pos hl, if_neg (by omega)]
  rw [if_neg hl, if_neg (by simp [hx, hy]), if_neg]
  rintro (⟨h1, h2⟩ | ⟨h1, h2⟩)
  · subst h1
    rcases hk with h | ⟨-, h⟩ | ⟨h, -⟩ | h
    · exact absurd h (by decide)
    · omega
    · exact absurd h (by decide)
    · exact absurd h (by decide)
  · subst h1
    rcases hk with h | ⟨h, -⟩ | ⟨-, h⟩ | h
    · exact absurd h (by decide)
    · exact absurd h (by decide)
    · omega
    · exact absurd h (by decide)

/-- the table built for the kind `k` and the flag `ext` -/
def tableK (db : DB K) (k : String) (ext : Bool) : Table K where
  g := some ((List.range db.logTime.length).map fun i =>
    ⟨k, PyDict.keys db.g, column db i, ext⟩)
  rb := some ⟨k, PyDict.keys db.g, PyDict.values db.rb, ext⟩
  D := some ⟨k, PyDict.keys db.g, PyDict.values db.D, ext⟩

theorem buildGK_ok {db : DB K} (hv : Valid db) {k : String} (hk : Fits db.g.length k) (ext : Bool)
    (m : ℕ) :
    ∀ (j : ℕ) (t : Table K), j + m = db.logTime.length →
    buildG db k ext (pyRange j db.logTime.length) t =
      (.ok (), { t with g := some (t.g.getD [] ++ (List.range' j m).map fun i =>
        ⟨k, PyDict.keys db.g, column db i, ext⟩) }) ∨
      (m = 0 ∧ buildG db k ext (pyRange j db.logTime.length) t = (.ok (), t)) := by
  induction m with
  | zero =>
    intro j t hj
    right
    refine ⟨rfl, ?_⟩
    rw [pyRange_empty (by omega)]; rfl
  | succ m ih =>
    intro j t hj
    left
    rw [pyRange_cons (by omega), buildG, St.lift_ok (column_ok hv (by omega)),
      St.lift_ok (mkCurveK_ok hk (by simp [PyDict.keys]) (by simp [column, PyDict.values]) ext),
      St.modify_bind]
    have e : ((j : ℤ) + 1) = ((j + 1 : ℕ) : ℤ) := by push_cast; rfl
    rw [e]
    rcases ih (j + 1) { t with g := some (t.g.getD [] ++
      [⟨k, PyDict.keys db.g, column db j, ext⟩]) } (by omega) with h | ⟨h0, h⟩
    · rw [h]
      simp [List.range'_succ]
    · rw [h]
      subst h0
      simp

theorem buildTableK_ok {db : DB K} (hv : Valid db) {k : String} (hk : Fits db.g.length k)
    (ext : Bool) (t : Table K) : buildTable db k ext t = (.ok (), tableK db k ext) := by
  unfold buildTable
  rw [St.modify_bind]
  have hb : buildG db k ext (pyRange 0 db.logTime.length)
      { t with g := some [] } = (.ok (), { t with g := (tableK db k ext).g }) := by
    have := buildGK_ok hv hk ext db.logTime.length 0 { t with g := some [] } (by simp)
    rw [show ((0 : ℕ) : ℤ) = 0 from rfl] at this
    rcases this with h | ⟨h0, h⟩
    · rw [h]; simp [tableK, List.range_eq_range']
    · rw [h]; simp [tableK, h0]
  rw [St.bind_ok hb]
  have h1 : (PyDict.keys db.rb).length = db.g.length := by rw [hv.rb]; simp [PyDict.keys]
  have h2 : (PyDict.values db.rb).length = db.g.length := by
    rw [← h1]; simp [PyDict.keys, PyDict.values]
  have h3 : (PyDict.values db.D).length = db.g.length := by
    have : (PyDict.keys db.D).length = db.g.length := by rw [hv.D]; simp [PyDict.keys]
    rw [← this]; simp [PyDict.keys, PyDict.values]
  have h4 : (PyDict.keys db.rb).filterMap (fun h => PyDict.find? db.D h) = PyDict.values db.D := by
    rw [hv.rb, ← hv.D, find?_keys _ (by rw [hv.D]; exact hv.nodup)]
  rw [St.lift_ok (mkCurveK_ok hk h1 h2 ext), St.modify_bind, h4, mkCurveK_ok hk h1 h3 ext]
  simp only [St.modify_apply, hv.rb, tableK]

theorem evalCurveK_ok {spl : String → List K → List K → K → K} {c : Curve K} {h lo hi : K}
    (hlo : lo ∈ c.x) (hhi : hi ∈ c.x)
    (h1 : c.kind = "lagrange" ∨ c.extrapolate = true ∨ lo ≤ h ∧ h ≤ hi) :
    evalCurve spl c h = .ok (spl c.kind c.x c.y h) := by
  rcases h1 with h1 | h1
  · unfold evalCurve
    rw [if_neg (fun h => h.1 h1)]
  · exact evalCurve_ok hlo hhi h1

/-- the answer read from a table of kind `k`, at height `h` -/
def answerK (spl : String → List K → List K → K → K) (db : DB K) (k : String) (h : K) (w : Bool) :
    Answer K where
  g := (List.range db.logTime.length).map fun i => spl k (PyDict.keys db.g) (column db i) h
  rb := spl k (PyDict.keys db.g) (PyDict.values db.rb) h
  D := some (spl k (PyDict.keys db.g) (PyDict.values db.D) h)
  Heq := h
  warned := w

theorem readTableK_ok {spl : String → List K → List K → K → K} {db : DB K} {lo hi h : K}
    (hr : Range db lo hi) {k : String} {ext w : Bool}
    (h1 : k = "lagrange" ∨ ext = true ∨ lo ≤ h ∧ h ≤ hi) :
    readTable spl db h w (tableK db k ext) = .ok (answerK spl db k h w) := by
  have he : ∀ (y : List K), evalCurve spl ⟨k, PyDict.keys db.g, y, ext⟩ h =
      .ok (spl k (PyDict.keys db.g) y h) := fun y =>
    evalCurveK_ok (c := ⟨k, PyDict.keys db.g, y, ext⟩) hr.lo_mem hr.hi_mem h1
  have hmap : (pyRange 0 db.logTime.length).mapM (fun i : ℤ => do
      let c ← pyGet ((List.range db.logTime.length).map fun i =>
        (⟨k, PyDict.keys db.g, column db i, ext⟩ : Curve K)) i
      evalCurve spl c h) = .ok ((pyRange 0 db.logTime.length).map fun i : ℤ =>
        spl k (PyDict.keys db.g) (column db i.toNat) h) := by
    apply mapM_ok
    intro i hi
    rw [mem_pyRange] at hi
    rw [pyGet_nonneg _ hi.1 (by simp; omega), Except.ok_bind]
    simp only [List.getElem_map, List.getElem_range]
    exact he _
  unfold readTable tableK
  simp only
  rw [Except.ok_bind, he, Except.ok_bind, Except.ok_bind, hmap, Except.ok_bind]
  unfold answerK
  congr 2
  · unfold pyRange
    simp [Function.comp_def]
  · rw [he]

theorem readTableK_error {spl : String → List K → List K → K → K} {db : DB K} {lo hi h : K}
    (hr : Range db lo hi) {k : String} (hk : k ≠ "lagrange") {w : Bool} (h1 : h < lo ∨ hi < h) :
    readTable spl db h w (tableK db k false) = .error .valueError := by
  unfold readTable tableK
  simp only
  rw [Except.ok_bind, evalCurve_error (hk : (⟨k, _, _, _⟩ : Curve K).kind ≠ _) hr.bounds rfl h1]
  rfl

end Ghedt.GF
