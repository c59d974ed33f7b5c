import Verif.Props.WholeDesign
import Verif.Lemmas.Superposition

/-!
# More load, more years (C134, C135)

C96 says which temperatures a newly made exchanger is predicted to have.  Here: how they compare for two years of loads
one of which rejects more heat in every hour, and for simulations of different length.
-/

set_option linter.unusedSectionVars false

namespace Ghedt.WholeSearch
open Real Ghedt.GHE Ghedt.Bhe Ghedt.Radial Ghedt.Whole Ghedt.Search Ghedt.Utilities Ghedt.Spec Ghedt.Network Ghedt.Design

noncomputable section

variable {p : Problem} {f : Field} {H : ℝ} {bhe : Exchanger} {s : UTube}

/-- An exchanger newly made for the field and the height, simulated hour by hour for `n` years, returns `hi` and `lo` and
stores the temperatures `T 0, T 1, …`. -/
def HourlyRun (p : Problem) (f : Field) (H : ℝ) (n : ℕ) (T : ℕ → ℝ) (hi lo : ℝ) : Prop :=
  ∃ x s', fresh p f H = .ok x ∧ Whole.simulate x.env "hourly" x.state = (.ok (hi, lo), s') ∧
    s'.HPEFT = (List.range (8760 * n)).map fun k => some (T k)

/-- The response to a constant load never falls, and with the resistance of the borehole it is never negative. -/
def Rising (p : Problem) (f : Field) (H : ℝ) (bhe : Exchanger) (s : UTube) : Prop :=
  ∀ rad lt gs c, calcSts p.solve (radialTube p.ext s) none false p.fuel = .ok (rad, lt, gs) →
    p.gf (massFlow p f) p.media f H p.borehole.rb p.borehole.D = .ok c →
    (points lt gs c).Pairwise (fun a b => a.2 ≤ b.2) ∧
      ∀ q ∈ points lt gs c, 0 ≤ q.2 / (2 * π * p.media.soil.k) + effectiveRb p.ext bhe

/-- Within its first hour a load changes the mean temperature of the fluid by no less than half the difference of the
temperatures at which the fluid enters and leaves the field. -/
def Responsive (p : Problem) (f : Field) (H : ℝ) (bhe : Exchanger) (s : UTube) : Prop :=
  ∀ rad lt gs c, calcSts p.solve (radialTube p.ext s) none false p.fuel = .ok (rad, lt, gs) →
    p.gf (massFlow p f) p.media f H p.borehole.rb p.borehole.D = .ok c →
    ∀ y, OnPolyline (points lt gs c) (log (3600 / charTime s)) y →
      1 / (2 * massFlow p f * p.media.fluid.cp) ≤ (y / (2 * π * p.media.soil.k) + effectiveRb p.ext bhe) / H

/-! ## one run -/

theorem soil_pos (h : Usable p f H bhe s) : 0 < p.media.soil.k := by
  have h1 := h.sound.kSoil
  change 0 < s.soil.k at h1
  rwa [(soil_made h.exchanger h.converts).2.2] at h1

theorem points_ordered (h : Usable p f H bhe s) (hs : Seam s) {rad : Radial} {lt gs c : List ℝ}
    (hsts : calcSts p.solve (radialTube p.ext s) none false p.fuel = .ok (rad, lt, gs))
    (hc : p.gf (massFlow p f) p.media f H p.borehole.rb p.borehole.D = .ok c) :
    (points lt gs c).Pairwise (fun a b => a.1 < b.1) := by
  have := points_increasing h hs rad lt gs c hsts hc
  rwa [List.pairwise_map] at this

/-- the load of hour `i`, the year being repeated; positive for heat rejected -/
def rejected (l : List ℝ) (i : ℕ) : ℝ := if i = 0 then 0 else -(l.getD ((i - 1) % 8760) 0)

theorem rejected_succ (l : List ℝ) (k : ℕ) : rejected l (k + 1) = -(l.getD (k % 8760) 0) := by
  unfold rejected
  rw [if_neg (Nat.succ_ne_zero k)]
  rfl

theorem rejected_le {l l' : List ℝ} (hl : l.length = 8760) (hl' : l'.length = 8760)
    (h : ∀ (k : ℕ) a b, l[k]? = some a → l'[k]? = some b → b ≤ a) (i : ℕ) : rejected l i ≤ rejected l' i := by
  cases i with
  | zero => exact le_rfl
  | succ k =>
    rw [rejected_succ, rejected_succ]
    have hk : k % 8760 < 8760 := Nat.mod_lt _ (by norm_num)
    have h1 : l[k % 8760]? = some l[k % 8760] := List.getElem?_eq_getElem (by omega)
    have h2 : l'[k % 8760]? = some l'[k % 8760] := List.getElem?_eq_getElem (by omega)
    have := h _ _ _ h1 h2
    rw [List.getD_eq_getElem?_getD, List.getD_eq_getElem?_getD, h1, h2]
    simpa using this

theorem rejected_nonneg {l : List ℝ} (h : ∀ a ∈ l, a ≤ 0) (i : ℕ) : 0 ≤ rejected l i := by
  cases i with
  | zero => exact le_rfl
  | succ k =>
    rw [rejected_succ, List.getD_eq_getElem?_getD]
    cases hk : l[k % 8760]? with
    | none => simp
    | some a => simpa using h a (List.mem_of_getElem? hk)

/-- the numbers the formula of the temperatures needs -/
def siteOf (p : Problem) (f : Field) (H : ℝ) (bhe : Exchanger) : Site :=
  ⟨f.length, H, p.media.soil.k, p.media.soil.ugt, effectiveRb p.ext bhe, massFlow p f, p.media.fluid.cp⟩

theorem hourly_run (h : Usable p f H bhe s) (hs : Seam s) (n : ℕ) (hn : 1 ≤ n)
    (hmonths : p.endMonth - p.startMonth + 1 = 12 * n) (hend : 3600 * (8760 * n) ≤ charTime s * exp (3003 / 1000)) :
    ∃ hi lo rad lt gs c G, calcSts p.solve (radialTube p.ext s) none false p.fuel = .ok (rad, lt, gs) ∧
      p.gf (massFlow p f) p.media f H p.borehole.rb p.borehole.D = .ok c ∧
      (∀ i : ℕ, 1 ≤ i → i ≤ 8760 * n → OnPolyline (points lt gs c) (log (3600 * i / charTime s)) (G i)) ∧
      HourlyRun p f H n (fun k => exitTemp (siteOf p f H bhe) G (rejected p.hourly) (fun i => i) (k + 1)) hi lo := by
  obtain ⟨x, hi, lo, s', rad, lt, gs, c, G, h1, h2, h3, h4, h5, h6, -⟩ := C96_hourly h hs n hn hmonths hend
    (rejected p.hourly) rfl (by
      intro k
      rw [rejected_succ, neg_neg, List.getD_eq_getElem?_getD]
      have hk : k % 8760 < p.hourly.length := by rw [h.year]; exact Nat.mod_lt _ (by norm_num)
      rw [List.getElem?_eq_getElem hk]
      rfl)
  exact ⟨hi, lo, rad, lt, gs, c, G, h3, h4, h5, x, s', h1, h2, h6⟩

/-- the two numbers returned are the extremes of the temperatures stored -/
theorem HourlyRun.extremes (h : Usable p f H bhe s) (hs : Seam s) {n : ℕ} (hn : 1 ≤ n)
    (hmonths : p.endMonth - p.startMonth + 1 = 12 * n) (hend : 3600 * (8760 * n) ≤ charTime s * exp (3003 / 1000))
    {T : ℕ → ℝ} {hi lo : ℝ} (hr : HourlyRun p f H n T hi lo) :
    ((∃ k < 8760 * n, T k = hi) ∧ ∀ k < 8760 * n, T k ≤ hi) ∧ (∃ k < 8760 * n, T k = lo) ∧ ∀ k < 8760 * n, lo ≤ T k := by
  obtain ⟨x, s', hx, hsim, hT⟩ := hr
  obtain ⟨x', hi', lo', s1, rad, lt, gs, c, G, h1, h2, h3, h4, h5, h6, ⟨m1, m2⟩, m3, m4⟩ := C96_hourly h hs n hn hmonths hend
    (rejected p.hourly) rfl (by
      intro k
      rw [rejected_succ, neg_neg, List.getD_eq_getElem?_getD]
      have hk : k % 8760 < p.hourly.length := by rw [h.year]; exact Nat.mod_lt _ (by norm_num)
      rw [List.getElem?_eq_getElem hk]
      rfl)
  rw [hx] at h1
  cases h1
  rw [hsim] at h2
  cases h2
  rw [hT] at m1 m2 m3 m4
  have mem : ∀ k < 8760 * n, some (T k) ∈ (List.range (8760 * n)).map fun k => some (T k) :=
    fun k hk => List.mem_map.2 ⟨k, List.mem_range.2 hk, rfl⟩
  refine ⟨⟨?_, fun k hk => m2 _ (mem k hk)⟩, ?_, fun k hk => m4 _ (mem k hk)⟩
  · obtain ⟨k, hk, e⟩ := List.mem_map.1 m1
    exact ⟨k, List.mem_range.1 hk, Option.some.inj e⟩
  · obtain ⟨k, hk, e⟩ := List.mem_map.1 m3
    exact ⟨k, List.mem_range.1 hk, Option.some.inj e⟩

/-- a run is determined by the problem, the field and the height -/
theorem HourlyRun.unique {n : ℕ} {T T' : ℕ → ℝ} {hi lo hi' lo' : ℝ} (h : HourlyRun p f H n T hi lo)
    (h' : HourlyRun p f H n T' hi' lo') : hi = hi' ∧ lo = lo' ∧ ∀ k < 8760 * n, T k = T' k := by
  obtain ⟨x, s', hx, hsim, hT⟩ := h
  obtain ⟨x', s1, hx', hsim', hT'⟩ := h'
  rw [hx] at hx'
  cases hx'
  rw [hsim] at hsim'
  cases hsim'
  refine ⟨rfl, rfl, fun k hk => ?_⟩
  rw [hT] at hT'
  have := congrArg (fun l : List (Num ℝ) => l[k]?) hT'
  simpa [hk] using this

/-- the response at whole hours does not fall and is not negative -/
theorem rising_hours (h : Usable p f H bhe s) (hs : Seam s) (hr : Rising p f H bhe s) {rad : Radial} {lt gs c : List ℝ}
    (hsts : calcSts p.solve (radialTube p.ext s) none false p.fuel = .ok (rad, lt, gs))
    (hc : p.gf (massFlow p f) p.media f H p.borehole.rb p.borehole.D = .ok c) {G : ℝ → ℝ} {n : ℕ}
    (hG : ∀ i : ℕ, 1 ≤ i → i ≤ n → OnPolyline (points lt gs c) (log (3600 * i / charTime s)) (G i)) :
    (∀ i j : ℕ, 1 ≤ i → i ≤ j → j ≤ n → G i ≤ G j) ∧
      ∀ i : ℕ, 1 ≤ i → i ≤ n → 0 ≤ G i / (2 * π * p.media.soil.k) + effectiveRb p.ext bhe := by
  obtain ⟨r1, r2⟩ := hr rad lt gs c hsts hc
  have hts : 0 < charTime s := ts_pos h.sound 20
  have hk := soil_pos h
  have hpi := pi_pos
  have hK : 0 < 2 * π * p.media.soil.k := by positivity
  refine ⟨fun i j h1 h2 h3 => ?_, fun i h1 h2 => ?_⟩
  · refine polyline_mono (points_ordered h hs hsts hc) r1 (hG i h1 (h2.trans h3)) (hG j (h1.trans h2) h3) ?_
    have : (0 : ℝ) < i := by exact_mod_cast h1
    have : (i : ℝ) ≤ j := by exact_mod_cast h2
    apply log_le_log (by positivity)
    gcongr
  · have : -(2 * π * p.media.soil.k * effectiveRb p.ext bhe) ≤ G i := by
      refine polyline_ge (fun q hq => ?_) (hG i h1 h2)
      have := r2 q hq
      rw [← neg_le_iff_add_nonneg, le_div_iff₀ hK] at this
      linarith
    rw [← neg_le_iff_add_nonneg, le_div_iff₀ hK]
    linarith

/-- how the temperatures of two runs with the same response compare, in terms of the formula -/
theorem formula_mono (h : Usable p f H bhe s) (hs : Seam s) (hr : Rising p f H bhe s) {rad : Radial} {lt gs c : List ℝ}
    (hsts : calcSts p.solve (radialTube p.ext s) none false p.fuel = .ok (rad, lt, gs))
    (hc : p.gf (massFlow p f) p.media f H p.borehole.rb p.borehole.D = .ok c) {G : ℝ → ℝ} {n : ℕ}
    (hG : ∀ i : ℕ, 1 ≤ i → i ≤ n → OnPolyline (points lt gs c) (log (3600 * i / charTime s)) (G i)) {Q Q' : ℕ → ℝ}
    (h0 : Q 0 = Q' 0) (hQ : ∀ i, Q i ≤ Q' i) {k : ℕ} (hk : k < n) :
    exitTemp (siteOf p f H bhe) G Q (fun i => i) (k + 1) + (Q' (k + 1) - Q (k + 1)) / f.length *
      ((G 1 / (2 * π * p.media.soil.k) + effectiveRb p.ext bhe) / H - 1 / (2 * massFlow p f * p.media.fluid.cp)) ≤
      exitTemp (siteOf p f H bhe) G Q' (fun i => i) (k + 1) := by
  have hN : (0 : ℝ) < f.length := by exact_mod_cast List.length_pos_iff.2 h.field
  obtain ⟨m1, m2⟩ := rising_hours h hs hr hsts hc hG
  have := exitTemp_mono (c := siteOf p f H bhe) (G := G) (Q := Q) (Q' := Q') (t := fun i => (i : ℝ)) (i := k) hN h.height
    (soil_pos h) h0 (fun j _ => hQ j) (by
      intro j hj
      have e1 : ((k + 1 : ℕ) : ℝ) - ((j + 1 : ℕ) : ℝ) = ((k - j : ℕ) : ℝ) := by
        rw [Nat.cast_sub (by omega)]; push_cast; ring
      have e2 : ((k + 1 : ℕ) : ℝ) - (j : ℝ) = ((k + 1 - j : ℕ) : ℝ) := by
        rw [Nat.cast_sub (by omega)]
      rw [e1, e2]
      exact m1 _ _ (by omega) (by omega) (by omega))
  rw [show ((k + 1 : ℕ) : ℝ) - (k : ℝ) = 1 by push_cast; ring] at this
  exact this

/-! ## C134 — more heat rejected -/

/-- C134: two years of loads, the second of which in every hour rejects at least as much heat as the first (or extracts at
most as much; heat extracted counts positive).  If the response of the field rises, both simulations return, and at every
hour the mean temperature of the fluid, which is the temperature stored plus half of the difference the load makes between
the two ends of the exchanger, is at least as high for the second.  So is the temperature stored, at an hour with the same
load in both; and at every hour, as well as the two temperatures returned, if the field is responsive. -/
theorem C134_hours (h : Usable p f H bhe s) (l : List ℝ) (h' : Usable { p with hourly := l } f H bhe s) (hs : Seam s)
    (n : ℕ) (hn : 1 ≤ n) (hmonths : p.endMonth - p.startMonth + 1 = 12 * n)
    (hend : 3600 * (8760 * n) ≤ charTime s * exp (3003 / 1000)) (hr : Rising p f H bhe s)
    (hl : ∀ (k : ℕ) a b, p.hourly[k]? = some a → l[k]? = some b → b ≤ a) :
    ∃ T hi lo T' hi' lo', HourlyRun p f H n T hi lo ∧ HourlyRun { p with hourly := l } f H n T' hi' lo' ∧
      (∀ k < 8760 * n, ∀ a b, p.hourly[k % 8760]? = some a → l[k % 8760]? = some b →
        T k + -a / f.length / (2 * massFlow p f * p.media.fluid.cp) ≤
          T' k + -b / f.length / (2 * massFlow p f * p.media.fluid.cp) ∧ (a = b → T k ≤ T' k)) ∧
      (Responsive p f H bhe s → (∀ k < 8760 * n, T k ≤ T' k) ∧ hi ≤ hi' ∧ lo ≤ lo') := by
  obtain ⟨hi, lo, rad, lt, gs, c, G, a1, a2, a3, a4⟩ := hourly_run h hs n hn hmonths hend
  obtain ⟨hi', lo', rad', lt', gs', c', G', b1, b2, b3, b4⟩ := hourly_run h' hs n hn hmonths hend
  have a1' := a1
  rw [show calcSts p.solve (radialTube p.ext s) none false p.fuel = _ from b1] at a1'
  cases a1'
  have a2' := a2
  rw [show p.gf (massFlow p f) p.media f H p.borehole.rb p.borehole.D = _ from b2] at a2'
  cases a2'
  have hG : ∀ i : ℕ, 1 ≤ i → i ≤ 8760 * n → G' i = G i := fun i i0 i1 =>
    polyline_unique (points_ordered h hs a1 a2) (b3 i i0 i1) (a3 i i0 i1)
  have b4 : HourlyRun { p with hourly := l } f H n
      (fun k => exitTemp (siteOf p f H bhe) G (rejected l) (fun i => i) (k + 1)) hi' lo' := by
    obtain ⟨x, s', x1, x2, x3⟩ := b4
    refine ⟨x, s', x1, x2, ?_⟩
    rw [x3]
    refine List.map_congr_left fun k hk => congrArg some ?_
    have hk := List.mem_range.1 hk
    change exitTemp (siteOf p f H bhe) G' (rejected l) _ _ = _
    refine exitTemp_congr (fun _ _ => rfl) fun j hj => ?_
    rw [show ((k + 1 : ℕ) : ℝ) - (j : ℝ) = ((k + 1 - j : ℕ) : ℝ) by rw [Nat.cast_sub (by omega)]]
    exact hG _ (by omega) (by omega)
  have hQ := rejected_le h.year h'.year hl
  have hN : (0 : ℝ) < f.length := by exact_mod_cast List.length_pos_iff.2 h.field
  have key := fun k (hk : k < 8760 * n) => formula_mono h hs hr a1 a2 a3 (Q := rejected p.hourly) (Q' := rejected l) rfl hQ hk
  have h8 : 1 ≤ 8760 * n := by omega
  have pos := (rising_hours h hs hr a1 a2 a3).2 1 le_rfl h8
  rw [Nat.cast_one] at pos
  refine ⟨_, hi, lo, _, hi', lo', a4, b4, ?_, ?_⟩
  · intro k hk a b ha hb
    have e1 : rejected p.hourly (k + 1) = -a := by
      rw [rejected_succ, List.getD_eq_getElem?_getD, ha]; rfl
    have e2 : rejected l (k + 1) = -b := by
      rw [rejected_succ, List.getD_eq_getElem?_getD, hb]; rfl
    have hab : b ≤ a := hl _ _ _ ha hb
    have := key k hk
    rw [e1, e2] at this
    constructor
    · have hp : 0 ≤ (-b - -a) / f.length * ((G 1 / (2 * π * p.media.soil.k) + effectiveRb p.ext bhe) / H) :=
        mul_nonneg (div_nonneg (by linarith) hN.le) (div_nonneg pos h.height.le)
      rw [mul_sub, sub_div, sub_mul, sub_mul] at this
      rw [sub_div, sub_mul] at hp
      have e3 : ∀ z : ℝ, z / f.length / (2 * massFlow p f * p.media.fluid.cp) =
          z / f.length * (1 / (2 * massFlow p f * p.media.fluid.cp)) := fun z => by ring
      rw [e3, e3]
      linarith
    · rintro rfl
      simpa using this
  · intro hres
    have hres := hres rad lt gs c a1 a2 (G 1) (by
      have := a3 1 le_rfl h8
      rwa [Nat.cast_one, mul_one] at this)
    have hT : ∀ k < 8760 * n, exitTemp (siteOf p f H bhe) G (rejected p.hourly) (fun i => i) (k + 1) ≤
        exitTemp (siteOf p f H bhe) G (rejected l) (fun i => i) (k + 1) := by
      intro k hk
      refine le_trans ?_ (key k hk)
      have : 0 ≤ (rejected l (k + 1) - rejected p.hourly (k + 1)) / f.length :=
        div_nonneg (sub_nonneg.2 (hQ _)) hN.le
      have := mul_nonneg this (sub_nonneg.2 hres)
      linarith
    obtain ⟨⟨⟨i, i1, i2⟩, i3⟩, ⟨j, j1, j2⟩, j3⟩ := HourlyRun.extremes h hs hn hmonths hend a4
    obtain ⟨⟨⟨i', i1', i2'⟩, i3'⟩, ⟨j', j1', j2'⟩, j3'⟩ := HourlyRun.extremes h' hs hn hmonths hend b4
    refine ⟨hT, ?_, ?_⟩
    · rw [← i2]
      exact (hT i i1).trans (i3' i i1)
    · rw [← j2']
      exact (j3 j' j1').trans (hT j' j1')

/-- C134: if heat is only rejected, the mean temperature of the fluid is never below that of the ground; and neither is any
temperature predicted, if the field is responsive.  If heat is only extracted, they are never above. -/
theorem C134_ground (h : Usable p f H bhe s) (hs : Seam s) (n : ℕ) (hn : 1 ≤ n)
    (hmonths : p.endMonth - p.startMonth + 1 = 12 * n)
    (hend : 3600 * (8760 * n) ≤ charTime s * exp (3003 / 1000)) (hr : Rising p f H bhe s) :
    ∃ T hi lo, HourlyRun p f H n T hi lo ∧
      ((∀ a ∈ p.hourly, a ≤ 0) → (∀ k < 8760 * n, ∀ a, p.hourly[k % 8760]? = some a →
        p.media.soil.ugt ≤ T k + -a / f.length / (2 * massFlow p f * p.media.fluid.cp)) ∧
        (Responsive p f H bhe s → p.media.soil.ugt ≤ lo)) ∧
      ((∀ a ∈ p.hourly, 0 ≤ a) → (∀ k < 8760 * n, ∀ a, p.hourly[k % 8760]? = some a →
        T k + -a / f.length / (2 * massFlow p f * p.media.fluid.cp) ≤ p.media.soil.ugt) ∧
        (Responsive p f H bhe s → hi ≤ p.media.soil.ugt)) := by
  obtain ⟨hi, lo, rad, lt, gs, c, G, a1, a2, a3, a4⟩ := hourly_run h hs n hn hmonths hend
  have hN : (0 : ℝ) < f.length := by exact_mod_cast List.length_pos_iff.2 h.field
  have h8 : 1 ≤ 8760 * n := by omega
  have pos := (rising_hours h hs hr a1 a2 a3).2 1 le_rfl h8
  rw [Nat.cast_one] at pos
  have hres : Responsive p f H bhe s → 1 / (2 * massFlow p f * p.media.fluid.cp) ≤
      (G 1 / (2 * π * p.media.soil.k) + effectiveRb p.ext bhe) / H := fun hres => hres rad lt gs c a1 a2 (G 1) (by
    have := a3 1 le_rfl h8
    rwa [Nat.cast_one, mul_one] at this)
  have e1 : ∀ k a, p.hourly[k % 8760]? = some a → rejected p.hourly (k + 1) = -a := by
    intro k a ha
    rw [rejected_succ, List.getD_eq_getElem?_getD, ha]; rfl
  have e3 : ∀ z : ℝ, z / f.length / (2 * massFlow p f * p.media.fluid.cp) =
      z / f.length * (1 / (2 * massFlow p f * p.media.fluid.cp)) := fun z => by ring
  obtain ⟨⟨⟨i, i1, i2⟩, i3⟩, ⟨j, j1, j2⟩, j3⟩ := HourlyRun.extremes h hs hn hmonths hend a4
  refine ⟨_, hi, lo, a4, ?_, ?_⟩
  · intro hneg
    have hQ := rejected_nonneg hneg
    have key := fun k (hk : k < 8760 * n) => formula_mono h hs hr a1 a2 a3 (Q := fun _ => 0) (Q' := rejected p.hourly) rfl hQ hk
    simp only [exitTemp_zero, sub_zero] at key
    change ∀ k < 8760 * n, p.media.soil.ugt + _ ≤ _ at key
    constructor
    · intro k hk a ha
      have := key k hk
      rw [e1 k a ha] at this
      have hp : 0 ≤ -a / f.length * ((G 1 / (2 * π * p.media.soil.k) + effectiveRb p.ext bhe) / H) := by
        have := hneg a (List.mem_of_getElem? ha)
        exact mul_nonneg (div_nonneg (by linarith) hN.le) (div_nonneg pos h.height.le)
      rw [e3]
      rw [mul_sub] at this
      linarith
    · intro hr'
      rw [← j2]
      refine le_trans ?_ (key j j1)
      have := mul_nonneg (div_nonneg (hQ (j + 1)) hN.le) (sub_nonneg.2 (hres hr'))
      linarith
  · intro hneg
    have hQ : ∀ i, rejected p.hourly i ≤ 0 := by
      intro i
      cases i with
      | zero => exact le_rfl
      | succ k =>
        rw [rejected_succ, List.getD_eq_getElem?_getD]
        cases hk : p.hourly[k % 8760]? with
        | none => simp
        | some a => simpa using hneg a (List.mem_of_getElem? hk)
    have key := fun k (hk : k < 8760 * n) => formula_mono h hs hr a1 a2 a3 (Q := rejected p.hourly) (Q' := fun _ => 0) rfl hQ hk
    simp only [exitTemp_zero, zero_sub] at key
    change ∀ k < 8760 * n, _ ≤ p.media.soil.ugt at key
    constructor
    · intro k hk a ha
      have := key k hk
      rw [e1 k a ha] at this
      have hp : 0 ≤ a / f.length * ((G 1 / (2 * π * p.media.soil.k) + effectiveRb p.ext bhe) / H) := by
        have := hneg a (List.mem_of_getElem? ha)
        exact mul_nonneg (div_nonneg (by linarith) hN.le) (div_nonneg pos h.height.le)
      rw [e3]
      rw [mul_sub, neg_neg] at this
      rw [neg_div, neg_mul]
      linarith
    · intro hr'
      rw [← i2]
      refine le_trans ?_ (key i i1)
      have := mul_nonneg (div_nonneg (neg_nonneg.2 (hQ (i + 1))) hN.le) (sub_nonneg.2 (hres hr'))
      linarith

/-- C134: if heat is only rejected, every hour is at least as warm as the same hour of the year before; so the highest
temperature is that of some hour of the last year, and the lowest that of some hour of the first. -/
theorem C134_years (h : Usable p f H bhe s) (hs : Seam s) (n : ℕ) (hn : 1 ≤ n)
    (hmonths : p.endMonth - p.startMonth + 1 = 12 * n)
    (hend : 3600 * (8760 * n) ≤ charTime s * exp (3003 / 1000)) (hr : Rising p f H bhe s) (hneg : ∀ a ∈ p.hourly, a ≤ 0) :
    ∃ T hi lo, HourlyRun p f H n T hi lo ∧ (∀ k, k + 8760 < 8760 * n → T k ≤ T (k + 8760)) ∧
      (∃ k, 8760 * (n - 1) ≤ k ∧ k < 8760 * n ∧ T k = hi) ∧ ∃ k < 8760, T k = lo := by
  obtain ⟨hi, lo, rad, lt, gs, c, G, a1, a2, a3, a4⟩ := hourly_run h hs n hn hmonths hend
  have hstep : ∀ k, k + 8760 < 8760 * n → exitTemp (siteOf p f H bhe) G (rejected p.hourly) (fun i => i) (k + 1) ≤
      exitTemp (siteOf p f H bhe) G (rejected p.hourly) (fun i => i) (k + 8760 + 1) := by
    intro k hk
    set Q : ℕ → ℝ := fun i => if i ≤ 8760 then 0 else rejected p.hourly (i - 8760) with hQd
    have hper : ∀ i, rejected p.hourly (i + 1 + 8760) = rejected p.hourly (i + 1) := by
      intro i
      rw [show i + 1 + 8760 = (i + 8760) + 1 by omega, rejected_succ, rejected_succ, Nat.add_mod_right]
    have hQ : ∀ i, Q i ≤ rejected p.hourly i := by
      intro i
      rw [hQd]
      dsimp only
      split_ifs with hi
      · exact rejected_nonneg hneg i
      · obtain ⟨j, rfl⟩ : ∃ j, i = j + 1 + 8760 := ⟨i - 8761, by omega⟩
        rw [hper, Nat.add_sub_cancel]
    have key := formula_mono h hs hr a1 a2 a3 (Q := Q) (Q' := rejected p.hourly) (by simp [hQd, rejected]) hQ hk
    have e0 : Q (k + 8760 + 1) = rejected p.hourly (k + 8760 + 1) := by
      rw [hQd]
      dsimp only
      rw [if_neg (by omega), show k + 8760 + 1 = k + 1 + 8760 by omega, hper, Nat.add_sub_cancel]
    rw [e0, sub_self, zero_div, zero_mul, add_zero] at key
    refine le_trans (le_of_eq ?_) key
    have e1 : ∀ i, Q (i + 8760) = rejected p.hourly i := by
      intro i
      rw [hQd]
      dsimp only
      split_ifs with hi
      · obtain rfl : i = 0 := by omega
        rfl
      · rw [Nat.add_sub_cancel]
    have e2 : ∀ i ≤ 8760, Q i = 0 := fun i hi => if_pos hi
    have hw : wallRise (siteOf p f H bhe) G Q (fun i => i) (k + 8760 + 1) =
        wallRise (siteOf p f H bhe) G (rejected p.hourly) (fun i => i) (k + 1) := by
      unfold wallRise
      rw [show k + 8760 + 1 = 8760 + (k + 1) by omega, Finset.sum_range_add, Finset.sum_eq_zero, zero_add]
      · refine Finset.sum_congr rfl fun j _ => ?_
        rw [show 8760 + j + 1 = j + 1 + 8760 by omega, show 8760 + j = j + 8760 by omega, e1, e1]
        rw [show ((8760 + (k + 1) : ℕ) : ℝ) - ((j + 8760 : ℕ) : ℝ) = ((k + 1 : ℕ) : ℝ) - (j : ℝ) by push_cast; ring]
      · intro j hj
        have hj := Finset.mem_range.1 hj
        rw [e2 j (by omega), e2 (j + 1) (by omega)]
        simp
    unfold exitTemp
    rw [hw, show k + 8760 + 1 = k + 1 + 8760 by omega, e1]
  obtain ⟨⟨⟨i, i1, i2⟩, i3⟩, ⟨j, j1, j2⟩, j3⟩ := HourlyRun.extremes h hs hn hmonths hend a4
  refine ⟨_, hi, lo, a4, hstep, ?_, ?_⟩
  · -- go up year by year
    have up : ∀ m i, i < 8760 * n → i + 8760 * m = 8760 * (n - 1) + i % 8760 →
        exitTemp (siteOf p f H bhe) G (rejected p.hourly) (fun i => i) (i + 1) ≤
          exitTemp (siteOf p f H bhe) G (rejected p.hourly) (fun i => i) (8760 * (n - 1) + i % 8760 + 1) := by
      intro m
      induction m with
      | zero =>
        intro i _ e
        rw [← e, Nat.mul_zero, Nat.add_zero]
      | succ m ih =>
        intro i hi e
        have hm := Nat.mod_lt i (show 0 < 8760 by norm_num)
        have := ih (i + 8760) (by omega) (by rw [Nat.add_mod_right]; omega)
        rw [Nat.add_mod_right] at this
        exact (hstep i (by omega)).trans this
    have hm := Nat.mod_lt i (show 0 < 8760 by norm_num)
    have hd := Nat.div_add_mod i 8760
    refine ⟨8760 * (n - 1) + i % 8760, by omega, by omega, le_antisymm (i3 _ (by omega)) ?_⟩
    rw [← i2]
    exact up (n - 1 - i / 8760) i i1 (by
      have : i / 8760 ≤ n - 1 := by
        have := Nat.div_lt_of_lt_mul i1
        omega
      obtain ⟨d, hd'⟩ := Nat.exists_eq_add_of_le this
      rw [hd', Nat.add_sub_cancel_left]
      omega)
  · have down : ∀ m r, r + 8760 * m < 8760 * n → r < 8760 →
        exitTemp (siteOf p f H bhe) G (rejected p.hourly) (fun i => i) (r + 1) ≤
          exitTemp (siteOf p f H bhe) G (rejected p.hourly) (fun i => i) (r + 8760 * m + 1) := by
      intro m
      induction m with
      | zero => intro r _ _; rw [Nat.mul_zero, Nat.add_zero]
      | succ m ih =>
        intro r h1 h2
        refine (ih r (by omega) h2).trans ?_
        have h3 : r + 8760 * m + 8760 < 8760 * n := by linarith
        have := hstep (r + 8760 * m) h3
        rwa [show r + 8760 * m + 8760 = r + 8760 * (m + 1) by omega] at this
    have hm := Nat.mod_lt j (show 0 < 8760 by norm_num)
    have hd := Nat.div_add_mod j 8760
    refine ⟨j % 8760, hm, le_antisymm ?_ (j3 _ (by omega))⟩
    have := down (j / 8760) (j % 8760) (by omega) hm
    rw [show j % 8760 + 8760 * (j / 8760) = j by omega] at this
    rw [← j2]
    exact this

/-- no point of the curve is below minus the resistance of the equivalent tube -/
theorem points_ge (h : Usable p f H bhe s) (hs : Seam s) (hsol : ExactSolver p.solve) {rad : Radial} {lt gs c : List ℝ}
    (hsts : calcSts p.solve (radialTube p.ext s) none false p.fuel = .ok (rad, lt, gs))
    (hseam : ∀ q ∈ lt.zip gs, q.1 ≤ -(85 / 10) → ∀ y ∈ c, q.2 ≤ y) :
    gs.Pairwise (· < ·) ∧ gs.length = lt.length ∧ ∀ q ∈ points lt gs c, -effectiveRb p.ext (.single s) ≤ q.2 / (2 * π * p.media.soil.k) := by
  obtain ⟨res, hres⟩ := calcSts_stable (ext := p.ext) (solve := p.solve) (fuel := p.fuel) h.sound h.solver.sized h.steps
  have e0 := hres p.fuel le_rfl
  rw [hsts] at e0
  cases e0
  obtain ⟨N, r1, lt1, g1, -, h1, h2, h3, h4⟩ := C72_increasing h.sound hsol none
  have e1 := h1 (max N p.fuel) (le_max_left _ _)
  rw [hres _ (le_max_right _ _)] at e1
  cases e1
  obtain ⟨N2, r2, lt2, g2, k0, k1, k2, k3, k4, -⟩ := C73_times h.sound h.solver.sized none
  have e2 := k1 (max N2 p.fuel) (le_max_left _ _)
  rw [hres _ (le_max_right _ _)] at e2
  cases e2
  have hk := soil_pos h
  have hpi := pi_pos
  have hK : 0 < 2 * π * p.media.soil.k := by positivity
  have hks : (radialTube p.ext s).kSoil = p.media.soil.k := by
    show s.soil.k = _
    rw [(soil_made h.exchanger h.converts).2.2]
  have low : ∀ y ∈ gs, -effectiveRb p.ext (.single s) ≤ y / (2 * π * p.media.soil.k) := by
    intro y hy
    have := h4 y hy
    rw [hks] at this
    have hR : (radialTube p.ext s).Rb = effectiveRb p.ext (.single s) := rfl
    rw [hR] at this
    rw [le_div_iff₀ hK]
    linarith
  -- there is a short-time sample before the seam
  have hts : 0 < charTime s := ts_pos h.sound 20
  obtain ⟨y0, hy0⟩ : ∃ y0, gs[0]? = some y0 := ⟨_, List.getElem?_eq_getElem (by omega)⟩
  have hl0 := k4 0 (by omega)
  have hq0 : (log ((1 / 10 ^ 12 + 120 * ((0 : ℕ) : ℝ)) / charTime s), y0) ∈ lt.zip gs :=
    List.mem_of_getElem? (i := 0) (List.getElem?_zip_eq_some.2 ⟨hl0, hy0⟩)
  have hq1 : log ((1 / 10 ^ 12 + 120 * ((0 : ℕ) : ℝ)) / charTime s) ≤ -(85 / 10) := by
    rw [log_le_iff_le_exp (by positivity), div_le_iff₀ hts, Nat.cast_zero, mul_zero, add_zero, mul_comm]
    exact hs.1.le
  refine ⟨h3, by omega, fun q hq => ?_⟩
  rcases List.mem_append.1 hq with hq | hq
  · exact low _ (List.of_mem_zip (a := q.1) (b := q.2) (List.mem_of_mem_filter hq)).2
  · have h5 := hseam _ hq0 hq1 _ (List.of_mem_zip (a := q.1) (b := q.2) hq).2
    exact (low y0 (List.mem_of_getElem? hy0)).trans (div_le_div_of_nonneg_right h5 hK.le)

/-- C134: when the response rises.  With an exact solver it is enough that the g-function computed for the field does not
fall and is not below the short-time response that precedes it, and that the equivalent tube has no greater resistance than
the exchanger it stands for. -/
theorem C134_rising (h : Usable p f H bhe s) (hs : Seam s) (hsol : ExactSolver p.solve)
    (hcurve : ∀ c, p.gf (massFlow p f) p.media f H p.borehole.rb p.borehole.D = .ok c → c.Pairwise (· ≤ ·))
    (hseam : ∀ rad lt gs c, calcSts p.solve (radialTube p.ext s) none false p.fuel = .ok (rad, lt, gs) →
      p.gf (massFlow p f) p.media f H p.borehole.rb p.borehole.D = .ok c →
      ∀ q ∈ lt.zip gs, q.1 ≤ -(85 / 10) → ∀ y ∈ c, q.2 ≤ y)
    (hRb : effectiveRb p.ext (.single s) ≤ effectiveRb p.ext bhe) : Rising p f H bhe s := by
  intro rad lt gs c hsts hc
  have hseam := hseam rad lt gs c hsts hc
  obtain ⟨h1, h2, h3⟩ := points_ge h hs hsol hsts hseam
  obtain ⟨c', hc', hcl⟩ := h.curve
  rw [hc] at hc'
  cases hc'
  refine ⟨?_, fun q hq => by linarith [h3 q hq]⟩
  unfold points
  rw [List.pairwise_append]
  refine ⟨List.Pairwise.filter _ ?_, ?_, ?_⟩
  · have : ((lt.zip gs).map Prod.snd).Pairwise (· ≤ ·) := by
      rw [List.map_snd_zip (by omega)]
      exact h1.imp fun h => h.le
    rwa [List.pairwise_map] at this
  · have : (((eskilsonLogTimes : List ℝ).zip c).map Prod.snd).Pairwise (· ≤ ·) := by
      rw [List.map_snd_zip hcl.le]
      exact hcurve c hc
    rwa [List.pairwise_map] at this
  · intro a ha b hb
    obtain ⟨ha1, ha2⟩ := List.mem_filter.1 ha
    exact hseam a ha1 (of_decide_eq_true ha2) _ (List.of_mem_zip (a := b.1) (b := b.2) hb).2

/-- The loads of the problem are a part of the loads `l`: both only reject heat, or both only extract heat, and in every hour
the problem rejects or extracts no more; the ground is warm enough, or cold enough. -/
def PartOf (p : Problem) (l : List ℝ) : Prop :=
  (∀ (k : ℕ) a b, p.hourly[k]? = some a → l[k]? = some b → b ≤ a ∧ a ≤ 0) ∧ p.minEFT ≤ p.media.soil.ugt ∨
  (∀ (k : ℕ) a b, p.hourly[k]? = some a → l[k]? = some b → 0 ≤ a ∧ a ≤ b) ∧ p.media.soil.ugt ≤ p.maxEFT

theorem HourlyRun.toExtremes {n : ℕ} {T : ℕ → ℝ} {hi lo : ℝ} (h : HourlyRun p f H n T hi lo)
    (hm : p.method = "hourly") : Extremes p f H hi lo := by
  obtain ⟨x, s', h1, h2, -⟩ := h
  exact ⟨x, h1, by rw [hm, h2]⟩

/-- C134: a field that is within the temperature limits at some height is also within them for a part of the loads. -/
theorem C134_limits (h : Usable p f H bhe s) (l : List ℝ) (h' : Usable { p with hourly := l } f H bhe s) (hs : Seam s)
    (hm : p.method = "hourly") (n : ℕ) (hn : 1 ≤ n) (hmonths : p.endMonth - p.startMonth + 1 = 12 * n)
    (hend : 3600 * (8760 * n) ≤ charTime s * exp (3003 / 1000)) (hr : Rising p f H bhe s)
    (hres : Responsive p f H bhe s) (hl : PartOf p l) (hi' lo' : ℝ) (hex : Extremes { p with hourly := l } f H hi' lo')
    (hw : WithinLimits { p with hourly := l } hi' lo') : ∃ hi lo, Extremes p f H hi lo ∧ WithinLimits p hi lo := by
  have all : ∀ {P : ℝ → Prop}, (∀ (k : ℕ) a b, p.hourly[k]? = some a → l[k]? = some b → P a) → ∀ a ∈ p.hourly, P a := by
    intro P hP a ha
    obtain ⟨k, hk⟩ := List.mem_iff_getElem?.1 ha
    have hkl : k < l.length := by
      have := (List.getElem?_eq_some_iff.1 hk).1
      have e1 := h.year
      have e2 : l.length = 8760 := h'.year
      omega
    exact hP k a _ hk (List.getElem?_eq_getElem hkl)
  obtain ⟨T0, hi0, lo0, r0, g1, g2⟩ := C134_ground h hs n hn hmonths hend hr
  refine ⟨hi0, lo0, r0.toExtremes hm, ?_⟩
  rcases hl with ⟨hl, hg⟩ | ⟨hl, hg⟩
  · obtain ⟨T, hi, lo, T', hi1, lo1, r1, r2, -, hc⟩ := C134_hours h l h' hs n hn hmonths hend hr
      fun k a b ha hb => (hl k a b ha hb).1
    obtain ⟨-, hhi, -⟩ := hc hres
    obtain ⟨e1, e2, -⟩ := r0.unique r1
    obtain ⟨e3, e4⟩ := hex.unique (r2.toExtremes hm)
    have hlo := (g1 (all fun k a b ha hb => (hl k a b ha hb).2)).2 hres
    refine ⟨?_, hg.trans hlo⟩
    rw [e3] at hw
    rw [e1]
    exact hhi.trans hw.1
  · obtain ⟨T, hi, lo, T', hi1, lo1, r1, r2, -, hc⟩ := C134_hours (p := { p with hourly := l }) h' p.hourly h hs n hn
      hmonths hend hr fun k a b ha hb => (hl k b a hb ha).2
    change HourlyRun p f H n T' hi1 lo1 at r2
    change Responsive p f H bhe s → _ at hc
    obtain ⟨-, -, hlo⟩ := hc hres
    obtain ⟨e1, e2, -⟩ := r0.unique r2
    obtain ⟨e3, e4⟩ := hex.unique (r1.toExtremes hm)
    have hhi := (g2 (all fun k a b ha hb => (hl k a b ha hb).1)).2 hres
    refine ⟨hhi.trans hg, ?_⟩
    rw [e4] at hw
    rw [e2]
    exact le_trans hw.2 hlo

/-! ### the field selected -/

/-- The temperatures of the candidates get closer to the limits from each to the next, none is at a limit exactly, the first
is outside the limits at one of the bounds of the height and the last inside, and the search is allowed enough steps. -/
structure Graded (p : Problem) (d : List Field) : Prop where
  simulates : ∀ f ∈ d, ∀ H, H = p.minHeight ∨ H = p.maxHeight → ∃ hi lo, Extremes p f H hi lo
  decreasing : d.Pairwise fun f g => ∀ hi lo hi' lo', Extremes p f p.maxHeight hi lo → Extremes p g p.maxHeight hi' lo' →
    excess p hi' lo' < excess p hi lo
  off : ∀ f ∈ d, ∀ hi lo, Extremes p f p.maxHeight hi lo → excess p hi lo ≠ 0
  edge : ∀ f, d.head? = some f → ∀ hi lo, Extremes p f p.minHeight hi lo → excess p hi lo ≠ 0
  first : ∀ f, d.head? = some f → ∃ H, (H = p.minHeight ∨ H = p.maxHeight) ∧ ∀ hi lo, Extremes p f H hi lo →
    ¬ WithinLimits p hi lo
  last : ∀ f, d.getLast? = some f → ∀ hi lo, Extremes p f p.maxHeight hi lo → WithinLimits p hi lo
  steps : d.length ≤ 2 ^ p.maxIter.toNat + 1

/-- for such candidates the routines select the first one that is within the limits, or the very first if that is within them
at one of the bounds of the height -/
theorem flat_smallest (routine : String) (hr : routine = "near-square" ∨ routine = "rectangle") (d : List Field)
    (hg : Graded p d) (hd : d ≠ []) (hinit : ∀ f, d.head? = some f → ∃ x, fresh p f p.borehole.H = .ok x) :
    ∃ (k : ℕ) (f : Field), (findDesign p routine (.flat d) {}).1 = .ok (some ((k : ℤ), f)) ∧ d[k]? = some f ∧
      (∀ j < k, ∀ g, d[j]? = some g → ∀ hi lo, Extremes p g p.maxHeight hi lo → ¬ WithinLimits p hi lo) ∧
      ∀ g, d.head? = some g → ∀ H, H = p.minHeight ∨ H = p.maxHeight → ∀ hi lo, Extremes p g H hi lo →
        WithinLimits p hi lo → k = 0 := by
  obtain ⟨f0, h0⟩ : ∃ f0, d.head? = some f0 := ⟨_, List.head?_eq_some_head hd⟩
  obtain ⟨fl, hl⟩ : ∃ fl, d.getLast? = some fl := ⟨_, List.getLast?_eq_some_getLast hd⟩
  have hex := hg.simulates
  have hsim : ∀ {f H hi lo}, Extremes p f H hi lo → (absEnv p).build f H = .ok () ∧
      (absEnv p).sim f H = .ok (excess p hi lo) := by
    rintro f H hi lo ⟨x, hx, hs⟩
    constructor
    · show (fresh p f H >>= _) = _
      rw [hx]
      rfl
    · show (fresh p f H >>= _) = _
      rw [hx, Except.ok_bind, hs]
      rfl
  choose! HI LO hHL using hex
  have hans : Answers (absEnv p) (fun f H => excess p (HI f H) (LO f H)) d :=
    fun f hf H hH => hsim (hHL f hf H hH)
  have m0 : f0 ∈ d := List.mem_of_mem_head? h0
  have ml : fl ∈ d := List.mem_of_getLast? hl
  obtain ⟨x0, hx0⟩ := hinit f0 h0
  have hset : ∃ s1, Search.setup (absEnv p) d {} = (.ok (), s1) ∧ s1.temps = [] := by
    obtain ⟨d', rfl⟩ : ∃ d', d = f0 :: d' := by
      cases d with
      | nil => cases h0
      | cons a d' => cases h0; exact ⟨d', rfl⟩
    unfold Search.setup Search.initializeGhe
    have hb : (absEnv p).build f0 (absEnv p).boreholeH = .ok () := by
      show (fresh p f0 p.borehole.H >>= _) = _
      rw [hx0]
      rfl
    rw [show pyGet (f0 :: d') 0 = .ok f0 from rfl, St.lift_ok rfl, hb]
    exact ⟨_, rfl, rfl⟩
  obtain ⟨s1, hs1, ht1⟩ := hset
  have hfd : (findDesign p routine (.flat d) {}).1 = (Search.search (absEnv p) d s1).1 := by
    have hD : Design.findDesign (absEnv p) routine (.flat d) {} = Search.search (absEnv p) d s1 := by
      have : Design.findDesign (absEnv p) routine (.flat d) {} = Search.bisection1D (absEnv p) d {} := by
        rcases hr with rfl | rfl <;> rfl
      rw [this]
      unfold Search.bisection1D
      rw [St.bind_ok hs1]
    have := top_findDesign (p := p) routine (.flat d)
    rw [hD] at this
    rcases this with ⟨e, e1, e2⟩ | ⟨v, w, e1, e2, e3, -⟩
    · rw [e1, e2]
    · rw [e1, e2, e3]
  by_cases hone : ∃ H, (H = p.minHeight ∨ H = p.maxHeight) ∧ WithinLimits p (HI f0 H) (LO f0 H)
  · obtain ⟨H, hH, hw⟩ := hone
    obtain ⟨H', hH', hout⟩ := hg.first f0 h0
    have e0 := hg.edge f0 h0 _ _ (hHL f0 m0 _ (.inl rfl))
    have e1 := hg.off f0 m0 _ _ (hHL f0 m0 _ (.inr rfl))
    have hpos := violates_iff.2 (hout _ _ (hHL f0 m0 _ hH'))
    have hneg := within_iff.2 hw
    have hab : excess p (HI f0 p.minHeight) (LO f0 p.minHeight) * excess p (HI f0 p.maxHeight) (LO f0 p.maxHeight) < 0 := by
      rcases hH with rfl | rfl <;> rcases hH' with rfl | rfl
      · exact absurd hpos (not_lt.2 hneg)
      · exact mul_neg_of_neg_of_pos (lt_of_le_of_ne hneg e0) hpos
      · exact mul_neg_of_pos_of_neg hpos (lt_of_le_of_ne hneg e1)
      · exact absurd hpos (not_lt.2 hneg)
    obtain ⟨s', k1, -⟩ := C35_shortcut (absEnv p) _ d hans f0 h0 hab s1
    refine ⟨0, f0, by rw [hfd, k1]; rfl, ?_, fun j hj => absurd hj (Nat.not_lt_zero j), fun _ _ _ _ _ _ _ _ => rfl⟩
    rw [List.head?_eq_getElem?] at h0
    exact h0
  have hfirst : ∀ H, H = p.minHeight ∨ H = p.maxHeight → ¬ WithinLimits p (HI f0 H) (LO f0 H) :=
    fun H hH hw => hone ⟨H, hH, hw⟩
  obtain ⟨key, f, s', k1, k2, k3, k4⟩ := C31_smallest (absEnv p) _ d hans (by
      rw [List.pairwise_map]
      refine List.Pairwise.imp_of_mem ?_ hg.decreasing
      intro a b ha hb hab
      exact hab _ _ _ _ (hHL a ha _ (.inr rfl)) (hHL b hb _ (.inr rfl)))
    (fun f hf => hg.off f hf _ _ (hHL f hf _ (.inr rfl))) f0 fl h0 hl
    (violates_iff.2 (hfirst _ (.inl rfl))) (violates_iff.2 (hfirst _ (.inr rfl)))
    (lt_of_le_of_ne (within_iff.2 (hg.last fl hl _ _ (hHL fl ml _ (.inr rfl)))) (hg.off fl ml _ _ (hHL fl ml _ (.inr rfl))))
    hg.steps s1 ht1
  refine ⟨key, f, by rw [hfd, k1], k2, fun j hj g hgj hi lo hE => ?_, fun g hgh H hH hi lo hE hw => ?_⟩
  swap
  · rw [h0] at hgh
    cases hgh
    obtain ⟨e1, e2⟩ := hE.unique (hHL f0 m0 _ hH)
    rw [e1, e2] at hw
    exact absurd hw (hfirst H hH)
  have := k4 j hj g hgj
  have hm := List.mem_of_getElem? hgj
  obtain ⟨e1, e2⟩ := hE.unique (hHL g hm _ (.inr rfl))
  rw [e1, e2]
  exact violates_iff.1 this

/-- If every candidate that is within the limits for `p'` is so for `p`, the field selected for `p` is no later in the list
than the one selected for `p'`. -/
theorem easier_design {p' : Problem} (routine : String) (hr : routine = "near-square" ∨ routine = "rectangle")
    (d : List Field) (hg : Graded p d) (hinit : ∀ f, d.head? = some f → ∃ x, fresh p f p.borehole.H = .ok x)
    (hinit' : ∀ f, d.head? = some f → ∃ bhe s, Usable p' f p'.borehole.H bhe s)
    (hall' : ∀ f ∈ d, ∀ H, H = p'.minHeight ∨ H = p'.maxHeight → ∃ bhe s, Usable p' f H bhe s ∧ Seam s ∧ Fits p' f H s)
    (hmin : p'.minHeight = p.minHeight) (hmax : p'.maxHeight = p.maxHeight)
    (heasier : ∀ f ∈ d, ∀ H, H = p.minHeight ∨ H = p.maxHeight → ∀ hi lo, Extremes p' f H hi lo → WithinLimits p' hi lo →
      ∃ hi lo, Extremes p f H hi lo ∧ WithinLimits p hi lo)
    (k' : ℤ) (f' : Field) (hret : (findDesign p' routine (.flat d) {}).1 = .ok (some (k', f'))) :
    ∃ k f, (findDesign p routine (.flat d) {}).1 = .ok (some (k, f)) ∧ k ≤ k' := by
  rcases eq_or_ne d [] with rfl | hd
  · obtain ⟨x, hx⟩ : ∃ x, x = findDesign p' routine (.flat []) {} := ⟨_, rfl⟩
    exfalso
    rcases hr with rfl | rfl <;> cases hret
  obtain ⟨f0, h0⟩ : ∃ f0, d.head? = some f0 := ⟨_, List.head?_eq_some_head hd⟩
  obtain ⟨fl, hl⟩ : ∃ fl, d.getLast? = some fl := ⟨_, List.getLast?_eq_some_getLast hd⟩
  have m0 : f0 ∈ d := List.mem_of_mem_head? h0
  obtain ⟨k, f, k1, k2, k3, k5⟩ := flat_smallest routine hr d hg hd hinit
  refine ⟨k, f, k1, ?_⟩
  obtain ⟨hi0, lo0, hi1, lo1, hi2, lo2, a, b, c, E0, ea, E1, eb, E2, ec, t1, t2, t3, t4, t5⟩ :=
    C96_search routine hr d f0 fl h0 hl (hinit' f0 h0) hall'
  rw [hret] at t1 t2 t3 t4 t5
  have ok : ∀ {H hi lo}, (H = p.minHeight ∨ H = p.maxHeight) → Extremes p' f0 H hi lo → WithinLimits p' hi lo → k = 0 := by
    intro H hi lo hH hE hW
    obtain ⟨hi', lo', hE', hW'⟩ := heasier f0 m0 H hH hi lo hE hW
    exact k5 f0 h0 H hH _ _ hE' hW'
  have both : WithinLimits p' hi0 lo0 → WithinLimits p' hi1 lo1 → False := by
    intro w0 w1
    obtain ⟨H, hH, hout⟩ := hg.first f0 h0
    rcases hH with rfl | rfl
    · obtain ⟨hi', lo', hE', hW'⟩ := heasier f0 m0 _ (.inl rfl) _ _ (hmin ▸ E0) w0
      exact hout _ _ hE' hW'
    · obtain ⟨hi', lo', hE', hW'⟩ := heasier f0 m0 _ (.inr rfl) _ _ (hmax ▸ E1) w1
      exact hout _ _ hE' hW'
  rcases lt_trichotomy (a * b) 0 with hab | hab | hab
  · have h1 := t2 hab
    cases h1
    rcases mul_neg_iff.1 hab with ⟨-, hb⟩ | ⟨ha, -⟩
    · rw [ok (.inr hmax) E1 (within_iff.1 (eb.symm.le.trans hb.le))]
      rfl
    · rw [ok (.inl hmin) E0 (within_iff.1 (ea.symm.le.trans ha.le))]
      rfl
  · have h1 := t1 (mul_eq_zero.1 hab)
    cases h1
  obtain ⟨ha, hb⟩ : 0 < a ∧ 0 < b := by
    rcases mul_pos_iff.1 hab with h | ⟨ha, hb⟩
    · exact h
    · exact (both (within_iff.1 (ea.symm.le.trans ha.le)) (within_iff.1 (eb.symm.le.trans hb.le))).elim
  rcases lt_trichotomy c 0 with hc | hc | hc
  · rcases t5 (mul_pos ha hb) (mul_neg_of_pos_of_neg hb hc) with ⟨j, g, hi, lo, j1, j2, j3, j4⟩ | ⟨j, g, hi, lo, -, -, -, -, -, j4⟩
    · cases j4
      by_contra hn
      push Not at hn
      have hjk : j < k := by exact_mod_cast hn
      rw [hmax] at j2
      obtain ⟨hi', lo', e1, e2⟩ := heasier f' (List.mem_of_getElem? j1) _ (.inr rfl) hi lo j2 j3
      exact k3 j hjk f' j1 _ _ e1 e2
    · cases j4
  · cases t3 (mul_pos ha hb) hc
  · cases t4 (mul_pos ha hb) (mul_pos hb hc)

/-- C134: whatever the near-square and rectangle routines select for the loads `l`, for a part of these loads they select a
field that is not later in the list of candidates, if the temperatures of the candidates are graded. -/
theorem C134_design (routine : String) (hr : routine = "near-square" ∨ routine = "rectangle") (l : List ℝ)
    (hm : p.method = "hourly") (n : ℕ) (hn : 1 ≤ n) (hmonths : p.endMonth - p.startMonth + 1 = 12 * n)
    (hl : PartOf p l) (d : List Field) (hg : Graded p d)
    (hinit : ∀ f, d.head? = some f → ∃ bhe s, Usable p f p.borehole.H bhe s ∧ Usable { p with hourly := l } f p.borehole.H bhe s)
    (hall : ∀ f ∈ d, ∀ H, H = p.minHeight ∨ H = p.maxHeight → ∃ bhe s, Usable p f H bhe s ∧
      Usable { p with hourly := l } f H bhe s ∧ Seam s ∧ 3600 * (8760 * n) ≤ charTime s * exp (3003 / 1000) ∧
      Rising p f H bhe s ∧ Responsive p f H bhe s)
    (k' : ℤ) (f' : Field) (hret : (findDesign { p with hourly := l } routine (.flat d) {}).1 = .ok (some (k', f'))) :
    ∃ k f, (findDesign p routine (.flat d) {}).1 = .ok (some (k, f)) ∧ k ≤ k' := by
  refine easier_design (p' := { p with hourly := l }) routine hr d hg ?_ ?_ ?_ rfl rfl ?_ k' f' hret
  · intro f hf
    obtain ⟨bhe, s, h1, -⟩ := hinit f hf
    obtain ⟨x, hx, -⟩ := C95_made h1
    exact ⟨x, hx⟩
  · intro f hf
    obtain ⟨bhe, s, -, h2⟩ := hinit f hf
    exact ⟨bhe, s, h2⟩
  · intro f hf H hH
    obtain ⟨bhe, s, h1, h2, h3, h4, -⟩ := hall f hf H hH
    exact ⟨bhe, s, h2, h3, .inl ⟨hm, n, hn, hmonths, h4⟩⟩
  · intro f hf H hH hi lo hE hW
    obtain ⟨bhe, s, h1, h2, h3, h4, h5, h6⟩ := hall f hf H hH
    exact C134_limits h1 l h2 h3 hm n hn hmonths h4 h5 h6 hl hi lo hE hW

/-! ## C135 — more years -/

/-- C135: simulating the same loads hour by hour for more years leaves the temperatures of the years simulated before as they
were, so the highest is no lower and the lowest no higher. -/
theorem C135_hours (h : Usable p f H bhe s) (last : ℤ) (h' : Usable { p with endMonth := last } f H bhe s) (hs : Seam s)
    (n m : ℕ) (hn : 1 ≤ n) (hnm : n ≤ m) (hmonths : p.endMonth - p.startMonth + 1 = 12 * n)
    (hmonths' : last - p.startMonth + 1 = 12 * m) (hend : 3600 * (8760 * m) ≤ charTime s * exp (3003 / 1000)) :
    ∃ T hi lo T' hi' lo', HourlyRun p f H n T hi lo ∧ HourlyRun { p with endMonth := last } f H m T' hi' lo' ∧
      (∀ k < 8760 * n, T' k = T k) ∧ hi ≤ hi' ∧ lo' ≤ lo := by
  have hend' : 3600 * (8760 * (n : ℝ)) ≤ charTime s * exp (3003 / 1000) := by
    refine le_trans ?_ hend
    have : (n : ℝ) ≤ m := by exact_mod_cast hnm
    linarith
  obtain ⟨hi, lo, rad, lt, gs, c, G, a1, a2, a3, a4⟩ := hourly_run h hs n hn hmonths hend'
  obtain ⟨hi', lo', rad', lt', gs', c', G', b1, b2, b3, b4⟩ := hourly_run h' hs m (hn.trans hnm) hmonths' hend
  have a1' := a1
  rw [show calcSts p.solve (radialTube p.ext s) none false p.fuel = _ from b1] at a1'
  cases a1'
  have a2' := a2
  rw [show p.gf (massFlow p f) p.media f H p.borehole.rb p.borehole.D = _ from b2] at a2'
  cases a2'
  have hG : ∀ i : ℕ, 1 ≤ i → i ≤ 8760 * n → G' i = G i := fun i i0 i1 =>
    polyline_unique (points_ordered h hs a1 a2) (b3 i i0 (i1.trans (Nat.mul_le_mul_left _ hnm))) (a3 i i0 i1)
  have e : ∀ k < 8760 * n, exitTemp (siteOf p f H bhe) G' (rejected p.hourly) (fun i => i) (k + 1) =
      exitTemp (siteOf p f H bhe) G (rejected p.hourly) (fun i => i) (k + 1) := by
    intro k hk
    refine exitTemp_congr (fun _ _ => rfl) fun j hj => ?_
    rw [show ((k + 1 : ℕ) : ℝ) - (j : ℝ) = ((k + 1 - j : ℕ) : ℝ) by rw [Nat.cast_sub (by omega)]]
    exact hG _ (by omega) (by omega)
  have hlen : 8760 * n ≤ 8760 * m := Nat.mul_le_mul_left _ hnm
  obtain ⟨⟨⟨i, i1, i2⟩, i3⟩, ⟨j, j1, j2⟩, j3⟩ := HourlyRun.extremes h hs hn hmonths hend' a4
  obtain ⟨⟨⟨i', i1', i2'⟩, i3'⟩, ⟨j', j1', j2'⟩, j3'⟩ := HourlyRun.extremes h' hs (hn.trans hnm) hmonths' hend b4
  refine ⟨_, hi, lo, _, hi', lo', a4, b4, e, ?_, ?_⟩
  · rw [← i2]
    exact le_trans (le_of_eq (e i i1).symm) (i3' i (i1.trans_le hlen))
  · rw [← j2]
    exact le_trans (j3' j (j1.trans_le hlen)) (le_of_eq (e j j1))

/-- C135: a field that is within the limits over more years is within them over fewer. -/
theorem C135_limits (h : Usable p f H bhe s) (last : ℤ) (h' : Usable { p with endMonth := last } f H bhe s) (hs : Seam s)
    (hm : p.method = "hourly") (n m : ℕ) (hn : 1 ≤ n) (hnm : n ≤ m) (hmonths : p.endMonth - p.startMonth + 1 = 12 * n)
    (hmonths' : last - p.startMonth + 1 = 12 * m) (hend : 3600 * (8760 * m) ≤ charTime s * exp (3003 / 1000))
    (hi' lo' : ℝ) (hex : Extremes { p with endMonth := last } f H hi' lo')
    (hw : WithinLimits { p with endMonth := last } hi' lo') : ∃ hi lo, Extremes p f H hi lo ∧ WithinLimits p hi lo := by
  obtain ⟨T, hi, lo, T', hi1, lo1, r1, r2, -, h1, h2⟩ := C135_hours h last h' hs n m hn hnm hmonths hmonths' hend
  obtain ⟨e3, e4⟩ := hex.unique (r2.toExtremes hm)
  rw [e3, e4] at hw
  exact ⟨hi, lo, r1.toExtremes hm, h1.trans hw.1, le_trans hw.2 h2⟩

/-- C135: whatever the near-square and rectangle routines select for more years, for fewer years they select a field that is
not later in the list of candidates, if the temperatures of the candidates are graded. -/
theorem C135_design (routine : String) (hr : routine = "near-square" ∨ routine = "rectangle") (last : ℤ)
    (hm : p.method = "hourly") (n m : ℕ) (hn : 1 ≤ n) (hnm : n ≤ m) (hmonths : p.endMonth - p.startMonth + 1 = 12 * n)
    (hmonths' : last - p.startMonth + 1 = 12 * m) (d : List Field) (hg : Graded p d)
    (hinit : ∀ f, d.head? = some f →
      ∃ bhe s, Usable p f p.borehole.H bhe s ∧ Usable { p with endMonth := last } f p.borehole.H bhe s)
    (hall : ∀ f ∈ d, ∀ H, H = p.minHeight ∨ H = p.maxHeight → ∃ bhe s, Usable p f H bhe s ∧
      Usable { p with endMonth := last } f H bhe s ∧ Seam s ∧ 3600 * (8760 * m) ≤ charTime s * exp (3003 / 1000))
    (k' : ℤ) (f' : Field) (hret : (findDesign { p with endMonth := last } routine (.flat d) {}).1 = .ok (some (k', f'))) :
    ∃ k f, (findDesign p routine (.flat d) {}).1 = .ok (some (k, f)) ∧ k ≤ k' := by
  refine easier_design (p' := { p with endMonth := last }) routine hr d hg ?_ ?_ ?_ rfl rfl ?_ k' f' hret
  · intro f hf
    obtain ⟨bhe, s, h1, -⟩ := hinit f hf
    obtain ⟨x, hx, -⟩ := C95_made h1
    exact ⟨x, hx⟩
  · intro f hf
    obtain ⟨bhe, s, -, h2⟩ := hinit f hf
    exact ⟨bhe, s, h2⟩
  · intro f hf H hH
    obtain ⟨bhe, s, h1, h2, h3, h4⟩ := hall f hf H hH
    exact ⟨bhe, s, h2, h3, .inl ⟨hm, m, hn.trans hnm, hmonths', h4⟩⟩
  · intro f hf H hH hi lo hE hW
    obtain ⟨bhe, s, h1, h2, h3, h4⟩ := hall f hf H hH
    exact C135_limits h1 last h2 h3 hm n m hn hnm hmonths hmonths' h4 hi lo hE hW

end

end Ghedt.WholeSearch
