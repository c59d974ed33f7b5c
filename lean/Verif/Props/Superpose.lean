import Verif.Props.MoreLoadExample

/-!
# Loads added and scaled (C136), looser limits (C137)
-/

set_option linter.unusedSectionVars false

namespace Ghedt.WholeSearch
open Real Ghedt.GHE Ghedt.Bhe Ghedt.Radial Ghedt.Whole Ghedt.Search Ghedt.Utilities Ghedt.Spec Ghedt.Network Ghedt.Design

noncomputable section

variable {p : Problem} {f : Field} {H : ℝ} {bhe : Exchanger} {s : UTube}

/-- the same response serves all loads -/
theorem run_with (h : Usable p f H bhe s) (l : List ℝ) (h' : Usable { p with hourly := l } f H bhe s) (hs : Seam s)
    (n : ℕ) (hn : 1 ≤ n) (hmonths : p.endMonth - p.startMonth + 1 = 12 * n)
    (hend : 3600 * (8760 * n) ≤ charTime s * exp (3003 / 1000)) {rad : Radial} {lt gs c : List ℝ} {G : ℝ → ℝ}
    (a1 : calcSts p.solve (radialTube p.ext s) none false p.fuel = .ok (rad, lt, gs))
    (a2 : p.gf (massFlow p f) p.media f H p.borehole.rb p.borehole.D = .ok c)
    (a3 : ∀ i : ℕ, 1 ≤ i → i ≤ 8760 * n → OnPolyline (points lt gs c) (log (3600 * i / charTime s)) (G i)) :
    ∃ hi lo, HourlyRun { p with hourly := l } f H n
      (fun k => exitTemp (siteOf p f H bhe) G (rejected l) (fun i => i) (k + 1)) hi lo := by
  obtain ⟨hi', lo', rad', lt', gs', c', G', b1, b2, b3, b4⟩ := hourly_run h' hs n hn hmonths hend
  have a1' := a1
  rw [show calcSts p.solve (radialTube p.ext s) none false p.fuel = _ from b1] at a1'
  cases a1'
  have a2' := a2
  rw [show p.gf (massFlow p f) p.media f H p.borehole.rb p.borehole.D = _ from b2] at a2'
  cases a2'
  have hG : ∀ i : ℕ, 1 ≤ i → i ≤ 8760 * n → G' i = G i := fun i i0 i1 =>
    polyline_unique (points_ordered h hs a1 a2) (b3 i i0 i1) (a3 i i0 i1)
  obtain ⟨x, s', x1, x2, x3⟩ := b4
  refine ⟨hi', lo', x, s', x1, x2, ?_⟩
  rw [x3]
  refine List.map_congr_left fun k hk => congrArg some ?_
  have hk := List.mem_range.1 hk
  change exitTemp (siteOf p f H bhe) G' (rejected l) _ _ = _
  refine exitTemp_congr (fun _ _ => rfl) fun j hj => ?_
  rw [show ((k + 1 : ℕ) : ℝ) - (j : ℝ) = ((k + 1 - j : ℕ) : ℝ) by rw [Nat.cast_sub (by omega)]]
  exact hG _ (by omega) (by omega)

theorem exitTemp_linear (c : Site) (G : ℝ → ℝ) (Q Q' Q'' t : ℕ → ℝ) (a b : ℝ) (i : ℕ) (h : ∀ j, Q j = a * Q' j + b * Q'' j) :
    exitTemp c G Q t i - c.ground = a * (exitTemp c G Q' t i - c.ground) + b * (exitTemp c G Q'' t i - c.ground) := by
  have hw : wallRise c G Q t i = a * wallRise c G Q' t i + b * wallRise c G Q'' t i := by
    unfold wallRise
    rw [Finset.mul_sum, Finset.mul_sum, ← Finset.sum_add_distrib]
    refine Finset.sum_congr rfl fun j _ => ?_
    rw [h, h]
    ring
  unfold exitTemp
  rw [hw, h]
  ring

/-- C136: temperatures superpose.  If the load of every hour is `a` times that of one year plus `b` times that of another, the
difference between the temperature predicted for an hour and that of the ground is `a` times that for the one plus `b` times
that for the other. -/
theorem C136_sum (h : Usable p f H bhe s) (l₁ l₂ : List ℝ) (h₁ : Usable { p with hourly := l₁ } f H bhe s)
    (h₂ : Usable { p with hourly := l₂ } f H bhe s) (hs : Seam s)
    (n : ℕ) (hn : 1 ≤ n) (hmonths : p.endMonth - p.startMonth + 1 = 12 * n)
    (hend : 3600 * (8760 * n) ≤ charTime s * exp (3003 / 1000)) (a b : ℝ)
    (hl : ∀ (k : ℕ) x y z, p.hourly[k]? = some x → l₁[k]? = some y → l₂[k]? = some z → x = a * y + b * z) :
    ∃ T hi lo T₁ hi₁ lo₁ T₂ hi₂ lo₂, HourlyRun p f H n T hi lo ∧ HourlyRun { p with hourly := l₁ } f H n T₁ hi₁ lo₁ ∧
      HourlyRun { p with hourly := l₂ } f H n T₂ hi₂ lo₂ ∧
      ∀ k < 8760 * n, T k - p.media.soil.ugt = a * (T₁ k - p.media.soil.ugt) + b * (T₂ k - p.media.soil.ugt) := by
  obtain ⟨hi, lo, rad, lt, gs, c, G, a1, a2, a3, a4⟩ := hourly_run h hs n hn hmonths hend
  obtain ⟨hi₁, lo₁, r₁⟩ := run_with h l₁ h₁ hs n hn hmonths hend a1 a2 a3
  obtain ⟨hi₂, lo₂, r₂⟩ := run_with h l₂ h₂ hs n hn hmonths hend a1 a2 a3
  refine ⟨_, hi, lo, _, hi₁, lo₁, _, hi₂, lo₂, a4, r₁, r₂, fun k _ => ?_⟩
  refine exitTemp_linear (siteOf p f H bhe) G _ _ _ _ a b _ fun j => ?_
  cases j with
  | zero => simp [rejected]
  | succ j =>
    have e0 := h.year
    have e1 : l₁.length = 8760 := h₁.year
    have e2 : l₂.length = 8760 := h₂.year
    have hk : j % 8760 < 8760 := Nat.mod_lt _ (by norm_num)
    have g0 : p.hourly[j % 8760]? = some p.hourly[j % 8760] := List.getElem?_eq_getElem (by omega)
    have g1 : l₁[j % 8760]? = some l₁[j % 8760] := List.getElem?_eq_getElem (by omega)
    have g2 : l₂[j % 8760]? = some l₂[j % 8760] := List.getElem?_eq_getElem (by omega)
    rw [rejected_succ, rejected_succ, rejected_succ, List.getD_eq_getElem?_getD, List.getD_eq_getElem?_getD,
      List.getD_eq_getElem?_getD, g0, g1, g2]
    have := hl _ _ _ _ g0 g1 g2
    simp only [Option.getD_some]
    rw [this]
    ring

/-- C136: all loads multiplied by `a`.  So are all differences from the temperature of the ground; the highest temperature
comes from the highest if `a` is positive and from the lowest if it is negative. -/
theorem C136_scale (h : Usable p f H bhe s) (a : ℝ) (h' : Usable { p with hourly := p.hourly.map (a * ·) } f H bhe s)
    (hs : Seam s) (n : ℕ) (hn : 1 ≤ n) (hmonths : p.endMonth - p.startMonth + 1 = 12 * n)
    (hend : 3600 * (8760 * n) ≤ charTime s * exp (3003 / 1000)) :
    ∃ T hi lo T' hi' lo', HourlyRun p f H n T hi lo ∧ HourlyRun { p with hourly := p.hourly.map (a * ·) } f H n T' hi' lo' ∧
      (∀ k < 8760 * n, T' k - p.media.soil.ugt = a * (T k - p.media.soil.ugt)) ∧
      (0 ≤ a → hi' - p.media.soil.ugt = a * (hi - p.media.soil.ugt) ∧ lo' - p.media.soil.ugt = a * (lo - p.media.soil.ugt)) ∧
      (a ≤ 0 → hi' - p.media.soil.ugt = a * (lo - p.media.soil.ugt) ∧ lo' - p.media.soil.ugt = a * (hi - p.media.soil.ugt)) := by
  obtain ⟨T', hi', lo', T, hi, lo, T₂, hi₂, lo₂, r', r, -, e⟩ := C136_sum (p := { p with hourly := p.hourly.map (a * ·) }) h'
    p.hourly p.hourly h h hs n hn hmonths hend a 0 (by
      intro k x y z hx hy _
      change (p.hourly.map (a * ·))[k]? = some x at hx
      rw [List.getElem?_map, hy] at hx
      cases hx
      ring)
  change HourlyRun p f H n T hi lo at r
  have e : ∀ k < 8760 * n, T' k - p.media.soil.ugt = a * (T k - p.media.soil.ugt) := by
    intro k hk
    have := e k hk
    rw [zero_mul, add_zero] at this
    exact this
  obtain ⟨⟨⟨i, i1, i2⟩, i3⟩, ⟨j, j1, j2⟩, j3⟩ := HourlyRun.extremes h hs hn hmonths hend r
  obtain ⟨⟨⟨i', i1', i2'⟩, i3'⟩, ⟨j', j1', j2'⟩, j3'⟩ := HourlyRun.extremes h' hs hn hmonths hend r'
  refine ⟨T, hi, lo, T', hi', lo', r, r', e, fun ha => ⟨le_antisymm ?_ ?_, le_antisymm ?_ ?_⟩,
    fun ha => ⟨le_antisymm ?_ ?_, le_antisymm ?_ ?_⟩⟩
  · rw [← i2', e _ i1']
    exact mul_le_mul_of_nonneg_left (sub_le_sub_right (i3 _ i1') _) ha
  · rw [← i2, ← e _ i1]
    exact sub_le_sub_right (i3' _ i1) _
  · rw [← j2, ← e _ j1]
    exact sub_le_sub_right (j3' _ j1) _
  · rw [← j2', e _ j1']
    exact mul_le_mul_of_nonneg_left (sub_le_sub_right (j3 _ j1') _) ha
  · rw [← i2', e _ i1']
    exact mul_le_mul_of_nonpos_left (sub_le_sub_right (j3 _ i1') _) ha
  · rw [← j2, ← e _ j1]
    exact sub_le_sub_right (i3' _ j1) _
  · rw [← i2, ← e _ i1]
    exact sub_le_sub_right (j3' _ i1) _
  · rw [← j2', e _ j1']
    exact mul_le_mul_of_nonpos_left (sub_le_sub_right (i3 _ j1') _) ha

/-- C136: a field that is within the limits stays within them when all loads are reduced by the same factor, if the
temperature of the ground is between the limits. -/
theorem C136_limits (h : Usable p f H bhe s) (a : ℝ) (h' : Usable { p with hourly := p.hourly.map (a * ·) } f H bhe s)
    (hs : Seam s) (hm : p.method = "hourly") (n : ℕ) (hn : 1 ≤ n) (hmonths : p.endMonth - p.startMonth + 1 = 12 * n)
    (hend : 3600 * (8760 * n) ≤ charTime s * exp (3003 / 1000)) (ha : 0 ≤ a) (ha1 : a ≤ 1)
    (hg : p.minEFT ≤ p.media.soil.ugt ∧ p.media.soil.ugt ≤ p.maxEFT) (hi lo : ℝ) (hex : Extremes p f H hi lo)
    (hw : WithinLimits p hi lo) :
    ∃ hi' lo', Extremes { p with hourly := p.hourly.map (a * ·) } f H hi' lo' ∧
      WithinLimits { p with hourly := p.hourly.map (a * ·) } hi' lo' := by
  obtain ⟨T, hi1, lo1, T', hi', lo', r, r', -, e, -⟩ := C136_scale h a h' hs n hn hmonths hend
  obtain ⟨e1, e2⟩ := e ha
  obtain ⟨rfl, rfl⟩ := hex.unique (r.toExtremes hm)
  refine ⟨hi', lo', r'.toExtremes hm, ?_, ?_⟩
  · show hi' ≤ p.maxEFT
    nlinarith [hw.1, hg.2]
  · show p.minEFT ≤ lo'
    nlinarith [hw.2, hg.1]

/-- C136: whatever the near-square and rectangle routines select, for loads reduced by the same factor they select a field that
is not later in the list of candidates, if the temperatures of the candidates are graded. -/
theorem C136_design (routine : String) (hr : routine = "near-square" ∨ routine = "rectangle") (a : ℝ) (ha : 0 ≤ a) (ha1 : a ≤ 1)
    (hm : p.method = "hourly") (n : ℕ) (hn : 1 ≤ n) (hmonths : p.endMonth - p.startMonth + 1 = 12 * n)
    (hgr : p.minEFT ≤ p.media.soil.ugt ∧ p.media.soil.ugt ≤ p.maxEFT) (d : List Field)
    (hg : Graded { p with hourly := p.hourly.map (a * ·) } d)
    (hinit : ∀ f, d.head? = some f → ∃ bhe s, Usable p f p.borehole.H bhe s ∧
      Usable { p with hourly := p.hourly.map (a * ·) } f p.borehole.H bhe s)
    (hall : ∀ f ∈ d, ∀ H, H = p.minHeight ∨ H = p.maxHeight → ∃ bhe s, Usable p f H bhe s ∧
      Usable { p with hourly := p.hourly.map (a * ·) } f H bhe s ∧ Seam s ∧
      3600 * (8760 * n) ≤ charTime s * exp (3003 / 1000))
    (k' : ℤ) (f' : Field) (hret : (findDesign p routine (.flat d) {}).1 = .ok (some (k', f'))) :
    ∃ k f, (findDesign { p with hourly := p.hourly.map (a * ·) } routine (.flat d) {}).1 = .ok (some (k, f)) ∧ k ≤ k' := by
  refine easier_design (p := { p with hourly := p.hourly.map (a * ·) }) (p' := p) routine hr d hg ?_ ?_ ?_ rfl rfl ?_ k' f' hret
  · intro f hf
    obtain ⟨bhe, s, -, h1⟩ := hinit f hf
    obtain ⟨x, hx, -⟩ := C95_made h1
    exact ⟨x, hx⟩
  · intro f hf
    obtain ⟨bhe, s, h2, -⟩ := hinit f hf
    exact ⟨bhe, s, h2⟩
  · intro f hf H hH
    obtain ⟨bhe, s, h1, h2, h3, h4⟩ := hall f hf H hH
    exact ⟨bhe, s, h1, h3, .inl ⟨hm, n, hn, hmonths, h4⟩⟩
  · intro f hf H hH hi lo hE hW
    obtain ⟨bhe, s, h1, h2, h3, h4⟩ := hall f hf H hH
    exact C136_limits h1 a h2 h3 hm n hn hmonths h4 ha ha1 hgr hi lo hE hW

/-! ## C137 — looser limits -/

/-- The problem with other limits. -/
def limited (p : Problem) (T t : ℝ) : Problem := { p with maxEFT := T, minEFT := t }

/-- the object made for the problem with other limits -/
def limitedHeld (T t : ℝ) (x : Held) : Held := ⟨{ x.env with maxEFT := T, minEFT := t }, x.state⟩

theorem buildGhe_limited (p : Problem) (T t : ℝ) (flows : ℝ × ℝ) (d : Media) (b : Borehole) (f : Field) :
    buildGhe (limited p T t) flows d b f = (buildGhe p flows d b f).map (limitedHeld T t) := by
  unfold buildGhe
  show (boreholeSpacing b.rb f >>= _) = _
  cases boreholeSpacing b.rb f with
  | error e => rfl
  | ok B =>
    rw [Except.ok_bind, Except.ok_bind]
    show (GF.computeLive p.fmt p.toFloat (p.gf flows.2 d f) B [b.H] [b.rb] [b.D] eskilsonLogTimes f >>= _) = _
    cases GF.computeLive p.fmt p.toFloat (p.gf flows.2 d f) B [b.H] [b.rb] [b.D] eskilsonLogTimes f with
    | error e => rfl
    | ok db =>
      rw [Except.ok_bind, Except.ok_bind]
      unfold mkGhe
      dsimp only
      cases gheFlow flows.1 d.fluid.rho db.locations.length with
      | error e => rfl
      | ok v =>
        rw [Except.ok_bind, Except.ok_bind]
        show (makeExchanger p.ext v.2 d b >>= _) = _
        cases makeExchanger p.ext v.2 d b with
        | error e => rfl
        | ok b =>
          rw [Except.ok_bind, Except.ok_bind]
          show (computeEquivalent p.ext p.brent b >>= _) = Except.map _ _
          cases computeEquivalent p.ext p.brent b with
          | error e => rfl
          | ok q =>
            rw [Except.ok_bind, Except.ok_bind]
            show (calcSts p.solve (radialTube p.ext q.1) none false p.fuel >>= _) = Except.map _ _
            cases calcSts p.solve (radialTube p.ext q.1) none false p.fuel with
            | error e => rfl
            | ok sts =>
              rw [Except.ok_bind, Except.ok_bind]
              show (GL.splitHeatAndCool p.hourly "W" >>= _) = Except.map _ _
              cases GL.splitHeatAndCool p.hourly "W" with
              | error e => rfl
              | ok l =>
                rw [Except.ok_bind, Except.ok_bind]
                show (GL.mkHybrid (respOf (radialTube p.ext q.1) sts.1 sts.2.1 sts.2.2) l.1 l.2
                  p.startMonth p.endMonth 2019 >>= _) = Except.map _ _
                cases GL.mkHybrid (respOf (radialTube p.ext q.1) sts.1 sts.2.1 sts.2.2) l.1 l.2
                  p.startMonth p.endMonth 2019 with
                | error e => rfl
                | ok y => rfl

theorem fresh_limited (p : Problem) (T t : ℝ) (f : Field) (H : ℝ) :
    fresh (limited p T t) f H = (fresh p f H).map (limitedHeld T t) := by
  unfold fresh
  show (retrieveFlow p.flow p.V p.media.fluid.rho f.length >>= _) = _
  cases retrieveFlow p.flow p.V p.media.fluid.rho f.length with
  | error e => rfl
  | ok flows =>
    rw [Except.ok_bind, Except.ok_bind]
    exact buildGhe_limited p T t _ _ _ _

/-- C137: the temperatures predicted for a field do not depend on the limits they are compared with, whatever the problem and
the method. -/
theorem C137_temperatures (p : Problem) (T t : ℝ) (f : Field) (H hi lo : ℝ) :
    Extremes { p with maxEFT := T, minEFT := t } f H hi lo ↔ Extremes p f H hi lo := by
  show Extremes (limited p T t) f H hi lo ↔ _
  unfold Extremes
  rw [fresh_limited]
  constructor
  · rintro ⟨x, hx, hs⟩
    cases hg : fresh p f H with
    | error e => rw [hg] at hx; cases hx
    | ok y =>
      rw [hg] at hx
      cases hx
      exact ⟨y, rfl, hs⟩
  · rintro ⟨x, hx, hs⟩
    rw [hx]
    exact ⟨_, rfl, hs⟩

theorem Usable.limited (h : Usable p f H bhe s) (T t : ℝ) : Usable (limited p T t) f H bhe s :=
  ⟨h.flow, h.field, h.height, h.radius, h.exchanger, h.converts, h.sound, h.solver, h.steps, h.text, h.curve, h.year,
    h.heating, h.cooling, h.months⟩

theorem Fits.limited (h : Fits p f H s) (T t : ℝ) : Fits (limited p T t) f H s := by
  rcases h with h | ⟨h1, h2, h3⟩
  · exact .inl h
  · refine .inr ⟨h1, h2, fun x hx => ?_⟩
    rw [fresh_limited] at hx
    cases hg : fresh p f H with
    | error e => rw [hg] at hx; cases hx
    | ok y =>
      rw [hg] at hx
      cases hx
      exact h3 y hg

/-- C137: whatever the near-square and rectangle routines select, for looser limits they select a field that is not later in
the list of candidates, if the temperatures of the candidates are graded for the looser limits; with either method. -/
theorem C137_design (routine : String) (hr : routine = "near-square" ∨ routine = "rectangle") (T t : ℝ) (hT : p.maxEFT ≤ T)
    (ht : t ≤ p.minEFT) (d : List Field) (hg : Graded { p with maxEFT := T, minEFT := t } d)
    (hinit : ∀ f, d.head? = some f → ∃ bhe s, Usable p f p.borehole.H bhe s)
    (hall : ∀ f ∈ d, ∀ H, H = p.minHeight ∨ H = p.maxHeight → ∃ bhe s, Usable p f H bhe s ∧ Seam s ∧ Fits p f H s)
    (k' : ℤ) (f' : Field) (hret : (findDesign p routine (.flat d) {}).1 = .ok (some (k', f'))) :
    ∃ k f, (findDesign { p with maxEFT := T, minEFT := t } routine (.flat d) {}).1 = .ok (some (k, f)) ∧ k ≤ k' := by
  refine easier_design (p := limited p T t) (p' := p) routine hr d hg ?_ hinit hall rfl rfl ?_ k' f' hret
  · intro f hf
    obtain ⟨bhe, s, h1⟩ := hinit f hf
    obtain ⟨x, hx, -⟩ := C95_made (h1.limited T t)
    exact ⟨x, hx⟩
  · intro f hf H hH hi lo hE hW
    exact ⟨hi, lo, (C137_temperatures p T t f H hi lo).2 hE, hW.1.trans hT, ht.trans hW.2⟩

theorem bounded {α : Type} (d : List α) (F G : α → ℝ → ℝ) (a b : ℝ) :
    ∃ M, ∀ f ∈ d, ∀ H, H = a ∨ H = b → F f H < M ∧ -M < G f H := by
  refine ⟨(d.map fun f => |F f a| + |F f b| + |G f a| + |G f b|).sum + 1, ?_⟩
  intro f hf H hH
  have := List.single_le_sum (l := d.map fun f => |F f a| + |F f b| + |G f a| + |G f b|) (by
      intro x hx
      obtain ⟨g, -, rfl⟩ := List.mem_map.1 hx
      positivity) _ (List.mem_map_of_mem hf)
  have i1 := abs_nonneg (F f a)
  have i2 := abs_nonneg (F f b)
  have i3 := abs_nonneg (G f a)
  have i4 := abs_nonneg (G f b)
  have j1 := le_abs_self (F f a)
  have j2 := le_abs_self (F f b)
  have j3 := neg_abs_le (G f a)
  have j4 := neg_abs_le (G f b)
  rcases hH with rfl | rfl <;> constructor <;> linarith

theorem search_tooLoose (routine : String) (hr : routine = "near-square" ∨ routine = "rectangle") (d : List Field) (hd : d ≠ [])
    (hinit : ∀ f, d.head? = some f → ∃ bhe s, Usable p f p.borehole.H bhe s)
    (hall : ∀ f ∈ d, ∀ H, H = p.minHeight ∨ H = p.maxHeight → ∃ bhe s, Usable p f H bhe s ∧ Seam s ∧ Fits p f H s)
    (hneg : ∀ f ∈ d, ∀ H, H = p.minHeight ∨ H = p.maxHeight → ∀ hi lo, Extremes p f H hi lo → excess p hi lo < 0) :
    (findDesign p routine (.flat d) {}).1 = .error .valueError := by
  obtain ⟨f0, h0⟩ : ∃ f0, d.head? = some f0 := ⟨_, List.head?_eq_some_head hd⟩
  obtain ⟨fl, hl⟩ : ∃ fl, d.getLast? = some fl := ⟨_, List.getLast?_eq_some_getLast hd⟩
  have m0 : f0 ∈ d := List.mem_of_mem_head? h0
  have ml : fl ∈ d := List.mem_of_getLast? hl
  obtain ⟨hi0, lo0, hi1, lo1, hi2, lo2, a, b, c, E0, ea, E1, eb, E2, ec, -, -, -, t4, -⟩ :=
    C96_search routine hr d f0 fl h0 hl (hinit f0 h0) hall
  have na := hneg f0 m0 _ (.inl rfl) _ _ E0
  have nb := hneg f0 m0 _ (.inr rfl) _ _ E1
  have nc := hneg fl ml _ (.inr rfl) _ _ E2
  rw [← ea] at na
  rw [← eb] at nb
  rw [← ec] at nc
  exact t4 (mul_pos_of_neg_of_neg na nb) (mul_pos_of_neg_of_neg nb nc)

/-- C137 (finding): limits can be too loose.  For all candidates there are limits such that with these and any looser ones
the routines raise `ValueError`, although every candidate is within the limits. -/
theorem C137_tooLoose (routine : String) (hr : routine = "near-square" ∨ routine = "rectangle") (d : List Field) (hd : d ≠ [])
    (hinit : ∀ f, d.head? = some f → ∃ bhe s, Usable p f p.borehole.H bhe s)
    (hall : ∀ f ∈ d, ∀ H, H = p.minHeight ∨ H = p.maxHeight → ∃ bhe s, Usable p f H bhe s ∧ Seam s ∧ Fits p f H s) :
    ∃ T₀ t₀, ∀ T t, T₀ ≤ T → t ≤ t₀ →
      (findDesign { p with maxEFT := T, minEFT := t } routine (.flat d) {}).1 = .error .valueError ∧
      ∀ f ∈ d, ∃ hi lo, Extremes { p with maxEFT := T, minEFT := t } f p.maxHeight hi lo ∧ hi ≤ T ∧ t ≤ lo := by
  have hex : ∀ f ∈ d, ∀ H, H = p.minHeight ∨ H = p.maxHeight → ∃ hi lo, Extremes p f H hi lo := by
    intro f hf H hH
    obtain ⟨bhe, s, h1, h2, h3⟩ := hall f hf H hH
    exact extremes_ok h1 h2 h3
  choose! HI LO hHL using hex
  obtain ⟨M, hM⟩ := bounded d HI LO p.minHeight p.maxHeight
  refine ⟨M, -M, fun T t hT ht => ⟨?_, ?_⟩⟩
  · refine search_tooLoose (p := limited p T t) routine hr d hd ?_ ?_ ?_
    · intro f hf
      obtain ⟨bhe, s, h⟩ := hinit f hf
      exact ⟨bhe, s, h.limited T t⟩
    · intro f hf H hH
      obtain ⟨bhe, s, h1, h2, h3⟩ := hall f hf H hH
      exact ⟨bhe, s, h1.limited T t, h2, h3.limited T t⟩
    · intro f hf H hH hi lo hE
      obtain ⟨e1, e2⟩ := ((C137_temperatures p T t f H hi lo).1 hE).unique (hHL f hf H hH)
      have := hM f hf H hH
      rw [← e1, ← e2] at this
      exact max_lt (by show _ - T < 0; linarith) (by show t - _ < 0; linarith)
  · intro f hf
    have := hM f hf _ (.inr rfl)
    exact ⟨_, _, (C137_temperatures p T t f _ _ _).2 (hHL f hf _ (.inr rfl)), by linarith, by linarith⟩

/-! ## concrete cases -/

theorem exLoaded_map (g q a : ℝ) (m : ℕ) : { exLoaded g q m with hourly := (exLoaded g q m).hourly.map (a * ·) } = exLoaded g (a * q) m := by
  have e : (exLoaded g q m).hourly.map (a * ·) = List.replicate 8760 (-(a * q)) := by
    show (List.replicate 8760 (-q)).map (a * ·) = _
    rw [List.map_replicate, mul_neg]
  rw [e]
  rfl

/-- three boreholes, half of the load: C136 applies -/
example (g : ℝ) : ∃ T hi lo T' hi' lo', HourlyRun (exLoaded g 10000 2) (exRow 3) 100 2 T hi lo ∧
    HourlyRun (exLoaded g 5000 2) (exRow 3) 100 2 T' hi' lo' ∧ hi' - 18 = 1 / 2 * (hi - 18) ∧ lo' - 18 = 1 / 2 * (lo - 18) := by
  obtain ⟨s, hu, hct⟩ := exUsable (exRow 3) (exRow_ne (by norm_num)) 100 (by tauto) (exRow_spacing 3)
  have h1 := exLoaded_usable (g := g) (q := 10000) (m := 2) (by norm_num) hu
  have h2 := exLoaded_usable (g := g) (q := 1 / 2 * 10000) (m := 2) (by norm_num) hu
  rw [← exLoaded_map] at h2
  obtain ⟨T, hi, lo, T', hi', lo', r, r', -, e, -⟩ := C136_scale h1 (1 / 2) h2 (exSeam s 100 (.inr rfl) hct) 2 (by norm_num)
    exLoaded_months (exLoaded_fits (m := 2) (by norm_num) (.inr rfl) hct)
  rw [exLoaded_map, show (1 / 2 * 10000 : ℝ) = 5000 by norm_num] at r'
  exact ⟨T, hi, lo, T', hi', lo', r, r', e (by norm_num)⟩

/-- the sum of 3 kW and twice 4 kW -/
example (g : ℝ) : ∃ T hi lo T₁ hi₁ lo₁ T₂ hi₂ lo₂, HourlyRun (exLoaded g 11000 1) (exRow 2) 50 1 T hi lo ∧
    HourlyRun (exLoaded g 3000 1) (exRow 2) 50 1 T₁ hi₁ lo₁ ∧ HourlyRun (exLoaded g 4000 1) (exRow 2) 50 1 T₂ hi₂ lo₂ ∧
    ∀ k < 8760 * 1, T k - 18 = 1 * (T₁ k - 18) + 2 * (T₂ k - 18) := by
  obtain ⟨s, hu, hct⟩ := exUsable (exRow 2) (exRow_ne (by norm_num)) 50 (by tauto) (exRow_spacing 2)
  exact C136_sum (p := exLoaded g 11000 1) (exLoaded_usable le_rfl hu) (List.replicate 8760 (-3000)) (List.replicate 8760 (-4000))
    (exLoaded_usable (q := 3000) le_rfl hu) (exLoaded_usable (q := 4000) le_rfl hu) (exSeam s 50 (.inl rfl) hct) 1 le_rfl
    exLoaded_months (exLoaded_fits (by norm_num) (.inl rfl) hct) 1 2 (by
      intro k x y z hx hy hz
      have h1 : x = -11000 := List.eq_of_mem_replicate (List.mem_of_getElem? hx)
      have h2 : y = -3000 := List.eq_of_mem_replicate (List.mem_of_getElem? hy)
      have h3 : z = -4000 := List.eq_of_mem_replicate (List.mem_of_getElem? hz)
      rw [h1, h2, h3]
      norm_num)

/-- one borehole and a long row: for half of the load (C136) and for limits one degree looser (C137) the design is no larger; and
limits can be so loose that there is none -/
example : ∃ g n k f k' f' k'' f'' T,
    (findDesign (exLoaded g 20000 1) "rectangle" (.flat [exRow 1, exRow n]) {}).1 = .ok (some (k', f')) ∧
    (findDesign (exLoaded g 10000 1) "rectangle" (.flat [exRow 1, exRow n]) {}).1 = .ok (some (k, f)) ∧ k ≤ k' ∧
    (findDesign { exLoaded g 20000 1 with maxEFT := 36, minEFT := 4 } "rectangle" (.flat [exRow 1, exRow n]) {}).1 =
      .ok (some (k'', f'')) ∧ k'' ≤ k' ∧
    (findDesign { exLoaded g 20000 1 with maxEFT := T, minEFT := -T } "rectangle" (.flat [exRow 1, exRow n]) {}).1 =
      .error .valueError := by
  obtain ⟨K, hK⟩ := exShort
  have hg : (20 : ℝ) ≤ max K 20 := le_max_right _ _
  generalize max K 20 = g at hg
  obtain ⟨N1, hN1⟩ := exLoaded_graded (g := g) (q := 10000) (m := 1) hK hg le_rfl le_rfl (by norm_num)
  obtain ⟨N2, hN2⟩ := exLoaded_graded (g := g) (q := 20000) (m := 1) hK hg (by norm_num) le_rfl (by norm_num)
  obtain ⟨n, hn⟩ : ∃ n, n = N1 + N2 := ⟨_, rfl⟩
  obtain ⟨hn0, G1⟩ := hN1 n (by omega)
  obtain ⟨-, G2⟩ := hN2 n (by omega)
  have init : ∀ f, [exRow 1, exRow n].head? = some f → ∃ s, Usable exProblem f 100 (.multiple (exDouble 100)) s := by
    intro f hf
    cases hf
    obtain ⟨s, hu, -⟩ := exUsable (exRow 1) (exRow_ne one_ne_zero) 100 (by tauto) (exRow_spacing 1)
    exact ⟨s, hu⟩
  have all : ∀ f ∈ [exRow 1, exRow n], ∀ H, H = 50 ∨ H = 100 → ∃ s, Usable exProblem f H (.multiple (exDouble H)) s ∧
      charTime s = 100000 * H ^ 2 := by
    intro f hf H hH
    have : ∃ j, j ≠ 0 ∧ f = exRow j := by
      rcases List.mem_pair.1 hf with rfl | rfl
      · exact ⟨1, one_ne_zero, rfl⟩
      · exact ⟨n, hn0, rfl⟩
    obtain ⟨j, hj, rfl⟩ := this
    exact exUsable (exRow j) (exRow_ne hj) H (by tauto) (exRow_spacing j)
  have hinit : ∀ f, [exRow 1, exRow n].head? = some f →
      ∃ bhe s, Usable (exLoaded g 20000 1) f (exLoaded g 20000 1).borehole.H bhe s := by
    intro f hf
    obtain ⟨s, hu⟩ := init f hf
    exact ⟨_, s, exLoaded_usable le_rfl hu⟩
  have hall : ∀ f ∈ [exRow 1, exRow n], ∀ H, H = (exLoaded g 20000 1).minHeight ∨ H = (exLoaded g 20000 1).maxHeight →
      ∃ bhe s, Usable (exLoaded g 20000 1) f H bhe s ∧ Seam s ∧ Fits (exLoaded g 20000 1) f H s := by
    intro f hf H hH
    obtain ⟨s, hu, hct⟩ := all f hf H hH
    exact ⟨_, s, exLoaded_usable le_rfl hu, exSeam s H hH hct, .inl ⟨rfl, 1, le_rfl, exLoaded_months,
      exLoaded_fits (by norm_num) hH hct⟩⟩
  obtain ⟨k', f', e2, -⟩ := flat_smallest "rectangle" (.inr rfl) _ G2 (by simp) (by
    intro f hf
    obtain ⟨s, hu⟩ := init f hf
    obtain ⟨x, hx, -⟩ := C95_made (exLoaded_usable (g := g) (q := 20000) (m := 1) le_rfl hu)
    exact ⟨x, hx⟩)
  have eh : (1 / 2 * 20000 : ℝ) = 10000 := by norm_num
  obtain ⟨k, f, e1, i1⟩ := C136_design (p := exLoaded g 20000 1) "rectangle" (.inr rfl) (1 / 2) (by norm_num) (by norm_num) rfl 1 le_rfl
    exLoaded_months ⟨by show (5 : ℝ) ≤ 18; norm_num, by show (18 : ℝ) ≤ 35; norm_num⟩ [exRow 1, exRow n]
    (by rw [exLoaded_map, eh]; exact G1) (by
      intro f hf
      obtain ⟨s, hu⟩ := init f hf
      refine ⟨_, s, exLoaded_usable le_rfl hu, ?_⟩
      rw [exLoaded_map]
      exact exLoaded_usable le_rfl hu) (by
      intro f hf H hH
      obtain ⟨s, hu, hct⟩ := all f hf H hH
      refine ⟨_, s, exLoaded_usable le_rfl hu, ?_, exSeam s H hH hct, exLoaded_fits (by norm_num) hH hct⟩
      rw [exLoaded_map]
      exact exLoaded_usable le_rfl hu) k' f' e2
  rw [exLoaded_map, eh] at e1
  obtain ⟨T₀, t₀, hbad⟩ := C137_tooLoose (p := exLoaded g 20000 1) "rectangle" (.inr rfl) [exRow 1, exRow n] (by simp) hinit hall
  obtain ⟨hbad, -⟩ := hbad (max T₀ (-t₀)) (-max T₀ (-t₀)) (le_max_left _ _) (by linarith [le_max_right T₀ (-t₀)])
  have hgr : Graded { exLoaded g 20000 1 with maxEFT := 36, minEFT := 4 } [exRow 1, exRow n] := by
    have ex : ∀ {f H hi lo}, Extremes { exLoaded g 20000 1 with maxEFT := 36, minEFT := 4 } f H hi lo →
        Extremes (exLoaded g 20000 1) f H hi lo := fun h => (C137_temperatures _ _ _ _ _ _ _).1 h
    have hot : ∀ {H hi lo}, (H = 50 ∨ H = 100) → Extremes (exLoaded g 20000 1) (exRow 1) H hi lo →
        0 < excess { exLoaded g 20000 1 with maxEFT := 36, minEFT := 4 } hi lo := by
      intro H hi lo hH he
      have := exLoaded_hot hK hg (by norm_num) le_rfl (by norm_num) hH he
      exact lt_max_of_lt_left (by show 0 < hi - 36; linarith)
    have cool : ∀ {hi lo}, Extremes (exLoaded g 20000 1) (exRow n) 100 hi lo →
        excess { exLoaded g 20000 1 with maxEFT := 36, minEFT := 4 } hi lo < 0 := by
      intro hi lo he
      obtain ⟨h1, h2⟩ := G2.last (exRow n) rfl hi lo he
      change hi ≤ 35 at h1
      change 5 ≤ lo at h2
      exact max_lt (by show hi - 36 < 0; linarith) (by show 4 - lo < 0; linarith)
    refine ⟨?_, ?_, ?_, ?_, ?_, ?_, G2.steps⟩
    · intro f hf H hH
      obtain ⟨hi, lo, h⟩ := G2.simulates f hf H hH
      exact ⟨hi, lo, (C137_temperatures _ _ _ _ _ _ _).2 h⟩
    · rw [List.pairwise_pair]
      intro hi lo hi' lo' h1 h2
      exact (cool (ex h2)).trans (hot (.inr rfl) (ex h1))
    · intro f hf hi lo h
      rcases List.mem_pair.1 hf with rfl | rfl
      · exact (hot (.inr rfl) (ex h)).ne'
      · exact (cool (ex h)).ne
    · intro f hf hi lo h
      cases hf
      exact (hot (.inl rfl) (ex h)).ne'
    · intro f hf
      cases hf
      exact ⟨_, .inr rfl, fun hi lo h => violates_iff.1 (hot (.inr rfl) (ex h))⟩
    · intro f hf hi lo h
      cases hf
      exact within_iff.1 (cool (ex h)).le
  obtain ⟨k'', f'', e3, i3⟩ := C137_design (p := exLoaded g 20000 1) "rectangle" (.inr rfl) 36 4 (by show (35 : ℝ) ≤ 36; norm_num)
    (by show (4 : ℝ) ≤ 5; norm_num) _ hgr hinit hall k' f' e2
  exact ⟨g, n, k, f, k', f', k'', f'', _, e2, e1, i1, e3, i3, hbad⟩

end

end Ghedt.WholeSearch
