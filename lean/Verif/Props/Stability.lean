import Verif.Lemmas.Close
import Verif.Props.Deeper
import Verif.Props.MoreLoad

/-!
# Small errors in the response: temperatures, designs and heights (C140)
-/

set_option linter.unusedSectionVars false

namespace Ghedt.WholeSearch
open Real Ghedt.GHE Ghedt.Bhe Ghedt.Radial Ghedt.Whole Ghedt.Search Ghedt.Utilities Ghedt.Spec

noncomputable section
variable {p : Problem} {f : Field} {H : ℝ} {bhe : Exchanger} {s : UTube}

/-- the short-time simulation of two solvers: the same times -/
theorem same_times (h : Usable p f H bhe s) {solve' : Solver} (hsol : SizedSolver solve') {rad rad' : Radial} {lt lt' gs gs' : List ℝ}
    (h1 : calcSts p.solve (radialTube p.ext s) none false p.fuel = .ok (rad, lt, gs))
    (h2 : calcSts solve' (radialTube p.ext s) none false p.fuel = .ok (rad', lt', gs')) :
    lt' = lt ∧ gs.length = gs'.length := by
  have enough : ∀ {N : ℕ}, 1 ≤ N → (∀ k, 1 ≤ k → k < N → sampleTime k < horizon (radialTube p.ext s) none) → N ≤ p.fuel := by
    intro N h0 h2
    have hf := h.steps
    rcases Nat.lt_or_ge N 2 with hl | hl
    · have : (0 : ℝ) ≤ max (charTime s * exp (-(86 / 10))) (49 * 3600) / 120 := by positivity
      have : (1 : ℝ) ≤ p.fuel := by linarith
      have : 1 ≤ p.fuel := by exact_mod_cast this
      omega
    · have := h2 (N - 1) (by omega) (by omega)
      unfold sampleTime at this
      rw [Nat.cast_sub h0, Nat.cast_one] at this
      change _ < max (charTime s * exp (-(86 / 10))) (49 * 3600) at this
      have hq : (N : ℝ) ≤ p.fuel := by
        have : (0 : ℝ) < 1 / 10 ^ 12 := by positivity
        linarith
      exact_mod_cast hq
  obtain ⟨X, N, a0, a1, a2, arun⟩ := Radial.run_sized h.sound h.solver.sized none
  obtain ⟨X', N', b0, b1, b2, brun⟩ := Radial.run_sized h.sound hsol none
  have e : N = N' := by
    rcases lt_trichotomy N N' with hl | hl | hl
    · exact absurd (b2 N a0 hl) (not_lt.2 a1)
    · exact hl
    · exact absurd (a2 N' b0 hl) (not_lt.2 b1)
  subst e
  have r1 := arun p.fuel (enough a0 a2)
  have r2 := brun p.fuel (enough a0 a2)
  rw [h1] at r1
  rw [h2] at r2
  cases r1
  cases r2
  exact ⟨rfl, by rw [List.length_map, List.length_map]⟩

/-- C140: two solvers and two g-functions.  If no sample of the short-time response of the one differs from that of the other by
more than `η`, and no value of the g-function, the temperature predicted for any hour differs by at most `η` times the sum of
the changes of the load up to that hour, per metre of borehole and over `2 π k`; and so do the extremes that are returned,
with all changes of the load. -/
theorem C140_hours (h : Usable p f H bhe s) (solve' : Solver) (gf' : ℝ → Media → Field → ℝ → ℝ → ℝ → Py (List ℝ))
    (h' : Usable { p with solve := solve', gf := gf' } f H bhe s) (hs : Seam s)
    (n : ℕ) (hn : 1 ≤ n) (hmonths : p.endMonth - p.startMonth + 1 = 12 * n)
    (hend : 3600 * (8760 * n) ≤ charTime s * exp (3003 / 1000)) (η : ℝ)
    (hshort : ∀ rad lt gs rad' lt' gs', calcSts p.solve (radialTube p.ext s) none false p.fuel = .ok (rad, lt, gs) →
      calcSts solve' (radialTube p.ext s) none false p.fuel = .ok (rad', lt', gs') →
      ∀ (k : ℕ) a b, gs[k]? = some a → gs'[k]? = some b → |a - b| ≤ η)
    (hlong : ∀ c c', p.gf (massFlow p f) p.media f H p.borehole.rb p.borehole.D = .ok c →
      gf' (massFlow p f) p.media f H p.borehole.rb p.borehole.D = .ok c' →
      ∀ (k : ℕ) a b, c[k]? = some a → c'[k]? = some b → |a - b| ≤ η)
    (Q : ℕ → ℝ) (hQ0 : Q 0 = 0) (hQ : ∀ k, p.hourly[k % 8760]? = some (-Q (k + 1))) :
    ∃ T hi lo T' hi' lo', HourlyRun p f H n T hi lo ∧ HourlyRun { p with solve := solve', gf := gf' } f H n T' hi' lo' ∧
      (∀ k < 8760 * n, |T k - T' k| ≤
        (∑ j ∈ Finset.range (k + 1), |Q (j + 1) - Q j|) / (f.length * H) / (2 * π * p.media.soil.k) * η) ∧
      |hi - hi'| ≤ (∑ j ∈ Finset.range (8760 * n), |Q (j + 1) - Q j|) / (f.length * H) / (2 * π * p.media.soil.k) * η ∧
      |lo - lo'| ≤ (∑ j ∈ Finset.range (8760 * n), |Q (j + 1) - Q j|) / (f.length * H) / (2 * π * p.media.soil.k) * η := by
  obtain ⟨hi, lo, rad, lt, gs, c, G, a1, a2, a3, a4⟩ := hourly_run h hs n hn hmonths hend
  obtain ⟨hi', lo', rad', lt', gs', c', G', b1, b2, b3, b4⟩ := hourly_run h' hs n hn hmonths hend
  change calcSts solve' (radialTube p.ext s) none false p.fuel = _ at b1
  change gf' (massFlow p f) p.media f H p.borehole.rb p.borehole.D = _ at b2
  obtain ⟨rfl, hlen⟩ := same_times h h'.solver.sized a1 b1
  have hpts : ClosePoints η (points lt' gs c) (points lt' gs' c') := by
    refine closePoints_append (closePoints_filter _ (closePoints_zip hlen (hshort _ _ _ _ _ _ a1 b1)))
      (closePoints_zip ?_ (hlong _ _ a2 b2))
    obtain ⟨c1, e1, l1⟩ := h.curve
    obtain ⟨c2, e2, l2⟩ := h'.curve
    rw [a2] at e1
    rw [show gf' (massFlow p f) p.media f H p.borehole.rb p.borehole.D = .ok c2 from e2] at b2
    cases e1
    cases b2
    rw [l1, l2]
  have hη : 0 ≤ η := by
    obtain ⟨c1, e1, l1⟩ := h.curve
    rw [a2] at e1
    cases e1
    have hne : (points lt' gs c) ≠ [] := by
      unfold points
      intro h0
      have := (List.append_eq_nil_iff.1 h0).2
      have h3 := congrArg List.length this
      rw [List.length_zip, l1, min_self] at h3
      exact absurd h3 (by decide)
    obtain ⟨q, hq⟩ := List.exists_mem_of_ne_nil _ hne
    obtain ⟨i, hi⟩ := List.mem_iff_getElem?.1 hq
    obtain ⟨q', -, -, h3⟩ := hpts.get hi
    exact (abs_nonneg _).trans h3
  have hord := points_ordered h' hs (rad := rad') (lt := lt') (gs := gs') (c := c') b1 b2
  have hQr : rejected p.hourly = Q := by
    funext i
    cases i with
    | zero => rw [hQ0]; rfl
    | succ k => rw [rejected_succ, List.getD_eq_getElem?_getD, hQ]; simp
  rw [hQr] at a4
  change HourlyRun { p with solve := solve', gf := gf' } f H n
    (fun k => exitTemp (siteOf p f H bhe) G' (rejected p.hourly) (fun i => i) (k + 1)) hi' lo' at b4
  rw [hQr] at b4
  have hk := soil_pos h
  have hH := h.height
  have hours : ∀ k < 8760 * n, |exitTemp (siteOf p f H bhe) G Q (fun i => i) (k + 1) -
      exitTemp (siteOf p f H bhe) G' Q (fun i => i) (k + 1)| ≤
      (∑ j ∈ Finset.range (k + 1), |Q (j + 1) - Q j|) / (f.length * H) / (2 * π * p.media.soil.k) * η := by
    intro k hk'
    refine exitTemp_close (siteOf p f H bhe) (show (0 : ℝ) ≤ f.length * H by positivity)
      (show (0 : ℝ) ≤ 2 * π * p.media.soil.k by positivity) G G' Q _ (k + 1) fun j hj => ?_
    have e : ((k + 1 : ℕ) : ℝ) - (j : ℝ) = ((k + 1 - j : ℕ) : ℝ) := by rw [Nat.cast_sub (by omega)]
    rw [e]
    exact polyline_close hord hpts (a3 _ (by omega) (by omega)) (b3 _ (by omega) (by omega))
  have all : ∀ k < 8760 * n, |exitTemp (siteOf p f H bhe) G Q (fun i => i) (k + 1) -
      exitTemp (siteOf p f H bhe) G' Q (fun i => i) (k + 1)| ≤
      (∑ j ∈ Finset.range (8760 * n), |Q (j + 1) - Q j|) / (f.length * H) / (2 * π * p.media.soil.k) * η := by
    intro k hk'
    refine (hours k hk').trans (mul_le_mul_of_nonneg_right ?_ hη)
    have : ∑ j ∈ Finset.range (k + 1), |Q (j + 1) - Q j| ≤ ∑ j ∈ Finset.range (8760 * n), |Q (j + 1) - Q j| :=
      Finset.sum_le_sum_of_subset_of_nonneg (Finset.range_subset_range.2 (by omega)) fun _ _ _ => abs_nonneg _
    gcongr
  obtain ⟨⟨⟨i, i1, i2⟩, i3⟩, ⟨j, j1, j2⟩, j3⟩ := a4.extremes h hs hn hmonths hend
  obtain ⟨⟨⟨i', i1', i2'⟩, i3'⟩, ⟨j', j1', j2'⟩, j3'⟩ := b4.extremes h' hs hn hmonths hend
  refine ⟨_, hi, lo, _, hi', lo', a4, b4, hours, ?_, ?_⟩
  · have h1 := abs_le.1 (all i i1)
    have h2 := abs_le.1 (all i' i1')
    have h3 := i3 i' i1'
    have h4 := i3' i i1
    rw [abs_le]
    constructor <;> linarith
  · have h1 := abs_le.1 (all j j1)
    have h2 := abs_le.1 (all j' j1')
    have h3 := j3 j' j1'
    have h4 := j3' j j1
    rw [abs_le]
    constructor <;> linarith

/-- C140, the linear solver: for one that solves the equations up to a relative error `ε`, small for the tube, no temperature
differs from that of an exact solver by more than the bound of C131 on the error of the core temperature at 1 W/m, times the
sum of the changes of the load up to that hour, per metre of borehole. -/
theorem C140_solver (h : Usable p f H bhe s) (exact : Solver) (hex : ExactSolver exact) (hs : Seam s)
    (n : ℕ) (hn : 1 ≤ n) (hmonths : p.endMonth - p.startMonth + 1 = 12 * n)
    (hend : 3600 * (8760 * n) ≤ charTime s * exp (3003 / 1000)) (ε : ℝ) (hε : 0 ≤ ε) (hsol : NearSolver ε p.solve)
    (hsmall : ε * (coreResistance (radialTube p.ext s) * gridTerms (radialTube p.ext s)) ≤ 1 / 2)
    (Q : ℕ → ℝ) (hQ0 : Q 0 = 0) (hQ : ∀ k, p.hourly[k % 8760]? = some (-Q (k + 1))) :
    ∃ T hi lo T' hi' lo', HourlyRun p f H n T hi lo ∧ HourlyRun { p with solve := exact } f H n T' hi' lo' ∧
      (∀ k < 8760 * n, |T k - T' k| ≤
        (∑ j ∈ Finset.range (k + 1), |Q (j + 1) - Q j|) / (f.length * H) * tempError ε (radialTube p.ext s)) ∧
      |hi - hi'| ≤ (∑ j ∈ Finset.range (8760 * n), |Q (j + 1) - Q j|) / (f.length * H) * tempError ε (radialTube p.ext s) ∧
      |lo - lo'| ≤ (∑ j ∈ Finset.range (8760 * n), |Q (j + 1) - Q j|) / (f.length * H) * tempError ε (radialTube p.ext s) := by
  have h' : Usable { p with solve := exact, gf := p.gf } f H bhe s :=
    ⟨h.flow, h.field, h.height, h.radius, h.exchanger, h.converts, h.sound, hex.accurate h.sound, h.steps, h.text, h.curve,
      h.year, h.heating, h.cooling, h.months⟩
  have hk := soil_pos h
  have eks : (radialTube p.ext s).kSoil = p.media.soil.k := by
    show s.soil.k = _
    rw [(Network.soil_made h.exchanger h.converts).2.2]
  have cancel : ∀ V : ℝ, V / (f.length * H) / (2 * π * p.media.soil.k) *
      (2 * π * p.media.soil.k * tempError ε (radialTube p.ext s)) = V / (f.length * H) * tempError ε (radialTube p.ext s) := by
    intro V
    have : 2 * π * p.media.soil.k ≠ 0 := by positivity
    rw [← mul_assoc, div_mul_cancel₀ _ this]
  obtain ⟨T, hi, lo, T', hi', lo', a, b, k1, k2, k3⟩ := C140_hours h exact p.gf h' hs n hn hmonths hend
    (2 * π * p.media.soil.k * tempError ε (radialTube p.ext s)) (by
      intro rad lt gs rad' lt' gs' e1 e2
      obtain ⟨N, r, l, g, g', r1, r2, l1, l2, hd⟩ := C131_close h.sound hex hε hsol hsmall none
      obtain ⟨-, hlen⟩ := same_times h hex.sized e1 e2
      -- enough fuel: both runs are the ones of C131
      obtain ⟨res, hres⟩ := calcSts_stable h.sound h.solver.sized h.steps
      obtain ⟨res', hres'⟩ := calcSts_stable h.sound hex.sized h.steps
      have f1 := hres _ (le_max_left p.fuel N)
      have f2 := hres' _ (le_max_left p.fuel N)
      rw [r1 _ (le_max_right p.fuel N)] at f1
      rw [r2 _ (le_max_right p.fuel N)] at f2
      have f3 := hres _ le_rfl
      have f4 := hres' _ le_rfl
      cases f1
      cases f2
      rw [e1] at f3
      rw [e2] at f4
      cases f3
      cases f4
      rw [eks] at hd
      exact hd) (by
      intro c c' e1 e2 k a b ha hb
      rw [e1] at e2
      cases e2
      rw [ha] at hb
      cases hb
      rw [sub_self, abs_zero]
      have := tempError_nonneg h.sound hε
      positivity) Q hQ0 hQ
  simp only [cancel] at k1 k2 k3
  exact ⟨T, hi, lo, T', hi', lo', a, b, k1, k2, k3⟩

/-- The candidates are graded with the margin `η`: by more than `2 η` from each to the next, and none is within `η` of a
limit. -/
structure GradedBy (η : ℝ) (p : Problem) (d : List Field) : Prop where
  simulates : ∀ f ∈ d, ∀ H, H = p.minHeight ∨ H = p.maxHeight → ∃ hi lo, Extremes p f H hi lo
  decreasing : d.Pairwise fun f g => ∀ hi lo hi' lo', Extremes p f p.maxHeight hi lo → Extremes p g p.maxHeight hi' lo' →
    excess p hi' lo' + 2 * η < excess p hi lo
  off : ∀ f ∈ d, ∀ hi lo, Extremes p f p.maxHeight hi lo → η < |excess p hi lo|
  edge : ∀ f, d.head? = some f → ∀ hi lo, Extremes p f p.minHeight hi lo → η < |excess p hi lo|
  first : ∀ f, d.head? = some f → ∃ H, (H = p.minHeight ∨ H = p.maxHeight) ∧ ∀ hi lo, Extremes p f H hi lo →
    ¬ WithinLimits p hi lo
  last : ∀ f, d.getLast? = some f → ∀ hi lo, Extremes p f p.maxHeight hi lo → WithinLimits p hi lo
  steps : d.length ≤ 2 ^ p.maxIter.toNat + 1

theorem GradedBy.graded {η : ℝ} {d : List Field} (h : GradedBy η p d) (hη : 0 ≤ η) : Graded p d where
  simulates := h.simulates
  decreasing := h.decreasing.imp fun hk hi lo hi' lo' a b => by linarith [hk hi lo hi' lo' a b]
  off := fun f hf hi lo he h0 => by
    have := h.off f hf hi lo he
    rw [h0, abs_zero] at this
    linarith
  edge := fun f hf hi lo he h0 => by
    have := h.edge f hf hi lo he
    rw [h0, abs_zero] at this
    linarith
  first := h.first
  last := h.last
  steps := h.steps

theorem excess_close {p' : Problem} (e1 : p'.maxEFT = p.maxEFT) (e2 : p'.minEFT = p.minEFT) {η hi lo hi' lo' : ℝ}
    (h1 : |hi - hi'| ≤ η) (h2 : |lo - lo'| ≤ η) : |excess p hi lo - excess p' hi' lo'| ≤ η := by
  unfold excess
  rw [e1, e2]
  refine (abs_max_sub_max_le_max _ _ _ _).trans (max_le ?_ ?_)
  · rwa [sub_sub_sub_cancel_right]
  · rw [sub_sub_sub_cancel_left, abs_sub_comm]
    exact h2

/-- C140, designs: two problems with the same limits of temperature and height, for which the extremes predicted for each
candidate differ by at most `η`.  If the candidates are graded with the margin `η` for the one, the near-square and rectangle
routines select the same field for both. -/
theorem C140_design (routine : String) (hr : routine = "near-square" ∨ routine = "rectangle") (η : ℝ) (hη : 0 ≤ η)
    (p' : Problem) (e1 : p'.maxEFT = p.maxEFT) (e2 : p'.minEFT = p.minEFT) (e3 : p'.minHeight = p.minHeight)
    (e4 : p'.maxHeight = p.maxHeight) (e5 : p'.maxIter = p.maxIter) (d : List Field) (hd : d ≠ []) (hg : GradedBy η p d)
    (hinit : ∀ f, d.head? = some f → (∃ x, fresh p f p.borehole.H = .ok x) ∧ ∃ x, fresh p' f p'.borehole.H = .ok x)
    (hclose : ∀ f ∈ d, ∀ H, H = p.minHeight ∨ H = p.maxHeight → ∀ hi lo, Extremes p f H hi lo →
      ∃ hi' lo', Extremes p' f H hi' lo' ∧ |hi - hi'| ≤ η ∧ |lo - lo'| ≤ η) :
    ∃ k f, (findDesign p routine (.flat d) {}).1 = .ok (some (k, f)) ∧
      (findDesign p' routine (.flat d) {}).1 = .ok (some (k, f)) := by
  have hge := hg.graded hη
  -- the extremes of both problems, compared
  have both : ∀ f ∈ d, ∀ H, H = p.minHeight ∨ H = p.maxHeight → ∀ hi' lo', Extremes p' f H hi' lo' →
      ∃ hi lo, Extremes p f H hi lo ∧ |excess p hi lo - excess p' hi' lo'| ≤ η := by
    intro f hf H hH hi' lo' h'
    obtain ⟨hi, lo, h⟩ := hg.simulates f hf H hH
    obtain ⟨hi'', lo'', h'', k1, k2⟩ := hclose f hf H hH hi lo h
    obtain ⟨rfl, rfl⟩ := h''.unique h'
    exact ⟨hi, lo, h, excess_close e1 e2 k1 k2⟩
  have mh : ∀ {f}, d.head? = some f → f ∈ d := fun h => List.mem_of_mem_head? h
  have ml : ∀ {f}, d.getLast? = some f → f ∈ d := fun h => List.mem_of_getLast? h
  -- outside a margin the signs agree
  have sign : ∀ {a b : ℝ}, η < |a| → |a - b| ≤ η → b ≠ 0 ∧ (a ≤ 0 ↔ b ≤ 0) := by
    intro a b h1 h2
    rw [abs_le] at h2
    rcases lt_abs.1 h1 with h | h
    · refine ⟨by intro h0; linarith, ?_⟩
      constructor <;> intro h3 <;> linarith
    · refine ⟨by intro h0; linarith, ?_⟩
      constructor <;> intro h3 <;> linarith
  have margin : ∀ f ∈ d, ∀ H, (H = p.maxHeight ∨ (H = p.minHeight ∧ d.head? = some f)) → ∀ hi lo, Extremes p f H hi lo →
      η < |excess p hi lo| := by
    intro f hf H hH hi lo he
    rcases hH with rfl | ⟨rfl, h0⟩
    · exact hg.off f hf hi lo he
    · exact hg.edge f h0 hi lo he
  have agree : ∀ f ∈ d, ∀ H, (H = p.maxHeight ∨ (H = p.minHeight ∧ d.head? = some f)) → ∀ hi lo hi' lo', Extremes p f H hi lo →
      Extremes p' f H hi' lo' → excess p' hi' lo' ≠ 0 ∧ (WithinLimits p hi lo ↔ WithinLimits p' hi' lo') := by
    intro f hf H hH hi lo hi' lo' he he'
    obtain ⟨hi1, lo1, h1, hc⟩ := both f hf H (by rcases hH with h | h; exacts [.inr h, .inl h.1]) hi' lo' he'
    obtain ⟨rfl, rfl⟩ := h1.unique he
    obtain ⟨k1, k2⟩ := sign (margin f hf H hH _ _ he) hc
    exact ⟨k1, by rw [← within_iff, ← within_iff]; exact k2⟩
  have hg' : Graded p' d := by
    refine ⟨?_, ?_, ?_, ?_, ?_, ?_, by rw [e5]; exact hg.steps⟩
    · intro f hf H hH
      rw [e3, e4] at hH
      obtain ⟨hi, lo, h⟩ := hg.simulates f hf H hH
      obtain ⟨hi', lo', h', -⟩ := hclose f hf H hH hi lo h
      exact ⟨hi', lo', h'⟩
    · refine List.Pairwise.imp_of_mem (fun {f g} hf hg' hk => ?_) hg.decreasing
      rw [e4]
      intro hi lo hi' lo' a b
      obtain ⟨u, w, a1, a2⟩ := both f hf _ (.inr rfl) _ _ a
      obtain ⟨u', w', b1, b2⟩ := both g hg' _ (.inr rfl) _ _ b
      have := hk u w u' w' a1 b1
      rw [abs_le] at a2 b2
      linarith
    · intro f hf hi lo he
      rw [e4] at he
      obtain ⟨u, w, a1, -⟩ := both f hf _ (.inr rfl) _ _ he
      exact (agree f hf _ (.inl rfl) _ _ _ _ a1 he).1
    · intro f hf hi lo he
      rw [e3] at he
      obtain ⟨u, w, a1, -⟩ := both f (mh hf) _ (.inl rfl) _ _ he
      exact (agree f (mh hf) _ (.inr ⟨rfl, hf⟩) _ _ _ _ a1 he).1
    · intro f hf
      obtain ⟨H, hH, hout⟩ := hg.first f hf
      refine ⟨H, by rw [e3, e4]; exact hH, fun hi lo he hw => ?_⟩
      obtain ⟨u, w, a1, -⟩ := both f (mh hf) _ hH _ _ he
      refine hout u w a1 ((agree f (mh hf) H ?_ _ _ _ _ a1 he).2.2 hw)
      rcases hH with h | h
      exacts [.inr ⟨h, hf⟩, .inl h]
    · intro f hf hi lo he
      rw [e4] at he
      obtain ⟨u, w, a1, -⟩ := both f (ml hf) _ (.inr rfl) _ _ he
      exact (agree f (ml hf) _ (.inl rfl) _ _ _ _ a1 he).2.1 (hg.last f hf u w a1)
  obtain ⟨k, f, k1, k2, k3, k4⟩ := flat_smallest routine hr d hge hd fun f hf => (hinit f hf).1
  obtain ⟨k', f', m1, m2, m3, m4⟩ := flat_smallest routine hr d hg' hd fun f hf => (hinit f hf).2
  have hz : routine ≠ "bi-zoned" := by rcases hr with rfl | rfl <;> decide
  have zero : ∀ {g : Field}, d[0]? = some g → d.head? = some g := fun h => by rw [List.head?_eq_getElem?]; exact h
  -- the earlier one is within the limits for the other problem too
  have le1 : k' ≤ k := by
    obtain ⟨k0, f0, x, hi, lo, q1, -, q3, -, q5, q6⟩ := C93_returned (p := p) routine hz (.flat d) _ _ (Prod.ext k1 rfl)
    cases q1
    have he : Extremes p f p.maxHeight hi lo := ⟨x, q3, q5⟩
    have hf := List.mem_of_getElem? k2
    rcases q6 with q6 | ⟨rfl, u, w, q7, q8⟩
    · by_contra hn
      obtain ⟨hi', lo', he', -⟩ := hclose f hf _ (.inr rfl) hi lo he
      exact m3 k (not_le.1 hn) f k2 hi' lo' (e4 ▸ he') ((agree f hf _ (.inl rfl) _ _ _ _ he he').2.1 q6)
    · obtain ⟨hi', lo', he', -⟩ := hclose f hf _ (.inl rfl) u w q7
      rw [m4 f (zero k2) _ (.inl rfl) hi' lo' (e3 ▸ he') ((agree f hf _ (.inr ⟨rfl, zero k2⟩) _ _ _ _ q7 he').2.1 q8)]
  have le2 : k ≤ k' := by
    obtain ⟨k0, f0, x, hi', lo', q1, -, q3, -, q5, q6⟩ := C93_returned (p := p') routine hz (.flat d) _ _ (Prod.ext m1 rfl)
    cases q1
    have he' : Extremes p' f' p.maxHeight hi' lo' := e4 ▸ ⟨x, q3, q5⟩
    have hf := List.mem_of_getElem? m2
    rcases q6 with q6 | ⟨rfl, u, w, q7, q8⟩
    · by_contra hn
      obtain ⟨hi, lo, he, -⟩ := both f' hf _ (.inr rfl) hi' lo' he'
      exact k3 k' (not_le.1 hn) f' m2 hi lo he ((agree f' hf _ (.inl rfl) _ _ _ _ he he').2.2 q6)
    · rw [e3] at q7
      obtain ⟨hi, lo, he, -⟩ := both f' hf _ (.inl rfl) u w q7
      rw [k4 f' (zero m2) _ (.inl rfl) hi lo he ((agree f' hf _ (.inr ⟨rfl, zero m2⟩) _ _ _ _ he q7).2.2 q8)]
  obtain rfl : k = k' := le_antisymm le2 le1
  rw [k2] at m2
  cases m2
  exact ⟨k, f, k1, m1⟩

/-- C140: so a design with the hourly method is the one that an exact linear solver would have given, if the candidates are
graded with a margin of at least the bound of C140_solver. -/
theorem C140_exact (routine : String) (hr : routine = "near-square" ∨ routine = "rectangle") (exact : Solver)
    (hex : ExactSolver exact) (ε : ℝ) (hε : 0 ≤ ε) (hsol : NearSolver ε p.solve) (hm : p.method = "hourly") (n : ℕ) (hn : 1 ≤ n)
    (hmonths : p.endMonth - p.startMonth + 1 = 12 * n) (Q : ℕ → ℝ) (hQ0 : Q 0 = 0)
    (hQ : ∀ k, p.hourly[k % 8760]? = some (-Q (k + 1))) (η : ℝ) (d : List Field) (hd : d ≠ []) (hg : GradedBy η p d)
    (hinit : ∀ f, d.head? = some f → ∃ bhe s, Usable p f p.borehole.H bhe s)
    (hall : ∀ f ∈ d, ∀ H, H = p.minHeight ∨ H = p.maxHeight → ∃ bhe s, Usable p f H bhe s ∧ Seam s ∧
      3600 * (8760 * n) ≤ charTime s * exp (3003 / 1000) ∧
      ε * (coreResistance (radialTube p.ext s) * gridTerms (radialTube p.ext s)) ≤ 1 / 2 ∧
      (∑ j ∈ Finset.range (8760 * n), |Q (j + 1) - Q j|) / (f.length * H) * tempError ε (radialTube p.ext s) ≤ η) :
    ∃ k f, (findDesign p routine (.flat d) {}).1 = .ok (some (k, f)) ∧
      (findDesign { p with solve := exact } routine (.flat d) {}).1 = .ok (some (k, f)) := by
  have hη : 0 ≤ η := by
    obtain ⟨f, hf⟩ := List.exists_mem_of_ne_nil _ hd
    obtain ⟨bhe, s, h, h1, h2, h3, h4⟩ := hall f hf _ (.inl rfl)
    refine le_trans ?_ h4
    have := tempError_nonneg h.sound hε
    have := h.height
    positivity
  refine C140_design (p := p) routine hr η hη { p with solve := exact } rfl rfl rfl rfl rfl d hd hg ?_ ?_
  · intro f hf
    obtain ⟨bhe, s, h⟩ := hinit f hf
    obtain ⟨x, hx, -⟩ := C95_made h
    obtain ⟨x', hx', -⟩ := C95_made (p := { p with solve := exact }) (f := f) (H := p.borehole.H) (bhe := bhe) (s := s)
      ⟨h.flow, h.field, h.height, h.radius, h.exchanger, h.converts, h.sound, hex.accurate h.sound, h.steps, h.text, h.curve,
        h.year, h.heating, h.cooling, h.months⟩
    exact ⟨⟨x, hx⟩, x', hx'⟩
  · intro f hf H hH hi lo he
    obtain ⟨bhe, s, h, h1, h2, h3, h4⟩ := hall f hf H hH
    obtain ⟨T, u, w, T', u', w', r, r', -, k1, k2⟩ := C140_solver h exact hex h1 n hn hmonths h2 ε hε hsol h3 Q hQ0 hQ
    obtain ⟨rfl, rfl⟩ := (r.toExtremes hm).unique he
    exact ⟨u', w', r'.toExtremes hm, k1.trans h4, k2.trans h4⟩

end

end Ghedt.WholeSearch

namespace Ghedt.Whole
open Real Ghedt.GHE Ghedt.Bhe Ghedt.Radial Ghedt.Spec

noncomputable section

/-- C140, sizing: two exchangers whose predicted extremes differ by at most `η` at every height between the bounds.  If deeper
is better for both, and for the one `w` metres more make at least `η` of difference, the heights that sizing
leaves differ by at most `w` and twice the tolerance of the root finder. -/
theorem C140_size {env env' : Env} {lo hi lo' hi' : ℝ} {x x' : Exchanger} {s0 s0' : State} {δ η w : ℝ} (method : String)
    (hc : Covered env lo hi x s0) (hc' : Covered env' lo' hi' x' s0') (hlt : env.minHeight < env.maxHeight)
    (e1 : env'.minHeight = env.minHeight) (e2 : env'.maxHeight = env.maxHeight) (e3 : env'.maxEFT = env.maxEFT)
    (e4 : env'.minEFT = env.minEFT) (himp : Improves env method s0) (himp' : Improves env' method s0')
    (hclose : ∀ H, env.minHeight ≤ H → H ≤ env.maxHeight → ∃ u v u' v', Gives env method s0 H u v ∧
      Gives env' method s0' H u' v' ∧ |u - u'| ≤ η ∧ |v - v'| ≤ η)
    (hw : 0 ≤ w) (hsteep : ∀ H, env.minHeight ≤ H → H + w ≤ env.maxHeight → ∀ u v u' v', Gives env method s0 H u v →
      Gives env method s0 (H + w) u' v' →
      max (u' - env.maxEFT) (env.minEFT - v') + η ≤ max (u - env.maxEFT) (env.minEFT - v))
    (h0 : 0 ≤ δ) (hF : Narrows δ env.minHeight env.maxHeight (env.brent env.minHeight env.maxHeight))
    (hF' : Narrows δ env.minHeight env.maxHeight (env'.brent env.minHeight env.maxHeight))
    (hmin : ¬ WithinAt env method s0 env.minHeight) (hmin' : ¬ WithinAt env' method s0' env.minHeight) (ops ops' : List Op)
    (hops : ∀ y, Op.height y ∈ ops → Within env lo hi y) (hops' : ∀ y, Op.height y ∈ ops' → Within env' lo' hi' y)
    (r r' : List Warning) (s s' : State) (hs : size env method (ops.foldl (perform env) s0) = (.ok r, s))
    (hs' : size env' method (ops'.foldl (perform env') s0') = (.ok r', s')) :
    |(borehole s.bhe).H - (borehole s'.bhe).H| ≤ w + 2 * δ := by
  have uniq : ∀ {e : Env} {t : State} {H a b c d : ℝ}, Gives e method t H a b → Gives e method t H c d → a = c ∧ b = d := by
    intro e t H a b c d h1 h2
    have := h1.symm.trans h2
    cases this
    exact ⟨rfl, rfl⟩
  have hsim : Simulates env method s0 := fun H a b => by
    obtain ⟨u, v, -, -, h, -⟩ := hclose H a b
    exact ⟨u, v, h⟩
  have hsim' : Simulates env' method s0' := fun H a b => by
    obtain ⟨-, -, u, v, -, h, -⟩ := hclose H (e1 ▸ a) (e2 ▸ b)
    exact ⟨u, v, h⟩
  have L := fun z => C138_least hc hlt hsim himp h0 hF hmin ops hops r s hs z
  have L' := fun z => C138_least hc' (by rw [e1, e2]; exact hlt) hsim' himp' h0 (by rw [e1, e2]; exact hF') (by rw [e1]; exact hmin')
    ops' hops' r' s' hs' z
  rw [e1, e2] at L'
  have b1 : env.minHeight ≤ (borehole s.bhe).H ∧ (borehole s.bhe).H ≤ env.maxHeight := by
    obtain ⟨⟨l, l1, l2, l3, l4, -⟩, q⟩ := size_bracket hc hlt hsim hF h0 hmin ops hops r s hs
    refine ⟨by linarith, ?_⟩
    rcases q with ⟨q, -⟩ | ⟨t, t1, t2, t3, t4, -⟩ <;> linarith
  have b2 : env.minHeight ≤ (borehole s'.bhe).H ∧ (borehole s'.bhe).H ≤ env.maxHeight := by
    obtain ⟨⟨l, l1, l2, l3, l4, -⟩, q⟩ := size_bracket hc' (by rw [e1, e2]; exact hlt) hsim' (by rw [e1, e2]; exact hF') h0
      (by rw [e1]; exact hmin') ops' hops' r' s' hs'
    rw [e1, e2] at q
    refine ⟨by linarith, ?_⟩
    rcases q with ⟨q, -⟩ | ⟨t, t1, t2, t3, t4, -⟩ <;> linarith
  generalize (borehole s.bhe).H = h at L b1 ⊢
  generalize (borehole s'.bhe).H = h' at L' b2 ⊢
  rw [abs_le]
  constructor
  · -- `h'` is not too great
    by_contra hn
    push_neg at hn
    -- a height just above `h + δ`, and `w` metres more
    obtain ⟨z, z1, z2⟩ := exists_between (show h + δ < h' - δ - w by linarith)
    obtain ⟨u, v, k1, k2, k3⟩ := (L z (by linarith) (by linarith)).2 z1
    obtain ⟨u1, v1, u1', v1', g1, g1', c1, c2⟩ := hclose (z + w) (by linarith) (by linarith)
    have st := hsteep z (by linarith) (by linarith) u v u1 v1 k1 g1
    refine (L' (z + w) (by linarith) (by linarith)).1 (by linarith) ⟨u1', v1', g1', ?_, ?_⟩
    · rw [e3]
      have a1 : max (u - env.maxEFT) (env.minEFT - v) < 0 := max_lt (by linarith) (by linarith)
      have a2 := le_max_left (u1 - env.maxEFT) (env.minEFT - v1)
      rw [abs_le] at c1
      linarith
    · rw [e4]
      have a1 : max (u - env.maxEFT) (env.minEFT - v) < 0 := max_lt (by linarith) (by linarith)
      have a2 := le_max_right (u1 - env.maxEFT) (env.minEFT - v1)
      rw [abs_le] at c2
      linarith
  · by_contra hn
    push_neg at hn
    obtain ⟨z, z1, z2⟩ := exists_between (show h' + δ < h - δ - w by linarith)
    obtain ⟨u', v', k1, k2, k3⟩ := (L' z (by linarith) (by linarith)).2 z1
    obtain ⟨u, v, u2, v2, g1, g1', c1, c2⟩ := hclose z (by linarith) (by linarith)
    obtain ⟨rfl, rfl⟩ := uniq g1' k1
    obtain ⟨u1, v1, -, -, g2, -⟩ := hclose (z + w) (by linarith) (by linarith)
    have st := hsteep z (by linarith) (by linarith) u v u1 v1 g1 g2
    rw [e3] at k2
    rw [e4] at k3
    rw [abs_le] at c1 c2
    have a1 : max (u - env.maxEFT) (env.minEFT - v) < η := max_lt (by linarith) (by linarith)
    refine (L (z + w) (by linarith) (by linarith)).1 (by linarith) ⟨u1, v1, g2, ?_, ?_⟩
    · have a2 := le_max_left (u1 - env.maxEFT) (env.minEFT - v1)
      linarith
    · have a2 := le_max_right (u1 - env.maxEFT) (env.minEFT - v1)
      linarith

end

end Ghedt.Whole
