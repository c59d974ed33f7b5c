import Verif.Props.Inputs
import Verif.Props.WholeSize
import Verif.Props.Design

/-!
# A design, from what the user gives to the exchanger returned (C106, C107)

`Design(…).find_design()` with everything modelled: candidates, search, exchangers, loads, short-time response and
simulation.
-/

set_option linter.unusedSectionVars false

namespace Ghedt.WholeSearch
open Real Ghedt.GHE Ghedt.Bhe Ghedt.Radial Ghedt.Whole Ghedt.Search Ghedt.Utilities Ghedt.Spec Ghedt.Network Ghedt.Design
  Ghedt.Domains

noncomputable section

variable {p : Problem}

theorem top_design (fuel : ℕ) (gc : Constraints ℝ) (routine : String) :
    Top (Design.design fuel (absEnv p) gc routine {}) (design p fuel gc routine {}) (fun v w s t =>
      v = w ∧ (s.temps = t.temps ∧ s.tempsNested = t.tempsNested ∧ s.heights = t.heights) ∧
        ∀ k f, v = some (k, f) → Holds p routine f t) :=
  Top.lift _ fun c _ => top_findDesign routine c

theorem design_abs {fuel : ℕ} {gc : Constraints ℝ} {routine : String} {r : Option (ℤ × Field)} {c' : State}
    (h : design p fuel gc routine {} = (.ok r, c')) :
    ∃ s', Design.design fuel (absEnv p) gc routine {} = (.ok r, s') ∧ ∀ k f, r = some (k, f) → Holds p routine f c' := by
  have htop := top_design (p := p) fuel gc routine
  rw [h] at htop
  rcases htop with ⟨e, -, he⟩ | ⟨v, w, hv, hw, hvw, -, hh⟩
  · cases he
  cases hvw
  cases hw
  rcases hd : Design.design fuel (absEnv p) gc routine {} with ⟨r', s'⟩
  rw [hd] at hv
  change r' = _ at hv
  subst hv
  exact ⟨s', rfl, hh⟩

/-- The verdict on a field a search may return: newly made at the maximum height it can be simulated and is within the
temperature limits, or it is the single borehole at the origin, within the limits at the minimum height. -/
def Accepted (p : Problem) (f : Field) : Prop :=
  ∃ hi lo, Extremes p f p.maxHeight hi lo ∧
    (WithinLimits p hi lo ∨ f = [(0, 0)] ∧ ∃ hi' lo', Extremes p f p.minHeight hi' lo' ∧ WithinLimits p hi' lo')

theorem accepted_of {f : Field} {v : ℝ} (hv : (absEnv p).sim f (absEnv p).maxHeight = .ok v)
    (hc : v ≤ 0 ∨ f = [(0, 0)] ∧ ∃ a, (absEnv p).sim f (absEnv p).minHeight = .ok a ∧ a * v < 0) : Accepted p f := by
  rcases hc with hc | ⟨hf, hc⟩
  · obtain ⟨hi, lo, h1, h2⟩ := verdict (k := 0) hv (.inl hc)
    obtain ⟨hi', lo', h3, rfl⟩ := sim_extremes hv
    exact ⟨hi', lo', h3, .inl (within_iff.1 hc)⟩
  · obtain ⟨hi, lo, h1, h2⟩ := verdict (k := 0) hv (.inr ⟨rfl, hc⟩)
    exact ⟨hi, lo, h1, h2.imp id fun h => ⟨hf, h.2⟩⟩

/-- C106, rectangle: whatever the external code does, if a design is returned, then it is a field of the land with the
given bounds on one spacing, the exchanger left is the one made by hand for it at the maximum height, and its temperatures
are accepted. -/
theorem C106_rectangle (fuel : ℕ) (gc : Constraints ℝ) {X Y Bmin BX : ℝ} (hX : 0 < X) (hY : 0 < Y) (hBmin : 0 < Bmin)
    (hBX : 0 < BX) (h1 : gc.length = some X) (h2 : gc.width = some Y) (h3 : gc.Bmin = some Bmin)
    (h4 : gc.BmaxX = some BX) (r : Option (ℤ × Field)) (c' : State)
    (h : design p fuel gc "rectangle" {} = (.ok r, c')) :
    ∃ key f x, r = some (key, f) ∧ (∀ q ∈ f, InLand X Y q) ∧
      (∃ (nx ny : ℤ) (B : ℝ), IsGrid nx ny B B f ∧ Bmin ≤ B ∧ B ≤ BX) ∧
      fresh p f p.maxHeight = .ok x ∧ c'.held = some x ∧ Accepted p f := by
  obtain ⟨s', hs, hh⟩ := design_abs h
  obtain ⟨key, f, v, rfl, -, a1, a2, a3, a4⟩ := C79_rectangle fuel (absEnv p) gc hX hY hBmin hBX h1 h2 h3 h4 s' r hs
  have := hh _ _ rfl
  unfold Holds at this
  rw [if_neg (by decide)] at this
  obtain ⟨x, hx, hc⟩ := this
  exact ⟨key, f, x, rfl, a1, a2, hx, hc, accepted_of a3 a4⟩

/-- C106, near-square. -/
theorem C106_nearSquare (fuel : ℕ) (gc : Constraints ℝ) {L B : ℝ} (hL : 0 < L) (hB : 0 < B) (h1 : gc.length = some L)
    (h2 : gc.B = some B) (r : Option (ℤ × Field)) (c' : State)
    (h : design p fuel gc "near-square" {} = (.ok r, c')) :
    ∃ key f x, r = some (key, f) ∧ (∀ q ∈ f, InLand L (L + B) q) ∧
      (∃ n m : ℤ, IsGrid n m B B f ∧ (m = n ∨ m = n + 1)) ∧
      fresh p f p.maxHeight = .ok x ∧ c'.held = some x ∧ Accepted p f := by
  obtain ⟨s', hs, hh⟩ := design_abs h
  obtain ⟨key, f, v, rfl, -, a1, a2, a3, a4⟩ := C79_nearSquare fuel (absEnv p) gc hL hB h1 h2 s' r hs
  have := hh _ _ rfl
  unfold Holds at this
  rw [if_neg (by decide)] at this
  obtain ⟨x, hx, hc⟩ := this
  exact ⟨key, f, x, rfl, a1, a2, hx, hc, accepted_of a3 a4⟩

/-- C106, bi-rectangle. -/
theorem C106_biRectangle (fuel : ℕ) (gc : Constraints ℝ) {X Y Bmin BX BY : ℝ} (hX : 0 < X) (hY : 0 < Y)
    (hBmin : 0 < Bmin) (hBX : 0 < BX) (hBY : 0 < BY) (h1 : gc.length = some X) (h2 : gc.width = some Y)
    (h3 : gc.Bmin = some Bmin) (h4 : gc.BmaxX = some BX) (h5 : gc.BmaxY = some BY) (r : Option (ℤ × Field)) (c' : State)
    (h : design p fuel gc "bi-rectangle" {} = (.ok r, c')) :
    ∃ key f x, r = some (key, f) ∧ (∀ q ∈ f, InLand X Y q) ∧
      (∃ (nx ny : ℤ) (bx bY : ℝ), IsGrid nx ny bx bY f ∧ Bmin ≤ bx ∧ bx ≤ BX ∧ Bmin ≤ bY ∧ bY ≤ BY) ∧
      fresh p f p.maxHeight = .ok x ∧ c'.held = some x ∧ Accepted p f := by
  obtain ⟨s', hs, hh⟩ := design_abs h
  obtain ⟨key, f, v, rfl, -, a1, a2, a3, a4⟩ :=
    C79_biRectangle fuel (absEnv p) gc hX hY hBmin hBX hBY h1 h2 h3 h4 h5 s' r hs
  have := hh _ _ rfl
  unfold Holds at this
  rw [if_neg (by decide)] at this
  obtain ⟨x, hx, hc⟩ := this
  exact ⟨key, f, x, rfl, a1, a2, hx, hc, accepted_of a3 a4⟩

/-- C106, bi-zoned: the field made by hand at the maximum height is within the limits without exception; the exchanger left
is that one after `compute_g_functions` and sizing by the hybrid method. -/
theorem C106_biZoned (fuel : ℕ) (gc : Constraints ℝ) {X Y Bmin BX BY : ℝ} (hY : 0 < Y) (hXY : Y ≤ X) (hBmin : 0 < Bmin)
    (hBX : 0 < BX) (hBY : 0 < BY) (hX' : BX < X) (hY' : BY < Y) (hc1 : ⌈X / BX + 1⌉ ≤ ⌊X / Bmin + 1⌋)
    (hc2 : ⌈Y / BY + 1⌉ ≤ ⌊Y / Bmin + 1⌋) (hfuel : ⌊X / Bmin + 1⌋ + ⌊Y / Bmin + 1⌋ ≤ fuel)
    (h1 : gc.length = some X) (h2 : gc.width = some Y) (h3 : gc.Bmin = some Bmin) (h4 : gc.BmaxX = some BX)
    (h5 : gc.BmaxY = some BY) (r : Option (ℤ × Field)) (c' : State)
    (h : design p fuel gc "bi-zoned" {} = (.ok r, c')) :
    ∃ key f x y H hi lo, r = some (key, f) ∧ (∀ q ∈ f, InLand X Y q) ∧ fresh p f p.maxHeight = .ok x ∧
      Extremes p f p.maxHeight hi lo ∧ WithinLimits p hi lo ∧
      sizeHeld p { held := some x } = (.ok H, { held := some y }) ∧ c'.held = some y ∧ (Whole.borehole y.state.bhe).H = H := by
  obtain ⟨s', hs, hh⟩ := design_abs h
  obtain ⟨key, f, v, H, rfl, a1, a2, a3, -, -⟩ :=
    C79_biZoned fuel (absEnv p) gc hY hXY hBmin hBX hBY hX' hY' hc1 hc2 hfuel h1 h2 h3 h4 h5 s' r hs
  have := hh _ _ rfl
  unfold Holds at this
  rw [if_pos rfl] at this
  obtain ⟨x, H', y, hx, b1, b2, b3⟩ := this
  obtain ⟨hi, lo, he, rfl⟩ := sim_extremes a2
  exact ⟨key, f, x, y, H', hi, lo, rfl, a1, hx, he, within_iff.1 a3, b1, b2, b3⟩

/-! ## C107 — which outcome a design has -/

/-- Everything that is asked of the arguments and libraries, for the given candidate fields. -/
structure Designable (p : Problem) (candidates : List Field) : Prop where
  sensible : Sensible p
  heights : HeightFine p p.borehole.H ∧ HeightFine p p.minHeight ∧ HeightFine p p.maxHeight
  period : PeriodFine p p.minHeight ∧ PeriodFine p p.maxHeight
  text : ∀ f ∈ candidates, ∀ H ∈ [p.borehole.H, p.minHeight, p.maxHeight], TextFine p f H
  converts : ∀ f ∈ candidates, ∀ H ∈ [p.borehole.H, p.minHeight, p.maxHeight], Converts p f H

/-- How far a field newly made at height `H` is outside the temperature limits when simulated. -/
def Outside (p : Problem) (f : Field) (H e : ℝ) : Prop := ∃ hi lo, Extremes p f H hi lo ∧ e = excess p hi lo

/-- The outcomes of a search along one list of fields. -/
def FlatOutcome (p : Problem) (d : List Field) (f0 fl : Field) (r : Except PyErr (Option (ℤ × Field))) : Prop :=
  ∃ a b c, Outside p f0 p.minHeight a ∧ Outside p f0 p.maxHeight b ∧ Outside p fl p.maxHeight c ∧
    (a = 0 ∨ b = 0 → r = .error .zeroDivisionError) ∧
    (a * b < 0 → r = .ok (some (0, f0))) ∧
    (0 < a * b → c = 0 → r = .error .zeroDivisionError) ∧
    (0 < a * b → 0 < b * c → r = .error .valueError) ∧
    (0 < a * b → b * c < 0 →
      (∃ (k : ℕ) (f : Field) (e : ℝ), d[k]? = some f ∧ Outside p f p.maxHeight e ∧ e ≤ 0 ∧ r = .ok (some ((k : ℤ), f))) ∨
      (∃ f ∈ d, Outside p f p.maxHeight 0) ∧ r = .error .zeroDivisionError)

/-- The outcomes of a nested search. -/
def NestedOutcome (p : Problem) (n : List (List Field)) (f0 fl : Field) (r : Except PyErr (Option (ℤ × Field))) : Prop :=
  ∃ a b c, Outside p f0 p.minHeight a ∧ Outside p f0 p.maxHeight b ∧ Outside p fl p.maxHeight c ∧
    (a = 0 ∨ b = 0 → r = .error .zeroDivisionError) ∧
    (a * b < 0 → r = .ok (some (0, f0))) ∧
    (0 < a * b → c = 0 → r = .error .zeroDivisionError) ∧
    (0 < a * b → 0 < b * c → r = .error .valueError) ∧
    (0 < a → 0 < b → c < 0 →
      (∃ (d : List Field) (k : ℕ) (f : Field) (e : ℝ), d ∈ n ∧ d[k]? = some f ∧ Outside p f p.maxHeight e ∧ e ≤ 0 ∧
        r = .ok (some ((k : ℤ), f))) ∨
      (∃ d ∈ n, ∃ f ∈ d, Outside p f p.maxHeight 0) ∧ r = .error .zeroDivisionError) ∧
    (a < 0 → b < 0 → 0 < c →
      (∃ (d : List Field) (k : ℕ) (f : Field) (e : ℝ), d ∈ n ∧ d[k]? = some f ∧ Outside p f p.maxHeight e ∧ e ≤ 0 ∧
        r = .ok (some ((k : ℤ), f))) ∨
      r = .error .valueError ∨
      (∃ d ∈ n, ∃ f ∈ d, Outside p f p.maxHeight 0) ∧ r = .error .zeroDivisionError)

theorem isGrid_ne {nx ny : ℤ} {Bx By : ℝ} {f : Field} (h : IsGrid nx ny Bx By f) : f ≠ [] := by
  rintro rfl
  have h1 : (0 : ℤ) = nx * ny := h.count
  have := mul_pos (show 0 < nx by linarith [h.one_le_x]) (show 0 < ny by linarith [h.one_le_y])
  omega

theorem isGrid_one {Bx By : ℝ} {f : Field} (h : IsGrid 1 1 Bx By f) : f = [(0, 0)] := by
  have h1 : f.length = 1 := by
    have := h.count
    omega
  obtain ⟨q, rfl⟩ := List.length_eq_one_iff.1 h1
  have := (h.points (0, 0)).2 ⟨0, 0, by omega, by omega, by simp⟩
  rw [List.mem_singleton.1 this]

/-- every candidate is usable -/
theorem Designable.usable {cs : List Field} (h : Designable p cs) (hg : ∀ f ∈ cs, f ≠ [] ∧ f.Nodup) {f : Field}
    (hf : f ∈ cs) : (∃ bhe s, Usable p f p.borehole.H bhe s) ∧ ∀ H, H = p.minHeight ∨ H = p.maxHeight →
      ∃ bhe s, Usable p f H bhe s ∧ Seam s ∧ Fits p f H s := by
  obtain ⟨g1, g2⟩ := hg f hf
  constructor
  · obtain ⟨bhe, s, hu, -⟩ := C105_usable h.sensible g1 g2 h.heights.1 (h.text f hf _ (by simp)) (h.converts f hf _ (by simp))
    exact ⟨bhe, s, hu⟩
  · rintro H (rfl | rfl)
    · obtain ⟨bhe, s, hu, hs, -, hp⟩ := C105_usable h.sensible g1 g2 h.heights.2.1 (h.text f hf _ (by simp))
        (h.converts f hf _ (by simp))
      exact ⟨bhe, s, hu, hs, hp h.period.1⟩
    · obtain ⟨bhe, s, hu, hs, -, hp⟩ := C105_usable h.sensible g1 g2 h.heights.2.2 (h.text f hf _ (by simp))
        (h.converts f hf _ (by simp))
      exact ⟨bhe, s, hu, hs, hp h.period.2⟩

theorem design_eq {fuel : ℕ} {gc : Constraints ℝ} {routine : String} {c : Candidates ℝ}
    (h : designInit fuel gc routine = .ok c) : design p fuel gc routine {} = findDesign p routine c {} := by
  unfold design
  rw [St.lift_ok h]

theorem flat_outcome {fuel : ℕ} {gc : Constraints ℝ} {routine : String}
    (hr : routine = "near-square" ∨ routine = "rectangle") {d : List Field} (hi : designInit fuel gc routine = .ok (.flat d))
    {f0 fl : Field} (h0 : d.head? = some f0) (hl : d.getLast? = some fl) (hg : ∀ f ∈ d, f ≠ [] ∧ f.Nodup)
    (h : Designable p d) : FlatOutcome p d f0 fl (design p fuel gc routine {}).1 := by
  rw [design_eq hi]
  obtain ⟨hi0, lo0, hi1, lo1, hi2, lo2, a, b, c, e0, ea, e1, eb, e2, ec, t1, t2, t3, t4, t5⟩ :=
    C96_search (p := p) routine hr d f0 fl h0 hl (h.usable hg (List.mem_of_mem_head? h0)).1
      (fun f hf => (h.usable hg hf).2)
  refine ⟨a, b, c, ⟨_, _, e0, ea⟩, ⟨_, _, e1, eb⟩, ⟨_, _, e2, ec⟩, t1, t2, t3, t4, fun u1 u2 => ?_⟩
  rcases t5 u1 u2 with ⟨k, f, hi, lo, k1, k2, k3, k4⟩ | ⟨k, f, hi, lo, -, -, k1, k2, k3, k4⟩
  · exact .inl ⟨k, f, _, k1, ⟨hi, lo, k2, rfl⟩, within_iff.2 k3, k4⟩
  · exact .inr ⟨⟨f, List.mem_of_getElem? k1, hi, lo, k2, k3.symm⟩, k4⟩

/-- C107, near-square: which outcome the design has is decided by the temperatures of the single borehole at the origin
and of the largest candidate, newly made. -/
theorem C107_nearSquare (fuel : ℕ) (gc : Constraints ℝ) {L B : ℝ} (hL : 0 < L) (hB : 0 < B) (h1 : gc.length = some L)
    (h2 : gc.B = some B) :
    ∃ d fl, designInit fuel gc "near-square" = .ok (.flat d) ∧ d.getLast? = some fl ∧
      IsGrid (⌊L / B⌋ + 1) (⌊L / B⌋ + 2) B B fl ∧
      (Designable p d → FlatOutcome p d [(0, 0)] fl (design p fuel gc "near-square" {}).1) := by
  obtain ⟨n, d, hn, hd, hi⟩ := (C77_available fuel gc hL hL hB hL hL hL h1).1 h2
  have hne : n = ⌊L / B⌋ + 1 := by
    simp only [numberOfBoreholes, pyDiv_ok hB.ne', Except.ok_bind, Except.pure_eq] at hn
    exact (Except.ok.inj hn).symm
  have hfl : 0 ≤ ⌊L / B⌋ := Int.floor_nonneg.2 (div_nonneg hL.le hB.le)
  obtain ⟨d', hd', hlen, hfields, -⟩ := C07_nearSquare_fields (lower := 1) (upper := n) (by omega) (by omega) hB
  rw [hd] at hd'; cases hd'
  have hgrid : ∀ f ∈ d, f ≠ [] ∧ f.Nodup := by
    intro f hf
    obtain ⟨key, hk, hf⟩ := List.getElem_of_mem hf
    have hf : d[key]? = some f := by rw [List.getElem?_eq_getElem hk, hf]
    obtain ⟨f1, g1, e1, e2, e3, e4⟩ := hfields (key / 2) (by omega)
    rcases Nat.even_or_odd' key with ⟨c, hc | hc⟩
    · rw [show 2 * (key / 2) = key by omega, hf] at e1
      cases e1
      exact ⟨isGrid_ne e3, e3.distinct⟩
    · rw [show 2 * (key / 2) + 1 = key by omega, hf] at e2
      cases e2
      exact ⟨isGrid_ne e4, e4.distinct⟩
  obtain ⟨f1, g1, e1, e2, e3, e4⟩ := hfields 0 (by omega)
  obtain ⟨f2, g2, u1, u2, u3, u4⟩ := hfields (n - 1).toNat (by omega)
  have h0 : d.head? = some [(0, 0)] := by
    rw [List.head?_eq_getElem?, ← isGrid_one (by simpa using e3)]
    exact e1
  have hl : d.getLast? = some g2 := by
    rw [List.getLast?_eq_getElem?, show d.length - 1 = 2 * (n - 1).toNat + 1 by omega]
    exact u2
  refine ⟨d, g2, hi, hl, ?_, fun h => flat_outcome (.inl rfl) hi h0 hl hgrid h⟩
  rw [show (((n - 1).toNat : ℕ) : ℤ) = ⌊L / B⌋ by omega] at u4
  rw [show ⌊L / B⌋ + 1 = 1 + ⌊L / B⌋ by ring, show ⌊L / B⌋ + 2 = 1 + ⌊L / B⌋ + 1 by ring]
  exact u4

/-- C107, rectangle: if some number of boreholes fits the longer side, the outcome is decided as above; otherwise
`IndexError` is raised. -/
theorem C107_rectangle (fuel : ℕ) (gc : Constraints ℝ) {X Y Bmin BX : ℝ} (hX : 0 < X) (hY : 0 < Y) (hBmin : 0 < Bmin)
    (hBX : 0 < BX) (h1 : gc.length = some X) (h2 : gc.width = some Y) (h3 : gc.Bmin = some Bmin)
    (h4 : gc.BmaxX = some BX) :
    ((∃ n : ℤ, max X Y / BX + 1 ≤ n ∧ n ≤ max X Y / Bmin + 1) →
      ∃ d fl, designInit fuel gc "rectangle" = .ok (.flat d) ∧ d.getLast? = some fl ∧ (∀ f ∈ d, f.length ≤ fl.length) ∧
        (Designable p d → FlatOutcome p d [(0, 0)] fl (design p fuel gc "rectangle" {}).1)) ∧
    ((¬ ∃ n : ℤ, max X Y / BX + 1 ≤ n ∧ n ≤ max X Y / Bmin + 1) →
      (design p fuel gc "rectangle" {}).1 = .error .indexError) := by
  obtain ⟨d, hd, hi⟩ := ((C77_available fuel gc hX hY hX hBmin hBX hX h1).2 h2 h3 h4).1
  obtain ⟨hs, hn, hh⟩ := C11_rectangular_sizes hX hY hBmin hBX hd
  constructor
  · intro hex
    have hne := hn.2 hex
    have hl := List.getLast?_eq_some_getLast hne
    refine ⟨d, d.getLast hne, hi, hl, ?_, fun h => flat_outcome (.inr rfl) hi (hh hne) hl ?_ h⟩
    · intro f hf
      have hsplit := List.dropLast_append_getLast hne
      have hp : (d.dropLast ++ [d.getLast hne]).Pairwise fun f g => f.length < g.length := by
        rw [hsplit]
        exact hs
      rw [← hsplit] at hf
      rcases List.mem_append.1 hf with hf | hf
      · exact ((List.pairwise_append.1 hp).2.2 f hf _ (by simp)).le
      · rw [List.mem_singleton.1 hf]
    · intro f hf
      obtain ⟨nx, ny, B, hG, -⟩ := C10_rectangular_spacing hX hY hBmin hBX hd f hf
      exact ⟨isGrid_ne hG, hG.distinct⟩
  · intro hex
    have hne : d = [] := by
      by_contra hc
      exact hex (hn.1 hc)
    subst hne
    rw [design_eq hi]
    rfl

/-- C107, bi-rectangle: likewise for the single borehole and the largest field of the last nested list. -/
theorem C107_biRectangle (fuel : ℕ) (gc : Constraints ℝ) {X Y Bmin BX BY : ℝ} (hX : 0 < X) (hY : 0 < Y)
    (hBmin : 0 < Bmin) (hBX : 0 < BX) (hBY : 0 < BY) (h1 : gc.length = some X) (h2 : gc.width = some Y)
    (h3 : gc.Bmin = some Bmin) (h4 : gc.BmaxX = some BX) (h5 : gc.BmaxY = some BY) :
    (⌈X / BX + 1⌉ ≤ ⌊X / Bmin + 1⌋ → ⌈Y / BY + 1⌉ ≤ ⌊Y / Bmin + 1⌋ →
      ∃ n dl fl, designInit fuel gc "bi-rectangle" = .ok (.nested n) ∧ n.getLast? = some dl ∧ dl.getLast? = some fl ∧
        (fl.length : ℤ) = ⌊X / Bmin + 1⌋ * ⌊Y / Bmin + 1⌋ ∧
        (Designable p n.flatten → NestedOutcome p n [(0, 0)] fl (design p fuel gc "bi-rectangle" {}).1)) ∧
    (¬ (⌈X / BX + 1⌉ ≤ ⌊X / Bmin + 1⌋ ∧ ⌈Y / BY + 1⌉ ≤ ⌊Y / Bmin + 1⌋) →
      (design p fuel gc "bi-rectangle" {}).1 = .error .indexError) := by
  obtain ⟨n, hd, hi⟩ := (((C77_available fuel gc hX hY hX hBmin hBX hBY h1).2 h2 h3 h4).2 h5).1
  obtain ⟨Ll, Ls, Bl, Bs, hL⟩ : ∃ Ll Ls Bl Bs : ℝ,
      (Y ≤ X ∧ Ll = X ∧ Ls = Y ∧ Bl = BX ∧ Bs = BY) ∨ (X < Y ∧ Ll = Y ∧ Ls = X ∧ Bl = BY ∧ Bs = BX) := by
    rcases le_or_gt Y X with h | h
    · exact ⟨X, Y, BX, BY, .inl ⟨h, rfl, rfl, rfl, rfl⟩⟩
    · exact ⟨Y, X, BY, BX, .inr ⟨h, rfl, rfl, rfl, rfl⟩⟩
  have hswap : (⌈X / BX + 1⌉ ≤ ⌊X / Bmin + 1⌋ ∧ ⌈Y / BY + 1⌉ ≤ ⌊Y / Bmin + 1⌋ ↔
      ⌈Ll / Bl + 1⌉ ≤ ⌊Ll / Bmin + 1⌋ ∧ ⌈Ls / Bs + 1⌉ ≤ ⌊Ls / Bmin + 1⌋) ∧
      ⌊X / Bmin + 1⌋ * ⌊Y / Bmin + 1⌋ = ⌊Ll / Bmin + 1⌋ * ⌊Ls / Bmin + 1⌋ := by
    rcases hL with ⟨-, rfl, rfl, rfl, rfl⟩ | ⟨-, rfl, rfl, rfl, rfl⟩
    · exact ⟨Iff.rfl, rfl⟩
    · exact ⟨and_comm, mul_comm _ _⟩
  obtain ⟨n', hd', hlen, hall, hlasts⟩ := C13_nested hX hY hBmin hBX hBY hL
  rw [hd] at hd'; cases hd'
  constructor
  · intro c1 c2
    obtain ⟨e1, e2⟩ := hswap.1.1 ⟨c1, c2⟩
    have hpos : 0 < n.length := by omega
    have hne : n ≠ [] := List.length_pos_iff.1 hpos
    have hdne : ∀ d ∈ n, d ≠ [] := fun d hd => (hall d hd).2.2.1.2 e1
    have hfirst : ∀ d ∈ n, d.head? = some [(0, 0)] := fun d hd => (hall d hd).2.2.2.1 (hdne d hd)
    have hdl := List.getLast?_eq_some_getLast hne
    have hml := List.getLast_mem hne
    obtain ⟨fl, hfl, hcount⟩ := hlasts (n.length - 1) (n.getLast hne) (by
      rw [← List.getLast?_eq_getElem?]
      exact hdl) (hdne _ hml)
    refine ⟨n, n.getLast hne, fl, hi, hdl, hfl, ?_, fun h => ?_⟩
    · rw [hcount, hswap.2]
      congr 1
      omega
    · have hg : ∀ f ∈ n.flatten, f ≠ [] ∧ f.Nodup := by
        intro f hf
        obtain ⟨d, hd, hf⟩ := List.mem_flatten.1 hf
        obtain ⟨nx, ny, bx, bY, hG, -⟩ := (hall d hd).2.2.2.2 f hf
        exact ⟨isGrid_ne hG, hG.distinct⟩
      have hex : ∀ f ∈ n.flatten, ∀ H, H = p.minHeight ∨ H = p.maxHeight → ∃ hi lo, Extremes p f H hi lo := by
        intro f hf H hH
        obtain ⟨bhe, s, u1, u2, u3⟩ := (h.usable hg hf).2 H hH
        exact extremes_ok u1 u2 u3
      choose! HI LO hHL using hex
      have hans : Search.Answers (absEnv p) (fun f H => excess p (HI f H) (LO f H)) n.flatten := by
        intro f hf H hH
        obtain ⟨x, hx, hs⟩ := hHL f hf H hH
        constructor
        · show (fresh p f H >>= _) = _
          rw [hx]
          rfl
        · show (fresh p f H >>= _) = _
          rw [hx, Except.ok_bind, hs]
          rfl
      have hm0 : [((0 : ℝ), (0 : ℝ))] ∈ n.flatten :=
        List.mem_flatten.2 ⟨_, hml, List.mem_of_mem_head? (hfirst _ hml)⟩
      have hmf : fl ∈ n.flatten := List.mem_flatten.2 ⟨_, hml, List.mem_of_getLast? hfl⟩
      obtain ⟨bhe, s, hu⟩ := (h.usable hg hm0).1
      obtain ⟨x0, hx0, -⟩ := C95_made hu
      have hb : (absEnv p).build [(0, 0)] (absEnv p).boreholeH = .ok () := by
        show (fresh p [(0, 0)] p.borehole.H >>= _) = _
        rw [hx0]
        rfl
      have hfd : (design p fuel gc "bi-rectangle" {}).1 = (Search.bisection2D (absEnv p) n {}).1 := by
        have hD : Design.design fuel (absEnv p) gc "bi-rectangle" {} = Search.bisection2D (absEnv p) n {} := by
          unfold Design.design
          rw [St.lift_ok hi]
          rfl
        have := top_design (p := p) fuel gc "bi-rectangle"
        rw [hD] at this
        rcases this with ⟨e, e1, e2⟩ | ⟨v, w, e1, e2, e3, -⟩
        · rw [e1, e2]
        · rw [e1, e2, e3]
      have hO : ∀ f ∈ n.flatten, Outside p f p.maxHeight (excess p (HI f p.maxHeight) (LO f p.maxHeight)) :=
        fun f hf => ⟨_, _, hHL f hf _ (.inr rfl), rfl⟩
      obtain ⟨t1, t2, t3, t4, t5, t6⟩ := C36_outcomes (absEnv p) _ n [(0, 0)] hans hb hfirst _ fl hdl hfl _ _ _ rfl rfl rfl {}
      have hzero : (∃ d ∈ n, ∃ f ∈ d, excess p (HI f p.maxHeight) (LO f p.maxHeight) = 0) →
          ∃ d ∈ n, ∃ f ∈ d, Outside p f p.maxHeight 0 := by
        rintro ⟨d, hd, f, hf, e⟩
        have := hO f (List.mem_flatten.2 ⟨d, hd, hf⟩)
        rw [e] at this
        exact ⟨d, hd, f, hf, this⟩
      rw [hfd]
      refine ⟨_, _, _, ⟨_, _, hHL _ hm0 _ (.inl rfl), rfl⟩, hO _ hm0, hO _ hmf, t1, t2, t3, t4, fun u1 u2 u3 => ?_,
        fun u1 u2 u3 => ?_⟩
      · rcases t5 u1 u2 u3 with ⟨d, k, f, k1, k2, k3, k4⟩ | ⟨k1, k2⟩
        · exact .inl ⟨d, k, f, _, k1, k2, hO f (List.mem_flatten.2 ⟨d, k1, List.mem_of_getElem? k2⟩), k3, k4⟩
        · exact .inr ⟨hzero k1, k2⟩
      · rcases t6 u1 u2 u3 with ⟨d, k, f, k1, k2, k3, k4⟩ | k | ⟨k1, k2⟩
        · exact .inl ⟨d, k, f, _, k1, k2, hO f (List.mem_flatten.2 ⟨d, k1, List.mem_of_getElem? k2⟩), k3, k4⟩
        · exact .inr (.inl k)
        · exact .inr (.inr ⟨hzero k1, k2⟩)
  · intro hc
    rw [hswap.1] at hc
    rw [design_eq hi]
    cases n with
    | nil => rfl
    | cons d n' =>
      have hd0 : d = [] := by
        by_contra hne
        have e1 := (hall d (by simp)).2.2.1.1 hne
        have : 0 < (d :: n').length := by simp
        exact hc ⟨e1, by omega⟩
      subst hd0
      rfl

end

end Ghedt.WholeSearch
