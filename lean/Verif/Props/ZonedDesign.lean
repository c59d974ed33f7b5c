import Verif.Props.WholeDesign
import Verif.Props.SuccessiveOutcomes
import Verif.Props.ZonedFields

/-!
# The outcomes of a bi-zoned design (C107)
-/

set_option linter.unusedSectionVars false

namespace Ghedt.WholeSearch
open Real Ghedt.GHE Ghedt.Bhe Ghedt.Radial Ghedt.Whole Ghedt.Search Ghedt.Utilities Ghedt.Spec Ghedt.Network Ghedt.Design
  Ghedt.Domains

noncomputable section

variable {p : Problem}

/-- A candidate within the limits at the maximum height is returned; or some candidate is at a limit exactly and
`ZeroDivisionError` is raised; or sizing some candidate, made by hand at the maximum height, raises what is raised. -/
def ZonedEnds (p : Problem) (n : List (List Field)) (r : Except PyErr (Option (ℤ × Field))) : Prop :=
  (∃ (d : List Field) (k : ℕ) (f : Field) (e : ℝ), d ∈ n ∧ d[k]? = some f ∧ Outside p f p.maxHeight e ∧ e ≤ 0 ∧
    r = .ok (some ((k : ℤ), f))) ∨
  (∃ d ∈ n, ∃ f ∈ d, Outside p f p.minHeight 0 ∨ Outside p f p.maxHeight 0) ∧ r = .error .zeroDivisionError ∨
  ∃ d ∈ n, ∃ f ∈ d, ∃ x e, fresh p f p.maxHeight = .ok x ∧ (sizeHeld p { held := some x }).1 = .error e ∧ r = .error e

/-- The outcomes of a search for a zoned field. -/
def ZonedOutcome (p : Problem) (n : List (List Field)) (f0 fl : Field) (r : Except PyErr (Option (ℤ × Field))) : Prop :=
  ∃ a b c, Outside p f0 p.minHeight a ∧ Outside p f0 p.maxHeight b ∧ Outside p fl p.maxHeight c ∧
    (a = 0 ∨ b = 0 → r = .error .zeroDivisionError) ∧
    (0 < a * b → c = 0 → r = .error .zeroDivisionError) ∧
    (0 < a * b → 0 < b * c → r = .error .valueError) ∧
    (ZonedEnds p n r ∨ r = .error .valueError) ∧
    ((∀ d ∈ n, ∀ f, d.head? = some f → ∃ u v, Outside p f p.minHeight u ∧ Outside p f p.maxHeight v ∧ 0 < u ∧ 0 < v) →
      c < 0 → ZonedEnds p n r)

theorem Outside.unique {f : Field} {H a b : ℝ} (h1 : Outside p f H a) (h2 : Outside p f H b) : a = b := by
  obtain ⟨hi, lo, h1, rfl⟩ := h1
  obtain ⟨hi', lo', h2, rfl⟩ := h2
  obtain ⟨rfl, rfl⟩ := h1.unique h2
  rfl

/-- the outcome of a bi-zoned search on nested candidates, none of them empty or with a repeated borehole -/
theorem zoned_outcome {fuel : ℕ} {gc : Constraints ℝ} {d0 : List Field} {n : List (List Field)}
    (hi : designInit fuel gc "bi-zoned" = .ok (.nested (d0 :: n))) {dl : List Field} {f0 fl : Field}
    (h0 : d0.head? = some f0) (hdl : (d0 :: n).getLast? = some dl) (hfl : dl.getLast? = some fl)
    (hg : ∀ d ∈ d0 :: n, d ≠ [] ∧ ∀ f ∈ d, f ≠ [] ∧ f.Nodup) (h : Designable p (d0 :: n).flatten) :
    ZonedOutcome p (d0 :: n) f0 fl (design p fuel gc "bi-zoned" {}).1 := by
  have hg' : ∀ f ∈ (d0 :: n).flatten, f ≠ [] ∧ f.Nodup := by
    intro f hf
    obtain ⟨d, hd, hf⟩ := List.mem_flatten.1 hf
    exact (hg d hd).2 f hf
  have hex : ∀ f ∈ (d0 :: n).flatten, ∀ H, H = p.minHeight ∨ H = p.maxHeight → ∃ hi lo, Extremes p f H hi lo := by
    intro f hf H hH
    obtain ⟨bhe, s, u1, u2, u3⟩ := (h.usable hg' hf).2 H hH
    exact extremes_ok u1 u2 u3
  choose! HI LO hHL using hex
  have hans : Search.Answers (absEnv p) (fun f H => excess p (HI f H) (LO f H)) (d0 :: n).flatten := by
    intro f hf H hH
    obtain ⟨x, hx, hs⟩ := hHL f hf H hH
    constructor
    · show (fresh p f H >>= _) = _
      rw [hx]
      rfl
    · show (fresh p f H >>= _) = _
      rw [hx, Except.ok_bind, hs]
      rfl
  have hm0 : f0 ∈ (d0 :: n).flatten := List.mem_flatten.2 ⟨d0, by simp, List.mem_of_mem_head? h0⟩
  have hml : fl ∈ (d0 :: n).flatten := List.mem_flatten.2 ⟨dl, List.mem_of_getLast? hdl, List.mem_of_getLast? hfl⟩
  obtain ⟨bhe, s, hu⟩ := (h.usable hg' hm0).1
  obtain ⟨x0, hx0, -⟩ := C95_made hu
  have hb : (absEnv p).build f0 (absEnv p).boreholeH = .ok () := by
    show (fresh p f0 p.borehole.H >>= _) = _
    rw [hx0]
    rfl
  have hfd : (design p fuel gc "bi-zoned" {}).1 = (Search.bisectionZD (absEnv p) (d0 :: n) {}).1.map some := by
    have hD : (Design.design fuel (absEnv p) gc "bi-zoned" {}).1 =
        (Search.bisectionZD (absEnv p) (d0 :: n) {}).1.map some := by
      unfold Design.design
      rw [St.lift_ok hi]
      show ((Search.bisectionZD (absEnv p) (d0 :: n) >>= fun r => pure (some r) : St _ _) {}).1 = _
      rcases hr : Search.bisectionZD (absEnv p) (d0 :: n) {} with ⟨r, s'⟩
      cases r with
      | ok v =>
        rw [St.bind_ok hr]
        rfl
      | error e =>
        rw [St.bind_error hr]
        rfl
    rw [← hD]
    rcases top_design (p := p) fuel gc "bi-zoned" with ⟨e, e1, e2⟩ | ⟨v, w, e1, e2, e3, -⟩
    · rw [e1, e2]
    · rw [e1, e2, e3]
  have hO : ∀ f ∈ (d0 :: n).flatten, ∀ H, H = p.minHeight ∨ H = p.maxHeight →
      Outside p f H (excess p (HI f H) (LO f H)) := fun f hf H hH => ⟨_, _, hHL f hf H hH, rfl⟩
  have hends : Search.Ends (absEnv p) (fun f H => excess p (HI f H) (LO f H)) (d0 :: n)
      (Search.bisectionZD (absEnv p) (d0 :: n) {}).1 → ZonedEnds p (d0 :: n) (design p fuel gc "bi-zoned" {}).1 := by
    rw [hfd]
    rintro (⟨d, k, f, k1, k2, k3, k4⟩ | ⟨⟨d, k1, f, k2, k3⟩, k4⟩ | ⟨d, k1, f, k2, e, k3, k4⟩)
    · rw [k4]
      exact .inl ⟨d, k, f, _, k1, k2, hO f (List.mem_flatten.2 ⟨d, k1, List.mem_of_getElem? k2⟩) _ (.inr rfl), k3, rfl⟩
    · rw [k4]
      have hf := List.mem_flatten.2 ⟨d, k1, k2⟩
      refine .inr (.inl ⟨⟨d, k1, f, k2, ?_⟩, rfl⟩)
      rcases k3 with k3 | k3
      · left
        rw [← k3]
        exact hO f hf _ (.inl rfl)
      · right
        rw [← k3]
        exact hO f hf _ (.inr rfl)
    · rw [k4]
      obtain ⟨x, hx, -⟩ := hHL f (List.mem_flatten.2 ⟨d, k1, k2⟩) _ (.inr rfl)
      have k3 : (fresh p f p.maxHeight >>= fun x => (sizeHeld p { held := some x }).1) = .error e := k3
      rw [hx, Except.ok_bind] at k3
      exact .inr (.inr ⟨d, k1, f, k2, x, e, hx, k3, rfl⟩)
  obtain ⟨t1, t2, t3, t4, t5⟩ := C37_outcomes (absEnv p) _ (d0 :: n) hans (fun d hd => (hg d hd).1) d0 dl f0 fl rfl h0 hdl hfl hb
    _ _ _ rfl rfl rfl {} rfl
  refine ⟨_, _, _, hO _ hm0 _ (.inl rfl), hO _ hm0 _ (.inr rfl), hO _ hml _ (.inr rfl), fun u => ?_, fun u1 u2 => ?_,
    fun u1 u2 => ?_, ?_, fun u1 u2 => ?_⟩
  · rw [hfd, t1 u]
    rfl
  · rw [hfd, t2 u1 u2]
    rfl
  · rw [hfd, t3 u1 u2]
    rfl
  · rcases t4 with t4 | t4
    · exact .inl (hends t4)
    · right
      rw [hfd, t4]
      rfl
  · refine hends (t5 (fun d hd f hf => ?_) u2)
    obtain ⟨u, v, q1, q2, q3, q4⟩ := u1 d hd f hf
    have hfm := List.mem_flatten.2 ⟨d, hd, List.mem_of_mem_head? hf⟩
    rw [q1.unique (hO f hfm _ (.inl rfl))] at q3
    rw [q2.unique (hO f hfm _ (.inr rfl))] at q4
    exact ⟨q3, q4⟩

/-- C107, bi-zoned, whichever side of the land is the longer one: if a number of boreholes fits along each side and each
side is longer than its maximum spacing, the outcome is decided by the temperatures of candidates newly made; if some side
is not longer than its maximum spacing, `ValueError` is raised; if no number fits along some side, `IndexError`. -/
theorem C107_biZoned (fuel : ℕ) (gc : Constraints ℝ) {X Y Bmin BX BY : ℝ} (hX : 0 < X) (hY : 0 < Y)
    (hBmin : 0 < Bmin) (hBX : 0 < BX) (hBY : 0 < BY) (h1 : gc.length = some X) (h2 : gc.width = some Y)
    (h3 : gc.Bmin = some Bmin) (h4 : gc.BmaxX = some BX) (h5 : gc.BmaxY = some BY)
    (hfuel : ⌊X / Bmin + 1⌋ + ⌊Y / Bmin + 1⌋ ≤ fuel) :
    (⌈X / BX + 1⌉ ≤ ⌊X / Bmin + 1⌋ → ⌈Y / BY + 1⌉ ≤ ⌊Y / Bmin + 1⌋ → BX < X → BY < Y →
      ∃ n dl fl, designInit fuel gc "bi-zoned" = .ok (.nested n) ∧ n.getLast? = some dl ∧ dl.getLast? = some fl ∧
        (fl.length : ℤ) = ⌊X / Bmin + 1⌋ * ⌊Y / Bmin + 1⌋ ∧
        (Designable p n.flatten → ZonedOutcome p n [(0, 0)] fl (design p fuel gc "bi-zoned" {}).1)) ∧
    (⌈X / BX + 1⌉ ≤ ⌊X / Bmin + 1⌋ → ⌈Y / BY + 1⌉ ≤ ⌊Y / Bmin + 1⌋ → X ≤ BX ∨ Y ≤ BY →
      (design p fuel gc "bi-zoned" {}).1 = .error .valueError) ∧
    (¬ (⌈X / BX + 1⌉ ≤ ⌊X / Bmin + 1⌋ ∧ ⌈Y / BY + 1⌉ ≤ ⌊Y / Bmin + 1⌋) →
      (design p fuel gc "bi-zoned" {}).1 = .error .indexError) := by
  have hi := (((C77_available fuel gc hX hY hX hBmin hBX hBY h1).2 h2 h3 h4).2 h5).2
  have herr : ∀ e, biRectangleZonedNested fuel X Y Bmin BX BY = .error e →
      (design p fuel gc "bi-zoned" {}).1 = .error e := by
    intro e he
    rw [he] at hi
    unfold design
    rw [St.lift_error hi]
  obtain ⟨g1, g2⟩ := C16_zonedNested_guards hX hY hBmin hBX hBY fuel
  refine ⟨fun c1 c2 c3 c4 => ?_, fun c1 c2 c3 => herr _ (g2 c1 c2 c3), fun c => ?_⟩
  · obtain ⟨d0, ds, e1, e2, e3, dl, fl, e4, e5, e6⟩ := C17_zonedNested_distinct hX hY hBmin hBX hBY c3 c4 c1 c2 hfuel
    rw [e1] at hi
    exact ⟨_, dl, fl, hi, e4, e5, e6, fun h => zoned_outcome hi e2 e4 e5 e3 h⟩
  · have g := g1 c
    split_ifs at g with hc
    · rw [g] at hi
      rw [design_eq hi]
      rfl
    · exact herr _ g

end

end Ghedt.WholeSearch
