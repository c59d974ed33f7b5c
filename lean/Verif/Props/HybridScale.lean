import Verif.Lemmas.ScaleLoads
import Verif.Props.Superpose
import Verif.Props.Deeper

/-!
# The hybrid load of multiplied loads, and what follows for both methods (C139)
-/

set_option linter.unusedSectionVars false

namespace Ghedt.GL
open Spec Search

variable {K : Type} [Field K] [LinearOrder K] [IsStrictOrderedRing K]

/-- In the two days looked at for the peak of a month no load exceeds that peak by less than 0.1 kW, neither before nor
after all loads are multiplied by `a`. -/
def ClearOf (a : K) (year : ℤ) (hourly : List K) : Prop :=
  ∀ m : ℕ, 1 ≤ m → m ≤ 12 → ∀ i P, PeaksAt (monthLoads (decide (LeapYear year)) hourly m) i P →
    ∀ x ∈ twoDays (decide (LeapYear year)) hourly m i, x ≤ P ∨ (P + 1 / 10 ≤ x ∧ a * P + 1 / 10 ≤ a * x)

theorem agrees {a : K} {r : Resp K} {hourly : List K} {year : ℤ} {L : Loads K} (h : mkLoads r hourly year = .ok L)
    (hpos : ∀ x ∈ hourly, 0 ≤ x) (hc : ClearOf a year hourly) (i : ℤ) (i1 : 1 ≤ i) (i2 : i < 13) :
    Multiple.Agrees a L.twoDay L.peak i := by
  obtain ⟨hM, -⟩ := mkLoads_inv h
  obtain ⟨m, rfl⟩ : ∃ m : ℕ, i = m := ⟨i.toNat, by omega⟩
  intro w p M hw hp hMx
  obtain ⟨t, p', v, d, w', -, e2, -, -, e5, f, g⟩ := hM.month m (by omega) (by omega)
  rw [pyGet_ok' e5] at hw
  cases hw
  rw [pyGet_ok' e2] at hp
  cases hp
  obtain ⟨hMm, hMle⟩ := pyMax_eq_ok hMx
  have h0 : 0 < hourly.length := by rw [hM.length]; cases decide (LeapYear year) <;> decide
  have hpw : p ∈ w := peak_mem_window hM.length (by omega) f g
  have hpM : p ≤ M := hMle p (List.mem_cons_of_mem _ hpw)
  have hp0 : 0 ≤ p := hpos p (window_mem h0 g hpw)
  rcases List.mem_cons.1 hMm with rfl | hMw
  · exact .inl (le_antisymm hpM hp0)
  · obtain ⟨i, hi, hww⟩ := window_twoDays (by rw [hM.length]; cases decide (LeapYear year) <;> decide) f g
    rcases hc m (by omega) (by omega) i p hi M (hww M hMw) with h | ⟨h1, h2⟩
    · exact .inl (le_antisymm hpM h)
    · refine .inr (iff_of_false ?_ ?_)
      · rw [abs_lt, not_and_or]
        left
        linarith
      · rw [abs_lt, not_and_or]
        left
        linarith

/-- C139: rejected and extracted loads multiplied by `a > 0`.  The peaks of the months keep their days and durations; their
size, the monthly totals and averages and all loads of the hybrid sequence are multiplied by `a`, and its hours stay the
same. -/
theorem C139_hybrid (r : Resp K) (rejection extraction : List K) (startMonth endMonth year : ℤ) (a : K) (ha : 0 < a)
    (h0 : ∀ x ∈ rejection, 0 ≤ x) (h1 : ∀ x ∈ extraction, 0 ≤ x) (c0 : ClearOf a year rejection) (c1 : ClearOf a year extraction)
    (cl hl : Loads K) (H : Hybrid K) (h : mkHybrid r rejection extraction startMonth endMonth year = .ok (cl, hl, H)) :
    ∃ cl' hl' H', mkHybrid r (rejection.map (a * ·)) (extraction.map (a * ·)) startMonth endMonth year = .ok (cl', hl', H') ∧
      H'.hour = H.hour ∧ H'.load = H.load.map (a * ·) ∧ H'.sfload = H.sfload.map (a * ·) ∧
      ∀ L L', (L = cl ∧ L' = cl') ∨ (L = hl ∧ L' = hl') → L'.peakDay = L.peakDay ∧ L'.duration = L.duration ∧
        L'.peak = L.peak.map (a * ·) ∧ L'.total = L.total.map (a * ·) ∧ L'.average = L.average.map (a * ·) := by
  have h' := h
  unfold mkHybrid at h'
  simp only [bind_eq_ok] at h'
  obtain ⟨cl', e1, hl', e2, H', e3, e4⟩ := h'
  cases e4
  refine ⟨_, _, _, Multiple.mkHybrid_mul ha r _ _ _ _ _ h (agrees e1 h0 c0) (agrees e2 h1 c1), rfl, rfl, rfl, ?_⟩
  rintro L L' (⟨rfl, rfl⟩ | ⟨rfl, rfl⟩) <;> exact ⟨rfl, rfl, rfl, rfl, rfl⟩

/-- finitely many positive numbers have a positive lower bound -/
theorem exists_gap (l : List K) : ∃ δ : K, 0 < δ ∧ ∀ d ∈ l, 0 < d → δ ≤ d := by
  induction l with
  | nil => exact ⟨1, one_pos, by simp⟩
  | cons x l ih =>
    obtain ⟨δ, h0, h⟩ := ih
    by_cases hx : 0 < x
    · refine ⟨min δ x, lt_min h0 hx, fun d hd h1 => ?_⟩
      rcases List.mem_cons.1 hd with rfl | hd
      · exact min_le_right _ _
      · exact (min_le_left _ _).trans (h d hd h1)
    · refine ⟨δ, h0, fun d hd h1 => ?_⟩
      rcases List.mem_cons.1 hd with rfl | hd
      · exact absurd h1 hx
      · exact h d hd h1

/-- finitely many numbers have an upper bound -/
theorem exists_bound (l : List K) : ∃ M : K, 0 < M ∧ ∀ x ∈ l, x ≤ M := by
  induction l with
  | nil => exact ⟨1, one_pos, by simp⟩
  | cons x l ih =>
    obtain ⟨M, h0, h⟩ := ih
    refine ⟨max M x, lt_max_of_lt_left h0, fun d hd => ?_⟩
    rcases List.mem_cons.1 hd with rfl | hd
    · exact le_max_right _ _
    · exact (h d hd).trans (le_max_left _ _)

/-- C139: but the peaks found are not those of the multiplied loads in general.  Take any year of loads of which some month
(not December) first reaches its positive peak on its last day, after the first hour of it, and that is exceeded on the
next day; and a response that is flat and positive from hour 1 to hour 48.  Multiplied by any small enough number these
loads are refused with `ValueError`; multiplied by any large enough number they are accepted. -/
theorem C139_tolerance {r : Resp K} {g0 : K} (hr : ∀ t : ℕ, 1 ≤ t → t ≤ 48 → r.g (t : ℤ) = .ok g0) (hk : 0 < r.twoPiK)
    (h1 : 0 < g0 / r.twoPiK + r.Rb) {hourly : List K} {year : ℤ} (hlen : hourly.length = if LeapYear year then 8784 else 8760)
    (hpos : ∀ x ∈ hourly, 0 ≤ x) {m : ℕ} (m1 : 1 ≤ m) (m2 : m ≤ 11) {peak : K} (hpeak : 0 < peak) {i : ℕ}
    (hi : (monthLoads (decide (LeapYear year)) hourly m)[i]? = some peak)
    (hfirst : ∀ j < i, (monthLoads (decide (LeapYear year)) hourly m)[j]? ≠ some peak)
    (hmax : ∀ x ∈ monthLoads (decide (LeapYear year)) hourly m, x ≤ peak)
    (hlast : i / 24 + 1 = monthLength (decide (LeapYear year)) m) (hnot : i % 24 ≠ 0)
    (hlarge : ∃ x ∈ (monthLoads (decide (LeapYear year)) hourly (m + 1)).take 24, peak < x) :
    ∃ a₀ a₁ : K, 0 < a₀ ∧ (∀ a, 0 < a → a ≤ a₀ → mkLoads r (hourly.map (a * ·)) year = .error .valueError) ∧
      ∀ a, a₁ ≤ a → ∃ L, mkLoads r (hourly.map (a * ·)) year = .ok L := by
  have hml : ∀ (a : K) (n : ℕ), monthLoads (decide (LeapYear year)) (hourly.map (a * ·)) n =
      (monthLoads (decide (LeapYear year)) hourly n).map (a * ·) := by
    intro a n
    unfold monthLoads
    rw [List.map_take, List.map_drop]
  have hsub : ∀ n, ∀ x ∈ monthLoads (decide (LeapYear year)) hourly n, x ∈ hourly :=
    fun n x hx => List.mem_of_mem_drop (List.mem_of_mem_take hx)
  obtain ⟨M, hM0, hM⟩ := exists_bound hourly
  obtain ⟨δ, hδ0, hδ⟩ := exists_gap (hourly.flatMap fun x => hourly.map fun y => x - y)
  refine ⟨1 / 20 / M, 1 / 10 / δ, by positivity, fun a ha ha0 => ?_, fun a ha1 => ?_⟩
  · have hsmall : ∀ x ∈ hourly, a * x < 1 / 10 := by
      intro x hx
      have : a * x ≤ 1 / 20 / M * M := mul_le_mul ha0 (hM x hx) (hpos x hx) (by positivity)
      rw [div_mul_cancel₀ _ hM0.ne'] at this
      linarith
    refine C59_tolerance hr h1 (by rw [List.length_map, hlen]) m1 m2 (peak := a * peak) (by positivity) (i := i) ?_ ?_ ?_ hlast
      hnot ?_ ?_
    · rw [hml, List.getElem?_map, hi]; rfl
    · intro j hj h
      rw [hml, List.getElem?_map] at h
      obtain ⟨y, hy, hya⟩ := Option.map_eq_some_iff.1 h
      exact hfirst j hj (by rw [hy, mul_left_cancel₀ ha.ne' hya])
    · intro x hx
      rw [hml] at hx
      obtain ⟨y, hy, rfl⟩ := List.mem_map.1 hx
      exact mul_le_mul_of_nonneg_left (hmax y hy) ha.le
    · intro x hx
      rw [hml, ← List.map_take] at hx
      obtain ⟨y, hy, rfl⟩ := List.mem_map.1 hx
      have := hsmall y (hsub _ y (List.mem_of_mem_take hy))
      have : 0 < a * peak := by positivity
      linarith
    · obtain ⟨x, hx, hxp⟩ := hlarge
      refine ⟨a * x, ?_, mul_lt_mul_of_pos_left hxp ha⟩
      rw [hml, ← List.map_take]
      exact List.mem_map_of_mem hx
  · have ha : 0 < a := lt_of_lt_of_le (by positivity) ha1
    obtain ⟨L, hL, -⟩ := C58_year (G := fun _ => g0) hr hk (fun _ _ _ => le_rfl) h1.le (hourly := hourly.map (a * ·)) (year := year)
      (by rw [List.length_map, hlen]) (by
        intro x hx
        obtain ⟨y, hy, rfl⟩ := List.mem_map.1 hx
        exact mul_nonneg ha.le (hpos y hy)) (by
        refine ClearPeaks.of_all ?_
        intro n _ _ pk hpk _ x hx
        rw [hml] at hpk
        obtain ⟨p, hp, rfl⟩ := List.mem_map.1 hpk
        obtain ⟨y, hy, rfl⟩ := List.mem_map.1 hx
        rcases le_or_gt y p with h | h
        · exact .inl (mul_le_mul_of_nonneg_left h ha.le)
        · right
          have h2 := hδ (y - p) (List.mem_flatMap.2 ⟨y, hy, List.mem_map_of_mem (f := fun z => y - z) (hsub _ p hp)⟩) (sub_pos.2 h)
          have h3 : 1 / 10 ≤ a * (y - p) := by
            have : 1 / 10 / δ * δ ≤ a * (y - p) := mul_le_mul ha1 h2 hδ0.le ha.le
            rwa [div_mul_cancel₀ _ hδ0.ne'] at this
          rw [mul_sub] at h3
          linarith)
    exact ⟨L, hL⟩

end Ghedt.GL

namespace Ghedt.Multiple
open Ghedt.GHE Ghedt.Bhe Ghedt.Whole Ghedt.Utilities Ghedt.Scaled

noncomputable section

/-- The object with all loads multiplied. -/
def env (a : ℝ) (e : Whole.Env) : Whole.Env :=
  { e with
    hourly := e.hourly.map (a * ·)
    load := e.load.map (a * ·)
    rejection := loads a e.rejection
    extraction := loads a e.extraction }

theorem input_mul (a : ℝ) (e : Whole.Env) (method : String) (th : ℝ → Py (Thermal ℝ)) :
    simulationInput (gheEnv (env a e) th) method =
      (simulationInput (gheEnv e th) method).map (Prod.map (List.map (a * ·)) id) := by
  unfold simulationInput
  by_cases h1 : method = "hybrid"
  · rw [if_pos h1, if_pos h1]
    show Except.ok _ = Except.ok _
    simp only [gheEnv, env, Prod.map, id, List.map_map]
    congr 2
    rw [← List.map_drop, List.map_map]
    refine List.map_congr_left fun x _ => ?_
    simp only [Function.comp]
    ring
  · rw [if_neg h1, if_neg h1]
    by_cases h2 : method = "hourly"
    · rw [if_pos h2, if_pos h2]
      show Except.ok _ = Except.ok _
      simp only [gheEnv, env, Prod.map, id, List.map_map]
      congr 2
      rw [← List.map_replicate (f := List.map (a * · : ℝ → ℝ)), ← List.map_flatten, List.map_map]
      refine List.map_congr_left fun x _ => ?_
      simp
    · rw [if_neg h2, if_neg h2]
      rfl

/-- the ground temperature a simulation uses is that of the soil of the exchanger -/
theorem prepare_ground {e : Whole.Env} {s s' : Whole.State} {th : Thermal ℝ} (h : prepare e s = (.ok th, s')) :
    th.Tg = (soilOf s.bhe).ugt := by
  unfold prepare at h
  rw [St.get_bind, St.bind_eq_ok] at h
  obtain ⟨b, s1, h1, h⟩ := h
  have e1 : s1 = s := by
    unfold St.lift at h1
    exact (congrArg Prod.snd h1).symm
  subst e1
  rw [St.modify_bind, St.get_bind, St.bind_eq_ok] at h
  obtain ⟨⟨eq, bhe⟩, s2, h2, h⟩ := h
  have e2 : bhe = updateBhe e.ext s1.bhe ∧ s2 = { s1 with bhe := updateBhe e.ext s1.bhe } := by
    unfold St.lift at h2
    exact ⟨computeEquivalent_same _ _ _ _ _ (congrArg Prod.fst h2), (congrArg Prod.snd h2).symm⟩
  obtain ⟨rfl, rfl⟩ := e2
  dsimp only at h
  rw [St.modify_bind, St.bind_eq_ok] at h
  obtain ⟨sts, s3, h3, h⟩ := h
  have e3 : s3.bhe = updateBhe e.ext s1.bhe := by
    unfold St.lift at h3
    exact (congrArg (fun q => q.2.bhe) h3).symm
  rw [St.modify_bind, St.bind_eq_ok] at h
  obtain ⟨xy, s4, h4, h⟩ := h
  have e4 : s4.bhe = s3.bhe := by
    unfold grabG at h4
    rw [St.bind_eq_ok] at h4
    obtain ⟨g, s5, h5, h4⟩ := h4
    rw [St.get_bind, St.bind_eq_ok] at h4
    obtain ⟨c, s6, h6, h4⟩ := h4
    have q5 : s5.bhe = s3.bhe := by
      unfold requestG at h5
      exact (congrArg (fun q => q.2.bhe) h5).symm
    have q6 : s6 = s5 := by
      unfold St.lift at h6
      exact (congrArg Prod.snd h6).symm
    have q4 : s4 = s6 := by
      unfold St.lift at h4
      exact (congrArg Prod.snd h4).symm
    rw [q4, q6, q5]
  rw [St.get_bind] at h
  cases h
  show (soilOf s'.bhe).ugt = _
  rw [e4, e3]
  cases s1.bhe <;> rfl

variable {a : ℝ}

/-- what a simulation of the object with multiplied loads returns and stores -/
theorem simulate_mul (ha : 0 < a) (e : Whole.Env) (method : String) (s s' : Whole.State) (u w : ℝ)
    (h : Whole.simulate e method s = (.ok (u, w), s')) :
    Whole.simulate (env a e) method s = (.ok (about a (soilOf s.bhe).ugt u, about a (soilOf s.bhe).ugt w),
      { s' with HPEFT := s'.HPEFT.map (Option.map (about a (soilOf s.bhe).ugt)), dTb := s'.dTb.map (Option.map (a * ·)) }) := by
  have hp : prepare (env a e) = prepare e := rfl
  unfold Whole.simulate at h ⊢
  rw [hp]
  rcases h1 : prepare e s with ⟨th | th, s1⟩
  · rw [St.bind_error h1] at h
    cases h
  · rw [St.bind_ok h1] at h ⊢
    rw [input_mul, ← prepare_ground h1]
    cases h2 : simulationInput (gheEnv e fun _ => .error .valueError) method with
    | error er => rw [h2] at h; cases h
    | ok q =>
      rw [h2] at h
      change (St.lift (simulateDetailed th q.1 q.2) >>= _) s1 = _ at h
      change (St.lift (simulateDetailed th (q.1.map (a * ·)) q.2) >>= _) s1 = _
      rw [simulateDetailed_scaled]
      cases h3 : simulateDetailed th q.1 q.2 with
      | error er => rw [h3] at h; cases h
      | ok r =>
        rw [h3] at h
        cases h4 : maxNumber r.1 with
        | error er =>
          exfalso
          change (St.lift (maxNumber r.1) >>= _) _ = _ at h
          rw [h4] at h
          cases h
        | ok hi =>
          cases h5 : minNumber r.1 with
          | error er =>
            exfalso
            change (St.lift (maxNumber r.1) >>= fun hi => St.lift (minNumber r.1) >>= _) _ = _ at h
            rw [h4, h5] at h
            cases h
          | ok lo =>
            change (St.lift (maxNumber r.1) >>= fun hi => St.lift (minNumber r.1) >>= _) _ = _ at h
            rw [h4, h5] at h
            cases h
            change (St.lift (maxNumber (r.1.map (Option.map (about a th.Tg)))) >>=
              fun hi => St.lift (minNumber (r.1.map (Option.map (about a th.Tg)))) >>= _) _ = _
            rw [maxNumber_scaled ha, minNumber_scaled ha, h4, h5]
            rfl

end

end Ghedt.Multiple

namespace Ghedt.WholeSearch
open Real Ghedt.GHE Ghedt.Bhe Ghedt.Radial Ghedt.Whole Ghedt.Search Ghedt.Utilities Ghedt.Spec Ghedt.Network Ghedt.Design
  Ghedt.Scaled

noncomputable section

variable {p : Problem} {f : Field} {H : ℝ} {bhe : Exchanger} {s : UTube}

theorem parts_mul {a : ℝ} (ha : 0 < a) (l : List ℝ) :
    ((l.map (a * ·)).map fun x => max (-x) 0).map (· / 1000) = (((l.map fun x => max (-x) 0).map (· / 1000))).map (a * ·) ∧
    ((l.map (a * ·)).map fun x => max x 0).map (· / 1000) = (((l.map fun x => max x 0).map (· / 1000))).map (a * ·) := by
  simp only [List.map_map]
  constructor <;>
  · refine List.map_congr_left fun x _ => ?_
    simp only [Function.comp]
    rw [← mul_div_assoc, mul_max_of_nonneg _ _ ha.le, mul_zero]
    try rw [mul_neg]

theorem clear_of {a : ℝ} (ha : 0 < a) {w : List ℝ} (h : Separated w) (h' : Separated (w.map (a * ·))) :
    GL.ClearOf a 2019 (w.map (· / 1000)) := by
  have hleap : ¬ LeapYear 2019 := by decide
  intro m m1 m2 i pk hpk x hx
  rw [decide_eq_false hleap] at hpk hx
  rw [GL.twoDays_map] at hx
  obtain ⟨q, hq, rfl⟩ := peaksAt_div hpk
  obtain ⟨y, hy, rfl⟩ := List.mem_map.1 hx
  have k1 := h m m1 m2 i q hq y hy
  have k2 := h' m m1 m2 i (a * q) (by
    rw [monthLoads_map]
    refine ⟨by rw [List.getElem?_map, hq.1]; rfl, fun j hj hjq => ?_, fun z hz => ?_⟩
    · rw [List.getElem?_map] at hjq
      obtain ⟨v, hv, hva⟩ := Option.map_eq_some_iff.1 hjq
      exact hq.2.1 j hj (by rw [hv, mul_left_cancel₀ ha.ne' hva])
    · obtain ⟨v, hv, rfl⟩ := List.mem_map.1 hz
      exact mul_le_mul_of_nonneg_left (hq.2.2 v hv) ha.le) (a * y) (by
    rw [GL.twoDays_map]
    exact List.mem_map_of_mem hy)
  rcases k1 with k1 | k1
  · left; linarith
  · rcases k2 with k2 | k2
    · left
      have := le_of_mul_le_mul_left k2 ha
      linarith
    · right
      constructor
      · linarith
      · have e1 : a * (q / 1000) = a * q / 1000 := by ring
        have e2 : a * (y / 1000) = a * y / 1000 := by ring
        rw [e1, e2]
        linarith

/-- the new exchanger for multiplied loads -/
theorem fresh_mul (h : Usable p f H bhe s) {a : ℝ} (ha : 0 < a) (h' : Usable { p with hourly := p.hourly.map (a * ·) } f H bhe s)
    {x : Held} (hx : fresh p f H = .ok x) :
    fresh { p with hourly := p.hourly.map (a * ·) } f H = .ok ⟨Multiple.env a x.env, x.state⟩ := by
  obtain ⟨B, c, sts, cl, hl, hy, hB, hc, hcl, h1, h2, h3, h4, h5, hf⟩ := fresh_ok h
  obtain ⟨B', c', sts', cl', hl', hy', -, hc', -, h1', h2', h3', h4', h5', hf'⟩ := fresh_ok h'
  rw [hx] at hf
  cases hf
  rw [show calcSts p.solve (radialTube p.ext s) none false p.fuel = _ from h1'] at h1
  cases h1
  rw [show p.gf (massFlow p f) p.media f H p.borehole.rb p.borehole.D = _ from hc'] at hc
  cases hc
  rw [show boreholeSpacing p.borehole.rb f = _ from h5'] at h5
  cases h5
  obtain ⟨e1, e2⟩ := parts_mul ha p.hourly
  have e1' : ((p.hourly.map (a * ·)).map fun x => max (-x) 0) = (p.hourly.map fun x => max (-x) 0).map (a * ·) := by
    simp only [List.map_map]
    refine List.map_congr_left fun x _ => ?_
    simp only [Function.comp]
    rw [mul_max_of_nonneg _ _ ha.le, mul_zero, mul_neg]
  have e2' : ((p.hourly.map (a * ·)).map fun x => max x 0) = (p.hourly.map fun x => max x 0).map (a * ·) := by
    simp only [List.map_map]
    refine List.map_congr_left fun x _ => ?_
    simp only [Function.comp]
    rw [mul_max_of_nonneg _ _ ha.le, mul_zero]
  have c1 := h'.cooling
  have c2 := h'.heating
  change Separated ((p.hourly.map (a * ·)).map fun x => max (-x) 0) at c1
  change Separated ((p.hourly.map (a * ·)).map fun x => max x 0) at c2
  rw [e1'] at c1
  rw [e2'] at c2
  have pos : ∀ g : ℝ → ℝ, ∀ x ∈ (p.hourly.map fun x => max (g x) 0).map (· / 1000), 0 ≤ x := by
    intro g x hx
    obtain ⟨y, hy, rfl⟩ := List.mem_map.1 hx
    obtain ⟨z, hz, rfl⟩ := List.mem_map.1 hy
    exact div_nonneg (le_max_right _ _) (by norm_num)
  have key := Multiple.mkHybrid_mul ha _ _ _ _ _ _ h4 (GL.agrees h2 (pos _) (clear_of ha h.cooling c1))
    (GL.agrees h3 (pos _) (clear_of ha h.heating c2))
  change GL.mkHybrid _ (((p.hourly.map (a * ·)).map fun x => max (-x) 0).map (· / 1000))
    (((p.hourly.map (a * ·)).map fun x => max x 0).map (· / 1000)) p.startMonth p.endMonth 2019 = _ at h4'
  rw [e1, e2, key] at h4'
  cases h4'
  rw [hf']
  rfl

/-- C139: the exchanger made for hourly loads multiplied by `a > 0` has the same hybrid hours, and hybrid loads multiplied by
`a`; in nothing else but the record of the loads does it differ. -/
theorem C139_made (h : Usable p f H bhe s) (a : ℝ) (ha : 0 < a) (h' : Usable { p with hourly := p.hourly.map (a * ·) } f H bhe s)
    (x : Held) (hx : fresh p f H = .ok x) :
    ∃ x', fresh { p with hourly := p.hourly.map (a * ·) } f H = .ok x' ∧ x'.env.hour = x.env.hour ∧
      x'.env.load = x.env.load.map (a * ·) ∧ x'.state = x.state ∧
      x.env = { x'.env with hourly := x.env.hourly, load := x.env.load, rejection := x.env.rejection,
                            extraction := x.env.extraction } :=
  ⟨_, fresh_mul h ha h' hx, rfl, rfl, rfl, rfl⟩

/-- the ground temperature of a new exchanger -/
theorem fresh_ground (h : Usable p f H bhe s) {x : Held} (hx : fresh p f H = .ok x) : (soilOf x.state.bhe).ugt = p.media.soil.ugt := by
  obtain ⟨x', hx', -, hb, -, -, hm, -⟩ := C95_made h
  rw [hx] at hx'
  cases hx'
  rw [hb, ← hm]
  cases bhe <;> rfl

/-- C139: with either method, all differences between predicted temperatures and the ground are multiplied by `a`, and so are
those of the two extremes that are returned. -/
theorem C139_temperatures (h : Usable p f H bhe s) (a : ℝ) (ha : 0 < a)
    (h' : Usable { p with hourly := p.hourly.map (a * ·) } f H bhe s) (method : String) (x x' : Held) (hx : fresh p f H = .ok x)
    (hx' : fresh { p with hourly := p.hourly.map (a * ·) } f H = .ok x') (hi lo : ℝ) (st : Whole.State)
    (hsim : Whole.simulate x.env method x.state = (.ok (hi, lo), st)) :
    ∃ hi' lo' st', Whole.simulate x'.env method x'.state = (.ok (hi', lo'), st') ∧
      hi' - p.media.soil.ugt = a * (hi - p.media.soil.ugt) ∧ lo' - p.media.soil.ugt = a * (lo - p.media.soil.ugt) ∧
      st'.HPEFT = st.HPEFT.map (Option.map fun T => p.media.soil.ugt + a * (T - p.media.soil.ugt)) ∧
      st'.dTb = st.dTb.map (Option.map fun T => a * T) := by
  rw [fresh_mul h ha h' hx] at hx'
  cases hx'
  have key := Multiple.simulate_mul ha x.env method x.state st hi lo hsim
  rw [fresh_ground h hx] at key
  refine ⟨_, _, _, key, ?_, ?_, rfl, rfl⟩ <;>
  · unfold about
    ring

/-- C139: a field within the limits stays within them when all loads are multiplied by a factor of at most 1, if the ground
temperature is between the limits. -/
theorem C139_limits (h : Usable p f H bhe s) (a : ℝ) (ha : 0 < a) (ha1 : a ≤ 1)
    (h' : Usable { p with hourly := p.hourly.map (a * ·) } f H bhe s)
    (hg : p.minEFT ≤ p.media.soil.ugt ∧ p.media.soil.ugt ≤ p.maxEFT) (hi lo : ℝ) (hex : Extremes p f H hi lo)
    (hw : WithinLimits p hi lo) :
    ∃ hi' lo', Extremes { p with hourly := p.hourly.map (a * ·) } f H hi' lo' ∧
      WithinLimits { p with hourly := p.hourly.map (a * ·) } hi' lo' := by
  obtain ⟨x, hx, hsim⟩ := hex
  obtain ⟨hi', lo', st', k1, k2, k3, -⟩ := C139_temperatures h a ha h' p.method x _ hx (fresh_mul h ha h' hx) hi lo _
    (Prod.ext hsim rfl)
  refine ⟨hi', lo', ⟨_, fresh_mul h ha h' hx, congrArg Prod.fst k1⟩, ?_, ?_⟩
  · show hi' ≤ p.maxEFT
    nlinarith [hw.1, hg.2]
  · show p.minEFT ≤ lo'
    nlinarith [hw.2, hg.1]

/-- C139: whatever the near-square and rectangle routines select, with either method, for loads multiplied by a factor of at
most 1 they select a field that is not later in the list of candidates, if the temperatures of the candidates are graded. -/
theorem C139_design (routine : String) (hr : routine = "near-square" ∨ routine = "rectangle") (a : ℝ) (ha : 0 < a) (ha1 : a ≤ 1)
    (hgr : p.minEFT ≤ p.media.soil.ugt ∧ p.media.soil.ugt ≤ p.maxEFT) (d : List Field)
    (hg : Graded { p with hourly := p.hourly.map (a * ·) } d)
    (hinit : ∀ f, d.head? = some f → ∃ bhe s, Usable p f p.borehole.H bhe s ∧
      Usable { p with hourly := p.hourly.map (a * ·) } f p.borehole.H bhe s)
    (hall : ∀ f ∈ d, ∀ H, H = p.minHeight ∨ H = p.maxHeight → ∃ bhe s, Usable p f H bhe s ∧
      Usable { p with hourly := p.hourly.map (a * ·) } f H bhe s ∧ Seam s ∧ Fits p f H s)
    (k' : ℤ) (f' : Field) (hret : (findDesign p routine (.flat d) {}).1 = .ok (some (k', f'))) :
    ∃ k f, (findDesign { p with hourly := p.hourly.map (a * ·) } routine (.flat d) {}).1 = .ok (some (k, f)) ∧ k ≤ k' := by
  refine easier_design (p := { p with hourly := p.hourly.map (a * ·) }) (p' := p) routine hr d hg ?_ ?_ ?_ rfl rfl ?_ k' f' hret
  · intro f hf
    obtain ⟨bhe, s, -, h1⟩ := hinit f hf
    obtain ⟨x, hx, -⟩ := C95_made h1
    exact ⟨x, hx⟩
  · intro f hf
    obtain ⟨bhe, s, h2, -⟩ := hinit f hf
    exact ⟨bhe, s, h2⟩
  · intro f hf H hH
    obtain ⟨bhe, s, h1, h2, h3, h4⟩ := hall f hf H hH
    exact ⟨bhe, s, h1, h3, h4⟩
  · intro f hf H hH hi lo hE hW
    obtain ⟨bhe, s, h1, h2, h3, h4⟩ := hall f hf H hH
    exact C139_limits h1 a ha ha1 h2 hgr hi lo hE hW

end

end Ghedt.WholeSearch

namespace Ghedt.Whole
open Real Ghedt.GHE Ghedt.Bhe Ghedt.Radial Ghedt.Spec Ghedt.Scaled

noncomputable section

variable {env : Env} {lo hi : ℝ} {x : Exchanger} {s0 : State} {δ : ℝ}

theorem gives_mul {a : ℝ} (ha : 0 < a) (hc : Covered env lo hi x s0) {method : String} {H u w : ℝ}
    (h : Gives env method s0 H u w) :
    Gives (Multiple.env a env) method s0 H (about a (soilOf x).ugt u) (about a (soilOf x).ugt w) := by
  obtain ⟨hk, hx, -⟩ := hc.facts
  have key := congrArg Prod.fst (Multiple.simulate_mul ha env method (s0.at H) _ u w (Prod.ext h rfl))
  have e : (soilOf (s0.at H).bhe).ugt = (soilOf x).ugt := by
    show (soilOf (setHeight H s0.bhe)).ugt = _
    rw [hx]
    cases x <;> rfl
  rw [e] at key
  exact key

/-- C139: with either method, for all loads multiplied by a factor of at most 1, where the ground itself is within the limits,
the sized height is no greater, up to twice the tolerance of the root finder — provided that the minimum height is still
not enough. -/
theorem C139_size (method : String) (hc : Covered env lo hi x s0) (hlt : env.minHeight < env.maxHeight)
    (hsim : Simulates env method s0) (himp : Improves env method s0) (h0 : 0 ≤ δ)
    (hF : Narrows δ env.minHeight env.maxHeight (env.brent env.minHeight env.maxHeight)) (a : ℝ) (ha : 0 < a) (ha1 : a ≤ 1)
    (hg0 : env.minEFT ≤ (soilOf x).ugt) (hg1 : (soilOf x).ugt ≤ env.maxEFT) (env' : Env) (rejection extraction : GL.Loads ℝ)
    (henv : env' = { env with hourly := env.hourly.map (a * ·), load := env.load.map (a * ·), rejection := rejection,
                              extraction := extraction })
    (hmin : ¬ WithinAt env' method s0 env.minHeight) (ops ops' : List Op)
    (hops : ∀ y, Op.height y ∈ ops → Within env lo hi y) (hops' : ∀ y, Op.height y ∈ ops' → Within env lo hi y)
    (w w' : List Warning) (s s' : State) (hs : size env method (ops.foldl (perform env) s0) = (.ok w, s))
    (hs' : size env' method (ops'.foldl (perform env') s0) = (.ok w', s')) :
    (borehole s'.bhe).H ≤ (borehole s.bhe).H + 2 * δ := by
  have key : ∀ u, u ≤ env.maxEFT → about a (soilOf x).ugt u ≤ env.maxEFT := by
    intro u hu
    unfold about
    nlinarith
  have key' : ∀ u, u < env.maxEFT → about a (soilOf x).ugt u < env.maxEFT := by
    intro u hu
    unfold about
    nlinarith
  have low : ∀ u, env.minEFT ≤ u → env.minEFT ≤ about a (soilOf x).ugt u := by
    intro u hu
    unfold about
    nlinarith
  have low' : ∀ u, env.minEFT < u → env.minEFT < about a (soilOf x).ugt u := by
    intro u hu
    unfold about
    nlinarith
  have same : ∀ {H u w}, Gives env method s0 H u w →
      Gives env' method s0 H (about a (soilOf x).ugt u) (about a (soilOf x).ugt w) := by
    intro H u w h
    subst henv
    exact gives_mul ha hc h
  have hc' : Covered env' lo hi x s0 := by
    subst henv
    exact ⟨hc.made, hc.settled, hc.db, hc.range,
      ⟨hc.height.height, hc.height.spacing, hc.height.above, hc.height.below⟩, hc.order,
      fun h a b => ⟨(hc.bounds h a b).height, (hc.bounds h a b).spacing, (hc.bounds h a b).above, (hc.bounds h a b).below⟩,
      hc.finder⟩
  have e1 : env'.minHeight = env.minHeight := by rw [henv]
  have e2 : env'.maxHeight = env.maxHeight := by rw [henv]
  have e3 : env'.brent = env.brent := by rw [henv]
  have e4 : env'.maxEFT = env.maxEFT := by rw [henv]
  have e5 : env'.minEFT = env.minEFT := by rw [henv]
  refine size_le hc hc' hlt e1 e2 e3 hsim (fun H a b => ?_) himp h0 hF ?_ ?_ hmin ops ops'
    hops (fun y hy => ?_) w w' s s' hs hs'
  · obtain ⟨u, w, h⟩ := hsim H (e1 ▸ a) (e2 ▸ b)
    exact ⟨_, _, same h⟩
  · rintro H k1 k2 ⟨u, w, a, b, c⟩
    exact ⟨_, _, same a, e4 ▸ key' u b, e5 ▸ low' w c⟩
  · rintro ⟨u, w, a, b, c⟩
    exact hmin ⟨_, _, same a, e4 ▸ key u b, e5 ▸ low w c⟩
  · have := hops' y hy
    subst henv
    exact ⟨this.height, this.spacing, this.above, this.below⟩

end

end Ghedt.Whole
