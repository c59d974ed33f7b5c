import Verif.Props.Gaps
import Verif.Props.WholeMake

/-!
# C104, C105: the hybrid simulation from the user's loads
-/

set_option linter.unusedSectionVars false

namespace Ghedt.WholeSearch
open Real Ghedt.GHE Ghedt.Bhe Ghedt.Radial Ghedt.Whole Ghedt.Search Ghedt.Utilities Ghedt.Spec

noncomputable section

variable {p : Problem} {f : Field} {H : ℝ} {bhe : Exchanger} {s : UTube}

/-! ### kilowatts -/

theorem peaksAt_scale {month : List ℝ} {i : ℕ} {P : ℝ} (h : PeaksAt (month.map (· / 1000)) i P) :
    PeaksAt month i (1000 * P) := by
  obtain ⟨h1, h2, h3⟩ := h
  have inj : ∀ j : ℕ, month[j]? = some (1000 * P) ↔ (month.map (· / 1000))[j]? = some P := by
    intro j
    rw [List.getElem?_map]
    cases month[j]? with
    | none => simp
    | some x =>
      simp only [Option.some_inj, Option.map_some]
      constructor
      · rintro rfl
        rw [mul_div_cancel_left₀ _ (by norm_num)]
      · rintro rfl
        rw [mul_div_cancel₀ _ (by norm_num)]
  refine ⟨(inj i).2 h1, fun j hj hcon => h2 j hj ((inj j).1 hcon), fun x hx => ?_⟩
  have := h3 _ (List.mem_map_of_mem (f := (· / 1000)) hx)
  linarith

theorem averageOf_scale (month : List ℝ) : averageOf (month.map (· / 1000)) = averageOf month / 1000 := by
  unfold averageOf
  rw [List.length_map]
  have : (month.map (· / 1000)).sum = month.sum / 1000 := by
    induction month with
    | nil => simp
    | cons a l ih => rw [List.map_cons, List.sum_cons, List.sum_cons, ih]; ring
  rw [this]
  ring

theorem placed_scale {month : List ℝ} (h : Placed month) : Placed (month.map (· / 1000)) := by
  intro i P hP hP0
  obtain ⟨h1, h2, h3⟩ := h i _ (peaksAt_scale hP) (by linarith)
  refine ⟨h1, by rwa [List.length_map], ?_⟩
  rw [averageOf_scale]
  rcases h3 with h3 | h3
  · left
    have : (averageOf month / 1000) ^ 2 * (((i - 24 * (dayOf i - 1) : ℕ) : ℝ) + 1) =
        averageOf month ^ 2 * (((i - 24 * (dayOf i - 1) : ℕ) : ℝ) + 1) / 1000000 := by ring
    rw [this, div_le_iff₀ (by norm_num)]
    linarith
  · right
    intro k k1 k2 x hx
    rw [List.getElem?_map, Option.map_eq_some_iff] at hx
    obtain ⟨y, hy, rfl⟩ := hx
    rcases h3 k k1 k2 y hy with h | h
    · left; rw [h]; simp
    · right
      exact div_le_div_of_nonneg_right h (by norm_num)

theorem apart_scale {month month' : List ℝ} (h : Apart month month') :
    Apart (month.map (· / 1000)) (month'.map (· / 1000)) :=
  fun i _ j _ hP hQ hP0 hQ0 => h i _ j _ (peaksAt_scale hP) (peaksAt_scale hQ) (by linarith) (by linarith)

/-! ### from the input -/

/-- The hourly loads of the building, in W, extraction positive: in every month the peak of what is rejected and the
peak of what is extracted are placed inside the month and stand out, and lie on the same day or at least three days
apart. -/
def PeaksPlaced (hourly : List ℝ) : Prop := ∀ m : ℕ, 1 ≤ m → m ≤ 12 →
  Placed (monthLoads false (hourly.map fun x => max (-x) 0) m) ∧
  Placed (monthLoads false (hourly.map fun x => max x 0) m) ∧
  Apart (monthLoads false (hourly.map fun x => max (-x) 0) m) (monthLoads false (hourly.map fun x => max x 0) m)

/-- C104: for usable input whose peaks are placed, the times of the hybrid load, from the start of its first month on,
are at least a millionth of an hour apart. -/
theorem C104_input (h : Usable p f H bhe s) (hp : PeaksPlaced p.hourly) (x : Held) (hx : fresh p f H = .ok x) :
    (0 :: x.env.hour.drop 2).Pairwise (fun u v => 1 / 1000000 ≤ v - u) := by
  obtain ⟨B, c, sts, cl, hl, hy, hB, hc, hcl, h1, h2, h3, h4, h5, hf⟩ := fresh_ok h
  rw [hx] at hf
  cases hf
  show (0 :: hy.hour.drop 2).Pairwise _
  have hleap : decide (LeapYear 2019) = false := by decide
  obtain ⟨m1, m2⟩ := h.months
  obtain ⟨a, ha⟩ : ∃ a : ℕ, p.startMonth = a := ⟨p.startMonth.toNat, by omega⟩
  obtain ⟨b, hb⟩ : ∃ b : ℕ, p.endMonth = b := ⟨p.endMonth.toNat, by omega⟩
  obtain ⟨f1, f2, f3, hy', h4', h6⟩ := GL.C63_hybrid h2 h3 (start := a) (finish := b) (by omega) (by omega)
  rw [← ha, ← hb, h4] at h4'
  cases h4'
  -- the response at the hours
  obtain ⟨N, r, lt, g, hrun, G, g1, g2, g3, g4⟩ := C131_hours h.sound h.solver
  have hsts : sts = (r, lt, g) := by
    obtain ⟨res, hres⟩ := calcSts_stable h.sound h.solver.sized h.steps
    have e1 := hres _ le_rfl
    rw [h1] at e1
    cases e1
    have e2 := hres (max p.fuel N) (le_max_left _ _)
    rw [hrun _ (le_max_right _ _)] at e2
    cases e2; rfl
  subst hsts
  have hk : 0 < 2 * π * (radialTube p.ext s).kSoil := by have := h.sound.kSoil; positivity
  have hpos1 : 0 < G 1 / (2 * π * (radialTube p.ext s).kSoil) + (radialTube p.ext s).Rb := by
    exact g3 1 le_rfl (by norm_num)
  have side : ∀ (w : List ℝ) (L : GL.Loads ℝ), (∀ y ∈ w, 0 ≤ y) →
      GL.mkLoads (respOf (radialTube p.ext s) r lt g) (w.map (· / 1000)) 2019 = .ok L →
      ∀ m : ℕ, 1 ≤ m → m ≤ 12 → Placed (monthLoads false w m) → w.length = 8760 → 0 < (L.side m).peak →
      2 ≤ (L.side m).day ∧ (L.side m).day + 1 ≤ monthLength false m ∧ 1 / 1000000 ≤ (L.side m).duration ∧
        (L.side m).duration ≤ 48 := by
    intro w L hw hL m m1 m2 hpl hlen hpk
    obtain ⟨i, hi, hd⟩ := GL.side_facts hL m1 m2
    rw [hleap, monthLoads_map] at hi
    have hpl' := placed_scale hpl
    obtain ⟨q1, q2, -⟩ := hpl' i _ hi hpk
    rw [List.length_map, GL.monthLoads_length (by rw [hlen]; rfl) m2] at q2
    obtain ⟨d, e1, e2, e3⟩ := GL.C104_month (fun t a b => g1 t a b) hk g2 hpos1 (by
        intro t a b
        have := g4 1 t le_rfl a (by omega)
        rw [Nat.cast_one, one_mul] at this
        exact this) hL (by
        intro y hy
        obtain ⟨z, hz, rfl⟩ := List.mem_map.1 hy
        exact div_nonneg (hw z hz) (by norm_num)) m1 m2 (by rw [hleap, monthLoads_map]; exact hpl')
      (by rw [hleap, monthLoads_map]; exact hi) hpk
    have hdur : (L.side m).duration = d := by simp [GL.Loads.side, List.getD_eq_getElem?_getD, e1]
    rw [hd, hdur]
    refine ⟨by omega, by omega, e2, e3⟩
  have wl : ∀ w : List ℝ, w = (p.hourly.map fun x => max (-x) 0) ∨ w = (p.hourly.map fun x => max x 0) →
      (∀ y ∈ w, 0 ≤ y) ∧ w.length = 8760 := by
    rintro w (rfl | rfl) <;> refine ⟨?_, by rw [List.length_map, h.year]⟩ <;> intro y hy <;>
      obtain ⟨z, -, rfl⟩ := List.mem_map.1 hy <;> exact le_max_right _ _
  obtain ⟨-, k⟩ := GL.C104_gaps f1 f2 f3 (start := a) (finish := b) (by omega) (by omega) h6
    (δ := 1 / 1000000) (by norm_num) (by norm_num) (by
      rintro m m1 m2 t (rfl | rfl) ht
      · exact side _ cl (wl _ (.inl rfl)).1 h2 m m1 m2 (hp m m1 m2).1 (wl _ (.inl rfl)).2 ht
      · exact side _ hl (wl _ (.inr rfl)).1 h3 m m1 m2 (hp m m1 m2).2.1 (wl _ (.inr rfl)).2 ht) (by
      intro m m1 m2 hP hQ
      obtain ⟨i, hi, hd⟩ := GL.side_facts h2 m1 m2
      obtain ⟨j, hj, he⟩ := GL.side_facts h3 m1 m2
      rw [hleap, monthLoads_map] at hi hj
      have := apart_scale (hp m m1 m2).2.2 i _ j _ hi hj hP hQ
      rw [hd, he]
      omega)
  exact k

/-- the hybrid simulation fits whenever the last hour is covered -/
theorem fits_hybrid (h : Usable p f H bhe s) (hm : p.method = "hybrid") (hp : PeaksPlaced p.hourly)
    (hend : 3600 * (hoursOf p.endMonth.toNat : ℝ) ≤ charTime s * exp (3003 / 1000)) : Fits p f H s := by
  refine Or.inr ⟨hm, hend, fun x hx => (C104_input h hp x hx).imp ?_⟩
  intro u v huv
  have : (1 : ℝ) / 10 ^ 12 ≤ 3600 * (1 / 1000000) := by norm_num
  linarith

/-! ### the hypotheses are met: a building with a peak of rejection and a peak of extraction in every month -/

/-- 10th day, 12 o'clock, of every month -/
def hotHours : List ℕ := [228, 972, 1644, 2388, 3108, 3852, 4572, 5316, 6060, 6780, 7524, 8244]

/-- 20th day, 12 o'clock, of every month -/
def coldHours : List ℕ := [468, 1212, 1884, 2628, 3348, 4092, 4812, 5556, 6300, 7020, 7764, 8484]

/-- 20 kW rejected in the hot hours, 30 kW extracted in the cold ones, else 1 kW rejected; in W, extraction positive -/
def exLoad (h : ℕ) : ℝ := if h ∈ hotHours then -20000 else if h ∈ coldHours then 30000 else -1000

@[irreducible] def exHourly : List ℝ := (List.range 8760).map exLoad

theorem exHourly_eq : exHourly = (List.range 8760).map exLoad := by unfold exHourly; rfl

theorem exHourly_length : exHourly.length = 8760 := by rw [exHourly_eq, List.length_map, List.length_range]

theorem exHourly_month (g : ℝ → ℝ) {m : ℕ} (m1 : 1 ≤ m) (m2 : m ≤ 12) :
    monthLoads false (exHourly.map g) m = (List.range (24 * monthLength false m)).map fun k =>
      g (if k = 228 then -20000 else if k = 468 then 30000 else -1000) := by
  have hstart : monthStart false m + 24 * monthLength false m ≤ 8760 := by
    have := GL.monthStart_le false (show m + 1 ≤ 13 by omega)
    rw [GL.monthStart_succ] at this
    simpa [yearHours] using this
  apply List.ext_getElem?
  intro k
  unfold monthLoads
  by_cases hk : k < 24 * monthLength false m
  · rw [List.getElem?_take_of_lt hk, List.getElem?_drop, List.getElem?_map, List.getElem?_map, exHourly_eq, List.getElem?_map,
      List.getElem?_range (by omega), List.getElem?_range hk]
    simp only [Option.map_some]
    congr 2
    have key : (monthStart false m + k ∈ hotHours ↔ k = 228) ∧ (monthStart false m + k ∈ coldHours ↔ k = 468) := by
      have hs : monthStart false m = [0, 0, 744, 1416, 2160, 2880, 3624, 4344, 5088, 5832, 6552, 7296, 8016].getD m 0 := by
        interval_cases m <;> decide
      have hl : monthLength false m = [0, 31, 28, 31, 30, 31, 30, 31, 31, 30, 31, 30, 31].getD m 0 := by
        interval_cases m <;> rfl
      rw [hl] at hk
      rw [hs]
      simp only [hotHours, coldHours, List.mem_cons, List.not_mem_nil, or_false]
      interval_cases m <;> simp only [List.getD_cons_succ, List.getD_cons_zero] at hk ⊢ <;> omega
    unfold exLoad
    simp only [key.1, key.2]
  · rw [List.getElem?_eq_none (by rw [List.length_take]; omega),
      List.getElem?_eq_none (by rw [List.length_map, List.length_range]; omega)]

/-- a month of a positive peak at index `i` -/
theorem pulse_peak {n i : ℕ} (hi : i < n) {v : ℕ → ℝ} {P : ℝ} (hiP : v i = P) (hlt : ∀ k, k ≠ i → v k < P) {j : ℕ} {Q : ℝ}
    (h : PeaksAt ((List.range n).map v) j Q) : j = i ∧ Q = P := by
  refine GL.PeaksAt.unique h ⟨?_, ?_, ?_⟩
  · rw [List.getElem?_map, List.getElem?_range hi, ← hiP]; rfl
  · intro k hk hcon
    rw [List.getElem?_map, List.getElem?_range (by omega)] at hcon
    have := hlt k (by omega)
    simp only [Option.map_some, Option.some_inj] at hcon
    linarith
  · intro x hx
    obtain ⟨k, -, rfl⟩ := List.mem_map.1 hx
    rcases eq_or_ne k i with rfl | hk
    · exact hiP.le
    · exact (hlt k hk).le

theorem exHourly_placed : PeaksPlaced exHourly := by
  intro m m1 m2
  have hml := (GL.monthLength_bounds false m1 m2).1
  rw [exHourly_month _ m1 m2, exHourly_month _ m1 m2]
  set n := 24 * monthLength false m with hn
  have hn' : 672 ≤ n := by omega
  have d1 : dayOf 228 = 10 := by decide
  have d2 : dayOf 468 = 20 := by decide
  have hot : ∀ j Q, PeaksAt ((List.range n).map fun k =>
      max (-(if k = 228 then -20000 else if k = 468 then 30000 else -1000 : ℝ)) 0) j Q → j = 228 ∧ Q = 20000 := by
    intro j Q h
    refine pulse_peak (i := 228) (by omega) (by norm_num) ?_ h
    intro k hk
    rw [if_neg hk]
    split_ifs <;> norm_num
  have cold : ∀ j Q, PeaksAt ((List.range n).map fun k =>
      max (if k = 228 then -20000 else if k = 468 then 30000 else -1000 : ℝ) 0) j Q → j = 468 ∧ Q = 30000 := by
    intro j Q h
    refine pulse_peak (i := 468) (by omega) (by norm_num) ?_ h
    intro k hk
    rw [if_neg hk]
    split_ifs <;> norm_num
  refine ⟨?_, ?_, ?_⟩
  · intro i P hP hP0
    obtain ⟨rfl, rfl⟩ := hot i P hP
    rw [d1]
    refine ⟨by norm_num, by rw [List.length_map, List.length_range]; omega, Or.inl ?_⟩
    -- the average is at most 2000
    have hsum : ((List.range n).map fun k =>
        max (-(if k = 228 then -20000 else if k = 468 then 30000 else -1000 : ℝ)) 0).sum ≤ 1000 * n + 19000 := by
      rw [GL.list_sum_range]
      calc _ ≤ ∑ k ∈ Finset.range n, ((1000 : ℝ) + if k = 228 then 19000 else 0) := by
            apply Finset.sum_le_sum
            intro k _
            split_ifs <;> norm_num
        _ = 1000 * n + 19000 := by
            rw [Finset.sum_add_distrib, Finset.sum_const, Finset.card_range, nsmul_eq_mul, Finset.sum_ite_eq',
              if_pos (Finset.mem_range.2 (by omega))]
            ring
    have hn0 : (672 : ℝ) ≤ n := by exact_mod_cast hn'
    have hav : averageOf ((List.range n).map fun k =>
        max (-(if k = 228 then -20000 else if k = 468 then 30000 else -1000 : ℝ)) 0) ≤ 2000 := by
      unfold averageOf
      rw [List.length_map, List.length_range, div_le_iff₀ (by linarith)]
      linarith
    have hav0 : 0 ≤ averageOf ((List.range n).map fun k =>
        max (-(if k = 228 then -20000 else if k = 468 then 30000 else -1000 : ℝ)) 0) := by
      unfold averageOf
      apply div_nonneg _ (Nat.cast_nonneg _)
      apply List.sum_nonneg
      intro x hx
      obtain ⟨k, -, rfl⟩ := List.mem_map.1 hx
      exact le_max_right _ _
    revert hav hav0
    generalize averageOf (K := ℝ) _ = a
    intro hav hav0
    norm_num
    nlinarith
  · intro i P hP hP0
    obtain ⟨rfl, rfl⟩ := cold i P hP
    rw [d2]
    refine ⟨by norm_num, by rw [List.length_map, List.length_range]; omega, Or.inr ?_⟩
    intro k k1 k2 x hx
    rw [List.getElem?_map, List.getElem?_range (by omega)] at hx
    left
    simp only [Option.map_some, Option.some_inj] at hx
    rw [← hx, if_neg (by omega), if_neg (by omega)]
    norm_num
  · intro i P j Q hP hQ _ _
    obtain ⟨rfl, -⟩ := hot i P hP
    obtain ⟨rfl, -⟩ := cold j Q hQ
    rw [d1, d2]
    norm_num

/-- the building of `exProblem` with these loads, for the hybrid method -/
def exBuilding : Problem := { exProblem with hourly := exHourly, method := "hybrid" }

theorem exHourly_separated (g : ℝ → ℝ) (i : ℕ) (hi : i = 228 ∨ i = 468) (P : ℝ) 
    (hP : g (if i = 228 then -20000 else if i = 468 then 30000 else -1000) = P)
    (h1 : g (-20000) ≤ P) (h2 : g 30000 ≤ P) (h3 : g (-1000) ≤ P) : Separated (exHourly.map g) := by
  refine ClearPeaks.of_all ?_
  intro m m1 m2 pk hpk hmax x hx
  have hml := (GL.monthLength_bounds false m1 m2).1
  rw [exHourly_month g m1 m2] at hmax
  have hPk := hmax P (List.mem_map.2 ⟨i, List.mem_range.2 (by omega), hP⟩)
  left
  obtain ⟨y, hy, rfl⟩ := List.mem_map.1 hx
  rw [exHourly_eq] at hy
  obtain ⟨k, -, rfl⟩ := List.mem_map.1 hy
  refine le_trans ?_ hPk
  unfold exLoad
  split_ifs
  · exact h1
  · exact h2
  · exact h3

theorem exBuilding_usable (f : Field) (hf : f ≠ []) (H : ℝ) (hH : H = 50 ∨ H = 75 ∨ H = 100)
    (hB : ∀ B, boreholeSpacing (3 / 40) f = .ok B → B = 3 / 40 ∨ B = 5) :
    ∃ s, Usable exBuilding f H (.multiple (exDouble H)) s ∧ charTime s = 100000 * H ^ 2 := by
  obtain ⟨s, h, hct⟩ := exUsable f hf H hH hB
  obtain ⟨c1, c2, c3, c4, c5, c6, c7, c8, c9, c10, c11, -, -, -, c15⟩ := h
  unfold massFlow at c5 c11
  refine ⟨s, ?_, hct⟩
  constructor
  case year =>
    exact exHourly_length
  case heating => refine exHourly_separated (fun x => max x 0) 468 (.inr rfl) 30000 ?_ ?_ ?_ ?_ <;> norm_num
  case cooling => refine exHourly_separated (fun x => max (-x) 0) 228 (.inl rfl) 20000 ?_ ?_ ?_ ?_ <;> norm_num
  all_goals (try unfold exBuilding); (try unfold massFlow); (try dsimp only); assumption

/-- The hypotheses of C104 are met: in the building's field the times of the hybrid load keep their distance. -/
theorem exBuilding_gaps : ∃ x, fresh exBuilding [(0, 0)] 100 = .ok x ∧
    (0 :: x.env.hour.drop 2).Pairwise (fun u v => 1 / 1000000 ≤ v - u) := by
  obtain ⟨s, h, -⟩ := exBuilding_usable [(0, 0)] (by simp) 100 (by tauto) (fun B hB => by cases hB; exact .inl rfl)
  obtain ⟨x, hx, -⟩ := C95_made h
  exact ⟨x, hx, C104_input h exHourly_placed x hx⟩

end

end Ghedt.WholeSearch
