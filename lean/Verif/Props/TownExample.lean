import Verif.Props.WorkflowExample
import Verif.Props.Year
import Mathlib.Algebra.BigOperators.Field

/-!
# A bi-zoned design that is found and sized (C93, C97, C106, C107, C115): the concrete case
-/

set_option linter.unusedSectionVars false

namespace Ghedt.WholeSearch
open Real Ghedt.GHE Ghedt.Bhe Ghedt.Radial Ghedt.Whole Ghedt.Search Ghedt.Utilities Ghedt.Spec Ghedt.Network Ghedt.Design
  Ghedt.Domains Ghedt.Coordinates

noncomputable section

/-- the problem with other limits -/
def Problem.limits (p : Problem) (T t : ℝ) : Problem := { p with maxEFT := T, minEFT := t }

/-- the exchanger with other limits -/
def Held.limits (x : Held) (T t : ℝ) : Held := ⟨{ x.env with maxEFT := T, minEFT := t }, x.state⟩

/-- The limits do not enter the making of an exchanger. -/
theorem fresh_limits (p : Problem) (T t : ℝ) (f : Field) (H : ℝ) :
    fresh (p.limits T t) f H = (fresh p f H).map fun x => x.limits T t := by
  have hb : ∀ flows, buildGhe (p.limits T t) flows p.media { p.borehole with H := H } f =
      (buildGhe p flows p.media { p.borehole with H := H } f).map fun x => x.limits T t := by
    intro flows
    unfold buildGhe
    cases boreholeSpacing p.borehole.rb f with
    | error e => rfl
    | ok B =>
      rw [Except.ok_bind, Except.ok_bind]
      show (GF.computeLive p.fmt p.toFloat (p.gf flows.2 p.media f) B [H] [p.borehole.rb] [p.borehole.D]
        eskilsonLogTimes f >>= _) = Except.map _ (GF.computeLive p.fmt p.toFloat (p.gf flows.2 p.media f) B [H]
          [p.borehole.rb] [p.borehole.D] eskilsonLogTimes f >>= _)
      cases GF.computeLive p.fmt p.toFloat (p.gf flows.2 p.media f) B [H] [p.borehole.rb] [p.borehole.D]
        eskilsonLogTimes f with
      | error e => rfl
      | ok db =>
        rw [Except.ok_bind, Except.ok_bind]
        unfold mkGhe
        show _ = Except.map _ (gheFlow flows.1 p.media.fluid.rho db.locations.length >>= _)
        cases gheFlow flows.1 p.media.fluid.rho db.locations.length with
        | error e => rfl
        | ok v =>
          rw [Except.ok_bind, Except.ok_bind]
          dsimp only
          show (makeExchanger p.ext v.2 p.media { p.borehole with H := H } >>= _) =
            Except.map _ (makeExchanger p.ext v.2 p.media { p.borehole with H := H } >>= _)
          cases makeExchanger p.ext v.2 p.media { p.borehole with H := H } with
          | error e => rfl
          | ok b =>
            rw [Except.ok_bind, Except.ok_bind]
            show (computeEquivalent p.ext p.brent b >>= _) = Except.map _ _
            cases computeEquivalent p.ext p.brent b with
            | error e => rfl
            | ok q =>
              rw [Except.ok_bind, Except.ok_bind]
              show (calcSts p.solve (radialTube p.ext q.1) none false p.fuel >>= _) = Except.map _ _
              cases calcSts p.solve (radialTube p.ext q.1) none false p.fuel with
              | error e => rfl
              | ok sts =>
                rw [Except.ok_bind, Except.ok_bind]
                show (GL.splitHeatAndCool p.hourly "W" >>= _) = Except.map _ _
                cases GL.splitHeatAndCool p.hourly "W" with
                | error e => rfl
                | ok l =>
                  rw [Except.ok_bind, Except.ok_bind]
                  show (GL.mkHybrid (respOf (radialTube p.ext q.1) sts.1 sts.2.1 sts.2.2) l.1 l.2
                    p.startMonth p.endMonth 2019 >>= _) = Except.map _ _
                  cases GL.mkHybrid (respOf (radialTube p.ext q.1) sts.1 sts.2.1 sts.2.2) l.1 l.2
                    p.startMonth p.endMonth 2019 with
                  | error e => rfl
                  | ok y => rfl
  unfold fresh
  show (retrieveFlow p.flow p.V p.media.fluid.rho f.length >>= _) = _
  cases retrieveFlow p.flow p.V p.media.fluid.rho f.length with
  | error e => rfl
  | ok flows =>
    rw [Except.ok_bind, Except.ok_bind]
    exact hb flows

theorem extremes_limits (p : Problem) (T t : ℝ) (f : Field) (H hi lo : ℝ) :
    Extremes (p.limits T t) f H hi lo ↔ Extremes p f H hi lo := by
  unfold Extremes
  rw [fresh_limits]
  constructor
  · rintro ⟨x, hx, hs⟩
    cases hg : fresh p f H with
    | error e => rw [hg] at hx; cases hx
    | ok y =>
      rw [hg] at hx
      cases hx
      exact ⟨y, rfl, hs⟩
  · rintro ⟨x, hx, hs⟩
    rw [hx]
    exact ⟨_, rfl, hs⟩

theorem computeG_limits (p : Problem) (T t : ℝ) (x y : Held)
    (h : computeG (p.limits T t) { held := some (x.limits T t) } = (.ok (), { held := some y })) :
    ∃ z, computeG p { held := some x } = (.ok (), { held := some z }) ∧ y = z.limits T t := by
  unfold computeG at h ⊢
  dsimp only [Problem.limits, Held.limits] at h ⊢
  cases hc : GF.computeGFunctions p.fmt p.toFloat
        (p.gf (flowOf x.state.bhe) (mediaOf x.state.bhe) x.env.db.locations) x.env.bSpacing x.env.minHeight
        x.env.maxHeight (Whole.borehole x.state.bhe).rb (Whole.borehole x.state.bhe).D x.env.db with
  | error e => rw [hc] at h; cases h
  | ok db =>
    rw [hc] at h
    cases h
    exact ⟨_, rfl, rfl⟩

/-- the building of C104 with the library that answers 20, for the hourly method -/
def exTown : Problem := { exProblem with
  gf := liveCurve exProblem.ext exTwenty eskilsonLogTimes {}
  hourly := exHourly }

theorem exTown_usable (f : Field) (hf : f ≠ []) (H : ℝ) (hH : H = 50 ∨ H = 75 ∨ H = 100)
    (hB : ∀ B, boreholeSpacing (3 / 40) f = .ok B → B = 3 / 40 ∨ B = 5) :
    ∃ s, Usable exTown f H (.multiple (exDouble H)) s ∧ charTime s = 100000 * H ^ 2 := by
  obtain ⟨s, h, hct⟩ := exBuilding_usable f hf H hH hB
  obtain ⟨c1, c2, c3, c4, c5, c6, c7, c8, c9, c10, -, c12, c13, c14, c15⟩ := h
  unfold massFlow at c5
  refine ⟨s, ?_, hct⟩
  constructor
  case curve => exact ⟨_, exTwenty_curve _ _ _ _ _, by rw [List.length_replicate]; rfl⟩
  case exchanger =>
    unfold massFlow
    exact c5
  all_goals (try unfold exTown); (try unfold massFlow); (try dsimp only); assumption

theorem exTown_sensible (T t : ℝ) : Sensible (exTown.limits T t) := by
  obtain ⟨a1, a2, a3, a4, a5, a6, a7, -, -, -, a11, a12, a13, a14⟩ := exLimit_sensible T t
  obtain ⟨-, -, -, -, -, -, -, b8, b9, b10, -, -, -, -⟩ := exSingle_sensible
  exact ⟨a1, a2, a3, a4, a5, a6, a7, b8, b9, b10, a11, a12, a13, a14⟩

/-- the loads of the building, numbered from 1, rejection positive -/
def exTownLoad (i : ℕ) : ℝ := if i = 0 then 0 else -exLoad ((i - 1) % 8760)

theorem exLoad_bound (h : ℕ) : |exLoad h| ≤ 30000 := by
  unfold exLoad
  split_ifs <;> norm_num [abs_le]

theorem exTownLoad_bound (i : ℕ) : |exTownLoad i| ≤ 30000 := by
  unfold exTownLoad
  split_ifs
  · norm_num
  · rw [abs_neg]
    exact exLoad_bound _

/-- The extreme temperatures of any field are at most `K / n` away from the ground temperature, and the highest is not less
than the one after 200 hours. -/
theorem exTown_extremes (H : ℝ) (hH : H = 50 ∨ H = 100) : ∃ K, ∀ f : Field, f ≠ [] →
    (∀ B, boreholeSpacing (3 / 40) f = .ok B → B = 3 / 40 ∨ B = 5) →
    ∃ hi lo, Extremes exTown f H hi lo ∧ hi ≤ 18 + K / f.length ∧ 18 - K / f.length ≤ lo ∧
      18 + (1000 / H / (4 * π) * 20 + 1000 / H * (51 / 400) - 1000 / 16728) / f.length ≤ hi := by
  have h0 : 0 < H := by rcases hH with rfl | rfl <;> norm_num
  obtain ⟨s, hs, hsound, hct⟩ := exDouble_ok H h0
  obtain ⟨K0, hK0⟩ : ∃ K0, ∀ rad lt gs, calcSts exTown.solve (radialTube exTown.ext s) none false
      exTown.fuel = .ok (rad, lt, gs) → ∀ q ∈ lt.zip gs, |q.2| ≤ K0 := by
    rcases hc : calcSts exTown.solve (radialTube exTown.ext s) none false exTown.fuel with e | ⟨rad, lt, gs⟩
    · exact ⟨0, by intro _ _ _ h; cases h⟩
    · refine ⟨((lt.zip gs).map fun q => |q.2|).sum, ?_⟩
      intro _ _ _ h q hq
      cases h
      exact List.single_le_sum (by
        intro x hx
        obtain ⟨q, -, rfl⟩ := List.mem_map.1 hx
        exact abs_nonneg _) _ (List.mem_map_of_mem hq)
  have hpi := Real.pi_pos
  set M := max K0 20 with hM
  have hM0 : 0 ≤ M := le_trans (by norm_num) (le_max_right _ _)
  refine ⟨8760 * (60000 / H / (4 * π) * M) + 30000 / H * (51 / 400) + 30000 / 16728, ?_⟩
  intro f hf hB
  obtain ⟨s', hu, hct'⟩ := exTown_usable f hf H (by tauto) hB
  have : s' = s := by
    have h2 := hu.converts
    change computeEquivalent Whole.exExt exBrent (.multiple (exDouble H)) = _ at h2
    rw [hs] at h2
    cases h2
    rfl
  subst this
  obtain ⟨x, hi, lo, s1, rad, lt, gs, c, G, hx, hsim, hsts, hc, hG, hT, ⟨hi1, hi2⟩, ⟨lo1, lo2⟩⟩ :=
    C96_hourly hu (exSeam _ H hH hct) 1 le_rfl rfl (exFits _ H hH hct) exTownLoad rfl (by
      intro k
      show exHourly[k % 8760]? = _
      rw [exHourly_eq, List.getElem?_map, List.getElem?_range (Nat.mod_lt _ (by norm_num))]
      simp [exTownLoad])
  have hc' : c = List.replicate 27 20 := by
    have hc : liveCurve exProblem.ext exTwenty eskilsonLogTimes {} _ exProblem.media _ _ _ _ = _ := hc
    rw [exTwenty_curve] at hc
    cases hc
    rfl
  have hn : (0 : ℝ) < f.length := by exact_mod_cast List.length_pos_iff.2 hf
  have hrb : effectiveRb exTown.ext (.multiple (exDouble H)) = 51 / 400 := by
    show (11 / 100 : ℝ) / (2 * ((2 : ℤ) : ℝ)) + 1 / (10 * 1) = 51 / 400
    norm_num
  have hval : ∀ k : ℕ, exitTemp ⟨f.length, H, exTown.media.soil.k, exTown.media.soil.ugt,
      effectiveRb exTown.ext (.multiple (exDouble H)), massFlow exTown f, exTown.media.fluid.cp⟩ G
      exTownLoad (fun i => i) (k + 1) =
      18 + (∑ j ∈ Finset.range (k + 1), (exTownLoad (j + 1) - exTownLoad j) / H / (4 * π) * G (((k + 1 : ℕ) : ℝ) - j) +
        exTownLoad (k + 1) / H * (51 / 400) - exTownLoad (k + 1) / 16728) / f.length := by
    intro k
    rw [hrb, show massFlow exTown f = 2 from exProblem_flow f]
    unfold exitTemp wallRise
    show 18 + _ + _ - _ / _ / (2 * 2 * 4182) = _
    rw [sub_div, add_div, Finset.sum_div, ← add_sub_assoc, ← add_assoc]
    congr 1
    · congr 1
      · congr 1
        refine Finset.sum_congr rfl fun j _ => ?_
        show (exTownLoad (j + 1) - exTownLoad j) / (f.length * H) / (2 * π * 2) * _ = _
        have := Real.pi_ne_zero
        field_simp
        ring
      · show exTownLoad (k + 1) / (f.length * H) * (51 / 400) = _
        field_simp
    · field_simp
      ring
  have hbound : ∀ i : ℕ, 1 ≤ i → i ≤ 8760 * 1 → |G i| ≤ M := by
    intro i h1 h2
    refine polyline_bound ?_ (hG i h1 h2)
    intro q hq
    rcases List.mem_append.1 hq with hq | hq
    · exact (hK0 _ _ _ hsts q (List.mem_of_mem_filter hq)).trans (le_max_left _ _)
    · have := (List.of_mem_zip (a := q.1) (b := q.2) hq).2
      rw [hc'] at this
      rw [List.eq_of_mem_replicate this]
      refine le_trans ?_ (le_max_right _ _)
      norm_num
  have hmem : ∀ T, some T ∈ s1.HPEFT → |T - 18| ≤ (8760 * (60000 / H / (4 * π) * M) + 30000 / H * (51 / 400) + 30000 / 16728) /
      f.length := by
    intro T hTm
    rw [hT] at hTm
    obtain ⟨k, hk, hkT⟩ := List.mem_map.1 hTm
    obtain rfl := Option.some.inj hkT
    have hk := List.mem_range.1 hk
    rw [hval k, add_sub_cancel_left, abs_div, abs_of_pos hn]
    gcongr
    refine (abs_sub _ _).trans (add_le_add ((abs_add_le _ _).trans (add_le_add ?_ ?_)) ?_)
    · refine (Finset.abs_sum_le_sum_abs _ _).trans ?_
      refine (Finset.sum_le_card_nsmul _ _ (60000 / H / (4 * π) * M) ?_).trans ?_
      · intro j hj
        have hj := Finset.mem_range.1 hj
        rw [abs_mul, abs_div, abs_div, abs_of_pos h0, abs_of_pos (show 0 < 4 * π by positivity),
          ← Nat.cast_sub (by omega : j ≤ k + 1)]
        have h1 := hbound (k + 1 - j) (by omega) (by omega)
        have h2 : |exTownLoad (j + 1) - exTownLoad j| ≤ 60000 := by
          have := abs_sub (exTownLoad (j + 1)) (exTownLoad j)
          linarith [exTownLoad_bound (j + 1), exTownLoad_bound j]
        gcongr
      · rw [Finset.card_range, nsmul_eq_mul]
        have : ((k + 1 : ℕ) : ℝ) ≤ 8760 := by exact_mod_cast (show k + 1 ≤ 8760 by omega)
        gcongr
    · rw [abs_mul, abs_div, abs_of_pos h0, abs_of_pos (show (0 : ℝ) < 51 / 400 by norm_num)]
      have := exTownLoad_bound (k + 1)
      gcongr
    · rw [abs_div, abs_of_pos (show (0 : ℝ) < 16728 by norm_num)]
      have := exTownLoad_bound (k + 1)
      gcongr
  refine ⟨hi, lo, ⟨x, hx, by rw [show exTown.method = "hourly" from rfl, hsim]⟩, ?_, ?_, ?_⟩
  · have := abs_le.1 (hmem hi hi1)
    linarith
  · have := abs_le.1 (hmem lo lo1)
    linarith
  · refine le_of_eq_of_le ?_ (hi2 _ (by rw [hT]; exact List.mem_map_of_mem (f := fun k => some _) (List.mem_range.2 (show 199 < 8760 * 1 by norm_num))))
    rw [hval 199]
    have hq : ∀ i, 1 ≤ i → i ≤ 200 → exTownLoad i = 1000 := by
      intro i h1 h2
      have hne : ∀ k, k < 200 → k ∉ hotHours ∧ k ∉ coldHours := by
        intro k hk
        constructor
        · intro h
          have : ∀ y ∈ hotHours, 200 ≤ y := by decide
          exact absurd (this k h) (by omega)
        · intro h
          have : ∀ y ∈ coldHours, 200 ≤ y := by decide
          exact absurd (this k h) (by omega)
      unfold exTownLoad exLoad
      rw [if_neg (by omega), Nat.mod_eq_of_lt (by omega), if_neg (hne _ (by omega)).1, if_neg (hne _ (by omega)).2]
      norm_num
    rw [Finset.sum_eq_single 0]
    · have hg : G ((199 + 1 : ℕ) : ℝ) = 20 := by
        refine polyline_const (c := c) ?_ ?_ (hG 200 (by norm_num) (by norm_num))
        · intro z hz
          rw [hc'] at hz
          exact List.eq_of_mem_replicate hz
        · rw [hct', Real.lt_log_iff_exp_lt (by positivity)]
          have := exp_bounds.2
          refine this.trans ?_
          rcases hH with rfl | rfl <;> norm_num
      rw [Nat.cast_zero, sub_zero, hg, hq (0 + 1) (by norm_num) (by norm_num), hq (199 + 1) (by norm_num) (by norm_num)]
      rw [show exTownLoad 0 = 0 from rfl, sub_zero]
    · intro j hj hj0
      have hj := Finset.mem_range.1 hj
      rw [hq (j + 1) (by omega) (by omega), hq j (by omega) (by omega)]
      simp
    · intro h
      simp at h

theorem exTown_converts (T t : ℝ) (f : Field) (H : ℝ) (hH : 0 < H) : Converts (exTown.limits T t) f H := by
  have h := exNet_converts f H hH
  exact h

theorem exTown_period (T t H : ℝ) (hH : 50 ≤ H) :
    PeriodFine (exTown.limits T t) H ∧ PeriodFine { exTown.limits T t with method := "hybrid" } H := by
  have hsoil : soilTime (exTown.limits T t) H = 100000 * H ^ 2 := exSoilTime _ rfl H
  have h1 : 1 ≤ exp (3003 / 1000 : ℝ) := one_le_exp (by norm_num)
  have h2 : (2500 : ℝ) ≤ H ^ 2 := by nlinarith
  have h3 : (3600 * 8760 : ℝ) ≤ 100000 * H ^ 2 * exp (3003 / 1000) := by nlinarith
  constructor
  · refine .inl ⟨rfl, 1, le_rfl, rfl, ?_⟩
    rw [hsoil, Nat.cast_one, mul_one]
    exact h3
  · refine .inr ⟨rfl, .inl exHourly_placed, ?_⟩
    show 3600 * ((hoursOf 12 : ℕ) : ℝ) ≤ soilTime (exTown.limits T t) H * _
    rw [hsoil, show hoursOf 12 = 8760 by decide]
    exact_mod_cast h3

theorem exTown_sizing (T t : ℝ) {f : Field} (hB : ∀ B, boreholeSpacing (3 / 40) f = .ok B → B = 3 / 40 ∨ B = 5) :
    SizingFine (exTown.limits T t) f :=
  exSizing rfl rfl rfl rfl rfl rfl (fun H hH => (exText75 f hB H hH).2) fun H hH => exTown_converts T t f H hH

theorem exTown_fine (T t : ℝ) {d : List Field}
    (hd : ∀ f ∈ d, ∀ B, boreholeSpacing (3 / 40) f = .ok B → B = 3 / 40 ∨ B = 5) : Designable (exTown.limits T t) d := by
  have hH : ∀ H ∈ [(exTown.limits T t).borehole.H, (exTown.limits T t).minHeight, (exTown.limits T t).maxHeight],
      H = 50 ∨ H = 100 := by
    intro H hH
    have : H ∈ [(100 : ℝ), 50, 100] := hH
    simp only [List.mem_cons, List.not_mem_nil, or_false] at this
    tauto
  refine ⟨exTown_sensible T t, ⟨exHeightFine _ rfl rfl _ (hH _ (by simp)), exHeightFine _ rfl rfl _ (hH _ (by simp)),
    exHeightFine _ rfl rfl _ (hH _ (by simp))⟩, ⟨(exTown_period T t _ ?_).1, (exTown_period T t _ ?_).1⟩, ?_, ?_⟩
  · exact le_refl (50 : ℝ)
  · exact (by norm_num : (50 : ℝ) ≤ 100)
  · intro f hf H hH'
    exact (exText _ (hd f hf) H (hH H hH')).2
  · intro f hf H hH'
    exact exTown_converts T t f H (by rcases hH H hH' with rfl | rfl <;> norm_num)

/-- On a long enough strip of land the bi-zoned design of the building finds a field within the limits, sizes it and
returns it. -/
theorem exTownDesign_limits : ∃ (N : ℕ) (T t : ℝ) (n : List (List Field)) (k : ℕ) (f : Field) (e : ℝ), 3 ≤ N ∧
    designInit (N + 5) { length := some (5 * (N : ℝ)), width := some 15, Bmin := some 5, BmaxX := some 5, BmaxY := some 5 }
      "bi-zoned" = .ok (.nested n) ∧ (∀ g ∈ n.flatten, Five g ∧ g.Nodup) ∧
    f ∈ n.flatten ∧ f ≠ [(0, 0)] ∧ Outside (exTown.limits T t) f 100 e ∧ e < 0 ∧
    (design (exTown.limits T t) (N + 5)
      { length := some (5 * (N : ℝ)), width := some 15, Bmin := some 5, BmaxX := some 5, BmaxY := some 5 } "bi-zoned" {}).1 =
      .ok (some ((k : ℤ), f)) ∧
    (∀ g ∈ n.flatten, ∀ H, H = 50 ∨ H = 100 → ¬ Outside (exTown.limits T t) g H 0) ∧
    (∀ g ∈ n.flatten, ¬ SizingAtLimit (exTown.limits T t) g) ∧
    (∀ H, H = 50 ∨ H = 100 → ∃ e, Outside (exTown.limits T t) [(0, 0)] H e ∧ 0 < e) ∧
    ∃ (d : List Field) (g : Field) (e' : ℝ), d ∈ n ∧ d.head? = some [(0, 0)] ∧ d.getLast? = some g ∧
      Outside (exTown.limits T t) g 100 e' ∧ e' < 0 := by
  obtain ⟨K, hK⟩ := exTown_extremes 100 (.inr rfl)
  obtain ⟨N, hN⟩ := exists_nat_gt (max (K / 12) 3)
  have hN3 : (3 : ℝ) < N := (le_max_right _ _).trans_lt hN
  have hN3' : 3 < N := by exact_mod_cast hN3
  set gc : Constraints ℝ :=
    { length := some (5 * (N : ℝ)), width := some 15, Bmin := some 5, BmaxX := some 5, BmaxY := some 5 } with hgc
  have e1 : (5 * N : ℝ) / 5 + 1 = ((N + 1 : ℤ) : ℝ) := by push_cast; ring
  have e2 : (15 : ℝ) / 5 + 1 = ((4 : ℤ) : ℝ) := by norm_num
  -- the candidates
  have hfu : ⌊(5 * N : ℝ) / 5 + 1⌋ + ⌊(15 : ℝ) / 5 + 1⌋ ≤ ((N + 5 : ℕ) : ℤ) := by
    rw [e1, e2, Int.floor_intCast, Int.floor_intCast]
    push_cast
    omega
  obtain ⟨n, dl, fl, hi, hdl, hfl, hcount, -⟩ := (C107_biZoned (p := exProblem) (N + 5) gc (X := 5 * N) (Y := 15) (by linarith)
    (by norm_num) (show (0 : ℝ) < 5 by norm_num) (show (0 : ℝ) < 5 by norm_num) (show (0 : ℝ) < 5 by norm_num) rfl rfl rfl rfl rfl
    hfu).1 (by rw [e1, Int.ceil_intCast, Int.floor_intCast]) (by rw [e2, Int.ceil_intCast, Int.floor_intCast]) (by linarith)
    (by norm_num)
  rw [e1, e2, Int.floor_intCast, Int.floor_intCast] at hcount
  have hn : biRectangleZonedNested (N + 5) (5 * N : ℝ) 15 5 5 5 = .ok n := by
    have := (((C77_available (N + 5) gc (X := 5 * N) (Y := 15) (B := 5) (by linarith) (by norm_num) (by norm_num)
      (show (0 : ℝ) < 5 by norm_num) (show (0 : ℝ) < 5 by norm_num) (show (0 : ℝ) < 5 by norm_num) rfl).2 rfl rfl rfl).2 rfl).2
    rw [hi] at this
    cases hb : biRectangleZonedNested (N + 5) (5 * N : ℝ) 15 5 5 5 with
    | error e => rw [hb] at this; cases this
    | ok m =>
      rw [hb] at this
      cases this
      rfl
  obtain ⟨hone, hfive⟩ := exZoned_mem N hN3'.le (N + 5) le_rfl hn
  have hfive' : ∀ f ∈ n.flatten, Five f := by
    intro f hf
    obtain ⟨d, hd, hf⟩ := List.mem_flatten.1 hf
    exact hfive d hd f hf
  have hne : ∀ f ∈ n.flatten, f ≠ [] := by
    intro f hf
    rcases hfive' f hf with rfl | ⟨r, rfl⟩ <;> simp
  have hfirst : ∀ d ∈ n, d.head? = some [(0, 0)] := by
    obtain ⟨d0, ds, q1, q2, -⟩ := C17_zonedNested_distinct (fuel := N + 5) (X := (5 * N : ℝ)) (Y := 15) (Bmin := 5) (BX := 5)
      (BY := 5) (by linarith) (by norm_num) (by norm_num) (by norm_num) (by norm_num) (by linarith) (by norm_num)
      (by rw [e1, Int.ceil_intCast, Int.floor_intCast]) (by rw [e2, Int.ceil_intCast, Int.floor_intCast]) hfu
    rw [hn] at q1
    cases q1
    rw [List.length_cons] at hone
    have : ds = [] := List.length_eq_zero_iff.1 (by omega)
    subst this
    intro d hd
    rw [List.mem_singleton.1 hd]
    exact q2
  have hnodup : ∀ f ∈ n.flatten, f.Nodup := by
    obtain ⟨d0, ds, q1, -, q2, -⟩ := C17_zonedNested_distinct (fuel := N + 5) (X := (5 * N : ℝ)) (Y := 15) (Bmin := 5) (BX := 5)
      (BY := 5) (by linarith) (by norm_num) (by norm_num) (by norm_num) (by norm_num) (by linarith) (by norm_num)
      (by rw [e1, Int.ceil_intCast, Int.floor_intCast]) (by rw [e2, Int.ceil_intCast, Int.floor_intCast]) hfu
    rw [hn] at q1
    cases q1
    intro f hf
    obtain ⟨d, hd, hf⟩ := List.mem_flatten.1 hf
    exact ((q2 d hd).2 f hf).2
  -- limits that are not hit exactly, neither in the search nor when a field is sized
  have hu : ∀ (f : Field) (H : ℝ), ∃ u w, ∀ hi lo, Extremes exTown f H hi lo → hi = u ∧ lo = w := by
    intro f H
    by_cases he : ∃ u w, Extremes exTown f H u w
    · obtain ⟨u, w, he⟩ := he
      exact ⟨u, w, fun hi lo h => h.unique he⟩
    · exact ⟨0, 0, fun hi lo h => absurd ⟨_, _, h⟩ he⟩
  choose U W hUW using hu
  have hv : ∀ (f : Field) (H : ℝ), ∃ u w, ∀ x z hi lo, fresh exTown f 100 = .ok x →
      computeG exTown { held := some x } = (.ok (), { held := some z }) →
      (Whole.simulate z.env "hybrid" (z.state.at H)).1 = .ok (hi, lo) → hi = u ∧ lo = w := by
    intro f H
    by_cases he : ∃ x z hi lo, fresh exTown f 100 = .ok x ∧
      computeG exTown { held := some x } = (.ok (), { held := some z }) ∧
      (Whole.simulate z.env "hybrid" (z.state.at H)).1 = .ok (hi, lo)
    · obtain ⟨x, z, u, w, q1, q2, q3⟩ := he
      refine ⟨u, w, fun x' z' hi lo h1 h2 h3 => ?_⟩
      rw [q1] at h1
      cases h1
      rw [q2] at h2
      cases h2
      rw [q3] at h3
      cases h3
      exact ⟨rfl, rfl⟩
    · exact ⟨0, 0, fun x z hi lo h1 h2 h3 => absurd ⟨_, _, _, _, h1, h2, h3⟩ he⟩
  choose U' W' hUW' using hv
  obtain ⟨T, ⟨hT1, hT2⟩, hT⟩ := ((Set.Ioo_infinite (show (30 : ℝ) < 31 by norm_num)).sdiff
    (n.flatten.map (U · 50) ++ n.flatten.map (U · 100) ++ n.flatten.map (U' · 50) ++
      n.flatten.map (U' · 100)).toFinset.finite_toSet).nonempty
  obtain ⟨t, ⟨ht1, ht2⟩, ht⟩ := ((Set.Ioo_infinite (show (4 : ℝ) < 5 by norm_num)).sdiff
    (n.flatten.map (W · 50) ++ n.flatten.map (W · 100) ++ n.flatten.map (W' · 50) ++
      n.flatten.map (W' · 100)).toFinset.finite_toSet).nonempty
  simp only [List.coe_toFinset, Set.mem_ofPred_eq, List.mem_append, List.mem_map, not_or] at hT ht
  have hnot : ∀ f ∈ n.flatten, ∀ H, H = 50 ∨ H = 100 → ¬ Outside (exTown.limits T t) f H 0 := by
    rintro f hf H hH ⟨hi, lo, h1, h2⟩
    obtain ⟨rfl, rfl⟩ := hUW f H _ _ ((extremes_limits _ T t _ _ _ _).1 h1)
    have h2 : 0 = max (U f H - T) (t - W f H) := h2
    rcases max_choice (U f H - T) (t - W f H) with h | h
    · rcases hH with rfl | rfl
      · exact hT.1.1.1 ⟨f, hf, by linarith⟩
      · exact hT.1.1.2 ⟨f, hf, by linarith⟩
    · rcases hH with rfl | rfl
      · exact ht.1.1.1 ⟨f, hf, by linarith⟩
      · exact ht.1.1.2 ⟨f, hf, by linarith⟩
  have hnot' : ∀ f ∈ n.flatten, ¬ SizingAtLimit (exTown.limits T t) f := by
    rintro f hf ⟨x, y, H, u, w, h1, h2, hH, h3, h4⟩
    have hH : H = 50 ∨ H = 100 := hH
    rw [fresh_limits] at h1
    change Except.map _ (fresh exTown f 100) = _ at h1
    cases hg : fresh exTown f 100 with
    | error e => rw [hg] at h1; cases h1
    | ok x' =>
      rw [hg] at h1
      cases h1
      obtain ⟨z, hz, rfl⟩ := computeG_limits _ _ _ _ _ h2
      obtain ⟨rfl, rfl⟩ := hUW' f H _ _ _ _ hg hz h3
      have h4 : max (U' f H - T) (t - W' f H) = 0 := h4
      rcases max_choice (U' f H - T) (t - W' f H) with h | h
      · rcases hH with rfl | rfl
        · exact hT.1.2 ⟨f, hf, by linarith⟩
        · exact hT.2 ⟨f, hf, by linarith⟩
      · rcases hH with rfl | rfl
        · exact ht.1.2 ⟨f, hf, by linarith⟩
        · exact ht.2 ⟨f, hf, by linarith⟩
  have hD : Designable (exTown.limits T t) n.flatten := exTown_fine T t fun f hf => (hfive' f hf).spacing
  obtain ⟨n', dl', fl', hi', hdl', hfl', hout⟩ := C115_biZoned (p := exTown.limits T t) (N + 5) gc (X := 5 * N) (Y := 15)
    (by linarith) (by norm_num) (show (0 : ℝ) < 5 by norm_num) (show (0 : ℝ) < 5 by norm_num) (show (0 : ℝ) < 5 by norm_num)
    rfl rfl rfl rfl rfl hfu (by rw [e1, Int.ceil_intCast, Int.floor_intCast])
    (by rw [e2, Int.ceil_intCast, Int.floor_intCast]) (by linarith) (by norm_num)
  rw [hi] at hi'
  cases hi'
  rw [hdl] at hdl'
  cases hdl'
  rw [hfl] at hfl'
  cases hfl'
  obtain ⟨c, ⟨hi2, lo2, e3, rfl⟩, -, hfin⟩ := hout hD (exTown_period T t _ (le_refl (50 : ℝ))).2
    fun f hf => exTown_sizing T t (hfive' f hf).spacing
  have hhot : ∀ H, H = 50 ∨ H = 100 → ∃ e, Outside (exTown.limits T t) [(0, 0)] H e ∧ 0 < e := by
    intro H hH
    obtain ⟨K', hK'⟩ := exTown_extremes H hH
    obtain ⟨x, y, h4, -, -, h7⟩ := hK' [(0, 0)] (by simp) (Five.spacing (.inl rfl))
    refine ⟨_, ⟨x, y, (extremes_limits _ T t _ _ _ _).2 h4, rfl⟩, lt_max_of_lt_left (sub_pos.2 ?_)⟩
    show T < x
    have hpi := Real.pi_lt_four
    have hpi0 := Real.pi_pos
    rw [List.length_singleton, Nat.cast_one, div_one] at h7
    have h8 : (1000 : ℝ) / H / (4 * π) * 20 ≥ 1000 / H / (4 * 4) * 20 := by
      have : 0 < 1000 / H := by rcases hH with rfl | rfl <;> norm_num
      have h9 : 1000 / H / (4 * 4) ≤ 1000 / H / (4 * π) := by gcongr
      linarith
    rcases hH with rfl | rfl
    · norm_num at h7 h8 ⊢
      linarith
    · norm_num at h7 h8 ⊢
      linarith
  have hc : excess (exTown.limits T t) hi2 lo2 < 0 := by
    have hm : fl ∈ n.flatten := List.mem_flatten.2 ⟨dl, List.mem_of_getLast? hdl, List.mem_of_getLast? hfl⟩
    obtain ⟨x, y, h4, h5, h6, -⟩ := hK fl (hne fl hm) (hfive' fl hm).spacing
    obtain ⟨rfl, rfl⟩ := ((extremes_limits _ T t _ _ _ _).1 e3).unique h4
    have hlen : (N : ℝ) ≤ fl.length := by
      have : (N : ℤ) ≤ fl.length := by omega
      exact_mod_cast this
    generalize (fl.length : ℝ) = M at *
    have hk : K / M < 12 := by
      rw [div_lt_iff₀ (by linarith)]
      have := (le_max_left (K / 12) 3).trans_lt hN
      linarith
    exact max_lt (by show hi2 - T < 0; linarith) (by show t - lo2 < 0; linarith)
  obtain ⟨u, hu, hu0⟩ := hhot 50 (.inl rfl)
  obtain ⟨v, hv, hv0⟩ := hhot 100 (.inr rfl)
  rcases hfin (fun d hd f hf => by
      rw [hfirst d hd] at hf
      cases hf
      exact ⟨u, v, hu, hv, hu0, hv0⟩) hc with
    ⟨d, k, f, e, k1, k2, k3, k4, k5⟩ | ⟨⟨d, k1, f, k2, k3⟩, -⟩ | ⟨g, er, hg, -⟩
  · have hf := List.mem_flatten.2 ⟨d, k1, List.mem_of_getElem? k2⟩
    have k3 : Outside (exTown.limits T t) f 100 e := k3
    refine ⟨N, T, t, n, k, f, e, hN3'.le, hi, fun g hg => ⟨hfive' g hg, hnodup g hg⟩, hf, ?_, k3, ?_, k5, hnot, hnot', hhot, dl, fl, _, List.mem_of_getLast? hdl,
      hfirst dl (List.mem_of_getLast? hdl), hfl, ⟨hi2, lo2, e3, rfl⟩, hc⟩
    · rintro rfl
      obtain ⟨a, b, c1, rfl⟩ := k3
      obtain ⟨a', b', c2, rfl⟩ := hv
      obtain ⟨rfl, rfl⟩ := c1.unique c2
      linarith
    · exact lt_of_le_of_ne k4 fun h => hnot f hf 100 (.inr rfl) (h ▸ k3)
  · exfalso
    have hf := List.mem_flatten.2 ⟨d, k1, k2⟩
    rcases k3 with k3 | k3 | k3
    · exact hnot f hf _ (.inl rfl) k3
    · exact hnot f hf _ (.inr rfl) k3
    · exact hnot' f hf k3
  · cases hg

/-- On a long enough strip of land the bi-zoned design of the building finds a field within the limits, sizes it and
returns it. -/
theorem exTownDesign : ∃ (N : ℕ) (T t : ℝ) (n : List (List Field)) (k : ℕ) (f : Field) (e : ℝ), 3 ≤ N ∧
    designInit (N + 5) { length := some (5 * (N : ℝ)), width := some 15, Bmin := some 5, BmaxX := some 5, BmaxY := some 5 }
      "bi-zoned" = .ok (.nested n) ∧ (∀ g ∈ n.flatten, Five g ∧ g.Nodup) ∧
    f ∈ n.flatten ∧ f ≠ [(0, 0)] ∧ Outside (exTown.limits T t) f 100 e ∧ e < 0 ∧
    (design (exTown.limits T t) (N + 5)
      { length := some (5 * (N : ℝ)), width := some 15, Bmin := some 5, BmaxX := some 5, BmaxY := some 5 } "bi-zoned" {}).1 =
      .ok (some ((k : ℤ), f)) := by
  obtain ⟨N, T, t, n, k, f, e, h1, h2, h3, h4, h5, h6, h7, h8, -⟩ := exTownDesign_limits
  exact ⟨N, T, t, n, k, f, e, h1, h2, h3, h4, h5, h6, h7, h8⟩

/-- a newly made exchanger for a field of the building, at the heights of the examples -/
theorem exTown_fresh (T t : ℝ) {f : Field} (h5 : Five f) (hd : f.Nodup) {H : ℝ} (hH : H = 50 ∨ H = 75 ∨ H = 100) :
    ∃ x, fresh (exTown.limits T t) f H = .ok x := by
  have hne : f ≠ [] := by rcases h5 with rfl | ⟨r, rfl⟩ <;> simp
  have h0 : 0 < H := by rcases hH with rfl | rfl | rfl <;> norm_num
  obtain ⟨bhe, s, hu, -⟩ := C105_usable (exTown_sensible T t) hne hd (exHeightFine75 _ rfl rfl _ hH)
    (exText75 f h5.spacing H hH).2 (exTown_converts T t f H h0)
  obtain ⟨B, c, sts, cl, hl, hy, -, -, -, -, -, -, -, -, hf⟩ := fresh_ok hu
  exact ⟨_, hf⟩

/-- C93, C97, C106 and C115 apply to it: the field found lies in the land, is sized, and the height left is 75 m or 100 m. -/
theorem exTownSized : ∃ (N : ℕ) (T t : ℝ) (n : List (List Field)) (k : ℕ) (f : Field) (c' : State) (x y : Held) (H : ℝ),
    3 ≤ N ∧ designInit (N + 5)
      { length := some (5 * (N : ℝ)), width := some 15, Bmin := some 5, BmaxX := some 5, BmaxY := some 5 }
      "bi-zoned" = .ok (.nested n) ∧ (∀ g ∈ n.flatten, Five g ∧ g.Nodup) ∧
    f ∈ n.flatten ∧ f ≠ [(0, 0)] ∧ (∀ q ∈ f, InLand (5 * (N : ℝ)) 15 q) ∧
    findDesign (exTown.limits T t) "bi-zoned" (.nested n) {} = (.ok (some ((k : ℤ), f)), c') ∧
    fresh (exTown.limits T t) f 100 = .ok x ∧
    sizeHeld (exTown.limits T t) { held := some x } = (.ok H, { held := some y }) ∧ c'.held = some y ∧
    (Whole.borehole y.state.bhe).H = H ∧ (H = 75 ∨ H = 100) := by
  obtain ⟨N, T, t, n, k, f, e, hN, hi, hfive, hf, hne, -, -, hdes⟩ := exTownDesign
  rcases hr : design (exTown.limits T t) (N + 5)
    { length := some (5 * (N : ℝ)), width := some 15, Bmin := some 5, BmaxX := some 5, BmaxY := some 5 } "bi-zoned" {} with ⟨r, c'⟩
  rw [hr] at hdes
  change r = _ at hdes
  subst hdes
  have hN3 : (3 : ℝ) ≤ N := by exact_mod_cast hN
  have e1 : (5 * N : ℝ) / 5 + 1 = ((N + 1 : ℤ) : ℝ) := by push_cast; ring
  have e2 : (15 : ℝ) / 5 + 1 = ((4 : ℤ) : ℝ) := by norm_num
  obtain ⟨key, f', x, y, H, hi', lo', hk, hland, hx, -, -, hsz, hheld, hH⟩ := C106_biZoned (N + 5) _ (X := 5 * N) (Y := 15)
    (Bmin := 5) (BX := 5) (BY := 5) (by norm_num) (by linarith) (by norm_num) (by norm_num) (by norm_num) (by linarith)
    (by norm_num) (by rw [e1, Int.ceil_intCast, Int.floor_intCast]) (by rw [e2, Int.ceil_intCast, Int.floor_intCast])
    (by rw [e1, e2, Int.floor_intCast, Int.floor_intCast]; push_cast; omega) rfl rfl rfl rfl rfl _ c' hr
  cases hk
  rw [design_eq hi] at hr
  refine ⟨N, T, t, n, k, f, c', x, y, H, hN, hi, hfive, hf, hne, hland, hr, hx, hsz, hheld, hH, ?_⟩
  obtain ⟨g5, gd⟩ := hfive f hf
  obtain ⟨x1, y1, hx1, hy1, e, a, b, -, -, -, ho⟩ := C115_size (exTown_sensible T t)
    (by rcases g5 with rfl | ⟨r, rfl⟩ <;> simp) gd (exTown_sizing T t g5.spacing) "hybrid"
    (exTown_period T t _ (le_refl (50 : ℝ))).2
  rw [hx] at hx1
  cases hx1
  obtain ⟨o1, o2, -, o4⟩ := ho [] (by simp) _ rfl
  rw [List.foldl_nil] at o1 o2 o4
  have hsize : ∃ w, Whole.size y1.env "hybrid" y1.state = (.ok w, y.state) := by
    unfold sizeHeld at hsz
    rw [St.bind_ok hy1] at hsz
    rcases hq : Whole.size y1.env "hybrid" y1.state with ⟨r', st⟩
    cases r' with
    | error e' =>
      rw [St.bind_error (s' := { held := some ⟨y1.env, st⟩ }) (e := e') (by
        unfold onHeld
        dsimp only
        rw [hq])] at hsz
      cases hsz
    | ok w =>
      rw [St.bind_ok (s' := { held := some ⟨y1.env, st⟩ }) (a := w) (by
        unfold onHeld
        dsimp only
        rw [hq])] at hsz
      cases hsz
      exact ⟨w, rfl⟩
  obtain ⟨w, hw⟩ := hsize
  rcases lt_trichotomy (a * b) 0 with h | h | h
  · obtain ⟨w', s', q1, q2, -⟩ := o4 h ((50 + 100) / 2) rfl
    rw [hw] at q1
    cases q1
    left
    rw [← hH, q2]
    show ([((50 : ℝ) + 100) / 2].getLast?).getD 100 = 75
    norm_num
  · have := o1 (mul_eq_zero.1 h)
    rw [hw] at this
    cases this
  · obtain ⟨s', q1, q2⟩ := o2 h
    rw [hw] at q1
    cases q1
    right
    rw [← hH, q2]
    rfl

/-- C94 applies to that design: with the borehole at another height, and with the height that was found, it has the same
outcome. -/
example : ∃ (T t H : ℝ) (n : List (List Field)) (k : ℕ) (f : Field) (c' : State), f ≠ [(0, 0)] ∧ H ≠ 50 ∧
    findDesign (exTown.limits T t) "bi-zoned" (.nested n) {} = (.ok (some ((k : ℤ), f)), c') ∧
    findDesign ((exTown.limits T t).withHeight 50) "bi-zoned" (.nested n) {} = (.ok (some ((k : ℤ), f)), c') ∧
    (∃ x, c'.held = some x ∧ (Whole.borehole x.state.bhe).H = H) ∧
    findDesign ((exTown.limits T t).withHeight H) "bi-zoned" (.nested n) {} = (.ok (some ((k : ℤ), f)), c') := by
  obtain ⟨N, T, t, n, k, f, c', x, y, H, hN, hi, hfive, hf, hne, -, hr, hx, hsz, hheld, hH, h75⟩ := exTownSized
  obtain ⟨f0, x0, y0, hl, h1, h2⟩ := findDesign_made "bi-zoned" (.nested n) c' _ hr
  obtain ⟨d, q1, q2⟩ := hl
  have hm : f0 ∈ n.flatten := List.mem_flatten.2 ⟨d, List.mem_of_head? q1, List.mem_of_head? q2⟩
  obtain ⟨g5, gd⟩ := hfive f0 hm
  obtain ⟨z50, hz50⟩ := exTown_fresh T t g5 gd (H := 50) (.inl rfl)
  obtain ⟨z100, hz100⟩ := exTown_fresh T t g5 gd (H := 100) (.inr (.inr rfl))
  obtain ⟨zH, hzH⟩ := exTown_fresh T t g5 gd (.inr h75)
  obtain ⟨y', H', hy', hH', h94⟩ := C94_repeat_zoned (.nested n) c' _ hr
  rw [hheld] at hy'
  cases hy'
  rw [hH] at hH'
  subst hH'
  exact ⟨T, t, H, n, k, f, c', hne, by rcases h75 with rfl | rfl <;> norm_num, hr,
    (C94_initial_height "bi-zoned" (.nested n) f0 ⟨d, q1, q2⟩ 50 z100 z50 hz100 hz50).2 _ _ hr, ⟨y, hheld, hH⟩,
    h94 f0 zH ⟨d, q1, q2⟩ hzH⟩

/-- C97 applies to it: the height left is between the bounds. -/
example : ∃ (T t : ℝ) (n : List (List Field)) (k : ℕ) (f : Field) (c' : State) (z : Held),
    findDesign (exTown.limits T t) "bi-zoned" (.nested n) {} = (.ok (some ((k : ℤ), f)), c') ∧ f ≠ [(0, 0)] ∧
    c'.held = some z ∧ 50 ≤ (Whole.borehole z.state.bhe).H ∧ (Whole.borehole z.state.bhe).H ≤ 100 := by
  obtain ⟨N, T, t, n, k, f, c', x, y, H, hN, hi, hfive, hf, hne, -, hr, -⟩ := exTownSized
  obtain ⟨k', f', x', y', z, -, -, -, -, -, hz, b1, b2, -⟩ := C97_zoned (.nested n) c' _ hr (by
    rintro k f ⟨d, hd, hf⟩
    obtain ⟨g5, gd⟩ := hfive f (List.mem_flatten.2 ⟨d, hd, List.mem_of_getElem? hf⟩)
    obtain ⟨bhe, s, h, -⟩ := sizable_of_sensible (exTown_sensible T t) (by rcases g5 with rfl | ⟨r, rfl⟩ <;> simp) gd
      (exTown_sizing T t g5.spacing)
    exact ⟨bhe, s, h⟩)
  exact ⟨T, t, n, k, f, c', z, hr, hne, hz, b1, b2⟩

/-- the field found has one of the bi-zoned shapes -/
example : ∃ (N : ℕ) (f : Field), 3 ≤ N ∧ f ≠ [(0, 0)] ∧ ZonedShape (5 * (N : ℝ)) 15 5 5 5 (N + 1) 4 f := by
  obtain ⟨N, T, t, n, k, f, e, hN, hi, hfive, hf, hne, -, -, hdes⟩ := exTownDesign
  have hN' : (3 : ℝ) ≤ N := by exact_mod_cast hN
  have e1 : (5 * N : ℝ) / 5 + 1 = ((N + 1 : ℤ) : ℝ) := by push_cast; ring
  have e2 : (15 : ℝ) / 5 + 1 = ((4 : ℤ) : ℝ) := by norm_num
  have h := C106_biZoned_shape (p := exTown.limits T t) (N + 5) _ (X := 5 * N) (Y := 15) (by norm_num) (by linarith)
    (show (0 : ℝ) < 5 by norm_num) (show (0 : ℝ) < 5 by norm_num) (show (0 : ℝ) < 5 by norm_num) (by linarith) (by norm_num)
    (by rw [e1, Int.ceil_intCast, Int.floor_intCast]) (by rw [e2, Int.ceil_intCast, Int.floor_intCast])
    (by rw [e1, e2, Int.floor_intCast, Int.floor_intCast]; push_cast; omega) rfl rfl rfl rfl rfl _ f _ (Prod.ext hdes rfl)
  rw [e1, e2, Int.ceil_intCast, Int.ceil_intCast] at h
  exact ⟨N, f, hN, hne, h⟩

end

end Ghedt.WholeSearch
