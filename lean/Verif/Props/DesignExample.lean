import Verif.Props.WholeDesign

/-!
# A design that is made (C106, C107)

A concrete problem for which everything asked for in C107 holds and `find_design` returns.
-/

set_option linter.unusedSectionVars false

namespace Ghedt.WholeSearch
open Real Ghedt.GHE Ghedt.Bhe Ghedt.Radial Ghedt.Whole Ghedt.Search Ghedt.Utilities Ghedt.Spec Ghedt.Network Ghedt.Design
  Ghedt.Domains Ghedt.Coordinates

noncomputable section

/-- a library that always answers 20 -/
def exTwenty : Pyg where
  ratios n _ := .ok (List.replicate n.toNat (1 / 8))
  gFunction q := .ok (q.times.map fun _ => 20)

theorem exTwenty_answers : Network.Answers exTwenty := by
  intro q _ _ _ _ _ _ _ _ _ _ _ _ _
  exact ⟨_, rfl, by simp⟩

/-- the problem of C96 with that library and the limits `t` and `T` -/
def exLimit (T t : ℝ) : Problem := { exProblem with
  gf := liveCurve exProblem.ext exTwenty eskilsonLogTimes {}
  maxEFT := T
  minEFT := t }

theorem exTwenty_curve (m H rb D : ℝ) (f : Field) :
    liveCurve exProblem.ext exTwenty eskilsonLogTimes {} m exProblem.media f H rb D = .ok (List.replicate 27 20) := by
  obtain ⟨x, -, h⟩ := C101_asked exProblem.ext exTwenty eskilsonLogTimes m exProblem.media f H rb D
    (by intro h; cases h) (by show (2 : ℝ) ≠ 0; norm_num) (by show (1800000 : ℝ) ≠ 0; norm_num) (List.replicate 8 (1 / 8)) rfl
  rw [h]
  show Except.ok (List.map _ (List.map _ _)) = _
  rw [List.map_map]
  rfl

theorem exLimit_extremes (T t : ℝ) (f : Field) (H hi lo : ℝ) :
    Extremes (exLimit T t) f H hi lo ↔ Extremes exProblem f H hi lo := by
  have hb : ∀ flows, buildGhe (exLimit T t) flows exProblem.media { exProblem.borehole with H := H } f =
      (buildGhe exProblem flows exProblem.media { exProblem.borehole with H := H } f).map
        fun x => ⟨{ x.env with maxEFT := T, minEFT := t }, x.state⟩ := by
    intro flows
    unfold buildGhe
    cases boreholeSpacing exProblem.borehole.rb f with
    | error e => rfl
    | ok B =>
      rw [Except.ok_bind, Except.ok_bind]
      have e1 : GF.computeLive (exLimit T t).fmt (exLimit T t).toFloat ((exLimit T t).gf flows.2 exProblem.media f) B [H]
          [exProblem.borehole.rb] [exProblem.borehole.D] eskilsonLogTimes f =
          GF.computeLive exProblem.fmt exProblem.toFloat (exProblem.gf flows.2 exProblem.media f) B [H]
          [exProblem.borehole.rb] [exProblem.borehole.D] eskilsonLogTimes f := by
        have hg : (exLimit T t).gf flows.2 exProblem.media f = exProblem.gf flows.2 exProblem.media f := by
          funext a b c
          exact exTwenty_curve _ _ _ _ _
        rw [hg]
        rfl
      dsimp only
      rw [e1]
      cases GF.computeLive exProblem.fmt exProblem.toFloat (exProblem.gf flows.2 exProblem.media f) B [H]
          [exProblem.borehole.rb] [exProblem.borehole.D] eskilsonLogTimes f with
      | error e => rfl
      | ok db =>
        rw [Except.ok_bind, Except.ok_bind]
        unfold mkGhe
        show _ = Except.map _ (gheFlow flows.1 exProblem.media.fluid.rho db.locations.length >>= _)
        cases gheFlow flows.1 exProblem.media.fluid.rho db.locations.length with
        | error e => rfl
        | ok v =>
          rw [Except.ok_bind, Except.ok_bind]
          dsimp only
          show _ = Except.map _ (makeExchanger exProblem.ext v.2 exProblem.media { exProblem.borehole with H := H } >>= _)
          show (makeExchanger exProblem.ext v.2 exProblem.media { exProblem.borehole with H := H } >>= _) = _
          cases makeExchanger exProblem.ext v.2 exProblem.media { exProblem.borehole with H := H } with
          | error e => rfl
          | ok b =>
            rw [Except.ok_bind, Except.ok_bind]
            show (computeEquivalent exProblem.ext exProblem.brent b >>= _) = Except.map _ _
            cases computeEquivalent exProblem.ext exProblem.brent b with
            | error e => rfl
            | ok q =>
              rw [Except.ok_bind, Except.ok_bind]
              show (calcSts exProblem.solve (radialTube exProblem.ext q.1) none false exProblem.fuel >>= _) = Except.map _ _
              cases calcSts exProblem.solve (radialTube exProblem.ext q.1) none false exProblem.fuel with
              | error e => rfl
              | ok sts =>
                rw [Except.ok_bind, Except.ok_bind]
                show (GL.splitHeatAndCool exProblem.hourly "W" >>= _) = Except.map _ _
                cases GL.splitHeatAndCool exProblem.hourly "W" with
                | error e => rfl
                | ok l =>
                  rw [Except.ok_bind, Except.ok_bind]
                  show (GL.mkHybrid (respOf (radialTube exProblem.ext q.1) sts.1 sts.2.1 sts.2.2) l.1 l.2
                    exProblem.startMonth exProblem.endMonth 2019 >>= _) = Except.map _ _
                  cases GL.mkHybrid (respOf (radialTube exProblem.ext q.1) sts.1 sts.2.1 sts.2.2) l.1 l.2
                    exProblem.startMonth exProblem.endMonth 2019 with
                  | error e => rfl
                  | ok y => rfl
  have hf : fresh (exLimit T t) f H = (fresh exProblem f H).map fun x => ⟨{ x.env with maxEFT := T, minEFT := t }, x.state⟩ := by
    unfold fresh
    show (retrieveFlow exProblem.flow exProblem.V exProblem.media.fluid.rho f.length >>= _) = _
    cases retrieveFlow exProblem.flow exProblem.V exProblem.media.fluid.rho f.length with
    | error e => rfl
    | ok flows =>
      rw [Except.ok_bind, Except.ok_bind]
      exact hb flows
  unfold Extremes
  rw [hf]
  constructor
  · rintro ⟨x, hx, hs⟩
    cases hg : fresh exProblem f H with
    | error e => rw [hg] at hx; cases hx
    | ok y =>
      rw [hg] at hx
      cases hx
      exact ⟨y, rfl, hs⟩
  · rintro ⟨x, hx, hs⟩
    rw [hx]
    exact ⟨_, rfl, hs⟩

theorem exLimit_sensible (T t : ℝ) : Sensible (exLimit T t) := by
  obtain ⟨a1, a2, a3, a4, a5, a6, a7, a8, a9, a10, a11, a12, -, a14⟩ := exNet_sensible
  exact ⟨a1, a2, a3, a4, a5, a6, a7, a8, a9, a10, a11, a12, ⟨exTwenty, List.replicate 8 (1 / 8), rfl, exTwenty_answers, rfl⟩,
    a14⟩

/-- the spacings of near-square fields of 5 m -/
theorem exSquare_spacing {nx ny : ℤ} (h1 : 1 ≤ nx) (h2 : 1 ≤ ny) (h : nx = 1 ∧ ny = 1 ∨ 2 ≤ ny) (B : ℝ)
    (hB : boreholeSpacing (3 / 40) (Coordinates.lattice nx ny 5 5 (0, 0)) = .ok B) : B = 3 / 40 ∨ B = 5 := by
  rcases h with ⟨rfl, rfl⟩ | h
  · have e : Coordinates.lattice (1 : ℤ) 1 (5 : ℝ) 5 (0, 0) = [(0, 0)] := by
      rw [show (1 : ℤ) = 0 + 1 by rfl]
      simp [Coordinates.lattice, pyRange]
    rw [e] at hB
    cases hB
    exact .inl rfl
  · obtain ⟨a, rfl⟩ : ∃ a : ℕ, nx = a + 1 := ⟨(nx - 1).toNat, by omega⟩
    obtain ⟨b, rfl⟩ : ∃ b : ℕ, ny = b + 2 := ⟨(ny - 2).toNat, by omega⟩
    obtain ⟨rest, e⟩ : ∃ rest, Coordinates.lattice ((a : ℤ) + 1) ((b : ℤ) + 2) (5 : ℝ) 5 (0, 0) = (0, 0) :: (0, 5) :: rest := by
      unfold Coordinates.lattice
      have r1 : pyRange 0 ((a : ℤ) + 1) = 0 :: pyRange 1 ((a : ℤ) + 1) := by
        rw [pyRange_cons (by omega)]
        rfl
      have r2 : pyRange 0 ((b : ℤ) + 2) = 0 :: 1 :: pyRange 2 ((b : ℤ) + 2) := by
        rw [pyRange_cons (by omega), show (0 : ℤ) + 1 = 1 by rfl, pyRange_cons (by omega)]
        rfl
      rw [r1, r2]
      simp only [List.flatMap_cons, List.map_cons, List.cons_append]
      exact ⟨_, by simp; rfl⟩
    rw [e] at hB
    unfold boreholeSpacing at hB
    rw [show pyGet (((0 : ℝ), (0 : ℝ)) :: (0, 5) :: rest) 0 = .ok (0, 0) from rfl,
      Except.ok_bind, if_neg (by simp), if_pos (by simp)] at hB
    rw [show pyGet (((0 : ℝ), (0 : ℝ)) :: (0, 5) :: rest) 1 = .ok (0, 5) from rfl, Except.ok_bind] at hB
    cases hB
    right
    norm_num [show √(25 : ℝ) = 5 by rw [show (25 : ℝ) = 5 ^ 2 by norm_num]; exact Real.sqrt_sq (by norm_num)]

/-- the candidates of the near-square routine -/
theorem exSquare_mem {n : ℤ} (hn : 1 ≤ n) {d : List Field} (hd : squareAndNearSquare 1 n (5 : ℝ) = .ok d) :
    ∀ f ∈ d, ∃ nx ny : ℤ, 1 ≤ nx ∧ 1 ≤ ny ∧ (nx = 1 ∧ ny = 1 ∨ 2 ≤ ny) ∧ f = Coordinates.lattice nx ny 5 5 (0, 0) := by
  have hr : pyRange 0 2 = [0, 1] := by decide
  have hd' : squareAndNearSquare 1 n (5 : ℝ) = .ok ((pyRange 1 (n + 1)).flatMap
      fun i : ℤ => [Coordinates.lattice i i 5 5 (0, 0), Coordinates.lattice i (i + 1) 5 5 (0, 0)]) := by
    unfold squareAndNearSquare
    rw [if_neg (by omega), if_neg (by omega)]
    rw [mapM_ok (g := fun i : ℤ => [Coordinates.lattice i i (5 : ℝ) 5 (0, 0), Coordinates.lattice i (i + 1) 5 5 (0, 0)])]
    · simp [List.flatMap_def]
    · intro i hi
      rw [mem_pyRange] at hi
      rw [mapM_ok (g := fun j : ℤ => Coordinates.lattice i (i + j) (5 : ℝ) 5 (0, 0)), hr]
      · simp
      · intro j hj
        rw [mem_pyRange] at hj
        exact rectangle_ok (by omega) (by omega) _ _ _
  rw [hd] at hd'
  cases hd'
  intro f hf
  obtain ⟨i, hi, hf⟩ := List.mem_flatMap.1 hf
  rw [mem_pyRange] at hi
  rcases List.mem_pair.1 hf with rfl | rfl
  · exact ⟨i, i, hi.1, hi.1, by omega, rfl⟩
  · exact ⟨i, i + 1, hi.1, by omega, by omega, rfl⟩

/-- The hypotheses of C107 hold for any candidates with the first two boreholes 5 m apart. -/
theorem exLimit_fine (T t : ℝ) {d : List Field}
    (hd : ∀ f ∈ d, ∀ B, boreholeSpacing (3 / 40) f = .ok B → B = 3 / 40 ∨ B = 5) : Designable (exLimit T t) d := by
  have hH : ∀ H ∈ [(exLimit T t).borehole.H, (exLimit T t).minHeight, (exLimit T t).maxHeight], H = 50 ∨ H = 100 := by
    intro H hH
    have : H ∈ [(100 : ℝ), 50, 100] := hH
    simp only [List.mem_cons, List.not_mem_nil, or_false] at this
    tauto
  refine ⟨exLimit_sensible T t, ⟨exHeightFine _ rfl rfl _ (hH _ (by simp)), exHeightFine _ rfl rfl _ (hH _ (by simp)),
    exHeightFine _ rfl rfl _ (hH _ (by simp))⟩, ?_, ?_, ?_⟩
  · have key : ∀ H, H = 50 ∨ H = 100 → PeriodFine (exLimit T t) H := by
      intro H hH
      refine .inl ⟨rfl, 1, le_rfl, rfl, ?_⟩
      rw [exSoilTime _ rfl]
      obtain ⟨s, -, hct⟩ := exUsable [(0, 0)] (by simp) H (by tauto) (fun B hB => by cases hB; exact .inl rfl)
      rw [← hct]
      exact exFits s H hH hct
    exact ⟨key _ (hH _ (by simp)), key _ (hH _ (by simp))⟩
  · intro f hf H hH'
    exact (exText _ (hd f hf) H (hH H hH')).2
  · intro f hf H hH'
    exact exNet_converts f H (by rcases hH H hH' with rfl | rfl <;> norm_num)

/-- They hold for the near-square routine on any land, with 5 m between boreholes. -/
theorem exLimit_designable (T t : ℝ) {n : ℤ} (hn : 1 ≤ n) {d : List Field} (hd : squareAndNearSquare 1 n (5 : ℝ) = .ok d) :
    Designable (exLimit T t) d := by
  apply exLimit_fine
  intro f hf
  obtain ⟨nx, ny, h1, h2, h3, rfl⟩ := exSquare_mem hn hd f hf
  exact exSquare_spacing h1 h2 h3

/-- a single borehole is too hot at both heights -/
theorem exSingle_hot {H hi lo : ℝ} (hH : H = 50 ∨ H = 100) (he : Extremes exProblem [(0, 0)] H hi lo) : 35 < hi := by
  have hpi := Real.pi_pos
  have hpi4 := Real.pi_lt_four
  have hsp : ∀ B, boreholeSpacing (3 / 40) [((0 : ℝ), (0 : ℝ))] = .ok B → B = 3 / 40 ∨ B = 5 := fun B hB => by
    cases hB
    exact .inl rfl
  obtain ⟨K, hK⟩ := exExtremes H hH
  obtain ⟨x, y, h1, -, -, h2⟩ := hK _ (by simp) hsp
  obtain ⟨rfl, rfl⟩ := he.unique h1
  rw [List.length_singleton, Nat.cast_one, div_one] at h2
  have hlow : (100 : ℝ) / 16 ≤ 10000 / H / (4 * π) := by
    have h3 : (100 : ℝ) ≤ 10000 / H := by rcases hH with rfl | rfl <;> norm_num
    rw [div_le_div_iff₀ (by norm_num) (by positivity)]
    nlinarith
  have hr : 0 ≤ 10000 / H * (51 / 400 : ℝ) := by rcases hH with rfl | rfl <;> norm_num
  linarith

/-- A design is returned: on a large enough square of land, with limits that happen not to be hit exactly. -/
theorem exDesign : ∃ (N : ℕ) (T t : ℝ) (k : ℕ) (f : Field), 0 < N ∧ 34 < T ∧ T < 35 ∧ 4 < t ∧ t < 5 ∧
    (design (exLimit T t) 0 { length := some (5 * N), B := some 5 } "near-square" {}).1 = .ok (some ((k : ℤ), f)) ∧
    f ≠ [(0, 0)] := by
  obtain ⟨K, hK⟩ := exExtremes 100 (.inr rfl)
  obtain ⟨N, hN⟩ := exists_nat_gt (max (K / 12) 1)
  have hN1 : (1 : ℝ) < N := (le_max_right _ _).trans_lt hN
  have hN0 : (0 : ℝ) < 5 * N := by linarith
  have hot : ∀ {H hi lo}, (H = 50 ∨ H = 100) → Extremes exProblem [(0, 0)] H hi lo → 35 < hi := exSingle_hot
  -- the candidates
  set gc : Constraints ℝ := { length := some (5 * N), B := some 5 } with hgc
  obtain ⟨n, d, hn, hd, hi⟩ := (C77_available 0 gc hN0 hN0 (by norm_num : (0 : ℝ) < 5) hN0 hN0 hN0 rfl).1 rfl
  have hnN : n = N + 1 := by
    simp only [numberOfBoreholes, pyDiv_ok (show (5 : ℝ) ≠ 0 by norm_num), Except.ok_bind, Except.pure_eq] at hn
    rw [← Except.ok.inj hn, mul_div_cancel_left₀ _ (by norm_num)]
    simp
  -- limits that are not hit exactly
  have hu : ∀ f : Field, ∃ u w, ∀ hi lo, Extremes exProblem f 100 hi lo → hi = u ∧ lo = w := by
    intro f
    by_cases he : ∃ u w, Extremes exProblem f 100 u w
    · obtain ⟨u, w, he⟩ := he
      exact ⟨u, w, fun hi lo h => h.unique he⟩
    · exact ⟨0, 0, fun hi lo h => absurd ⟨_, _, h⟩ he⟩
  choose U W hUW using hu
  obtain ⟨T, ⟨hT1, hT2⟩, hT⟩ := ((Set.Ioo_infinite (show (34 : ℝ) < 35 by norm_num)).sdiff
    (d.map U).toFinset.finite_toSet).nonempty
  obtain ⟨t, ⟨ht1, ht2⟩, ht⟩ := ((Set.Ioo_infinite (show (4 : ℝ) < 5 by norm_num)).sdiff
    (d.map W).toFinset.finite_toSet).nonempty
  obtain ⟨d', fl, hi', hl, hG, hout⟩ := C107_nearSquare (p := exLimit T t) 0 gc hN0 (by norm_num : (0 : ℝ) < 5) rfl rfl
  rw [hi] at hi'
  cases hi'
  obtain ⟨a, b, c, ⟨hi0, lo0, e0, rfl⟩, ⟨hi1, lo1, e1, rfl⟩, ⟨hi2, lo2, e2, rfl⟩, -, -, -, -, hfin⟩ :=
    hout (exLimit_designable T t (by omega) hd)
  have ha : 0 < excess (exLimit T t) hi0 lo0 := by
    refine lt_max_of_lt_left (sub_pos.2 ?_)
    show T < hi0
    linarith [hot (.inl rfl) ((exLimit_extremes T t _ _ _ _).1 e0)]
  have hb : 0 < excess (exLimit T t) hi1 lo1 := by
    refine lt_max_of_lt_left (sub_pos.2 ?_)
    show T < hi1
    linarith [hot (.inr rfl) ((exLimit_extremes T t _ _ _ _).1 e1)]
  have hm := List.mem_of_getLast? hl
  have hc : excess (exLimit T t) hi2 lo2 < 0 := by
    obtain ⟨nx, ny, h1, h2, h3, rfl⟩ := exSquare_mem (by omega) hd _ hm
    obtain ⟨x, y, h4, h5, h6, -⟩ := hK _ (isGrid_ne hG) (exSquare_spacing h1 h2 h3)
    obtain ⟨rfl, rfl⟩ := ((exLimit_extremes T t _ _ _ _).1 e2).unique h4
    have hcount := hG.count
    rw [mul_div_cancel_left₀ _ (by norm_num : (5 : ℝ) ≠ 0), Int.floor_natCast] at hcount
    have hlen : (N : ℝ) ≤ (Coordinates.lattice nx ny (5 : ℝ) 5 (0, 0)).length := by
      have : (N : ℤ) ≤ (Coordinates.lattice nx ny (5 : ℝ) 5 (0, 0)).length := by
        rw [hcount]
        nlinarith
      exact_mod_cast this
    generalize ((Coordinates.lattice nx ny (5 : ℝ) 5 (0, 0)).length : ℝ) = M at *
    have hk : K / M < 12 := by
      rw [div_lt_iff₀ (by linarith)]
      have := (le_max_left (K / 12) 1).trans_lt hN
      linarith
    exact max_lt (by show hi2 - T < 0; linarith) (by show t - lo2 < 0; linarith)
  rcases hfin (mul_pos ha hb) (mul_neg_of_pos_of_neg hb hc) with ⟨k, f, e, h1, h2, h3, h4⟩ | ⟨⟨f, hf, hi, lo, h1, h2⟩, -⟩
  · refine ⟨N, T, t, k, f, by exact_mod_cast (zero_lt_one.trans hN1), hT1, hT2, ht1, ht2, h4, ?_⟩
    rintro rfl
    obtain ⟨hi, lo, h5, rfl⟩ := h2
    have := hot (.inr rfl) ((exLimit_extremes T t _ _ _ _).1 h5)
    have h6 : hi - T ≤ 0 := (le_max_left _ _).trans h3
    linarith
  · exfalso
    obtain ⟨rfl, rfl⟩ := hUW f _ _ ((exLimit_extremes T t _ _ _ _).1 h1)
    have h2 : 0 = max (U f - T) (t - W f) := h2
    rcases max_choice (U f - T) (t - W f) with h | h
    · apply hT
      simp only [List.coe_toFinset, Set.mem_ofPred_eq, List.mem_map]
      exact ⟨f, hf, by linarith⟩
    · apply ht
      simp only [List.coe_toFinset, Set.mem_ofPred_eq, List.mem_map]
      exact ⟨f, hf, by linarith⟩

/-- The hypothesis of C106 is met. -/
example : ∃ (N : ℕ) (T t : ℝ) (f : Field) (x : Held), f ≠ [(0, 0)] ∧ (∀ q ∈ f, InLand (5 * (N : ℝ)) (5 * N + 5) q) ∧
    fresh (exLimit T t) f 100 = .ok x ∧ Accepted (exLimit T t) f := by
  obtain ⟨N, T, t, k, f, hN, -, -, -, -, h, hne⟩ := exDesign
  rcases hr : design (exLimit T t) 0 { length := some (5 * N), B := some 5 } "near-square" {} with ⟨r, c'⟩
  rw [hr] at h
  change r = _ at h
  subst h
  have hN0 : (0 : ℝ) < 5 * N := by positivity
  obtain ⟨key, f', x, e, h1, -, h2, -, h3⟩ := C106_nearSquare 0 _ hN0 (by norm_num : (0 : ℝ) < 5) rfl rfl _ _ hr
  cases e
  exact ⟨N, T, t, f, x, hne, h1, h2, h3⟩

end

end Ghedt.WholeSearch
