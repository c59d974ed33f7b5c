import Verif.Props.DesignExample
import Verif.Lemmas.BiRectangular

/-!
# Rectangle and bi-rectangle designs that are found (C106, C107): the concrete cases
-/

namespace Ghedt.WholeSearch
open Real Ghedt.GHE Ghedt.Bhe Ghedt.Radial Ghedt.Whole Ghedt.Search Ghedt.Utilities Ghedt.Spec Ghedt.Network Ghedt.Design
  Ghedt.Domains Ghedt.Coordinates

noncomputable section

/-- a rectangular grid of 5 m -/
def FiveGrid (f : Field) : Prop := ∃ nx ny : ℤ, 1 ≤ nx ∧ 1 ≤ ny ∧ f = Coordinates.lattice nx ny 5 5 (0, 0)

theorem FiveGrid.ne {f : Field} (h : FiveGrid f) : f ≠ [] := by
  obtain ⟨nx, ny, h1, h2, rfl⟩ := h
  exact isGrid_ne (isGrid_lattice h1 h2 (show (0 : ℝ) < 5 by norm_num) (show (0 : ℝ) < 5 by norm_num))

theorem FiveGrid.spacing {f : Field} (h : FiveGrid f) (B : ℝ) (hB : boreholeSpacing (3 / 40) f = .ok B) :
    B = 3 / 40 ∨ B = 5 := by
  obtain ⟨nx, ny, h1, h2, rfl⟩ := h
  rcases (show 2 ≤ ny ∨ ny = 1 by omega) with h | rfl
  · exact exSquare_spacing h1 h2 (.inr h) B hB
  rcases (show nx = 1 ∨ 2 ≤ nx by omega) with rfl | h
  · exact exSquare_spacing h1 h2 (.inl ⟨rfl, rfl⟩) B hB
  obtain ⟨rest, e⟩ : ∃ rest, Coordinates.lattice nx 1 (5 : ℝ) 5 (0, 0) = (0, 0) :: (5, 0) :: rest := by
    unfold Coordinates.lattice
    rw [pyRange_cons (show (0 : ℤ) < nx by omega), show (0 : ℤ) + 1 = 1 by rfl, pyRange_cons (show (1 : ℤ) < nx by omega),
      show pyRange 0 1 = [0] by decide]
    exact ⟨_, by simp; rfl⟩
  rw [e] at hB
  unfold boreholeSpacing at hB
  rw [show pyGet (((0 : ℝ), (0 : ℝ)) :: (5, 0) :: rest) 0 = .ok (0, 0) from rfl,
    Except.ok_bind, if_neg (by simp), if_pos (by simp)] at hB
  rw [show pyGet (((0 : ℝ), (0 : ℝ)) :: (5, 0) :: rest) 1 = .ok (5, 0) from rfl, Except.ok_bind] at hB
  cases hB
  right
  norm_num [show √(25 : ℝ) = 5 by rw [show (25 : ℝ) = 5 ^ 2 by norm_num]; exact Real.sqrt_sq (by norm_num)]

theorem rectangular_five (N : ℕ) (hN : 1 ≤ N) {d : List Field} (hd : rectangular (5 * (N : ℝ)) 5 5 5 = .ok d) :
    (∀ f ∈ d, FiveGrid f) ∧ Coordinates.lattice ((N : ℤ) + 1) 2 5 5 (0, 0) ∈ d := by
  have hN' : (1 : ℝ) ≤ N := by exact_mod_cast hN
  have e1 : (5 * N : ℝ) / 5 + 1 = ((N + 1 : ℤ) : ℝ) := by push_cast; ring
  have e2 : (5 * N : ℝ) / (((N : ℤ) + 1 - 1 : ℤ) : ℝ) = 5 := by
    push_cast
    rw [add_sub_cancel_right, mul_div_assoc, div_self (by linarith), mul_one]
  have hnz : ((((N : ℤ) + 1 - 1 : ℤ)) : ℝ) ≠ 0 := by push_cast; linarith
  have e3 : ⌊(5 : ℝ) / 5 + 1⌋ = 2 := by
    rw [show (5 : ℝ) / 5 + 1 = ((2 : ℤ) : ℝ) by norm_num, Int.floor_intCast]
  have hs : rectangularStep (5 * (N : ℝ)) 5 false ((N : ℤ) + 1) ⟨0, 1, []⟩ ((N : ℤ) + 1) = .ok ⟨1, 2,
      (pyRange 1 ((N : ℤ) + 1)).map (fun i : ℤ => Coordinates.lattice i 1 (5 : ℝ) 5 (0, 0)) ++
      (pyRange 1 2).map (fun j : ℤ => Coordinates.lattice ((N : ℤ) + 1) j (5 : ℝ) 5 (0, 0)) ++
      [Coordinates.lattice ((N : ℤ) + 1) 2 5 5 (0, 0)]⟩ := by
    unfold rectangularStep
    rw [pyDiv_ok hnz, Except.ok_bind, e2, pyDiv_ok (show (5 : ℝ) ≠ 0 by norm_num), Except.ok_bind, e3]
    dsimp only
    rw [if_pos rfl, mapM_ok (g := fun i : ℤ => Coordinates.lattice i 1 (5 : ℝ) 5 (0, 0)), Except.ok_bind,
      mapM_ok (g := fun j : ℤ => Coordinates.lattice ((N : ℤ) + 1) j (5 : ℝ) 5 (0, 0)), Except.ok_bind, Except.pure_eq,
      Except.ok_bind, if_neg (by norm_num), rectangle_ok (by omega) (by norm_num), Except.ok_bind]
    · rfl
    · intro j hj
      rw [mem_pyRange] at hj
      rw [rectangle_ok (by omega) (by omega)]
      rfl
    · intro i hi
      rw [mem_pyRange] at hi
      rw [rectangle_ok (by omega) (by omega)]
      rfl
  unfold rectangular at hd
  rw [if_pos (show (5 * N : ℝ) ≥ 5 by linarith)] at hd
  dsimp only at hd
  rw [pyDiv_ok (show (5 : ℝ) ≠ 0 by norm_num), Except.ok_bind, Except.ok_bind, e1, Int.ceil_intCast, Int.floor_intCast,
    show pyRange ((N : ℤ) + 1) ((N : ℤ) + 1 + 1) = [(N : ℤ) + 1] by
      rw [pyRange_cons (by omega), show pyRange ((N : ℤ) + 1 + 1) ((N : ℤ) + 1 + 1) = [] by simp [pyRange]],
    List.foldlM_cons, hs] at hd
  cases hd
  refine ⟨fun f hf => ?_, by simp⟩
  simp only [List.mem_append, List.mem_map, mem_pyRange, List.mem_singleton] at hf
  rcases hf with (⟨i, hi, rfl⟩ | ⟨j, hj, rfl⟩) | hf
  · exact ⟨i, 1, hi.1, le_rfl, rfl⟩
  · exact ⟨_, j, by omega, hj.1, rfl⟩
  · exact ⟨_, 2, by omega, by norm_num, hf⟩

theorem biRectangle_five (N : ℕ) (hN : 1 ≤ N) {n : List (List Field)} (hd : biRectangleNested (5 * (N : ℝ)) 5 5 5 5 = .ok n) :
    ∀ f ∈ n.flatten, FiveGrid f := by
  have hN' : (1 : ℝ) ≤ N := by exact_mod_cast hN
  have e1 : (5 * N : ℝ) / 5 + 1 = ((N + 1 : ℤ) : ℝ) := by push_cast; ring
  have e2 : (5 * N : ℝ) / (((N : ℤ) + 1 - 1 : ℤ) : ℝ) = 5 := by
    push_cast
    rw [add_sub_cancel_right, mul_div_assoc, div_self (by linarith), mul_one]
  have e3 : (5 : ℝ) / 5 + 1 = ((2 : ℤ) : ℝ) := by norm_num
  have e4 : (5 : ℝ) / (((2 : ℤ) - 1 : ℤ) : ℝ) = 5 := by norm_num
  unfold biRectangleNested at hd
  rw [if_pos (show (5 * N : ℝ) ≥ 5 by linarith)] at hd
  dsimp only at hd
  rw [pyDiv_ok (show (5 : ℝ) ≠ 0 by norm_num), Except.ok_bind, Except.ok_bind, e3, Int.ceil_intCast, Int.floor_intCast,
    show pyRange 2 (2 + 1) = [2] by decide, List.mapM_cons, pyDiv_ok (show (((2 : ℤ) - 1 : ℤ) : ℝ) ≠ 0 by norm_num),
    Except.ok_bind, e4, biRectangular_ordered (by linarith) (by norm_num) (by linarith) (by norm_num) (by norm_num)
      (by norm_num), Except.ok_bind, e1, Int.ceil_intCast, Int.floor_intCast, if_pos le_rfl, e3, Int.ceil_intCast, e4] at hd
  cases hd
  intro f hf
  obtain ⟨d, hd, hf⟩ := List.mem_flatten.1 hf
  rw [List.mem_singleton.1 hd] at hf
  simp only [biFields, maybeTranspose, e2, List.mem_append,
    List.mem_map, mem_pyRange, Bool.false_eq_true, if_false] at hf
  rcases hf with (⟨i, hi, rfl⟩ | ⟨j, hj, rfl⟩) | ⟨i, hi, rfl⟩
  · exact ⟨i, 1, hi.1, le_rfl, rfl⟩
  · exact ⟨_, j, by omega, hj.1, rfl⟩
  · obtain rfl : i = (N : ℤ) + 1 := by omega
    exact ⟨(N : ℤ) + 1, 2, by omega, by norm_num, by rw [e2]⟩

/-- Limits that no candidate hits exactly: a single borehole is too hot at 50 m and at 100 m, and the field `fl`, if it is
large enough, is cool enough at 100 m. -/
theorem exLimits {d : List Field} (hd : ∀ f ∈ d, FiveGrid f) : ∃ T t : ℝ, 34 < T ∧ 4 < t ∧
    (∀ f ∈ d, ¬ Outside (exLimit T t) f 100 0) ∧
    (∀ H e, (H = 50 ∨ H = 100) → Outside (exLimit T t) [(0, 0)] H e → 0 < e) ∧
    ∀ K : ℝ, (∀ f : Field, f ≠ [] → (∀ B, boreholeSpacing (3 / 40) f = .ok B → B = 3 / 40 ∨ B = 5) →
        ∃ hi lo, Extremes exProblem f 100 hi lo ∧ hi ≤ 18 + K / f.length ∧ 18 - K / f.length ≤ lo) →
      ∀ fl ∈ d, K / fl.length < 12 → ∀ e, Outside (exLimit T t) fl 100 e → e < 0 := by
  have hu : ∀ f : Field, ∃ u w, ∀ hi lo, Extremes exProblem f 100 hi lo → hi = u ∧ lo = w := by
    intro f
    by_cases he : ∃ u w, Extremes exProblem f 100 u w
    · obtain ⟨u, w, he⟩ := he
      exact ⟨u, w, fun hi lo h => h.unique he⟩
    · exact ⟨0, 0, fun hi lo h => absurd ⟨_, _, h⟩ he⟩
  choose U W hUW using hu
  obtain ⟨T, ⟨hT1, hT2⟩, hT⟩ := ((Set.Ioo_infinite (show (34 : ℝ) < 35 by norm_num)).sdiff
    (d.map U).toFinset.finite_toSet).nonempty
  obtain ⟨t, ⟨ht1, ht2⟩, ht⟩ := ((Set.Ioo_infinite (show (4 : ℝ) < 5 by norm_num)).sdiff
    (d.map W).toFinset.finite_toSet).nonempty
  simp only [List.coe_toFinset, Set.mem_ofPred_eq, List.mem_map] at hT ht
  refine ⟨T, t, hT1, ht1, ?_, ?_, ?_⟩
  · rintro f hf ⟨hi, lo, h1, h2⟩
    obtain ⟨rfl, rfl⟩ := hUW f _ _ ((exLimit_extremes T t _ _ _ _).1 h1)
    have h2 : 0 = max (U f - T) (t - W f) := h2
    rcases max_choice (U f - T) (t - W f) with h | h
    · exact hT ⟨f, hf, by linarith⟩
    · exact ht ⟨f, hf, by linarith⟩
  · rintro H e hH ⟨hi, lo, h1, rfl⟩
    refine lt_max_of_lt_left (sub_pos.2 ?_)
    show T < hi
    linarith [exSingle_hot hH ((exLimit_extremes T t _ _ _ _).1 h1)]
  · rintro K hK fl hfl hk e ⟨hi, lo, h1, rfl⟩
    obtain ⟨x, y, h4, h5, h6⟩ := hK fl (hd fl hfl).ne (hd fl hfl).spacing
    obtain ⟨rfl, rfl⟩ := ((exLimit_extremes T t _ _ _ _).1 h1).unique h4
    exact max_lt (by show hi - T < 0; linarith) (by show t - lo < 0; linarith)

/-- On a long enough strip of land the rectangle design finds a field: every hypothesis of C106 and C107 holds. -/
theorem exRectangleDesign : ∃ (N : ℕ) (T t : ℝ) (k : ℕ) (f : Field) (c' : State), 0 < N ∧ f ≠ [(0, 0)] ∧
    design (exLimit T t) 0 { length := some (5 * (N : ℝ)), width := some 5, Bmin := some 5, BmaxX := some 5 } "rectangle" {} =
      (.ok (some ((k : ℤ), f)), c') := by
  obtain ⟨K, hK⟩ := exExtremes 100 (.inr rfl)
  obtain ⟨N, hN⟩ := exists_nat_gt (max (K / 12) 1)
  have hN1 : (1 : ℝ) < N := (le_max_right _ _).trans_lt hN
  have hN1' : 1 < N := by exact_mod_cast hN1
  set gc : Constraints ℝ := { length := some (5 * (N : ℝ)), width := some 5, Bmin := some 5, BmaxX := some 5 } with hgc
  have e1 : max (5 * N : ℝ) 5 / 5 + 1 = ((N + 1 : ℤ) : ℝ) := by
    rw [max_eq_left (by linarith)]
    push_cast
    ring
  have h107 : ∀ p : Problem, _ := fun p => (C107_rectangle (p := p) 0 gc (X := 5 * N) (Y := 5) (by linarith) (by norm_num)
      (show (0 : ℝ) < 5 by norm_num) (show (0 : ℝ) < 5 by norm_num) rfl rfl rfl rfl).1
      ⟨(N : ℤ) + 1, by rw [e1], by rw [e1]⟩
  obtain ⟨d, fl, hi, hl, hmost, -⟩ := h107 exProblem
  obtain ⟨d', hd', hi'⟩ := ((C77_available 0 gc (X := 5 * N) (Y := 5) (B := 5) (by linarith) (by norm_num) (by norm_num)
      (show (0 : ℝ) < 5 by norm_num) (show (0 : ℝ) < 5 by norm_num) (show (0 : ℝ) < 5 by norm_num) rfl).2 rfl rfl rfl).1
  rw [hi] at hi'
  cases hi'
  obtain ⟨hfive, hbig⟩ := rectangular_five N hN1'.le hd'
  obtain ⟨T, t, -, -, hnot, hhot, hcool⟩ := exLimits hfive
  obtain ⟨d', fl', hi', hl', -, hout⟩ := h107 (exLimit T t)
  rw [hi] at hi'
  cases hi'
  rw [hl] at hl'
  cases hl'
  obtain ⟨a, b, c, oa, ob, oc, -, -, -, -, hfin⟩ := hout (exLimit_fine T t fun f hf => (hfive f hf).spacing)
  have ha := hhot _ _ (.inl rfl) oa
  have hb := hhot _ _ (.inr rfl) ob
  have hm := List.mem_of_getLast? hl
  have hlen : (N : ℝ) ≤ fl.length := by
    have := hmost _ hbig
    have hG := isGrid_lattice (show (1 : ℤ) ≤ (N : ℤ) + 1 by omega) (show (1 : ℤ) ≤ 2 by norm_num)
      (show (0 : ℝ) < 5 by norm_num) (show (0 : ℝ) < 5 by norm_num)
    have hcount := hG.count
    have : N ≤ fl.length := by omega
    exact_mod_cast this
  have hc : c < 0 := by
    refine hcool K (fun f h1 h2 => ?_) fl hm ?_ _ oc
    · obtain ⟨x, y, q1, q2, q3, -⟩ := hK f h1 h2
      exact ⟨x, y, q1, q2, q3⟩
    · rw [div_lt_iff₀ (by linarith)]
      have := (le_max_left (K / 12) 1).trans_lt hN
      linarith
  rcases hfin (mul_pos ha hb) (mul_neg_of_pos_of_neg hb hc) with ⟨k, f, e, h1, h2, h3, h4⟩ | ⟨⟨f, hf, h1⟩, -⟩
  · refine ⟨N, T, t, k, f, _, by omega, ?_, Prod.ext h4 rfl⟩
    rintro rfl
    exact absurd h3 (not_le.2 (hhot _ _ (.inr rfl) h2))
  · exact absurd h1 (hnot f hf)

/-- On a long enough strip of land the bi-rectangle design finds a field: every hypothesis of C106 and C107 holds. -/
theorem exBiRectangleDesign : ∃ (N : ℕ) (T t : ℝ) (k : ℕ) (f : Field) (c' : State), 0 < N ∧ f ≠ [(0, 0)] ∧
    design (exLimit T t) 0 { length := some (5 * (N : ℝ)), width := some 5, Bmin := some 5, BmaxX := some 5, BmaxY := some 5 }
      "bi-rectangle" {} = (.ok (some ((k : ℤ), f)), c') := by
  obtain ⟨K, hK⟩ := exExtremes 100 (.inr rfl)
  obtain ⟨N, hN⟩ := exists_nat_gt (max (K / 12) 1)
  have hN1 : (1 : ℝ) < N := (le_max_right _ _).trans_lt hN
  have hN1' : 1 < N := by exact_mod_cast hN1
  set gc : Constraints ℝ :=
    { length := some (5 * (N : ℝ)), width := some 5, Bmin := some 5, BmaxX := some 5, BmaxY := some 5 } with hgc
  have e1 : (5 * N : ℝ) / 5 + 1 = ((N + 1 : ℤ) : ℝ) := by push_cast; ring
  have e2 : (5 : ℝ) / 5 + 1 = ((2 : ℤ) : ℝ) := by norm_num
  have h107 : ∀ p : Problem, _ := fun p => (C107_biRectangle (p := p) 0 gc (X := 5 * N) (Y := 5) (by linarith) (by norm_num)
      (show (0 : ℝ) < 5 by norm_num) (show (0 : ℝ) < 5 by norm_num) (show (0 : ℝ) < 5 by norm_num) rfl rfl rfl rfl rfl).1
      (by rw [e1, Int.ceil_intCast, Int.floor_intCast]) (by rw [e2, Int.ceil_intCast, Int.floor_intCast])
  obtain ⟨n, dl, fl, hi, hdl, hl, hcount, -⟩ := h107 exProblem
  rw [e1, e2, Int.floor_intCast, Int.floor_intCast] at hcount
  obtain ⟨n', hn', hi'⟩ := (((C77_available 0 gc (X := 5 * N) (Y := 5) (B := 5) (by linarith) (by norm_num) (by norm_num)
      (show (0 : ℝ) < 5 by norm_num) (show (0 : ℝ) < 5 by norm_num) (show (0 : ℝ) < 5 by norm_num) rfl).2 rfl rfl rfl).2 rfl).1
  rw [hi] at hi'
  cases hi'
  have hfive := biRectangle_five N hN1'.le hn'
  obtain ⟨T, t, -, -, hnot, hhot, hcool⟩ := exLimits hfive
  obtain ⟨n', dl', fl', hi', hdl', hl', -, hout⟩ := h107 (exLimit T t)
  rw [hi] at hi'
  cases hi'
  rw [hdl] at hdl'
  cases hdl'
  rw [hl] at hl'
  cases hl'
  obtain ⟨a, b, c, oa, ob, oc, -, -, -, -, hfin, -⟩ := hout (exLimit_fine T t fun f hf => (hfive f hf).spacing)
  have ha := hhot _ _ (.inl rfl) oa
  have hb := hhot _ _ (.inr rfl) ob
  have hm : fl ∈ n.flatten := List.mem_flatten.2 ⟨dl, List.mem_of_getLast? hdl, List.mem_of_getLast? hl⟩
  have hlen : (N : ℝ) ≤ fl.length := by
    have : (N : ℤ) ≤ fl.length := by omega
    exact_mod_cast this
  have hc : c < 0 := by
    refine hcool K (fun f h1 h2 => ?_) fl hm ?_ _ oc
    · obtain ⟨x, y, q1, q2, q3, -⟩ := hK f h1 h2
      exact ⟨x, y, q1, q2, q3⟩
    · rw [div_lt_iff₀ (by linarith)]
      have := (le_max_left (K / 12) 1).trans_lt hN
      linarith
  rcases hfin ha hb hc with ⟨d, k, f, e, h0, h1, h2, h3, h4⟩ | ⟨⟨d, hd, f, hf, h1⟩, -⟩
  · refine ⟨N, T, t, k, f, _, by omega, ?_, Prod.ext h4 rfl⟩
    rintro rfl
    exact absurd h3 (not_le.2 (hhot _ _ (.inr rfl) h2))
  · exact absurd h1 (hnot f (List.mem_flatten.2 ⟨d, hd, hf⟩))

example : ∃ (N : ℕ) (T t : ℝ) (f : Field) (x : Held), f ≠ [(0, 0)] ∧ (∀ q ∈ f, InLand (5 * (N : ℝ)) 5 q) ∧
    fresh (exLimit T t) f 100 = .ok x ∧ Accepted (exLimit T t) f := by
  obtain ⟨N, T, t, k, f, c', hN, hne, h⟩ := exRectangleDesign
  obtain ⟨key, f', x, e, h1, -, h2, -, h3⟩ := C106_rectangle 0 _ (X := 5 * N) (Y := 5) (by positivity) (by norm_num)
    (show (0 : ℝ) < 5 by norm_num) (show (0 : ℝ) < 5 by norm_num) rfl rfl rfl rfl _ _ h
  cases e
  exact ⟨N, T, t, f, x, hne, h1, h2, h3⟩

example : ∃ (N : ℕ) (T t : ℝ) (f : Field) (x : Held), f ≠ [(0, 0)] ∧ (∀ q ∈ f, InLand (5 * (N : ℝ)) 5 q) ∧
    fresh (exLimit T t) f 100 = .ok x ∧ Accepted (exLimit T t) f := by
  obtain ⟨N, T, t, k, f, c', hN, hne, h⟩ := exBiRectangleDesign
  obtain ⟨key, f', x, e, h1, -, h2, -, h3⟩ := C106_biRectangle 0 _ (X := 5 * N) (Y := 5) (by positivity) (by norm_num)
    (show (0 : ℝ) < 5 by norm_num) (show (0 : ℝ) < 5 by norm_num) (show (0 : ℝ) < 5 by norm_num) rfl rfl rfl rfl rfl _ _ h
  cases e
  exact ⟨N, T, t, f, x, hne, h1, h2, h3⟩

end

end Ghedt.WholeSearch
