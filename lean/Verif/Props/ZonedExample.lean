import Verif.Props.ZonedDesign
import Verif.Props.DesignExample

/-!
# A bi-zoned design (C107): the concrete case
-/

set_option linter.unusedSectionVars false

namespace Ghedt.WholeSearch
open Real Ghedt.GHE Ghedt.Bhe Ghedt.Radial Ghedt.Whole Ghedt.Search Ghedt.Utilities Ghedt.Spec Ghedt.Network Ghedt.Design
  Ghedt.Domains Ghedt.Coordinates

noncomputable section

/-- the first two boreholes are 5 m apart -/
def Five (f : Field) : Prop := f = [(0, 0)] ∨ ∃ rest, f = (0, 0) :: (5, 0) :: rest

theorem Five.spacing {f : Field} (h : Five f) (B : ℝ) (hB : boreholeSpacing (3 / 40) f = .ok B) : B = 3 / 40 ∨ B = 5 := by
  rcases h with rfl | ⟨rest, rfl⟩
  · cases hB
    exact .inl rfl
  · unfold boreholeSpacing at hB
    rw [show pyGet (((0 : ℝ), (0 : ℝ)) :: (5, 0) :: rest) 0 = .ok (0, 0) from rfl,
      Except.ok_bind, if_neg (by simp), if_pos (by simp)] at hB
    rw [show pyGet (((0 : ℝ), (0 : ℝ)) :: (5, 0) :: rest) 1 = .ok (5, 0) from rfl, Except.ok_bind] at hB
    cases hB
    right
    norm_num [show √(25 : ℝ) = 5 by rw [show (25 : ℝ) = 5 ^ 2 by norm_num]; exact Real.sqrt_sq (by norm_num)]

theorem row_start {N : ℤ} (h : 2 ≤ N) : ∃ rest, ((pyRange 0 N).map fun i : ℤ => (i, (0 : ℤ))) = (0, 0) :: (1, 0) :: rest := by
  rw [pyRange_cons (by omega), show (0 : ℤ) + 1 = 1 by rfl, pyRange_cons (by omega)]
  exact ⟨_, rfl⟩

theorem five_map {l : List (ℤ × ℤ)} {rest : List (ℤ × ℤ)} (h : l = (0, 0) :: (1, 0) :: rest) :
    Five (l.map (toPt 5 5)) := by
  subst h
  exact .inr ⟨rest.map (toPt 5 5), by simp [toPt]⟩

theorem lInts_start {N M : ℤ} (h : 2 ≤ N) : ∃ rest, lInts N M = (0, 0) :: (1, 0) :: rest := by
  obtain ⟨r, e⟩ := row_start h
  unfold lInts
  rw [e]
  exact ⟨_, rfl⟩

theorem startup_five {N1 N2 : ℤ} (h1 : 2 ≤ N1) : ∀ f ∈ startupFields N1 N2 (5 : ℝ) 5 false, Five f := by
  intro f hf
  simp only [startupFields, List.mem_append, List.mem_map, mem_pyRange, maybeTranspose,
    Bool.false_eq_true, if_false] at hf
  obtain ⟨r, e⟩ := row_start h1
  rcases hf with ((⟨i, hi, rfl⟩ | ⟨i, hi, rfl⟩) | ⟨i, hi, rfl⟩) | ⟨i, hi, rfl⟩
  · have hr : pyRange 0 1 = [0] := by decide
    rcases eq_or_lt_of_le hi.1 with h | h
    · subst h
      left
      simp [Coordinates.lattice, hr]
    · right
      unfold Coordinates.lattice
      rw [pyRange_cons (by omega : (0 : ℤ) < i), show (0 : ℤ) + 1 = 1 by rfl, pyRange_cons (by omega : (1 : ℤ) < i), hr]
      exact ⟨_, by simp; rfl⟩
  · obtain ⟨r, e⟩ := lInts_start (M := i) h1
    exact five_map e
  · obtain ⟨r, e⟩ := lInts_start (M := N2) h1
    unfold lopUInts
    rw [e]
    exact five_map rfl
  · obtain ⟨r, e⟩ := lInts_start (M := N2) h1
    unfold cInts lopUInts
    rw [e]
    exact five_map rfl

/-- the candidates on a strip of land 15 m wide, with 5 m between boreholes: one nested domain -/
theorem exZoned_mem (N : ℕ) (hN : 3 ≤ N) (fuel : ℕ) (hfuel : N + 5 ≤ fuel) {n : List (List Field)}
    (hn : biRectangleZonedNested fuel (5 * N : ℝ) 15 5 5 5 = .ok n) :
    n.length = 1 ∧ ∀ d ∈ n, ∀ f ∈ d, Five f := by
  have hN' : (3 : ℝ) ≤ N := by exact_mod_cast hN
  have e1 : (5 * N : ℝ) / 5 + 1 = ((N + 1 : ℤ) : ℝ) := by push_cast; ring
  have e2 : (15 : ℝ) / 5 + 1 = ((4 : ℤ) : ℝ) := by norm_num
  have hS : Sides (5 * N : ℝ) 15 5 5 5 (5 * N) 15 (N + 1) (N + 1) 4 4 := by
    refine ⟨.inl ⟨by linarith, rfl, rfl, ?_, ?_⟩, ?_, ?_⟩
    · rw [e1, Int.ceil_intCast]
    · rw [e2, Int.ceil_intCast]
    · rw [e1, Int.floor_intCast]
    · rw [e2, Int.floor_intCast]
  obtain ⟨st, z0, zs, walk, hrun, hup, hlen, hF, hst⟩ := zonedNested_core (fuel := fuel) (by linarith) (by norm_num) (by norm_num)
    (by norm_num) (by norm_num) (by linarith) (by norm_num) hS le_rfl le_rfl (by omega)
  rw [hn] at hrun
  cases hrun
  have hl := hF.length_eq
  have hz : zs = [] := by
    rw [List.length_cons] at hl
    have : zs.length = 0 := by omega
    exact List.length_eq_zero_iff.1 this
  subst hz
  refine ⟨rfl, ?_⟩
  have hw : walk = [((N : ℤ) + 1, 4)] := by
    have h1 : walk.length = 1 := by rw [hl]; rfl
    obtain ⟨w, rfl⟩ := List.length_eq_one_iff.1 h1
    have := hup.1
    simpa using this
  subst hw
  obtain ⟨hz0, -⟩ := List.forall₂_cons.1 hF
  rw [decide_eq_false (by linarith)] at hz0 hst
  have b1 : (5 * N : ℝ) / (((N : ℤ) + 1 - 1 : ℤ) : ℝ) = 5 := by
    push_cast
    rw [add_sub_cancel_right, mul_div_assoc, div_self (by linarith), mul_one]
  have b2 : (15 : ℝ) / ((4 - 1 : ℤ) : ℝ) = 5 := by norm_num
  intro d hd
  rw [List.mem_singleton.1 hd]
  intro f hf
  rcases List.mem_append.1 hf with hf | hf
  · rw [hst, b1, b2] at hf
    exact startup_five (by omega) f hf
  · obtain ⟨path, z1, fields, hp, -, hz1, hF1, hrun1⟩ := zonedRectangleDomain_spec (X := (5 * N : ℝ)) (Y := 15) (by linarith)
      (by norm_num) false (nx := (N : ℤ) + 1) (ny := 4) (n1 := (N : ℤ) + 1) (n2 := 4) (L1 := 5 * N) (L2 := 15)
      (by rw [if_pos (by linarith)]) (by omega) (by omega)
    have := hrun1 fuel (by omega)
    rw [hz0] at this
    cases this
    rw [b1, b2] at hz1 hF1
    have key : ∀ (a b : ℤ) (f : Field), 1 ≤ a → 1 ≤ b → a ≤ (N : ℤ) + 1 - 2 → b ≤ 4 - 2 →
        zonedRectangle ((N : ℤ) + 1) 4 (5 : ℝ) 5 a b = .ok f → Five f := by
      intro a b f k1 k2 k3 k4 hf
      obtain ⟨o, i, e, ho, -⟩ := C05_zonedRectangle_content k1 k2 k3 k4 (show (0 : ℝ) < 5 by norm_num)
        (show (0 : ℝ) < 5 by norm_num)
      rw [hf] at e
      cases e
      rw [openRectangle_hollow (by omega) (by omega)] at ho
      cases ho
      obtain ⟨r, e⟩ := row_start (N := (N : ℤ) + 1) (by omega)
      right
      unfold openInts
      rw [e]
      exact ⟨_, by simp [toPt]; rfl⟩
    rcases List.mem_cons.1 hf with rfl | hf
    · exact key 1 1 _ le_rfl le_rfl (by omega) (by omega) hz1
    · obtain ⟨g, hg, rfl⟩ := List.mem_map.1 hf
      obtain ⟨w, hw, hwg⟩ := forall₂_mem_right hF1 g hg
      have hwb := unitPath_bounds hp w (List.mem_cons_of_mem _ hw)
      dsimp only at hwb
      exact key w.1 w.2 g hwb.1 hwb.2.1 hwb.2.2.1 hwb.2.2.2 hwg

/-- On a long enough strip of land the bi-zoned design of C107 ends with a field, unless sizing raises; every hypothesis of
C107 holds, and the last case of its table applies. -/
theorem exZonedDesign : ∃ (N : ℕ) (T t : ℝ) (n : List (List Field)), 3 ≤ N ∧
    designInit (N + 5) { length := some (5 * (N : ℝ)), width := some 15, Bmin := some 5, BmaxX := some 5, BmaxY := some 5 }
      "bi-zoned" = .ok (.nested n) ∧ Designable (exLimit T t) n.flatten ∧
    let r := (design (exLimit T t) (N + 5)
      { length := some (5 * (N : ℝ)), width := some 15, Bmin := some 5, BmaxX := some 5, BmaxY := some 5 } "bi-zoned" {}).1
    (∃ (k : ℕ) (f : Field) (e : ℝ), f ∈ n.flatten ∧ Outside (exLimit T t) f 100 e ∧ e ≤ 0 ∧ f ≠ [(0, 0)] ∧
      r = .ok (some ((k : ℤ), f))) ∨
    ∃ f ∈ n.flatten, ∃ x e, fresh (exLimit T t) f 100 = .ok x ∧ (sizeHeld (exLimit T t) { held := some x }).1 = .error e ∧
      r = .error e := by
  obtain ⟨K, hK⟩ := exExtremes 100 (.inr rfl)
  obtain ⟨N, hN⟩ := exists_nat_gt (max (K / 12) 3)
  have hN3 : (3 : ℝ) < N := (le_max_right _ _).trans_lt hN
  have hN3' : 3 < N := by exact_mod_cast hN3
  set gc : Constraints ℝ :=
    { length := some (5 * (N : ℝ)), width := some 15, Bmin := some 5, BmaxX := some 5, BmaxY := some 5 } with hgc
  have e1 : (5 * N : ℝ) / 5 + 1 = ((N + 1 : ℤ) : ℝ) := by push_cast; ring
  have e2 : (15 : ℝ) / 5 + 1 = ((4 : ℤ) : ℝ) := by norm_num
  -- the candidates
  have hfu : ⌊(5 * N : ℝ) / 5 + 1⌋ + ⌊(15 : ℝ) / 5 + 1⌋ ≤ ((N + 5 : ℕ) : ℤ) := by
    rw [e1, e2, Int.floor_intCast, Int.floor_intCast]
    push_cast
    omega
  have h107 : ∀ p : Problem, ∃ n dl fl, designInit (N + 5) gc "bi-zoned" = .ok (.nested n) ∧ n.getLast? = some dl ∧
      dl.getLast? = some fl ∧ (fl.length : ℤ) = (N + 1) * 4 ∧
      (Designable p n.flatten → ZonedOutcome p n [(0, 0)] fl (design p (N + 5) gc "bi-zoned" {}).1) := by
    intro p
    obtain ⟨n, dl, fl, g1, g2, g3, g4, g5⟩ := (C107_biZoned (p := p) (N + 5) gc (X := 5 * N) (Y := 15) (by linarith) (by norm_num)
      (show (0 : ℝ) < 5 by norm_num) (show (0 : ℝ) < 5 by norm_num) (show (0 : ℝ) < 5 by norm_num) rfl rfl rfl rfl rfl hfu).1
      (by rw [e1, Int.ceil_intCast, Int.floor_intCast]) (by rw [e2, Int.ceil_intCast, Int.floor_intCast]) (by linarith)
      (by norm_num)
    refine ⟨n, dl, fl, g1, g2, g3, ?_, g5⟩
    rw [g4, e1, e2, Int.floor_intCast, Int.floor_intCast]
  obtain ⟨n, dl, fl, hi, hdl, hfl, hcount, -⟩ := h107 exProblem
  have hn : biRectangleZonedNested (N + 5) (5 * N : ℝ) 15 5 5 5 = .ok n := by
    have := (((C77_available (N + 5) gc (X := 5 * N) (Y := 15) (B := 5) (by linarith) (by norm_num) (by norm_num)
      (show (0 : ℝ) < 5 by norm_num) (show (0 : ℝ) < 5 by norm_num) (show (0 : ℝ) < 5 by norm_num) rfl).2 rfl rfl rfl).2 rfl).2
    rw [hi] at this
    cases hb : biRectangleZonedNested (N + 5) (5 * N : ℝ) 15 5 5 5 with
    | error e => rw [hb] at this; cases this
    | ok m =>
      rw [hb] at this
      cases this
      rfl
  obtain ⟨hone, hfive⟩ := exZoned_mem N hN3'.le (N + 5) le_rfl hn
  have hfive' : ∀ f ∈ n.flatten, Five f := by
    intro f hf
    obtain ⟨d, hd, hf⟩ := List.mem_flatten.1 hf
    exact hfive d hd f hf
  have hne : ∀ f ∈ n.flatten, f ≠ [] := by
    intro f hf
    rcases hfive' f hf with rfl | ⟨r, rfl⟩ <;> simp
  have hfirst : ∀ d ∈ n, d.head? = some [(0, 0)] := by
    obtain ⟨d0, ds, q1, q2, -⟩ := C17_zonedNested_distinct (fuel := N + 5) (X := (5 * N : ℝ)) (Y := 15) (Bmin := 5) (BX := 5)
      (BY := 5) (by linarith) (by norm_num) (by norm_num) (by norm_num) (by norm_num) (by linarith) (by norm_num)
      (by rw [e1, Int.ceil_intCast, Int.floor_intCast]) (by rw [e2, Int.ceil_intCast, Int.floor_intCast]) hfu
    rw [hn] at q1
    cases q1
    rw [List.length_cons] at hone
    have : ds = [] := List.length_eq_zero_iff.1 (by omega)
    subst this
    intro d hd
    rw [List.mem_singleton.1 hd]
    exact q2
  -- limits that are not hit exactly
  have hu : ∀ (f : Field) (H : ℝ), ∃ u w, ∀ hi lo, Extremes exProblem f H hi lo → hi = u ∧ lo = w := by
    intro f H
    by_cases he : ∃ u w, Extremes exProblem f H u w
    · obtain ⟨u, w, he⟩ := he
      exact ⟨u, w, fun hi lo h => h.unique he⟩
    · exact ⟨0, 0, fun hi lo h => absurd ⟨_, _, h⟩ he⟩
  choose U W hUW using hu
  obtain ⟨T, ⟨hT1, hT2⟩, hT⟩ := ((Set.Ioo_infinite (show (34 : ℝ) < 35 by norm_num)).sdiff
    (n.flatten.map (U · 50) ++ n.flatten.map (U · 100)).toFinset.finite_toSet).nonempty
  obtain ⟨t, ⟨ht1, ht2⟩, ht⟩ := ((Set.Ioo_infinite (show (4 : ℝ) < 5 by norm_num)).sdiff
    (n.flatten.map (W · 50) ++ n.flatten.map (W · 100)).toFinset.finite_toSet).nonempty
  have hnot : ∀ f ∈ n.flatten, ∀ H, H = 50 ∨ H = 100 → ¬ Outside (exLimit T t) f H 0 := by
    rintro f hf H hH ⟨hi, lo, h1, h2⟩
    obtain ⟨rfl, rfl⟩ := hUW f H _ _ ((exLimit_extremes T t _ _ _ _).1 h1)
    have h2 : 0 = max (U f H - T) (t - W f H) := h2
    rcases max_choice (U f H - T) (t - W f H) with h | h
    · apply hT
      simp only [List.coe_toFinset, Set.mem_ofPred_eq, List.mem_append, List.mem_map]
      rcases hH with rfl | rfl
      · exact .inl ⟨f, hf, by linarith⟩
      · exact .inr ⟨f, hf, by linarith⟩
    · apply ht
      simp only [List.coe_toFinset, Set.mem_ofPred_eq, List.mem_append, List.mem_map]
      rcases hH with rfl | rfl
      · exact .inl ⟨f, hf, by linarith⟩
      · exact .inr ⟨f, hf, by linarith⟩
  have hD : Designable (exLimit T t) n.flatten := exLimit_fine T t fun f hf => (hfive' f hf).spacing
  obtain ⟨n', dl', fl', hi', hdl', hfl', -, hout⟩ := h107 (exLimit T t)
  rw [hi] at hi'
  cases hi'
  rw [hdl] at hdl'
  cases hdl'
  rw [hfl] at hfl'
  cases hfl'
  obtain ⟨a, b, c, oa, ob, ⟨hi2, lo2, e3, rfl⟩, -, -, -, -, hfin⟩ := hout hD
  have hhot : ∀ H e, H = 50 ∨ H = 100 → Outside (exLimit T t) [(0, 0)] H e → 0 < e := by
    rintro H e hH ⟨hi, lo, h1, rfl⟩
    refine lt_max_of_lt_left (sub_pos.2 ?_)
    show T < hi
    linarith [exSingle_hot hH ((exLimit_extremes T t _ _ _ _).1 h1)]
  have hc : excess (exLimit T t) hi2 lo2 < 0 := by
    have hm : fl ∈ n.flatten := List.mem_flatten.2 ⟨dl, List.mem_of_getLast? hdl, List.mem_of_getLast? hfl⟩
    obtain ⟨x, y, h4, h5, h6, -⟩ := hK fl (hne fl hm) (hfive' fl hm).spacing
    obtain ⟨rfl, rfl⟩ := ((exLimit_extremes T t _ _ _ _).1 e3).unique h4
    have hlen : (N : ℝ) ≤ fl.length := by
      have : (N : ℤ) ≤ fl.length := by omega
      exact_mod_cast this
    generalize (fl.length : ℝ) = M at *
    have hk : K / M < 12 := by
      rw [div_lt_iff₀ (by linarith)]
      have := (le_max_left (K / 12) 3).trans_lt hN
      linarith
    exact max_lt (by show hi2 - T < 0; linarith) (by show t - lo2 < 0; linarith)
  refine ⟨N, T, t, n, hN3'.le, hi, hD, ?_⟩
  rcases hfin (fun d hd f hf => by
      rw [hfirst d hd] at hf
      cases hf
      exact ⟨a, b, oa, ob, hhot _ _ (.inl rfl) oa, hhot _ _ (.inr rfl) ob⟩) hc with
    ⟨d, k, f, e, k1, k2, k3, k4, k5⟩ | ⟨⟨d, k1, f, k2, k3⟩, -⟩ | ⟨d, k1, f, k2, x, e, k3, k4, k5⟩
  · refine .inl ⟨k, f, e, List.mem_flatten.2 ⟨d, k1, List.mem_of_getElem? k2⟩, k3, k4, ?_, k5⟩
    rintro rfl
    exact absurd k4 (not_le.2 (hhot _ _ (.inr rfl) k3))
  · exfalso
    have hf := List.mem_flatten.2 ⟨d, k1, k2⟩
    rcases k3 with k3 | k3
    · exact hnot f hf _ (.inl rfl) k3
    · exact hnot f hf _ (.inr rfl) k3
  · exact .inr ⟨f, List.mem_flatten.2 ⟨d, k1, k2⟩, x, e, k3, k4, k5⟩

end

end Ghedt.WholeSearch
