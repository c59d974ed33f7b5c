import Verif.Lemmas.RoundedZonedNested
import Verif.Props.RoundedZoned
import Verif.Props.RoundedFindings

/-!
# Nested zoned domains in double precision (C122) and what rounding changes in zoned domains (C121)
-/

set_option linter.unusedSectionVars false

namespace Ghedt.Rounded
open Coordinates Domains Spec

variable {K : Type} [Field K] [LinearOrder K] [IsStrictOrderedRing K] [FloorRing K] (R : Rounding K)

theorem three_le_rMin {L B : K} (hB : 0 < B) (h : (1 + tiny) * B ≤ L) : 3 ≤ rMin R L B := by
  have u0 := ur_pos (K := K)
  have u1 := ur_le (K := K)
  have u9 := tiny_ge (K := K)
  have q : 1 + tiny ≤ L / B := by rwa [le_div_iff₀ hB]
  have hq : 0 ≤ L / B := by linarith
  have : 2 < rMin R L B := by
    unfold rMin
    rw [Int.lt_ceil]
    push_cast
    refine lt_of_lt_of_le ?_ (le_countOf R hq)
    have a : (1 - ur) * (1 + 9 * ur) ≤ (1 - ur) * (L / B) := mul_le_mul_of_nonneg_left (by linarith) (by linarith)
    have b : (1 - ur) * ((1 - ur) * (1 + 9 * ur) + 1) ≤ (1 - ur) * ((1 - ur) * (L / B) + 1) :=
      mul_le_mul_of_nonneg_left (by linarith) (by linarith)
    refine lt_of_lt_of_le ?_ b
    have c : 0 < ur * (6 - 17 * ur + 9 * (ur * ur) : K) := mul_pos u0 (by nlinarith [mul_pos u0 u0])
    nlinarith
  omega

theorem spacing_ge {L B : K} (hL : 0 < L) (hB : 0 < B) {n : ℤ} (h2 : 2 ≤ n) (h : n ≤ rMax R L B) :
    (1 - tiny) * B ≤ L / ((n : K) - 1) := by
  have u0 := ur_pos (K := K)
  have u9 := tiny_ge (K := K)
  have hn := two_cast (K := K) h2
  have hc : (n : K) ≤ countOf R (L / B) := le_trans (by exact_mod_cast h) (Int.floor_le _)
  have a := count_fits R (div_pos hL hB).le hn hc
  have e : (1 + 4 * ur) * (L / B) = (1 + 4 * ur) * L / B := by ring
  rw [e, le_div_iff₀ hB] at a
  rw [le_div_iff₀ (by linarith)]
  have t : (0 : K) < 1 - tiny := by rw [tiny_eq]; norm_num
  have b : (1 - tiny) * (((n : K) - 1) * B) ≤ (1 - tiny) * ((1 + 4 * ur) * L) := mul_le_mul_of_nonneg_left a t.le
  have c : (1 - tiny) * (1 + 4 * ur) ≤ (1 : K) := by nlinarith
  have d : (1 - tiny) * (1 + 4 * ur) * L ≤ 1 * L := mul_le_mul_of_nonneg_right c hL.le
  nlinarith

theorem spacing_le' {L B : K} (hL : 0 < L) (hB : 0 < B) {n : ℤ} (h2 : 2 ≤ n) (h : rMin R L B ≤ n) :
    L / ((n : K) - 1) ≤ (1 + tiny) * B := by
  have u0 := ur_pos (K := K)
  have u9 := tiny_ge (K := K)
  have hn := two_cast (K := K) h2
  have hc : countOf R (L / B) ≤ (n : K) := (Int.le_ceil _).trans (by exact_mod_cast h)
  have a := count_enough R (div_pos hL hB).le hn hc
  rw [div_le_iff₀ hB] at a
  rw [div_le_iff₀ (by linarith)]
  refine a.trans ?_
  have : 0 ≤ ((n : K) - 1) * B := mul_nonneg (by linarith) hB.le
  nlinarith

/-- the run of `bi_rectangle_zoned_nested` in double precision -/
theorem zonedNested_run {X Y Bmin BX BY : K} (hX : 0 < X) (hY : 0 < Y) (rX : double X = X) (rY : double Y = Y)
    (hBmin : 0 < Bmin) (hBX : 0 < BX) (hBY : 0 < BY) {L1 L2 B1 B2 : K}
    (hL : (Y ≤ X ∧ L1 = X ∧ L2 = Y ∧ B1 = BX ∧ B2 = BY) ∨ (X < Y ∧ L1 = Y ∧ L2 = X ∧ B1 = BY ∧ B2 = BX))
    {N1 N2 M1 M2 : ℤ} (e1 : N1 = rMin Rounding.double L1 B1) (e2 : N2 = rMin Rounding.double L2 B2)
    (f1 : M1 = rMax Rounding.double L1 Bmin) (f2 : M2 = rMax Rounding.double L2 Bmin)
    (h1 : 3 ≤ N1) (h2 : 3 ≤ N2) (hM1 : N1 ≤ M1) (hM2 : N2 ≤ M2) (hM : M1 * M2 ≤ 10 ^ 15) {fuel : ℕ}
    (hfuel : M1 + M2 ≤ fuel) :
    ∃ (z0 : List (List (K × K))) (zs : List (List (List (K × K)))) (walk : List (ℤ × ℤ)),
      biRectangleZonedNested Rounding.double fuel X Y Bmin BX BY =
        .ok ((rStartup Rounding.double X Y N1 N2 (decide (X < Y)) ++ z0) :: zs) ∧
      UnitPath (N1, N2) (M1, M2) walk ∧
      (∀ (k : ℕ) p q, walk[k]? = some p → walk[k + 1]? = some q → AlternatingStep M1 M2 k p q) ∧
      List.Forall₂ (fun q z => zonedRectangleDomain Rounding.double fuel L1 L2 q.1 q.2 (decide (X < Y)) = .ok z)
        walk (z0 :: zs) := by
  have hpos : 0 < L1 ∧ 0 < L2 ∧ L2 ≤ L1 ∧ double L1 = L1 ∧ double L2 = L2 := by
    rcases hL with ⟨h, rfl, rfl, -, -⟩ | ⟨h, rfl, rfl, -, -⟩
    · exact ⟨hX, hY, h, rX, rY⟩
    · exact ⟨hY, hX, h.le, rY, rX⟩
  obtain ⟨hL1, hL2, hL12, r1, r2⟩ := hpos
  obtain ⟨ws, zs, hup, halt, hF, s, hs, hout⟩ := zonedNested_alternating Rounding.double (X := X) (Y := Y) (L1 := L1)
    (L2 := L2) (t := decide (X < Y)) h1 h2 hM1 hM2 (fuel := fuel) (by
      intro n1 n2 a b c d
      have hP : n1 * n2 ≤ 10 ^ 15 := le_trans (mul_le_mul b d (by omega) (by omega)) hM
      obtain ⟨-, d, -, -, hrun, -⟩ := zoned_core hL1 hL2 r1 r2 (nx := n1) (ny := n2) (by omega) (by omega) hP
        (decide (X < Y)) (.inl ⟨hL12, rfl, rfl, rfl, rfl⟩)
      exact ⟨_, hrun fuel (by omega)⟩)
  have hrun : biRectangleZonedNested Rounding.double fuel X Y Bmin BX BY = .ok s.out := by
    unfold biRectangleZonedNested
    rcases hL with ⟨h, rfl, rfl, rfl, rfl⟩ | ⟨h, rfl, rfl, rfl, rfl⟩
    · rw [if_pos h]
      dsimp only
      rw [div_ok _ hBmin.ne', Except.ok_bind, div_ok _ hBX.ne', Except.ok_bind,
        div_ok _ hBmin.ne', Except.ok_bind, div_ok _ hBY.ne', Except.ok_bind]
      rw [decide_eq_false (not_lt.mpr h)] at hs
      subst e1 e2 f1 f2
      unfold rMin rMax countOf at hs
      unfold add
      rw [hs]; rfl
    · rw [if_neg (not_le.mpr h)]
      dsimp only
      rw [div_ok _ hBmin.ne', Except.ok_bind, div_ok _ hBY.ne', Except.ok_bind,
        div_ok _ hBmin.ne', Except.ok_bind, div_ok _ hBX.ne', Except.ok_bind]
      rw [decide_eq_true h] at hs
      subst e1 e2 f1 f2
      unfold rMin rMax countOf at hs
      unfold add
      rw [hs]; rfl
  cases zs with
  | nil =>
    cases hF
    simp [UnitPath] at hup
  | cons z0 zs => exact ⟨z0, zs, ws, by rw [hrun, hout]; rfl, hup, halt, hF⟩

/-- C122: in double precision, as in exact arithmetic, `bi_rectangle_zoned_nested` returns whenever the land is longer than
the maximum spacing in each direction (by one part in `10^15` at least) and on each side some whole number of boreholes
keeps to the spacings given, at most `10^7` minimum spacings to a side.  The numbers of boreholes along the sides run from
`(N1, N2)` to `(M1, M2)` by one at a time, the two sides in turn.  The ranges include every count the spacings allow, and
only counts that keep to them up to one part in `10^15`.  Each pair of counts `(n1, n2)` gives `n1 + n2 - 5` fields of
strictly increasing size up to `n1 * n2` boreholes.  In front of the first come start-up shapes of `1, 2, 3, …` up to
`2 N1 + 2 N2 - 4` boreholes, the first at the origin.  No two boreholes of a field coincide, and when `length_x` is at least
`length_y` all are in the land up to one part in `10^15`. -/
theorem C122_zonedNested {X Y Bmin BX BY : K} (hX : 0 < X) (hY : 0 < Y) (rX : double X = X) (rY : double Y = Y)
    (hBmin : 0 < Bmin) (hBX : 0 < BX) (hBY : 0 < BY) (hX' : (1 + tiny) * BX ≤ X) (hY' : (1 + tiny) * BY ≤ Y)
    (hlo : max X Y ≤ 10 ^ 7 * Bmin) (hex : ∃ n : ℤ, X / BX + 1 ≤ n ∧ n ≤ X / Bmin + 1)
    (hey : ∃ n : ℤ, Y / BY + 1 ≤ n ∧ n ≤ Y / Bmin + 1) {fuel : ℕ} (hfuel : X / Bmin + Y / Bmin + 4 ≤ fuel)
    {L1 L2 B1 B2 : K}
    (hL : (Y ≤ X ∧ L1 = X ∧ L2 = Y ∧ B1 = BX ∧ B2 = BY) ∨ (X < Y ∧ L1 = Y ∧ L2 = X ∧ B1 = BY ∧ B2 = BX)) :
    ∃ (startup z0 : List (List (K × K))) (zs : List (List (List (K × K)))) (N1 N2 M1 M2 : ℤ) (walk : List (ℤ × ℤ)),
      biRectangleZonedNested Rounding.double fuel X Y Bmin BX BY = .ok ((startup ++ z0) :: zs) ∧
      (∀ n : ℤ, L1 / B1 + 1 ≤ n → n ≤ L1 / Bmin + 1 → N1 ≤ n ∧ n ≤ M1) ∧
      (∀ n : ℤ, L2 / B2 + 1 ≤ n → n ≤ L2 / Bmin + 1 → N2 ≤ n ∧ n ≤ M2) ∧
      (∀ n : ℤ, N1 ≤ n → n ≤ M1 → 3 ≤ n ∧ (1 - tiny) * Bmin ≤ L1 / ((n : K) - 1) ∧
        L1 / ((n : K) - 1) ≤ (1 + tiny) * B1) ∧
      (∀ n : ℤ, N2 ≤ n → n ≤ M2 → 3 ≤ n ∧ (1 - tiny) * Bmin ≤ L2 / ((n : K) - 1) ∧
        L2 / ((n : K) - 1) ≤ (1 + tiny) * B2) ∧
      UnitPath (N1, N2) (M1, M2) walk ∧
      (∀ (k : ℕ) p q, walk[k]? = some p → walk[k + 1]? = some q → AlternatingStep M1 M2 k p q) ∧
      startup.map (fun f => (f.length : ℤ)) = pyRange 1 (2 * N1 + 2 * N2 - 3) ∧ startup.head? = some [(0, 0)] ∧
      (∀ f ∈ startup, f.Nodup) ∧
      List.Forall₂ (fun q z => (z.length : ℤ) = q.1 + q.2 - 5 ∧ SizesStrictlyIncrease z ∧
          (∃ f, z.getLast? = some f ∧ (f.length : ℤ) = q.1 * q.2) ∧
          ∀ f ∈ z, f.Nodup ∧ 2 * q.1 + 2 * q.2 - 4 < (f.length : ℤ)) walk (z0 :: zs) ∧
      (∀ d ∈ (startup ++ z0) :: zs, d ≠ [] ∧ SizesStrictlyIncrease d) ∧
      (Y ≤ X → ∀ d ∈ (startup ++ z0) :: zs, DomainInLand ((1 + tiny) * X) ((1 + tiny) * Y) d) := by
  have hpos : 0 < L1 ∧ 0 < L2 ∧ L2 ≤ L1 ∧ double L1 = L1 ∧ double L2 = L2 ∧ 0 < B1 ∧ 0 < B2 ∧ (1 + tiny) * B1 ≤ L1 ∧
      (1 + tiny) * B2 ≤ L2 ∧ L1 ≤ 10 ^ 7 * Bmin ∧ L2 ≤ 10 ^ 7 * Bmin ∧
      (∃ n : ℤ, L1 / B1 + 1 ≤ n ∧ n ≤ L1 / Bmin + 1) ∧ (∃ n : ℤ, L2 / B2 + 1 ≤ n ∧ n ≤ L2 / Bmin + 1) ∧
      L1 / Bmin + L2 / Bmin + 4 ≤ fuel := by
    have a := (le_max_left X Y).trans hlo
    have b := (le_max_right X Y).trans hlo
    rcases hL with ⟨h, rfl, rfl, rfl, rfl⟩ | ⟨h, rfl, rfl, rfl, rfl⟩
    · exact ⟨hX, hY, h, rX, rY, hBX, hBY, hX', hY', a, b, hex, hey, hfuel⟩
    · exact ⟨hY, hX, h.le, rY, rX, hBY, hBX, hY', hX', b, a, hey, hex, by linarith⟩
  obtain ⟨hL1, hL2, hL12, r1, r2, hB1, hB2, c1, c2, l1, l2, ⟨m1, hm1, hm1'⟩, ⟨m2, hm2, hm2'⟩, hfu⟩ := hpos
  have adm : ∀ {L B : K} {n : ℤ}, 0 < L → 0 < B → L ≤ 10 ^ 7 * Bmin → L / B + 1 ≤ n → n ≤ L / Bmin + 1 →
      rMin Rounding.double L B ≤ n ∧ n ≤ rMax Rounding.double L Bmin := by
    intro L B n hL hB h h1 h2
    have h53 : n ≤ 2 ^ 53 := by
      have : L / Bmin ≤ 10 ^ 7 := by rwa [div_le_iff₀ hBmin]
      have : (n : K) ≤ ((2 ^ 53 : ℤ) : K) := by
        refine h2.trans ?_
        push_cast
        have : (10 : K) ^ 7 + 1 ≤ 2 ^ 53 := by norm_num
        linarith
      exact_mod_cast this
    have : (1 : K) < n := by have := div_pos hL hB; linarith
    have : (1 : ℤ) < n := by exact_mod_cast this
    exact ⟨rMin_le_ceil _ hL hB h53 h1, floor_le_rMax _ (by omega) h53 h2⟩
  have hN1 := three_le_rMin Rounding.double hB1 c1
  have hN2 := three_le_rMin Rounding.double hB2 c2
  obtain ⟨a1, a1'⟩ := adm hL1 hB1 l1 hm1 hm1'
  obtain ⟨a2, a2'⟩ := adm hL2 hB2 l2 hm2 hm2'
  have q1 : L1 / Bmin ≤ 10 ^ 7 := by rwa [div_le_iff₀ hBmin]
  have q2 : L2 / Bmin ≤ 10 ^ 7 := by rwa [div_le_iff₀ hBmin]
  have k1 := (rMax_le Rounding.double hL1 hBmin (c := L1 / Bmin) (div_pos hL1 hBmin).le
    (q1.trans (by norm_num)) (div_mul_cancel₀ _ hBmin.ne').ge).1
  have k2 := (rMax_le Rounding.double hL2 hBmin (c := L2 / Bmin) (div_pos hL2 hBmin).le
    (q2.trans (by norm_num)) (div_mul_cancel₀ _ hBmin.ne').ge).1
  obtain ⟨N1, e1⟩ : ∃ N, N = rMin Rounding.double L1 B1 := ⟨_, rfl⟩
  obtain ⟨N2, e2⟩ : ∃ N, N = rMin Rounding.double L2 B2 := ⟨_, rfl⟩
  obtain ⟨M1, f1⟩ : ∃ M, M = rMax Rounding.double L1 Bmin := ⟨_, rfl⟩
  obtain ⟨M2, f2⟩ : ∃ M, M = rMax Rounding.double L2 Bmin := ⟨_, rfl⟩
  rw [← e1] at hN1 a1
  rw [← e2] at hN2 a2
  rw [← f1] at k1 a1'
  rw [← f2] at k2 a2'
  have b1 : M1 ≤ 10 ^ 7 + 2 := by
    have : (M1 : K) ≤ ((10 ^ 7 + 2 : ℤ) : K) := by push_cast; linarith
    exact_mod_cast this
  have b2 : M2 ≤ 10 ^ 7 + 2 := by
    have : (M2 : K) ≤ ((10 ^ 7 + 2 : ℤ) : K) := by push_cast; linarith
    exact_mod_cast this
  have hM : M1 * M2 ≤ 10 ^ 15 := (mul_le_mul b1 b2 (by omega) (by norm_num)).trans (by norm_num)
  have hfu' : M1 + M2 ≤ fuel := by
    have : ((M1 + M2 : ℤ) : K) ≤ ((fuel : ℤ) : K) := by push_cast; linarith
    exact_mod_cast this
  obtain ⟨z0, zs, walk, hrun, hup, halt, hF⟩ := zonedNested_run hX hY rX rY hBmin hBX hBY hL e1 e2 f1 f2 hN1 hN2
    (a1.trans a1') (a2.trans a2') hM hfu'
  have hbd := unitPath_bounds hup
  -- the zoned domains
  have hz : ∀ q ∈ walk, ∀ z, zonedRectangleDomain Rounding.double fuel L1 L2 q.1 q.2 (decide (X < Y)) = .ok z →
      ((z.length : ℤ) = q.1 + q.2 - 5 ∧ SizesStrictlyIncrease z ∧
          (∃ f, z.getLast? = some f ∧ (f.length : ℤ) = q.1 * q.2) ∧
          ∀ f ∈ z, f.Nodup ∧ 2 * q.1 + 2 * q.2 - 4 < (f.length : ℤ)) ∧
      (Y ≤ X → DomainInLand ((1 + tiny) * X) ((1 + tiny) * Y) z) := by
    intro q hq z hqz
    have := hbd q hq
    dsimp only at this
    obtain ⟨h1, h2, h3, h4⟩ := this
    obtain ⟨-, d, -, -, hr, -, -, -, -, hlen, hinc, hlast, hf⟩ := zoned_facts hL1 hL2 r1 r2 (nx := q.1) (ny := q.2)
      (by omega) (by omega) (le_trans (mul_le_mul h3 h4 (by omega) (by omega)) hM) (decide (X < Y))
      (.inl ⟨hL12, rfl, rfl, rfl, rfl⟩)
    rw [hr fuel (by omega)] at hqz
    cases hqz
    refine ⟨⟨hlen, hinc, hlast, fun f h => ⟨(hf f h).1, (hf f h).2.1⟩⟩, ?_⟩
    intro hXY f h
    rcases hL with ⟨-, rfl, rfl, -, -⟩ | ⟨h, -⟩
    · exact (hf f h).2.2 (decide_eq_false (not_lt.mpr hXY))
    · exact absurd hXY (not_le.mpr h)
  -- the start-up shapes
  have p1 : (0 : K) < ((N1 - 1 : ℤ) : K) := by exact_mod_cast (by omega : 0 < N1 - 1)
  have p2 : (0 : K) < ((N2 - 1 : ℤ) : K) := by exact_mod_cast (by omega : 0 < N2 - 1)
  have hst := near_startup Rounding.double hX hY (by omega : 2 ≤ N1) (by omega : 2 ≤ N2) (decide (X < Y))
  have hsl : (rStartup Rounding.double X Y N1 N2 (decide (X < Y))).map (fun f => (f.length : ℤ)) =
      pyRange 1 (2 * N1 + 2 * N2 - 3) := by
    have h := congrArg (List.map fun n : ℕ => (n : ℤ)) (nearDomain_sizes hst)
    rw [List.map_map, List.map_map] at h
    rw [← map_length_startup (K := K) (by omega : 2 ≤ N1) (by omega : 2 ≤ N2)]
    exact h
  obtain ⟨s1, s2, s3⟩ := sizes_startup (K := K) (by omega : 2 ≤ N1) (by omega : 2 ≤ N2)
    (X / ((N1 - 1 : ℤ) : K)) (Y / ((N2 - 1 : ℤ) : K)) (decide (X < Y))
  have hnd := nodup_startup Rounding.double hX hY (by omega : 2 ≤ N1) (by omega : 2 ≤ N2) (by omega) (by omega)
    (decide (X < Y))
  have hhead : (rStartup Rounding.double X Y N1 N2 (decide (X < Y))).head? = some [(0, 0)] := by
    unfold NearDomain at hst
    revert hst s3
    generalize rStartup Rounding.double X Y N1 N2 (decide (X < Y)) = st
    generalize startupFields N1 N2 (X / ((N1 - 1 : ℤ) : K)) (Y / ((N2 - 1 : ℤ) : K)) (decide (X < Y)) = st'
    intro hst s3
    cases hst with
    | nil => simp at s3
    | @cons a b l m hab _ =>
      simp only [List.head?_cons, Option.some.injEq] at s3 ⊢
      subst s3
      unfold Near at hab
      cases hab with
      | cons h0 ht =>
        cases ht
        unfold NearPoint at h0
        simp only [sub_zero, abs_zero, mul_zero, abs_nonpos_iff] at h0
        rw [List.cons.injEq]
        exact ⟨Prod.ext h0.1 h0.2, rfl⟩
  obtain ⟨w0, ws, rfl⟩ : ∃ w0 ws, walk = w0 :: ws := by
    cases walk with
    | nil => cases hF
    | cons a l => exact ⟨_, _, rfl⟩
  obtain ⟨hz0, hzs⟩ := List.forall₂_cons.1 hF
  have hw0 : w0 = (N1, N2) := by simpa using hup.1
  subst hw0
  have z0f := hz (N1, N2) (by simp) z0 hz0
  dsimp only at z0f
  refine ⟨_, z0, zs, N1, N2, M1, M2, _, hrun, ?_, ?_, ?_, ?_, hup, halt, hsl, hhead, hnd, ?_, ?_, ?_⟩
  · intro n h h'
    rw [e1, f1]; exact adm hL1 hB1 l1 h h'
  · intro n h h'
    rw [e2, f2]; exact adm hL2 hB2 l2 h h'
  · intro n h h'
    exact ⟨by omega, spacing_ge _ hL1 hBmin (by omega) (by rw [← f1]; exact h'),
      spacing_le' _ hL1 hB1 (by omega) (by rw [← e1]; exact h)⟩
  · intro n h h'
    exact ⟨by omega, spacing_ge _ hL2 hBmin (by omega) (by rw [← f2]; exact h'),
      spacing_le' _ hL2 hB2 (by omega) (by rw [← e2]; exact h)⟩
  · have : ∀ (l : List (ℤ × ℤ)) (m : List (List (List (K × K)))), (∀ q ∈ l, q ∈ (N1, N2) :: ws) →
        List.Forall₂ (fun q z => zonedRectangleDomain Rounding.double fuel L1 L2 q.1 q.2 (decide (X < Y)) = .ok z) l m →
        List.Forall₂ (fun q z => (z.length : ℤ) = q.1 + q.2 - 5 ∧ SizesStrictlyIncrease z ∧
          (∃ f, z.getLast? = some f ∧ (f.length : ℤ) = q.1 * q.2) ∧
          ∀ f ∈ z, f.Nodup ∧ 2 * q.1 + 2 * q.2 - 4 < (f.length : ℤ)) l m := by
      intro l m hl h
      induction h with
      | nil => exact List.Forall₂.nil
      | cons h _ ih =>
        exact List.Forall₂.cons (hz _ (hl _ (by simp)) _ h).1 (ih fun q hq => hl q (by simp [hq]))
    exact this _ _ (fun q hq => hq) hF
  · intro d hd
    rw [List.mem_cons] at hd
    rcases hd with rfl | hd
    · refine ⟨?_, ?_⟩
      · intro h
        rw [List.append_eq_nil_iff] at h
        rw [h.1] at hhead
        simp at hhead
      · have hs1 : SizesStrictlyIncrease (rStartup Rounding.double X Y N1 N2 (decide (X < Y))) := by
          unfold SizesStrictlyIncrease at s1 ⊢
          rw [← List.pairwise_map (f := List.length) (R := fun a b => a < b)] at s1 ⊢
          rw [nearDomain_sizes hst]; exact s1
        unfold SizesStrictlyIncrease at hs1 ⊢
        rw [List.pairwise_append]
        refine ⟨hs1, z0f.1.2.1, ?_⟩
        intro f hf g hg
        obtain ⟨f', hf', hff⟩ := forall₂_mem_right hst.flip f hf
        have := s2 f' hf'
        have := near_length hff
        have := (z0f.1.2.2.2 g hg).2
        omega
    · obtain ⟨q, hq, h⟩ := forall₂_mem_right hzs d hd
      have hb := hbd q (by simp [hq])
      dsimp only at hb
      obtain ⟨⟨g1, g2, -, -⟩, -⟩ := hz q (by simp [hq]) d h
      refine ⟨?_, g2⟩
      rintro rfl
      simp at g1
      omega
  · intro hXY d hd
    rw [List.mem_cons] at hd
    rcases hd with rfl | hd
    · intro f hf
      rw [List.mem_append] at hf
      rcases hf with hf | hf
      · obtain ⟨f', hf', hff⟩ := forall₂_mem_right hst.flip f hf
        rw [decide_eq_false (not_lt.mpr hXY)] at hf'
        have := startup_inLand (by omega) (by omega) (div_pos hX p1).le (div_pos hY p2).le f' hf'
        rw [mul_div_cancel₀ _ p1.ne', mul_div_cancel₀ _ p2.ne'] at this
        exact near_inLand hff this
      · exact z0f.2 hXY f hf
    · obtain ⟨q, hq, h⟩ := forall₂_mem_right hzs d hd
      exact (hz q (by simp [hq]) d h).2 hXY

/-- a land of 20 m × 15 m with spacings from 3 m to 5 m and 7.5 m meets the hypotheses -/
example : double (20 : ℚ) = 20 ∧ double (15 : ℚ) = 15 ∧ (1 + tiny : ℚ) * 5 ≤ 20 ∧ (1 + tiny : ℚ) * (15 / 2) ≤ 15 ∧
    max (20 : ℚ) 15 ≤ 10 ^ 7 * 3 ∧ (20 / 5 + 1 : ℚ) ≤ (5 : ℤ) ∧ ((5 : ℤ) : ℚ) ≤ 20 / 3 + 1 ∧
    (15 / (15 / 2) + 1 : ℚ) ≤ (3 : ℤ) ∧ ((3 : ℤ) : ℚ) ≤ 15 / 3 + 1 := by
  unfold tiny
  decide +kernel

open Design in
/-- C122, the design object: under the hypotheses of `C122_zonedNested`, `Design` with routine `bi-zoned` returns these
domains. -/
theorem C122_design (gc : Constraints K) {X Y Bmin BX BY : K} (hX : 0 < X) (hY : 0 < Y) (rX : double X = X)
    (rY : double Y = Y) (hBmin : 0 < Bmin) (hBX : 0 < BX) (hBY : 0 < BY) (hX' : (1 + tiny) * BX ≤ X)
    (hY' : (1 + tiny) * BY ≤ Y) (hlo : max X Y ≤ 10 ^ 7 * Bmin) (hex : ∃ n : ℤ, X / BX + 1 ≤ n ∧ n ≤ X / Bmin + 1)
    (hey : ∃ n : ℤ, Y / BY + 1 ≤ n ∧ n ≤ Y / Bmin + 1) {fuel : ℕ} (hfuel : X / Bmin + Y / Bmin + 4 ≤ fuel)
    (h1 : gc.length = some X) (h2 : gc.width = some Y) (h3 : gc.Bmin = some Bmin) (h4 : gc.BmaxX = some BX)
    (h5 : gc.BmaxY = some BY) :
    ∃ d, biRectangleZonedNested Rounding.double fuel X Y Bmin BX BY = .ok d ∧ d ≠ [] ∧ (∀ e ∈ d, e ≠ []) ∧
      designInit Rounding.double fuel gc "bi-zoned" = .ok (.nested d) := by
  obtain ⟨L1, L2, B1, B2, hL⟩ : ∃ L1 L2 B1 B2 : K, (Y ≤ X ∧ L1 = X ∧ L2 = Y ∧ B1 = BX ∧ B2 = BY) ∨
      (X < Y ∧ L1 = Y ∧ L2 = X ∧ B1 = BY ∧ B2 = BX) := by
    rcases le_or_gt Y X with h | h
    · exact ⟨_, _, _, _, Or.inl ⟨h, rfl, rfl, rfl, rfl⟩⟩
    · exact ⟨_, _, _, _, Or.inr ⟨h, rfl, rfl, rfl, rfl⟩⟩
  obtain ⟨st, z0, zs, _, _, _, _, _, hd, -, -, -, -, -, -, -, -, -, -, hne, -⟩ :=
    C122_zonedNested hX hY rX rY hBmin hBX hBY hX' hY' hlo hex hey hfuel hL
  refine ⟨_, hd, by simp, fun e he => (hne e he).1, ?_⟩
  unfold designInit checkInputs
  rw [if_neg (by decide), if_neg (by decide), if_neg (by decide), if_neg (by decide), if_neg (by decide), if_pos rfl]
  simp only [h1, h2, h3, h4, h5, pyAssert, arg, Option.isSome_some, if_true, Except.ok_bind, hd, Except.pure_eq]

/-- C121, ties are decided by rounding errors: on a land of 20 m × 15 m with 5 × 5 boreholes the third zoned field has
`2 × 2` boreholes in its interior in exact arithmetic, but `3 × 1` in double precision. -/
theorem C121_tie :
    ∃ d d', Domains.zonedRectangleDomain 10 (20 : ℚ) 15 5 5 false = .ok d ∧
      zonedRectangleDomain dbl 10 20 15 5 5 false = .ok d' ∧
      d.map List.length = [17, 18, 20, 22, 25] ∧ d'.map List.length = [17, 18, 19, 22, 25] := by
  have h1 : (Domains.zonedRectangleDomain 10 (20 : ℚ) 15 5 5 false).map (fun d => d.map List.length) =
      .ok [17, 18, 20, 22, 25] := by decide +kernel
  have h2 : (zonedRectangleDomain dbl 10 20 15 5 5 false).map (fun d => d.map List.length) =
      .ok [17, 18, 19, 22, 25] := by decide +kernel
  obtain ⟨d, e1, a1⟩ := ok_of_map h1
  obtain ⟨d', e2, a2⟩ := ok_of_map h2
  exact ⟨d, d', e1, e2, a1, a2⟩

/-- C121, a land barely longer than the maximum spacing: the double next above 7 m leaves three boreholes along the side in
exact arithmetic, but in double precision two, on which the zoned field raises a `ValueError`. -/
theorem C121_barely_longer :
    ∃ X d, X = 7 + 1 / 2 ^ 50 ∧ double X = X ∧ Domains.biRectangleZonedNested 40 (X : ℚ) 6 3 7 5 = .ok d ∧
      biRectangleZonedNested dbl 40 X 6 3 7 5 = .error .valueError := by
  have h1 : (Domains.biRectangleZonedNested 40 (7 + 1 / 2 ^ 50 : ℚ) 6 3 7 5).map (fun _ => ()) = .ok () := by
    decide +kernel
  obtain ⟨d, e1, -⟩ := ok_of_map h1
  exact ⟨_, d, rfl, by decide +kernel, e1, by decide +kernel⟩

end Ghedt.Rounded
