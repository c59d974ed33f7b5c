import Verif.Props.Domains

/-!
# The fields of the nested zoned domains (C17)
-/

set_option linter.unusedSectionVars false

namespace Ghedt.Domains
open Ghedt.Spec Ghedt.Coordinates

variable {K : Type} [Field K] [LinearOrder K] [IsStrictOrderedRing K]

theorem nodup_maybeTranspose {t : Bool} {f : List (K × K)} (h : f.Nodup) : (maybeTranspose t f).Nodup := by
  unfold maybeTranspose transposeCoordinates
  split_ifs
  · exact h.map fun a b e => by
      rw [Prod.mk.injEq] at e
      exact Prod.ext e.2 e.1
  · exact h

theorem startup_nodup {N1 N2 : ℤ} (h1 : 2 ≤ N1) (h2 : 2 ≤ N2) {bx bY : K} (hx : 0 < bx) (hy : 0 < bY) (t : Bool) :
    ∀ f ∈ startupFields N1 N2 bx bY t, f.Nodup := by
  intro f hf
  simp only [startupFields, List.mem_append, List.mem_map, mem_pyRange] at hf
  rcases hf with ((⟨i, hi, rfl⟩ | ⟨i, hi, rfl⟩) | ⟨i, hi, rfl⟩) | ⟨i, hi, rfl⟩
  · exact nodup_maybeTranspose (nodup_lattice hx hy _)
  · exact nodup_maybeTranspose (nodup_lInts.map (toPt_injective hx hy))
  · exact nodup_maybeTranspose ((nodup_lopUInts h1).map (toPt_injective hx hy))
  · exact nodup_maybeTranspose ((nodup_cInts h1 h2 (by omega)).map (toPt_injective hx hy))

theorem startup_ne {N1 N2 : ℤ} (h1 : 2 ≤ N1) (h2 : 2 ≤ N2) {bx bY : K} (t : Bool) :
    ∀ f ∈ startupFields N1 N2 bx bY t, f ≠ [] := by
  intro f hf
  have h := map_length_startup h1 h2 bx bY t
  have : (f.length : ℤ) ∈ pyRange 1 (2 * N1 + 2 * N2 - 3) := by
    rw [← h]
    exact List.mem_map_of_mem hf
  rw [mem_pyRange] at this
  rintro rfl
  simp at this

section
variable [FloorRing K]

/-- C17: whichever side of the land is the longer one, no field of a nested zoned domain is empty or has two boreholes at
one place; the first field is the single borehole at the origin, and the last field of the last domain is as large as
any could be, with a borehole for each pair of the largest numbers along both sides. -/
theorem C17_zonedNested_distinct {X Y Bmin BX BY : K} (hX : 0 < X) (hY : 0 < Y) (hBmin : 0 < Bmin)
    (hBX : 0 < BX) (hBY : 0 < BY) (hX' : BX < X) (hY' : BY < Y)
    (h1 : ⌈X / BX + 1⌉ ≤ ⌊X / Bmin + 1⌋) (h2 : ⌈Y / BY + 1⌉ ≤ ⌊Y / Bmin + 1⌋) {fuel : ℕ}
    (hfuel : ⌊X / Bmin + 1⌋ + ⌊Y / Bmin + 1⌋ ≤ fuel) :
    ∃ d0 ds, biRectangleZonedNested fuel X Y Bmin BX BY = .ok (d0 :: ds) ∧ d0.head? = some [(0, 0)] ∧
      (∀ d ∈ d0 :: ds, d ≠ [] ∧ ∀ f ∈ d, f ≠ [] ∧ f.Nodup) ∧
      ∃ dl fl, (d0 :: ds).getLast? = some dl ∧ dl.getLast? = some fl ∧
        (fl.length : ℤ) = ⌊X / Bmin + 1⌋ * ⌊Y / Bmin + 1⌋ := by
  obtain ⟨L1, L2, N1, N2, hS, hM, hN, hm, hp⟩ : ∃ (L1 L2 : K) (N1 N2 : ℤ),
      Sides X Y Bmin BX BY L1 L2 N1 ⌊L1 / Bmin + 1⌋ N2 ⌊L2 / Bmin + 1⌋ ∧
      (N1 ≤ ⌊L1 / Bmin + 1⌋ ∧ N2 ≤ ⌊L2 / Bmin + 1⌋ ∧ ⌊L1 / Bmin + 1⌋ + ⌊L2 / Bmin + 1⌋ ≤ fuel) ∧
      (3 ≤ N1 ∧ 3 ≤ N2) ∧ (⌊X / Bmin + 1⌋ * ⌊Y / Bmin + 1⌋ = ⌊L1 / Bmin + 1⌋ * ⌊L2 / Bmin + 1⌋) ∧
      0 < L1 ∧ 0 < L2 ∧ L2 ≤ L1 := by
    rcases le_or_gt Y X with h | h
    · exact ⟨X, Y, _, _, ⟨.inl ⟨h, rfl, rfl, rfl, rfl⟩, rfl, rfl⟩, ⟨h1, h2, hfuel⟩,
        ⟨ceil_ge_three hBX hX', ceil_ge_three hBY hY'⟩, rfl, hX, hY, h⟩
    · exact ⟨Y, X, _, _, ⟨.inr ⟨h, rfl, rfl, rfl, rfl⟩, rfl, rfl⟩, ⟨h2, h1, by omega⟩,
        ⟨ceil_ge_three hBY hY', ceil_ge_three hBX hX'⟩, mul_comm _ _, hY, hX, h.le⟩
  obtain ⟨hL1, hL2, hL12⟩ := hp
  obtain ⟨n1, n2⟩ := hN
  obtain ⟨m1, m2, m3⟩ := hM
  obtain ⟨st, z0, zs, walk, hrun, hup, -, hF, hst⟩ := zonedNested_core hX hY hBmin hBX hBY hX' hY' hS m1 m2 m3
  have q1 : (0 : K) < ((N1 - 1 : ℤ) : K) := by exact_mod_cast (by omega : 0 < N1 - 1)
  have q2 : (0 : K) < ((N2 - 1 : ℤ) : K) := by exact_mod_cast (by omega : 0 < N2 - 1)
  have hz : ∀ q z, q ∈ walk → zonedRectangleDomain fuel L1 L2 q.1 q.2 (decide (X < Y)) = .ok z →
      (z ≠ [] ∧ ∀ f ∈ z, f ≠ [] ∧ f.Nodup) ∧ ∃ fl, z.getLast? = some fl ∧ (fl.length : ℤ) = q.1 * q.2 := by
    intro q z hq hz
    have hb := unitPath_bounds hup q hq
    dsimp only at hb
    obtain ⟨path, z1, fields, hp, hl, hz1, hF1, hrun1⟩ := zonedRectangleDomain_spec hL1 hL2 (decide (X < Y))
      (nx := q.1) (ny := q.2) (n1 := q.1) (n2 := q.2) (L1 := L1) (L2 := L2)
      (by rw [if_pos hL12]) (by omega) (by omega)
    obtain ⟨d, path', hrun', -, -, -, -, hlast⟩ := C14_zoned_domain hL1 hL2 (nx := q.1)
      (ny := q.2) (by omega) (by omega) (decide (X < Y)) (n1 := q.1) (n2 := q.2) (Or.inl ⟨hL12, rfl, rfl⟩)
    have e1 := hrun' fuel (by omega)
    rw [hz] at e1
    cases e1
    have e2 := hrun1 fuel (by omega)
    rw [hz] at e2
    cases e2
    have p1 : (0 : K) < ((q.1 - 1 : ℤ) : K) := by exact_mod_cast (by omega : 0 < q.1 - 1)
    have p2 : (0 : K) < ((q.2 - 1 : ℤ) : K) := by exact_mod_cast (by omega : 0 < q.2 - 1)
    have key : ∀ (a b : ℤ) (f : List (K × K)), 1 ≤ a → 1 ≤ b → a ≤ q.1 - 2 → b ≤ q.2 - 2 →
        zonedRectangle q.1 q.2 (L1 / ((q.1 - 1 : ℤ) : K)) (L2 / ((q.2 - 1 : ℤ) : K)) a b = .ok f →
        f ≠ [] ∧ f.Nodup := by
      intro a b f k1 k2 k3 k4 hf
      obtain ⟨o, i, e, -, l1, l2, -, -, hnd⟩ := C05_zonedRectangle_content k1 k2 k3 k4 (div_pos hL1 p1) (div_pos hL2 p2)
      rw [hf] at e
      cases e
      refine ⟨?_, hnd⟩
      intro h0
      have : o.length = 0 := by
        rw [(List.append_eq_nil_iff.1 h0).1]
        rfl
      omega
    refine ⟨⟨by simp, ?_⟩, hlast⟩
    intro f hf
    rcases List.mem_cons.1 hf with rfl | hf
    · exact key 1 1 _ le_rfl le_rfl (by omega) (by omega) hz1
    · obtain ⟨g, hg, rfl⟩ := List.mem_map.1 hf
      obtain ⟨w, hw, hwg⟩ := forall₂_mem_right hF1 g hg
      have hwb := unitPath_bounds hp w (List.mem_cons_of_mem _ hw)
      dsimp only at hwb
      obtain ⟨g1, g2⟩ := key w.1 w.2 g hwb.1 hwb.2.1 hwb.2.2.1 hwb.2.2.2 hwg
      refine ⟨?_, nodup_maybeTranspose g2⟩
      intro h0
      have := congrArg List.length h0
      rw [length_maybeTranspose] at this
      exact g1 (List.length_eq_zero_iff.1 this)
  have hsz := sizes_startup (K := K) (by omega : 2 ≤ N1) (by omega : 2 ≤ N2) (X / ((N1 - 1 : ℤ) : K))
    (Y / ((N2 - 1 : ℤ) : K)) (decide (X < Y))
  rw [← hst] at hsz
  have hst0 : st ≠ [] := by
    rintro rfl
    simp at hsz
  have hz0 : ∃ q ∈ walk, zonedRectangleDomain fuel L1 L2 q.1 q.2 (decide (X < Y)) = .ok z0 :=
    forall₂_mem_right hF z0 List.mem_cons_self
  refine ⟨_, _, hrun, ?_, ?_, ?_⟩
  · rw [List.head?_append, hsz.2.2]
    rfl
  · intro d hd
    rcases List.mem_cons.1 hd with rfl | hd
    · obtain ⟨q, hq, hqz⟩ := hz0
      refine ⟨by simp [hst0], ?_⟩
      intro f hf
      rcases List.mem_append.1 hf with hf | hf
      · rw [hst] at hf
        exact ⟨startup_ne (by omega) (by omega) _ f hf,
          startup_nodup (by omega) (by omega) (div_pos hX q1) (div_pos hY q2) _ f hf⟩
      · exact (hz q z0 hq hqz).1.2 f hf
    · obtain ⟨q, hq, hqd⟩ := forall₂_mem_right hF d (List.mem_cons_of_mem _ hd)
      exact (hz q d hq hqd).1
  · obtain ⟨zl, hzl⟩ : ∃ zl, (z0 :: zs).getLast? = some zl := ⟨_, List.getLast?_eq_some_getLast (by simp)⟩
    have hlw : zonedRectangleDomain fuel L1 L2 ⌊L1 / Bmin + 1⌋ ⌊L2 / Bmin + 1⌋ (decide (X < Y)) = .ok zl := by
      have hlen := hF.length_eq
      have e1 := hup.2.1
      rw [List.getLast?_eq_getElem?] at e1 hzl
      rw [← hlen] at hzl
      have i1 : walk.length - 1 < walk.length := by
        by_contra hcon
        rw [List.getElem?_eq_none (by omega)] at e1
        cases e1
      have := (List.forall₂_iff_get.1 hF).2 (walk.length - 1) i1 (by omega)
      rw [List.getElem?_eq_getElem i1] at e1
      rw [List.getElem?_eq_getElem (by omega)] at hzl
      simp only [List.get_eq_getElem] at this
      rw [Option.some.inj e1, Option.some.inj hzl] at this
      exact this
    obtain ⟨-, fl, hfl, hcount⟩ := hz _ zl (List.mem_of_getLast? hup.2.1) hlw
    rw [hm]
    cases zs with
    | nil =>
      cases hzl
      have hfl : z0.getLast? = some fl := hfl
      exact ⟨st ++ z0, fl, rfl, by rw [List.getLast?_append, hfl]; rfl, hcount⟩
    | cons z1 zs =>
      exact ⟨zl, fl, by rw [List.getLast?_cons_of_ne_nil (by simp)] at hzl ⊢; exact hzl, hfl, hcount⟩

theorem zonedNested_eq {X Y Bmin BX BY : K} (hBmin : 0 < Bmin) (hBX : 0 < BX) (hBY : 0 < BY) {L1 L2 : K}
    {N1 M1 N2 M2 : ℤ} (hS : Sides X Y Bmin BX BY L1 L2 N1 M1 N2 M2) (fuel : ℕ) :
    biRectangleZonedNested fuel X Y Bmin BX BY = (do
      let s ← (pyRange 0 (((pyRange N1 (M1 + 1)).length : ℤ) + (pyRange N2 (M2 + 1)).length - 1)).foldlM
        (zonedNestedStep fuel X Y L1 L2 (decide (X < Y)) N1 N2 (pyRange N1 (M1 + 1)) (pyRange N2 (M2 + 1)))
        ⟨0, 0, 0, []⟩
      return s.out) := by
  unfold biRectangleZonedNested
  rcases hS.orient with ⟨h, rfl, rfl, rfl, rfl⟩ | ⟨h, rfl, rfl, rfl, rfl⟩
  · rw [if_pos h, decide_eq_false (not_lt.mpr h)]
    dsimp only
    rw [pyDiv_ok hBmin.ne', Except.ok_bind, pyDiv_ok hBX.ne', Except.ok_bind,
      pyDiv_ok hBmin.ne', Except.ok_bind, pyDiv_ok hBY.ne', Except.ok_bind, ← hS.m1, ← hS.m2]
  · rw [if_neg (not_le.mpr h), decide_eq_true h]
    dsimp only
    rw [pyDiv_ok hBmin.ne', Except.ok_bind, pyDiv_ok hBY.ne', Except.ok_bind,
      pyDiv_ok hBmin.ne', Except.ok_bind, pyDiv_ok hBX.ne', Except.ok_bind, ← hS.m1, ← hS.m2]

/-- C16, guards: with no admissible number of boreholes along one side, either the result is empty (if for the two sides
together there is at most one) or `IndexError` is raised; if there are admissible numbers, but a side is not longer than
the maximum spacing along it, `ValueError` is raised. -/
theorem C16_zonedNested_guards {X Y Bmin BX BY : K} (hX : 0 < X) (hY : 0 < Y) (hBmin : 0 < Bmin)
    (hBX : 0 < BX) (hBY : 0 < BY) (fuel : ℕ) :
    (¬ (⌈X / BX + 1⌉ ≤ ⌊X / Bmin + 1⌋ ∧ ⌈Y / BY + 1⌉ ≤ ⌊Y / Bmin + 1⌋) →
      biRectangleZonedNested fuel X Y Bmin BX BY =
        if ⌊X / Bmin + 1⌋ ≤ ⌈X / BX + 1⌉ ∧ ⌊Y / Bmin + 1⌋ ≤ ⌈Y / BY + 1⌉ then .ok [] else .error .indexError) ∧
    (⌈X / BX + 1⌉ ≤ ⌊X / Bmin + 1⌋ → ⌈Y / BY + 1⌉ ≤ ⌊Y / Bmin + 1⌋ → X ≤ BX ∨ Y ≤ BY →
      biRectangleZonedNested fuel X Y Bmin BX BY = .error .valueError) := by
  have small : ∀ {L B : K}, 0 < B → L ≤ B → ⌈L / B + 1⌉ ≤ 2 := by
    intro L B hB h
    rw [Int.ceil_le]
    push_cast
    have := (div_le_one hB).mpr h
    linarith
  have e1 := two_le_ceil (div_pos hX hBX)
  have e2 := two_le_ceil (div_pos hY hBY)
  obtain ⟨L1, L2, N1, M1, N2, M2, hS, hN, hor⟩ : ∃ (L1 L2 : K) (N1 M1 N2 M2 : ℤ),
      Sides X Y Bmin BX BY L1 L2 N1 M1 N2 M2 ∧ (2 ≤ N1 ∧ 2 ≤ N2) ∧
      ((N1 = ⌈X / BX + 1⌉ ∧ N2 = ⌈Y / BY + 1⌉ ∧ M1 = ⌊X / Bmin + 1⌋ ∧ M2 = ⌊Y / Bmin + 1⌋) ∨
        (N2 = ⌈X / BX + 1⌉ ∧ N1 = ⌈Y / BY + 1⌉ ∧ M2 = ⌊X / Bmin + 1⌋ ∧ M1 = ⌊Y / Bmin + 1⌋)) := by
    rcases le_or_gt Y X with h | h
    · exact ⟨X, Y, _, _, _, _, ⟨.inl ⟨h, rfl, rfl, rfl, rfl⟩, rfl, rfl⟩, ⟨e1, e2⟩, .inl ⟨rfl, rfl, rfl, rfl⟩⟩
    · exact ⟨Y, X, _, _, _, _, ⟨.inr ⟨h, rfl, rfl, rfl, rfl⟩, rfl, rfl⟩, ⟨e2, e1⟩, .inr ⟨rfl, rfl, rfl, rfl⟩⟩
  rw [zonedNested_eq hBmin hBX hBY hS]
  obtain ⟨n1, n2⟩ := hN
  have hl1 : ((pyRange N1 (M1 + 1)).length : ℤ) = max 0 (M1 + 1 - N1) := by rw [length_pyRange]; omega
  have hl2 : ((pyRange N2 (M2 + 1)).length : ℤ) = max 0 (M2 + 1 - N2) := by rw [length_pyRange]; omega
  constructor
  · intro hno
    have hno' : M1 < N1 ∨ M2 < N2 := by omega
    split_ifs with hc
    · rw [pyRange_empty (a := 0) (by rw [hl1, hl2]; omega)]
      rfl
    · rw [pyRange_cons (a := 0) (by rw [hl1, hl2]; omega), List.foldlM_cons]
      have : zonedNestedStep fuel X Y L1 L2 (decide (X < Y)) N1 N2 (pyRange N1 (M1 + 1)) (pyRange N2 (M2 + 1))
          (⟨0, 0, 0, []⟩ : ZonedState K) 0 = .error .indexError := by
        unfold zonedNestedStep
        rw [if_pos rfl, zonedStartup_ok n1 n2]
        simp only [Except.ok_bind, Except.pure_eq]
        by_cases h1 : M1 < N1
        · rw [pyRange_empty (b := M1 + 1) (by omega)]
          rfl
        · rw [pyGet_pyRange le_rfl (by omega), Except.ok_bind, pyRange_empty (b := M2 + 1) (by omega)]
          rfl
      rw [this]
      rfl
  · intro h1 h2 hs
    have hlt : N1 < 3 ∨ N2 < 3 := by
      rcases hs with hs | hs
      · have := small hBX hs
        omega
      · have := small hBY hs
        omega
    have h1' : N1 ≤ M1 ∧ N2 ≤ M2 := by omega
    rw [pyRange_cons (a := 0) (by rw [hl1, hl2]; omega), List.foldlM_cons]
    have : zonedNestedStep fuel X Y L1 L2 (decide (X < Y)) N1 N2 (pyRange N1 (M1 + 1)) (pyRange N2 (M2 + 1))
        (⟨0, 0, 0, []⟩ : ZonedState K) 0 = .error .valueError := by
      unfold zonedNestedStep
      rw [if_pos rfl, zonedStartup_ok n1 n2]
      simp only [Except.ok_bind, Except.pure_eq]
      rw [pyGet_pyRange le_rfl (by omega), Except.ok_bind, pyGet_pyRange le_rfl (by omega),
        Except.ok_bind, C14_zoned_domain_guard (by omega), if_neg (by omega)]
      rfl
    rw [this]
    rfl

/-- the guards on concrete lands, the last one higher than wide -/
example : biRectangleZonedNested 20 (30 : ℚ) 20 11 12 12 = .ok [] ∧
    biRectangleZonedNested 20 (30 : ℚ) 20 8 (30/4) 20 = .error .indexError ∧
    biRectangleZonedNested 20 (20 : ℚ) 30 5 20 12 = .error .valueError := by
  decide +kernel

/-- a land higher than wide, with the largest field of 4 times 5 boreholes -/
example : (0 : ℚ) < 30 ∧ (0 : ℚ) < 40 ∧ (12 : ℚ) < 30 ∧ (15 : ℚ) < 40 ∧ ⌈(30 : ℚ) / 12 + 1⌉ ≤ ⌊(30 : ℚ) / 10 + 1⌋ ∧
    ⌈(40 : ℚ) / 15 + 1⌉ ≤ ⌊(40 : ℚ) / 10 + 1⌋ ∧ ⌊(30 : ℚ) / 10 + 1⌋ * ⌊(40 : ℚ) / 10 + 1⌋ = 20 ∧
    (biRectangleZonedNested 20 (30 : ℚ) 40 10 12 15).map (fun n => (n.map fun d => d.map List.length).getLast?) =
      .ok (some [15, 16, 17, 20]) := by
  decide +kernel

end

end Ghedt.Domains
