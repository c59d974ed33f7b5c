import Verif.Props.RoundedNested
import Verif.Props.RoundedAgree
import Verif.Props.Design

/-!
# C117 — near-square fields and the design object in floating-point arithmetic
-/

set_option linter.unusedSectionVars false

namespace Ghedt.Rounded
open Coordinates Domains Spec

variable {K : Type} [Field K] [LinearOrder K] [IsStrictOrderedRing K] [FloorRing K]
  (R : Rounding K)

/-- C117, `number_of_boreholes`: the computed number of boreholes along a side is at least the exact one, and that many
boreholes fit up to one part in `10^15`. -/
theorem C117_numberOfBoreholes {L B : K} (hL : 0 < L) (hB : 0 < B) (hlo : L ≤ 10 ^ 15 * B) :
    ∃ n : ℤ, numberOfBoreholes R L B (fun q => ⌊q⌋) = .ok n ∧ 1 ≤ n ∧ n ≤ 2 ^ 50 ∧
      Utilities.numberOfBoreholes L B (fun q => ⌊q⌋) = .ok (⌊L / B⌋ + 1) ∧ ⌊L / B⌋ + 1 ≤ n ∧
      ((n : K) - 1) * B ≤ (1 + tiny) * L := by
  have u0 := ur_pos (K := K)
  have u1 := ur_le (K := K)
  have u9 := tiny_ge (K := K)
  have hq := div_pos hL hB
  have hq15 : L / B ≤ 10 ^ 15 := by rwa [div_le_iff₀ hB]
  have h0 : 0 ≤ ⌊L / B⌋ := Int.floor_nonneg.mpr hq.le
  have hf15 : ⌊L / B⌋ ≤ 10 ^ 15 := by
    have : (⌊L / B⌋ : K) ≤ ((10 ^ 15 : ℤ) : K) := (Int.floor_le _).trans (by push_cast; norm_num at hq15 ⊢; exact hq15)
    exact_mod_cast this
  have hle : ⌊L / B⌋ ≤ ⌊R.fl (L / B)⌋ := by
    rw [Int.le_floor]
    exact int_le_fl R (by rw [abs_le]; omega) (Int.floor_le _)
  have hup : ⌊R.fl (L / B)⌋ ≤ 10 ^ 15 := by
    have : R.fl (L / B) ≤ ((10 ^ 15 : ℤ) : K) :=
      fl_le_int R (by norm_num) (by push_cast; norm_num at hq15 ⊢; exact hq15)
    have : (⌊R.fl (L / B)⌋ : K) ≤ ((10 ^ 15 : ℤ) : K) := (Int.floor_le _).trans this
    exact_mod_cast this
  refine ⟨⌊R.fl (L / B)⌋ + 1, ?_, by omega, by omega, ?_, by omega, ?_⟩
  · unfold numberOfBoreholes
    rw [div_ok R hB.ne']
    rfl
  · unfold Utilities.numberOfBoreholes
    rw [pyDiv_ok hB.ne']
    rfl
  · push_cast
    have a := (Int.floor_le (R.fl (L / B))).trans (fl_le R hq.le)
    have e : (1 + ur) * (L / B) = (1 + ur) * L / B := by ring
    rw [e, le_div_iff₀ hB] at a
    nlinarith

/-- C117, `square_and_near_square`: with rounding, the same fields as without, each borehole at most one part in `10^15` off;
no two boreholes of a field coincide. -/
theorem C117_nearSquare {lower upper : ℤ} (h1 : 1 ≤ lower) (h2 : lower ≤ upper) (h3 : upper ≤ 2 ^ 50) {B : K}
    (hB : 0 < B) :
    ∃ d d', squareAndNearSquare R lower upper B = .ok d ∧ Domains.squareAndNearSquare lower upper B = .ok d' ∧
      NearDomain d d' ∧ SizesStrictlyIncrease d ∧ ∀ f ∈ d, f.Nodup := by
  have hr : pyRange 0 2 = [0, 1] := by decide
  have hd : ∀ R : Rounding K, squareAndNearSquare R lower upper B = .ok ((pyRange lower (upper + 1)).flatMap
      fun i : ℤ => [rlattice R i i B B, rlattice R i (i + 1) B B]) := by
    intro R
    unfold squareAndNearSquare
    rw [if_neg (by omega), if_neg (by omega)]
    rw [mapM_ok (g := fun i : ℤ => [rlattice R i i B B, rlattice R i (i + 1) B B])]
    · simp [List.flatMap_def]
    · intro i hi
      rw [mem_pyRange] at hi
      rw [mapM_ok (g := fun j : ℤ => rlattice R i (i + j) B B), hr]
      · simp
      · intro j hj
        rw [mem_pyRange] at hj
        exact rectangle_ok R (by omega) (by omega) _ _
  obtain ⟨d', hd', -, -, hs'⟩ := C07_nearSquare_fields h1 h2 hB
  have he := hd Rounding.exact
  rw [C117_exact.2.2.2.1, hd'] at he
  have he' := Except.ok.inj he
  have hnear : NearDomain ((pyRange lower (upper + 1)).flatMap
      fun i : ℤ => [rlattice R i i B B, rlattice R i (i + 1) B B]) d' := by
    rw [he']
    unfold NearDomain
    apply forall₂_flatMap
    intro i _
    rw [rlattice_exact, rlattice_exact]
    exact List.Forall₂.cons (near_rlattice R _ _ _ _) (List.Forall₂.cons (near_rlattice R _ _ _ _) List.Forall₂.nil)
  refine ⟨_, d', hd R, hd', hnear, ?_, ?_⟩
  · have hlen : ∀ {a b : List (List (K × K))}, List.Forall₂ Near a b → SizesStrictlyIncrease b → SizesStrictlyIncrease a := by
      intro a b hab hb
      unfold SizesStrictlyIncrease at hb ⊢
      have e : a.map List.length = b.map List.length := by
        induction hab with
        | nil => rfl
        | cons h _ ih =>
          rw [List.map_cons, List.map_cons, h.length_eq, ih (List.Pairwise.of_cons hb)]
      have := List.pairwise_map.mpr hb
      rw [← e] at this
      exact List.pairwise_map.mp this
    exact hlen hnear hs'
  · intro f hf
    simp only [List.mem_flatMap, mem_pyRange, List.mem_cons, List.not_mem_nil, or_false] at hf
    obtain ⟨i, hi, rfl | rfl⟩ := hf
    · exact nodup_rlattice R (by omega) (by omega) hB hB
    · exact nodup_rlattice R (by omega) (by omega) hB hB

open Design in
/-- C117, the design object: with rounding too, positive constraints whose ratios are at most `10^15`, all those required,
give for `near-square`, `rectangle` and `bi-rectangle` the domain of that routine. -/
theorem C117_design (fuel : ℕ) (gc : Constraints K) {X Y B Bmin BX BY : K} (hX : 0 < X) (hY : 0 < Y) (hB : 0 < B)
    (hBmin : 0 < Bmin) (hBX : 0 < BX) (hBY : 0 < BY) (hloB : X ≤ 10 ^ 15 * B) (hlo : max X Y ≤ 10 ^ 15 * Bmin)
    (hhx : BX ≤ 10 ^ 15 * X) (hhy : BY ≤ 10 ^ 15 * Y) (h1 : gc.length = some X) :
    (gc.B = some B → ∃ n d, numberOfBoreholes R X B (fun q => ⌊q⌋) = .ok n ∧
      squareAndNearSquare R 1 n B = .ok d ∧ designInit R fuel gc "near-square" = .ok (.flat d)) ∧
    (gc.width = some Y → gc.Bmin = some Bmin → gc.BmaxX = some BX →
      (∃ d, rectangular R X Y Bmin BX = .ok d ∧ designInit R fuel gc "rectangle" = .ok (.flat d)) ∧
      (gc.BmaxY = some BY → ∃ d, biRectangleNested R X Y Bmin BX BY = .ok d ∧
          designInit R fuel gc "bi-rectangle" = .ok (.nested d))) := by
  refine ⟨?_, ?_⟩
  · intro h2
    obtain ⟨n, hn, hn1, hn50, -⟩ := C117_numberOfBoreholes R hX hB hloB
    obtain ⟨d, -, hd, -⟩ := C117_nearSquare R le_rfl hn1 hn50 hB
    refine ⟨n, d, hn, hd, ?_⟩
    unfold designInit checkInputs
    simp only [if_true, h1, h2]
    simp only [pyAssert, arg, Option.isSome_some, if_true, Except.ok_bind, hn, hd, Except.pure_eq]
  · intro h2 h3 h4
    refine ⟨?_, ?_⟩
    · obtain ⟨d, hd, -⟩ := C117_rectangular R hX hY hBmin hBX hlo
        (hhx.trans (mul_le_mul_of_nonneg_left (le_max_left _ _) (by norm_num)))
      refine ⟨d, hd, ?_⟩
      unfold designInit checkInputs
      rw [if_neg (by decide), if_pos rfl, if_neg (by decide), if_pos rfl]
      simp only [h1, h2, h3, h4, pyAssert, arg, Option.isSome_some, if_true, Except.ok_bind, hd, Except.pure_eq]
    · intro h5
      have : ∃ Ll Ls Bl Bs : K, (Y ≤ X ∧ Ll = X ∧ Ls = Y ∧ Bl = BX ∧ Bs = BY) ∨
          (X < Y ∧ Ll = Y ∧ Ls = X ∧ Bl = BY ∧ Bs = BX) := by
        rcases le_or_gt Y X with h | h
        · exact ⟨_, _, _, _, Or.inl ⟨h, rfl, rfl, rfl, rfl⟩⟩
        · exact ⟨_, _, _, _, Or.inr ⟨h, rfl, rfl, rfl, rfl⟩⟩
      obtain ⟨Ll, Ls, Bl, Bs, hL⟩ := this
      obtain ⟨d, _, _, hd, -⟩ := C117_nested R hX hY hBmin hBX hBY hlo hhx hhy hL
      refine ⟨d, hd, ?_⟩
      unfold designInit checkInputs
      rw [if_neg (by decide), if_neg (by decide), if_neg (by decide), if_neg (by decide), if_pos rfl]
      simp only [h1, h2, h3, h4, h5, pyAssert, arg, Option.isSome_some, if_true, Except.ok_bind, hd, Except.pure_eq]

end Ghedt.Rounded
