import Verif.Props.FieldContents
import Verif.Props.Design

/-!
# The shape of a bi-zoned design (C79)
-/

set_option linter.unusedSectionVars false

namespace Ghedt.Domains
open Coordinates Spec

variable {K : Type} [Field K] [LinearOrder K] [IsStrictOrderedRing K]

/-- A field of the bi-zoned routine on a land `X × Y`, `Y ≤ X`, with spacings from `Bmin` to `BX` and `BY`: either an
outline of `n1 × n2` boreholes whose spacings are within the bounds, around a regular interior with fewer, but at least one,
rows and columns; or a part of the outline with the fewest boreholes `N1 × N2`: a line, an L, a U, or a U being closed. -/
def ZonedShape (X Y Bmin BX BY : K) (N1 N2 : ℤ) (f : List (K × K)) : Prop :=
  (∃ n1 n2 x y : ℤ, (1 ≤ x ∧ x ≤ n1 - 2) ∧ (1 ≤ y ∧ y ≤ n2 - 2) ∧
    (Bmin ≤ X / ((n1 : K) - 1) ∧ X / ((n1 : K) - 1) ≤ BX) ∧ (Bmin ≤ Y / ((n2 : K) - 1) ∧ Y / ((n2 : K) - 1) ≤ BY) ∧
    IsZoned n1 n2 (X / ((n1 : K) - 1)) (Y / ((n2 : K) - 1)) x y f) ∨
  (∃ n : ℤ, (1 ≤ n ∧ n ≤ N1) ∧ ∀ p, p ∈ f ↔ OnLattice n 1 (X / ((N1 : K) - 1)) (Y / ((N2 : K) - 1)) (0, 0) p) ∨
  (∃ n : ℤ, (2 ≤ n ∧ n ≤ N2) ∧ ∀ p, p ∈ f ↔ OnL N1 n (X / ((N1 : K) - 1)) (Y / ((N2 : K) - 1)) p) ∨
  (∃ n : ℤ, (2 ≤ n ∧ n ≤ N2) ∧ ∀ p, p ∈ f ↔ OnLopU N1 N2 n (X / ((N1 : K) - 1)) (Y / ((N2 : K) - 1)) p) ∨
  (∃ n : ℤ, (1 ≤ n ∧ n ≤ N1 - 2) ∧ ∀ p, p ∈ f ↔ OnC N1 N2 n (X / ((N1 : K) - 1)) (Y / ((N2 : K) - 1)) p)

theorem mem_fromTo {a b n : ℤ} : n ∈ fromTo a b ↔ a ≤ n ∧ n ≤ b := by
  rw [fromTo_eq, mem_pyRange]; omega

theorem interiorStep_unit {n1 n2 : ℤ} {p q : ℤ × ℤ} (h : InteriorStep n1 n2 p q) : UnitStep p q := by
  unfold InteriorStep at h
  unfold UnitStep
  split_ifs at h <;> subst h <;> simp

section floor
variable [FloorRing K]

theorem spacing_bounds {L B Bmin : K} (hB : 0 < B) (hL : B < L) (hBmin : 0 < Bmin) {n : ℤ}
    (h1 : ⌈L / B + 1⌉ ≤ n) (h2 : n ≤ ⌊L / Bmin + 1⌋) :
    Bmin ≤ L / ((n : K) - 1) ∧ L / ((n : K) - 1) ≤ B := by
  have h3 := ceil_ge_three hB hL
  have e1 : L / B + 1 ≤ n := Int.ceil_le.1 h1
  have e2 : (n : K) ≤ L / Bmin + 1 := Int.le_floor.1 h2
  have hn : (0 : K) < (n : K) - 1 := by
    have : (3 : K) ≤ n := by exact_mod_cast h3.trans h1
    linarith
  constructor
  · rw [le_div_iff₀ hn]
    have : ((n : K) - 1) ≤ L / Bmin := by linarith
    rw [le_div_iff₀ hBmin] at this
    linarith
  · rw [div_le_iff₀ hn]
    have : L / B ≤ (n : K) - 1 := by linarith
    rw [div_le_iff₀ hB] at this
    linarith

/-- every candidate of the bi-zoned routine has one of the shapes -/
theorem zonedNested_shapes {X Y Bmin BX BY : K} (hY : 0 < Y) (hXY : Y ≤ X)
    (hBmin : 0 < Bmin) (hBX : 0 < BX) (hBY : 0 < BY) (hX' : BX < X) (hY' : BY < Y)
    (h1 : ⌈X / BX + 1⌉ ≤ ⌊X / Bmin + 1⌋) (h2 : ⌈Y / BY + 1⌉ ≤ ⌊Y / Bmin + 1⌋) {fuel : ℕ}
    (hfuel : ⌊X / Bmin + 1⌋ + ⌊Y / Bmin + 1⌋ ≤ fuel) :
    ∃ ds, biRectangleZonedNested fuel X Y Bmin BX BY = .ok ds ∧
      ∀ d ∈ ds, ∀ f ∈ d, ZonedShape X Y Bmin BX BY ⌈X / BX + 1⌉ ⌈Y / BY + 1⌉ f := by
  have hX : 0 < X := hY.trans_le hXY
  obtain ⟨st, z0, zs, walk, hrun, hup, _, hlen, hF, hst⟩ := zonedNested_full hX hY hBmin hBX hBY hX' hY'
    (L1 := X) (L2 := Y) (N1 := ⌈X / BX + 1⌉) (N2 := ⌈Y / BY + 1⌉) (M1 := ⌊X / Bmin + 1⌋)
    (M2 := ⌊Y / Bmin + 1⌋) ⟨Or.inl ⟨hXY, rfl, rfl, rfl, rfl⟩, rfl, rfl⟩ h1 h2 hfuel
  rw [decide_eq_false (not_lt.mpr hXY)] at hF hst
  have hN1 : 3 ≤ ⌈X / BX + 1⌉ := ceil_ge_three hBX hX'
  have hN2 : 3 ≤ ⌈Y / BY + 1⌉ := ceil_ge_three hBY hY'
  have hz : ∀ z ∈ z0 :: zs, ∀ f ∈ z, ZonedShape X Y Bmin BX BY ⌈X / BX + 1⌉ ⌈Y / BY + 1⌉ f := by
    intro z hz f hf
    obtain ⟨q, hq, e⟩ := forall₂_mem_right hF z hz
    have hb := unitPath_bounds hup q hq
    obtain ⟨g, fields, path, hdom, hlast, hch, hall⟩ := C14_zoned_domain_interiors hX hY (nx := q.1) (ny := q.2)
      (by omega) (by omega) false (Or.inl ⟨hXY, rfl, rfl, rfl, rfl⟩)
    rw [hdom fuel (by omega)] at e
    simp only [Bool.false_eq_true, if_false, List.map_id', Except.ok.injEq] at e
    subst e
    obtain ⟨w, hw, hzf⟩ := forall₂_mem_right hall f hf
    have hwb := unitPath_bounds (a := (1, 1)) (b := (q.1 - 2, q.2 - 2)) (path := (1, 1) :: path)
      ⟨rfl, hlast, hch.imp fun _ _ => interiorStep_unit⟩ w hw
    left
    refine ⟨q.1, q.2, w.1, w.2, ?_, ?_, spacing_bounds hBX hX' hBmin (by omega) (by omega),
      spacing_bounds hBY hY' hBmin (by omega) (by omega), hzf⟩
    · exact ⟨by omega, by omega⟩
    · exact ⟨by omega, by omega⟩
  refine ⟨_, hrun, ?_⟩
  intro d hd f hf
  rcases List.mem_cons.1 hd with rfl | hd
  · rcases List.mem_append.1 hf with hf | hf
    · right
      have hsh := startupShapes_fields (K := K) (by omega : 2 ≤ ⌈X / BX + 1⌉) (by omega : 2 ≤ ⌈Y / BY + 1⌉)
        (X / ((⌈X / BX + 1⌉ - 1 : ℤ) : K)) (Y / ((⌈Y / BY + 1⌉ - 1 : ℤ) : K)) false
      rw [← hst] at hsh
      push_cast at hsh
      obtain ⟨lines, ls, us, cs, rfl, f1, f2, f3, f4⟩ := hsh
      simp only [Bool.false_eq_true, if_false] at f1 f2 f3 f4
      simp only [List.mem_append, or_assoc] at hf
      rcases hf with hf | hf | hf | hf
      · obtain ⟨n, hn, h⟩ := forall₂_mem_right f1 f hf
        exact .inl ⟨n, mem_fromTo.1 hn, h⟩
      · obtain ⟨n, hn, h⟩ := forall₂_mem_right f2 f hf
        exact .inr (.inl ⟨n, mem_fromTo.1 hn, h⟩)
      · obtain ⟨n, hn, h⟩ := forall₂_mem_right f3 f hf
        exact .inr (.inr (.inl ⟨n, mem_fromTo.1 hn, h⟩))
      · obtain ⟨n, hn, h⟩ := forall₂_mem_right f4 f hf
        exact .inr (.inr (.inr ⟨n, mem_fromTo.1 hn, h⟩))
    · exact hz z0 List.mem_cons_self f hf
  · exact hz d (List.mem_cons_of_mem _ hd) f hf

end floor
end Ghedt.Domains

namespace Ghedt.Design
open Search Domains Utilities Spec

variable {K : Type} [Field K] [LinearOrder K] [IsStrictOrderedRing K] [FloorRing K]

/-- C79, bi-zoned (land at least as long as wide): the returned field has one of the documented shapes, with spacings
within the bounds. -/
theorem C79_biZoned_shape (fuel : ℕ) (env : Env (List (K × K)) K) (gc : Constraints K)
    {X Y Bmin BX BY : K} (hY : 0 < Y) (hXY : Y ≤ X) (hBmin : 0 < Bmin) (hBX : 0 < BX) (hBY : 0 < BY)
    (hX' : BX < X) (hY' : BY < Y) (hc1 : ⌈X / BX + 1⌉ ≤ ⌊X / Bmin + 1⌋)
    (hc2 : ⌈Y / BY + 1⌉ ≤ ⌊Y / Bmin + 1⌋) (hfuel : ⌊X / Bmin + 1⌋ + ⌊Y / Bmin + 1⌋ ≤ fuel)
    (h1 : gc.length = some X) (h2 : gc.width = some Y) (h3 : gc.Bmin = some Bmin)
    (h4 : gc.BmaxX = some BX) (h5 : gc.BmaxY = some BY)
    (s' : State (List (K × K)) K) (key : ℤ) (f : List (K × K))
    (h : design fuel env gc "bi-zoned" {} = (.ok (some (key, f)), s')) :
    ZonedShape X Y Bmin BX BY ⌈X / BX + 1⌉ ⌈Y / BY + 1⌉ f := by
  have hX : 0 < X := hY.trans_le hXY
  have hi := (((C77_available fuel gc hX hY hX hBmin hBX hBY h1).2 h2 h3 h4).2 h5).2
  obtain ⟨ds, hd, hall⟩ := zonedNested_shapes hY hXY hBmin hBX hBY hX' hY' hc1 hc2 hfuel
  rw [hd] at hi
  unfold design at h
  rw [St.lift_ok hi] at h
  have h : (bisectionZD env ds >>= fun r => pure (some r)) {} = (.ok (some (key, f)), s') := h
  rw [St.bind_eq_ok] at h
  obtain ⟨⟨key', f'⟩, s1, hz, e⟩ := h
  simp only [St.pure_apply, Prod.mk.injEq, Except.ok.injEq, Option.some.injEq] at e
  obtain ⟨⟨rfl, rfl⟩, rfl⟩ := e
  obtain ⟨outer, k, g, s0, s2, s3, -, -, -, hk, hh, hn, h⟩ := C37_start env _ _ _ rfl _ hz
  obtain ⟨totals, m, best, d, temps, v, H, -, -, -, -, -, -, -, -, -, -, hd', hk0, hf, hv, -, hv0, -,
    hs, hg⟩ := C37_successive env _ _ (by split <;> omega) _ _ hh hn key' f' h
  exact hall d (pyGet_mem hd') f' (pyGet_mem hf)

/-- The design of `exDesignEnv` on 30 m × 20 m with 5 to 9 m: 16 boreholes, an outline of 5 × 4 with two of its last row
missing. -/
example : ∃ f, f.length = 16 ∧ ZonedShape (30 : ℚ) 20 5 9 9 5 4 f := by
  have hfl1 : ⌈(30 : ℚ) / 9 + 1⌉ = 5 := by decide +kernel
  have hfl2 : ⌈(20 : ℚ) / 9 + 1⌉ = 4 := by decide +kernel
  have hlen : ((design 30 exDesignEnv ⟨some 30, some 20, none, some 5, some 9, some 9⟩
    "bi-zoned" {}).1.map (fun r => r.map fun q => (q.1, q.2.length))) = .ok (some (15, 16)) := by decide +kernel
  generalize hd : design 30 exDesignEnv ⟨some 30, some 20, none, some 5, some 9, some 9⟩ "bi-zoned" {} = r at hlen
  obtain ⟨r, s⟩ := r
  cases r with
  | error e => cases hlen
  | ok r =>
    cases r with
    | none => cases hlen
    | some q =>
      obtain ⟨key, f⟩ := q
      simp only [Except.map, Option.map_some, Except.ok.injEq, Option.some.injEq, Prod.mk.injEq] at hlen
      refine ⟨f, hlen.2, ?_⟩
      have := C79_biZoned_shape 30 exDesignEnv _ (X := 30) (Y := 20) (Bmin := 5) (BX := 9) (BY := 9) (by norm_num)
        (by norm_num) (by norm_num) (by norm_num) (by norm_num) (by norm_num) (by norm_num) (by decide +kernel)
        (by decide +kernel) (by decide +kernel) rfl rfl rfl rfl rfl s key f hd
      rwa [hfl1, hfl2] at this

end Ghedt.Design
