import Verif.Lemmas.Domains
import Verif.Props.Coordinates

set_option linter.unusedSectionVars false

namespace Ghedt.Domains
open Coordinates Spec

variable {K : Type} [Field K] [LinearOrder K] [IsStrictOrderedRing K]

theorem ratio_iff {a c p q b1 b2 : K} (ha : 0 < a) (hc : 0 < c) (hp : 0 < p) (hq : 0 < q)
    (h1 : 0 < b1) (h2 : 0 < b2) : (a * b1 / p) / (c * b2 / q) > b1 / b2 ↔ c * p < a * q := by
  have e : (a * b1 / p) / (c * b2 / q) = (a * q) / (c * p) * (b1 / b2) := by field_simp
  rw [e, gt_iff_lt, lt_mul_iff_one_lt_left (div_pos h1 h2), one_lt_div (mul_pos hc hp)]

/-- one iteration of the loop -/
theorem zonedLoop_step {n1 n2 : ℤ} (hn1 : 3 ≤ n1) (hn2 : 3 ≤ n2) {b1 b2 : K} (h1 : 0 < b1)
    (h2 : 0 < b2) (t : Bool) {x y : ℤ} (hx : 1 ≤ x) (hx' : x ≤ n1 - 2) (hy : 1 ≤ y)
    (hy' : y ≤ n2 - 2) (hlt : x < n1 - 2 ∨ y < n2 - 2) :
    ∃ x' y' f, UnitStep (x, y) (x', y') ∧ InteriorStep n1 n2 (x, y) (x', y') ∧ x' ≤ n1 - 2 ∧ y' ≤ n2 - 2 ∧
      zonedRectangle n1 n2 b1 b2 x' y' = .ok f ∧
      ∀ fuel dom, zonedLoop n1 n2 b1 b2 t (fuel + 1) x y dom =
        zonedLoop n1 n2 b1 b2 t fuel x' y' (dom ++ [maybeTranspose t f]) := by
  have pa : (0 : K) < ((n1 - 1 : ℤ) : K) := by exact_mod_cast (by omega : 0 < n1 - 1)
  have pc : (0 : K) < ((n2 - 1 : ℤ) : K) := by exact_mod_cast (by omega : 0 < n2 - 1)
  have px1 : (0 : K) < ((x + 1 : ℤ) : K) := by exact_mod_cast (by omega : 0 < x + 1)
  have px2 : (0 : K) < ((x + 2 : ℤ) : K) := by exact_mod_cast (by omega : 0 < x + 2)
  have py1 : (0 : K) < ((y + 1 : ℤ) : K) := by exact_mod_cast (by omega : 0 < y + 1)
  have py2 : (0 : K) < ((y + 2 : ℤ) : K) := by exact_mod_cast (by omega : 0 < y + 2)
  have hr := ratio_iff (b1 := b1) (b2 := b2) pa pc px1 py2 h1 h2
  have hcast : ((n2 - 1 : ℤ) : K) * ((x + 1 : ℤ) : K) < ((n1 - 1 : ℤ) : K) * ((y + 2 : ℤ) : K) ↔
      (n2 - 1) * (x + 1) < (n1 - 1) * (y + 2) := by
    rw [← Int.cast_mul, ← Int.cast_mul, Int.cast_lt]
  rw [hcast] at hr
  have q1 : 0 < (((n2 - 1 : ℤ) : K) * b2 / ((y + 2 : ℤ) : K)) := div_pos (mul_pos pc h2) py2
  have q2 : 0 < (((n1 - 1 : ℤ) : K) * b1 / ((x + 2 : ℤ) : K)) := div_pos (mul_pos pa h1) px2
  have hq : ((n1 - 1 : ℤ) : ℚ) / ((x + 1 : ℤ) : ℚ) > ((n2 - 1 : ℤ) : ℚ) / ((y + 2 : ℤ) : ℚ) ↔
      (n2 - 1) * (x + 1) < (n1 - 1) * (y + 2) := by
    rw [gt_iff_lt, div_lt_div_iff₀ (by exact_mod_cast (by omega : 0 < y + 2))
      (by exact_mod_cast (by omega : 0 < x + 1)), ← Int.cast_mul, ← Int.cast_mul, Int.cast_lt]
  by_cases hc : (n2 - 1) * (x + 1) < (n1 - 1) * (y + 2)
  · have hxlt : x < n1 - 2 := by
      by_contra hcon
      have hxe : x = n1 - 2 := by omega
      subst hxe
      have : n2 - 1 < y + 2 := by
        by_contra hh
        push Not at hh
        nlinarith
      omega
    obtain ⟨f, hf⟩ := (C05_zonedRectangle_guard (K := K) (Nx := n1) (Ny := n2) (Nix := x + 1)
      (Niy := y) (by omega) (by omega) (by omega) (by omega) b1 b2).2 (by omega) (by omega)
    refine ⟨x + 1, y, f, Or.inl ⟨rfl, rfl⟩, by unfold InteriorStep; rw [if_pos (hq.2 hc)], by omega, by omega, hf, ?_⟩
    intro fuel dom
    rw [zonedLoop, if_pos hlt, pyDiv_ok h2.ne', pyDiv_ok px1.ne', pyDiv_ok py1.ne',
      pyDiv_ok px2.ne', pyDiv_ok py2.ne']
    simp only [Except.ok_bind]
    rw [pyDiv_ok q1.ne', pyDiv_ok q2.ne']
    simp only [Except.ok_bind]
    rw [if_pos (hr.2 hc)]
    simp only [Except.ok_bind, Except.pure_eq, hf]
  · have hylt : y < n2 - 2 := by
      by_contra hcon
      have hye : y = n2 - 2 := by omega
      subst hye
      push Not at hc
      nlinarith
    obtain ⟨f, hf⟩ := (C05_zonedRectangle_guard (K := K) (Nx := n1) (Ny := n2) (Nix := x)
      (Niy := y + 1) (by omega) (by omega) (by omega) (by omega) b1 b2).2 (by omega) (by omega)
    refine ⟨x, y + 1, f, Or.inr ⟨rfl, rfl⟩, by unfold InteriorStep; rw [if_neg (fun h => hc (hq.1 h))], by omega, by omega,
      hf, ?_⟩
    intro fuel dom
    rw [zonedLoop, if_pos hlt, pyDiv_ok h2.ne', pyDiv_ok px1.ne', pyDiv_ok py1.ne',
      pyDiv_ok px2.ne', pyDiv_ok py2.ne']
    simp only [Except.ok_bind]
    rw [pyDiv_ok q1.ne', pyDiv_ok q2.ne']
    simp only [Except.ok_bind]
    rw [if_neg (fun h => hc (hr.1 h)), if_pos (not_lt.mp (fun h => hc (hr.1 h)))]
    simp only [Except.ok_bind, Except.pure_eq, hf]

theorem zonedLoop_spec {n1 n2 : ℤ} (hn1 : 3 ≤ n1) (hn2 : 3 ≤ n2) {b1 b2 : K} (h1 : 0 < b1)
    (h2 : 0 < b2) (t : Bool) (m : ℕ) : ∀ {x y : ℤ}, 1 ≤ x → x ≤ n1 - 2 → 1 ≤ y →
    y ≤ n2 - 2 → (n1 - 2 - x) + (n2 - 2 - y) = m →
    ∃ (path : List (ℤ × ℤ)) (fields : List (List (K × K))),
      UnitPath (x, y) (n1 - 2, n2 - 2) ((x, y) :: path) ∧
      ((x, y) :: path).IsChain (InteriorStep n1 n2) ∧ path.length = m ∧
      List.Forall₂ (fun q f => zonedRectangle n1 n2 b1 b2 q.1 q.2 = .ok f) path fields ∧
      ∀ fuel dom, m < fuel → zonedLoop n1 n2 b1 b2 t fuel x y dom =
        .ok (dom ++ fields.map (maybeTranspose t)) := by
  induction m with
  | zero =>
    intro x y hx hx' hy hy' hm
    have e1 : x = n1 - 2 := by omega
    have e2 : y = n2 - 2 := by omega
    subst e1; subst e2
    refine ⟨[], [], ⟨rfl, rfl, List.IsChain.singleton _⟩, List.IsChain.singleton _, rfl, List.Forall₂.nil, ?_⟩
    intro fuel dom hf
    obtain ⟨k, rfl⟩ : ∃ k, fuel = k + 1 := ⟨fuel - 1, by omega⟩
    rw [zonedLoop, if_neg (by omega)]
    simp
  | succ m ih =>
    intro x y hx hx' hy hy' hm
    obtain ⟨x', y', f, hstep, hint, bx, bY, hf, hloop⟩ :=
      zonedLoop_step hn1 hn2 h1 h2 t hx hx' hy hy' (by omega)
    have hs : x' + y' = x + y + 1 ∧ x ≤ x' ∧ y ≤ y' := by
      rcases hstep with h | h <;> simp at h <;> omega
    obtain ⟨path, fields, hp, hi, hl, hF, hlast⟩ :=
      ih (x := x') (y := y') (by omega) bx (by omega) bY (by omega)
    refine ⟨(x', y') :: path, f :: fields, ⟨rfl, ?_, ?_⟩, List.IsChain.cons_cons hint hi, by simp [hl], List.Forall₂.cons hf hF, ?_⟩
    · rw [List.getLast?_cons_cons]; exact hp.2.1
    · exact List.IsChain.cons_cons hstep hp.2.2
    · intro fuel dom hfuel
      obtain ⟨k, rfl⟩ : ∃ k, fuel = k + 1 := ⟨fuel - 1, by omega⟩
      rw [hloop, hlast _ _ (by omega)]
      simp

/-- what `zoned_rectangle_domain` returns for sides of at least three boreholes -/
theorem zonedRectangleDomain_path {X Y : K} (hX : 0 < X) (hY : 0 < Y) {nx ny : ℤ} (t : Bool)
    {n1 n2 : ℤ} {L1 L2 : K}
    (hsel : (L1, L2, n1, n2) = if X ≥ Y then (X, Y, nx, ny) else (Y, X, ny, nx))
    (hn1 : 3 ≤ n1) (hn2 : 3 ≤ n2) :
    ∃ (path : List (ℤ × ℤ)) (z : List (K × K)) (fields : List (List (K × K))),
      UnitPath (1, 1) (n1 - 2, n2 - 2) ((1, 1) :: path) ∧
      ((1, 1) :: path).IsChain (InteriorStep n1 n2) ∧ (path.length : ℤ) = n1 + n2 - 6 ∧
      zonedRectangle n1 n2 (L1 / ((n1 - 1 : ℤ) : K)) (L2 / ((n2 - 1 : ℤ) : K)) 1 1 = .ok z ∧
      List.Forall₂ (fun q f => zonedRectangle n1 n2 (L1 / ((n1 - 1 : ℤ) : K))
        (L2 / ((n2 - 1 : ℤ) : K)) q.1 q.2 = .ok f) path fields ∧
      ∀ fuel : ℕ, n1 + n2 ≤ fuel → zonedRectangleDomain fuel X Y nx ny t =
        .ok (z :: fields.map (maybeTranspose t)) := by
  have hL : 0 < L1 ∧ 0 < L2 := by
    split at hsel <;> simp only [Prod.mk.injEq] at hsel <;> obtain ⟨rfl, rfl, _⟩ := hsel
    · exact ⟨hX, hY⟩
    · exact ⟨hY, hX⟩
  have pa : (0 : K) < ((n1 - 1 : ℤ) : K) := by exact_mod_cast (by omega : 0 < n1 - 1)
  have pc : (0 : K) < ((n2 - 1 : ℤ) : K) := by exact_mod_cast (by omega : 0 < n2 - 1)
  have hb1 := div_pos hL.1 pa
  have hb2 := div_pos hL.2 pc
  obtain ⟨z, hz⟩ := (C05_zonedRectangle_guard (K := K) (Nx := n1) (Ny := n2) (Nix := 1)
      (Niy := 1) (by omega) (by omega) (by omega) (by omega) (L1 / ((n1 - 1 : ℤ) : K))
      (L2 / ((n2 - 1 : ℤ) : K))).2 (by omega) (by omega)
  obtain ⟨path, fields, hp, hi, hl, hF, hloop⟩ := zonedLoop_spec hn1 hn2 hb1 hb2 t
    (n1 + n2 - 6).toNat (x := 1) (y := 1) le_rfl (by omega) le_rfl (by omega) (by omega)
  refine ⟨path, z, fields, hp, hi, by omega, hz, hF, ?_⟩
  intro fuel hfuel
  unfold zonedRectangleDomain
  rw [← hsel]
  dsimp only
  rw [pyDiv_ok pa.ne', Except.ok_bind, pyDiv_ok pc.ne', Except.ok_bind, hz, Except.ok_bind,
    hloop _ _ (by omega)]
  rfl

/-- what `zoned_rectangle_domain` returns for sides of at least three boreholes -/
theorem zonedRectangleDomain_spec {X Y : K} (hX : 0 < X) (hY : 0 < Y) {nx ny : ℤ} (t : Bool)
    {n1 n2 : ℤ} {L1 L2 : K}
    (hsel : (L1, L2, n1, n2) = if X ≥ Y then (X, Y, nx, ny) else (Y, X, ny, nx))
    (hn1 : 3 ≤ n1) (hn2 : 3 ≤ n2) :
    ∃ (path : List (ℤ × ℤ)) (z : List (K × K)) (fields : List (List (K × K))),
      UnitPath (1, 1) (n1 - 2, n2 - 2) ((1, 1) :: path) ∧ (path.length : ℤ) = n1 + n2 - 6 ∧
      zonedRectangle n1 n2 (L1 / ((n1 - 1 : ℤ) : K)) (L2 / ((n2 - 1 : ℤ) : K)) 1 1 = .ok z ∧
      List.Forall₂ (fun q f => zonedRectangle n1 n2 (L1 / ((n1 - 1 : ℤ) : K))
        (L2 / ((n2 - 1 : ℤ) : K)) q.1 q.2 = .ok f) path fields ∧
      ∀ fuel : ℕ, n1 + n2 ≤ fuel → zonedRectangleDomain fuel X Y nx ny t =
        .ok (z :: fields.map (maybeTranspose t)) := by
  obtain ⟨path, z, fields, hp, -, hl, hz, hF, hrun⟩ := zonedRectangleDomain_path hX hY t hsel hn1 hn2
  exact ⟨path, z, fields, hp, hl, hz, hF, hrun⟩

end Ghedt.Domains
