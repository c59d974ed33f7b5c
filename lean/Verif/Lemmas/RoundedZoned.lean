import Verif.Lemmas.RoundedShapes
import Verif.Lemmas.RoundTrip
import Verif.Lemmas.ZonedNested

/-! The zoned domain in floating-point arithmetic. -/

set_option linter.unusedSectionVars false

namespace Ghedt.Rounded
open Coordinates Domains Spec

variable {K : Type} [Field K] [LinearOrder K] [IsStrictOrderedRing K] (R : Rounding K)

theorem cube_gap {P : K} (h0 : 0 ≤ P) (hP : P ≤ 10 ^ 15) : (1 + ur : K) ^ 3 * P < (1 - ur) ^ 3 * (P + 1) := by
  have u0 := ur_pos (K := K)
  have u1 := ur_le (K := K)
  have c : ur * P ≤ 1 / 9 := by
    have : ur * P ≤ 1 / 9000000000000000 * 10 ^ 15 := mul_le_mul u1 hP h0 (by norm_num)
    refine this.trans ?_
    norm_num
  have h2 : (ur : K) ^ 2 ≤ ur / 1000 := by rw [pow_two]; nlinarith
  have h3 : (ur : K) ^ 3 ≤ ur / 1000 := by rw [pow_succ]; nlinarith
  have e1 : (1 + ur : K) ^ 3 * P = P + 3 * (ur * P) + 3 * (ur ^ 2 * P) + ur ^ 3 * P := by ring
  have e2 : (1 - ur : K) ^ 3 * (P + 1) = P + 1 - 3 * (ur * P) - 3 * ur + 3 * (ur ^ 2 * P) + 3 * ur ^ 2 - ur ^ 3 * P -
      ur ^ 3 := by ring
  have k3 : (ur : K) ^ 3 * P ≤ ur * P / 1000 := by
    have := mul_le_mul_of_nonneg_right h3 h0; linarith
  have k2 : (0 : K) ≤ ur ^ 2 := by positivity
  rw [e1, e2]
  linarith

theorem square_gap {P : K} (h0 : 0 ≤ P) (hP : P ≤ 10 ^ 15) : (1 + ur : K) ^ 2 * P ≤ (1 - ur) ^ 2 * (P + 1) := by
  have u0 := ur_pos (K := K)
  have u1 := ur_le (K := K)
  have c : ur * P ≤ 1 / 9 := by
    have : ur * P ≤ 1 / 9000000000000000 * 10 ^ 15 := mul_le_mul u1 hP h0 (by norm_num)
    refine this.trans ?_
    norm_num
  have e1 : (1 + ur : K) ^ 2 * P = P + 2 * (ur * P) + ur ^ 2 * P := by ring
  have e2 : (1 - ur : K) ^ 2 * (P + 1) = P + 1 - 2 * (ur * P) - 2 * ur + ur ^ 2 * P + ur ^ 2 := by ring
  have k2 : (0 : K) ≤ ur ^ 2 := by positivity
  rw [e1, e2]
  linarith

theorem rel_rBi {N Ni : ℤ} (hN : 2 ≤ N) (hNi : 0 ≤ Ni) {B : K} (hB : 0 < B) :
    0 < ((N - 1 : ℤ) : K) * B / ((Ni + 1 : ℤ) : K) ∧
    Rel 2 (rBi R N Ni B) (((N - 1 : ℤ) : K) * B / ((Ni + 1 : ℤ) : K)) := by
  have pn : (0 : K) < ((N - 1 : ℤ) : K) := by exact_mod_cast (by omega : 0 < N - 1)
  have pi : (0 : K) < ((Ni + 1 : ℤ) : K) := by exact_mod_cast (by omega : 0 < Ni + 1)
  have hp := div_pos (mul_pos pn hB) pi
  exact ⟨hp, ((((Rel.refl _).fl R (mul_pos pn hB).le).div_const pi).fl R hp.le)⟩

/-- a ratio that is larger is larger after rounding -/
theorem ratio_lt {a c p q : ℤ} (ha : 2 ≤ a) (hc : 2 ≤ c) (hp : 0 ≤ p) (hq : 0 ≤ q) {b1 b2 : K} (h1 : 0 < b1)
    (h2 : 0 < b2) (hlt : (c - 1) * (p + 1) < (a - 1) * (q + 1)) (hP : (c - 1) * (p + 1) ≤ 10 ^ 15) :
    R.fl (b1 / b2) < R.fl (rBi R a p b1 / rBi R c q b2) := by
  obtain ⟨pA, rA⟩ := rel_rBi R ha hp h1
  obtain ⟨pC, rC⟩ := rel_rBi R hc hq h2
  have u0 := ur_pos (K := K)
  have u1 := one_sub_ur_pos (K := K)
  have ka : (0 : K) < ((a - 1 : ℤ) : K) := by exact_mod_cast (by omega : 0 < a - 1)
  have kc : (0 : K) < ((c - 1 : ℤ) : K) := by exact_mod_cast (by omega : 0 < c - 1)
  have kp : (0 : K) < ((p + 1 : ℤ) : K) := by exact_mod_cast (by omega : 0 < p + 1)
  have kq : (0 : K) < ((q + 1 : ℤ) : K) := by exact_mod_cast (by omega : 0 < q + 1)
  have hr := div_pos h1 h2
  have hA := rA.pos pA
  have hC := rC.pos pC
  refine lt_of_le_of_lt (fl_le R hr.le) (lt_of_lt_of_le ?_ (le_fl R (div_pos hA hC).le))
  have hint : ((c - 1 : ℤ) : K) * ((p + 1 : ℤ) : K) + 1 ≤ ((a - 1 : ℤ) : K) * ((q + 1 : ℤ) : K) := by
    exact_mod_cast hlt
  have hPK : ((c - 1 : ℤ) : K) * ((p + 1 : ℤ) : K) ≤ 10 ^ 15 := by exact_mod_cast hP
  have g := cube_gap (mul_pos kc kp).le hPK
  have g' : (1 + ur : K) ^ 3 * (((c - 1 : ℤ) : K) * ((p + 1 : ℤ) : K)) <
      (1 - ur) ^ 3 * (((a - 1 : ℤ) : K) * ((q + 1 : ℤ) : K)) :=
    g.trans_le (mul_le_mul_of_nonneg_left hint (pow_pos u1 3).le)
  -- in one fraction
  have lo : (1 - ur) ^ 2 * (((a - 1 : ℤ) : K) * b1 / ((p + 1 : ℤ) : K)) /
      ((1 + ur) ^ 2 * (((c - 1 : ℤ) : K) * b2 / ((q + 1 : ℤ) : K))) ≤ rBi R a p b1 / rBi R c q b2 := by
    exact div_le_div₀ hA.le rA.1 hC rC.2
  refine lt_of_lt_of_le ?_ (mul_le_mul_of_nonneg_left lo u1.le)
  have up : (0 : K) < 1 + ur := by linarith
  have e : (1 - ur) * ((1 - ur) ^ 2 * (((a - 1 : ℤ) : K) * b1 / ((p + 1 : ℤ) : K)) /
      ((1 + ur) ^ 2 * (((c - 1 : ℤ) : K) * b2 / ((q + 1 : ℤ) : K)))) =
      ((1 - ur) ^ 3 * (((a - 1 : ℤ) : K) * ((q + 1 : ℤ) : K))) /
        ((1 + ur) ^ 2 * (((c - 1 : ℤ) : K) * ((p + 1 : ℤ) : K))) * (b1 / b2) := by
    field_simp
  rw [e]
  apply mul_lt_mul_of_pos_right _ hr
  rw [lt_div_iff₀ (by positivity)]
  calc (1 + ur) * ((1 + ur) ^ 2 * (((c - 1 : ℤ) : K) * ((p + 1 : ℤ) : K)))
      = (1 + ur) ^ 3 * (((c - 1 : ℤ) : K) * ((p + 1 : ℤ) : K)) := by ring
    _ < _ := g'

/-- a ratio that is smaller is not larger after rounding -/
theorem ratio_le {a c p q : ℤ} (ha : 2 ≤ a) (hc : 2 ≤ c) (hp : 0 ≤ p) (hq : 0 ≤ q) {b1 b2 : K} (h1 : 0 < b1)
    (h2 : 0 < b2) (hlt : (a - 1) * (q + 1) < (c - 1) * (p + 1)) (hP : (a - 1) * (q + 1) ≤ 10 ^ 15) :
    R.fl (rBi R a p b1 / rBi R c q b2) ≤ R.fl (b1 / b2) := by
  obtain ⟨pA, rA⟩ := rel_rBi R ha hp h1
  obtain ⟨pC, rC⟩ := rel_rBi R hc hq h2
  have u0 := ur_pos (K := K)
  have u1 := one_sub_ur_pos (K := K)
  have ka : (0 : K) < ((a - 1 : ℤ) : K) := by exact_mod_cast (by omega : 0 < a - 1)
  have kc : (0 : K) < ((c - 1 : ℤ) : K) := by exact_mod_cast (by omega : 0 < c - 1)
  have kp : (0 : K) < ((p + 1 : ℤ) : K) := by exact_mod_cast (by omega : 0 < p + 1)
  have kq : (0 : K) < ((q + 1 : ℤ) : K) := by exact_mod_cast (by omega : 0 < q + 1)
  have hr := div_pos h1 h2
  have hA := rA.pos pA
  have hC := rC.pos pC
  apply R.mono
  have hint : ((a - 1 : ℤ) : K) * ((q + 1 : ℤ) : K) + 1 ≤ ((c - 1 : ℤ) : K) * ((p + 1 : ℤ) : K) := by
    exact_mod_cast hlt
  have hPK : ((a - 1 : ℤ) : K) * ((q + 1 : ℤ) : K) ≤ 10 ^ 15 := by exact_mod_cast hP
  have g := square_gap (mul_pos ka kq).le hPK
  have g' : (1 + ur : K) ^ 2 * (((a - 1 : ℤ) : K) * ((q + 1 : ℤ) : K)) ≤
      (1 - ur) ^ 2 * (((c - 1 : ℤ) : K) * ((p + 1 : ℤ) : K)) :=
    g.trans (mul_le_mul_of_nonneg_left hint (pow_pos u1 2).le)
  have hi : rBi R a p b1 / rBi R c q b2 ≤ (1 + ur) ^ 2 * (((a - 1 : ℤ) : K) * b1 / ((p + 1 : ℤ) : K)) /
      ((1 - ur) ^ 2 * (((c - 1 : ℤ) : K) * b2 / ((q + 1 : ℤ) : K))) := by
    exact div_le_div₀ (mul_nonneg (by positivity) pA.le) rA.2 (mul_pos (pow_pos u1 2) pC) rC.1
  refine hi.trans ?_
  have e : (1 + ur) ^ 2 * (((a - 1 : ℤ) : K) * b1 / ((p + 1 : ℤ) : K)) /
      ((1 - ur) ^ 2 * (((c - 1 : ℤ) : K) * b2 / ((q + 1 : ℤ) : K))) =
      ((1 + ur) ^ 2 * (((a - 1 : ℤ) : K) * ((q + 1 : ℤ) : K))) /
        ((1 - ur) ^ 2 * (((c - 1 : ℤ) : K) * ((p + 1 : ℤ) : K))) * (b1 / b2) := by
    field_simp
  rw [e]
  apply mul_le_of_le_one_left hr.le
  rw [div_le_one (mul_pos (pow_pos u1 2) (mul_pos kc kp))]
  exact g'

/-- one iteration of the loop -/
theorem zonedLoop_step {n1 n2 : ℤ} (hn1 : 3 ≤ n1) (hn2 : 3 ≤ n2) (hP : n1 * n2 ≤ 10 ^ 15) {b1 b2 : K} (h1 : 0 < b1)
    (h2 : 0 < b2) (rt1 : rBi R n1 (n1 - 2) b1 = b1) (rt2 : rBi R n2 (n2 - 2) b2 = b2) (t : Bool) {x y : ℤ}
    (hx : 1 ≤ x) (hx' : x ≤ n1 - 2) (hy : 1 ≤ y) (hy' : y ≤ n2 - 2) (hlt : x < n1 - 2 ∨ y < n2 - 2) :
    ∃ x' y', UnitStep (x, y) (x', y') ∧ RoundedStep n1 n2 (x, y) (x', y') ∧ x' ≤ n1 - 2 ∧ y' ≤ n2 - 2 ∧
      ∀ fuel dom, zonedLoop R n1 n2 b1 b2 t (fuel + 1) x y dom =
        zonedLoop R n1 n2 b1 b2 t fuel x' y' (dom ++ [maybeTranspose t (rZoned R n1 n2 b1 b2 x' y')]) := by
  have px1 : (0 : K) < ((x + 1 : ℤ) : K) := by exact_mod_cast (by omega : 0 < x + 1)
  have px2 : (0 : K) < ((x + 2 : ℤ) : K) := by exact_mod_cast (by omega : 0 < x + 2)
  have py1 : (0 : K) < ((y + 1 : ℤ) : K) := by exact_mod_cast (by omega : 0 < y + 1)
  have py2 : (0 : K) < ((y + 2 : ℤ) : K) := by exact_mod_cast (by omega : 0 < y + 2)
  have ex : R.fl (mul R ((n1 - 1 : ℤ) : K) b1 / ((x + 2 : ℤ) : K)) = rBi R n1 (x + 1) b1 := by
    unfold rBi mul; rw [show x + 1 + 1 = x + 2 by ring]
  have ey : R.fl (mul R ((n2 - 1 : ℤ) : K) b2 / ((y + 2 : ℤ) : K)) = rBi R n2 (y + 1) b2 := by
    unfold rBi mul; rw [show y + 1 + 1 = y + 2 by ring]
  obtain ⟨pq1, rq1⟩ := rel_rBi R (N := n2) (Ni := y + 1) (by omega) (by omega) h2
  obtain ⟨pq2, rq2⟩ := rel_rBi R (N := n1) (Ni := x + 1) (by omega) (by omega) h1
  have q1 := rq1.pos pq1
  have q2 := rq2.pos pq2
  have hunf : ∀ fuel dom, zonedLoop R n1 n2 b1 b2 t (fuel + 1) x y dom = (do
      let (ni1, ni2) ← (if R.fl (rBi R n1 x b1 / rBi R n2 (y + 1) b2) > R.fl (b1 / b2) then pure (x + 1, y)
        else if R.fl (rBi R n1 x b1 / rBi R n2 (y + 1) b2) ≤ R.fl (b1 / b2) then pure (x, y + 1)
        else throw .valueError : Py (ℤ × ℤ))
      let z ← zonedRectangle R n1 n2 b1 b2 ni1 ni2
      zonedLoop R n1 n2 b1 b2 t fuel ni1 ni2 (dom ++ [maybeTranspose t z])) := by
    intro fuel dom
    rw [zonedLoop, if_pos hlt, div_ok R h2.ne', div_ok R px1.ne', div_ok R py1.ne', div_ok R px2.ne',
      div_ok R py2.ne', ex, ey]
    simp only [Except.ok_bind]
    rw [div_ok R q1.ne', div_ok R q2.ne']
    rfl
  have hq : ((n1 - 1 : ℤ) : ℚ) / ((x + 1 : ℤ) : ℚ) > ((n2 - 1 : ℤ) : ℚ) / ((y + 2 : ℤ) : ℚ) ↔
      (n2 - 1) * (x + 1) < (n1 - 1) * (y + 2) := by
    rw [gt_iff_lt, div_lt_div_iff₀ (by exact_mod_cast (by omega : 0 < y + 2))
      (by exact_mod_cast (by omega : 0 < x + 1)), ← Int.cast_mul, ← Int.cast_mul, Int.cast_lt]
  have hqe : (n2 - 1) * (x + 1) = (n1 - 1) * (y + 2) →
      ((n1 - 1 : ℤ) : ℚ) / ((x + 1 : ℤ) : ℚ) = ((n2 - 1 : ℤ) : ℚ) / ((y + 2 : ℤ) : ℚ) := by
    intro h
    rw [div_eq_div_iff (by exact_mod_cast (by omega : x + 1 ≠ 0)) (by exact_mod_cast (by omega : y + 2 ≠ 0))]
    exact_mod_cast h.symm
  have stepx : x < n1 - 2 → R.fl (b1 / b2) < R.fl (rBi R n1 x b1 / rBi R n2 (y + 1) b2) → ∀ fuel dom,
      zonedLoop R n1 n2 b1 b2 t (fuel + 1) x y dom =
        zonedLoop R n1 n2 b1 b2 t fuel (x + 1) y (dom ++ [maybeTranspose t (rZoned R n1 n2 b1 b2 (x + 1) y)]) := by
    intro hxl hr fuel dom
    rw [hunf, if_pos hr]
    simp only [Except.ok_bind, Except.pure_eq]
    rw [zonedRectangle_ok R (by omega) (by omega) (by omega) (by omega)]
    rfl
  have stepy : y < n2 - 2 → R.fl (rBi R n1 x b1 / rBi R n2 (y + 1) b2) ≤ R.fl (b1 / b2) → ∀ fuel dom,
      zonedLoop R n1 n2 b1 b2 t (fuel + 1) x y dom =
        zonedLoop R n1 n2 b1 b2 t fuel x (y + 1) (dom ++ [maybeTranspose t (rZoned R n1 n2 b1 b2 x (y + 1))]) := by
    intro hyl hr fuel dom
    rw [hunf, if_neg (not_lt.mpr hr), if_pos hr]
    simp only [Except.ok_bind, Except.pure_eq]
    rw [zonedRectangle_ok R (by omega) (by omega) (by omega) (by omega)]
    rfl
  have e2 : (y + 1) + 1 = y + 2 := by ring
  rcases lt_trichotomy ((n2 - 1) * (x + 1)) ((n1 - 1) * (y + 2)) with hc | hc | hc
  · have hxlt : x < n1 - 2 := by
      by_contra hcon
      have hxe : x = n1 - 2 := by omega
      subst hxe
      have : n2 - 1 < y + 2 := by
        by_contra hh
        push Not at hh
        nlinarith
      omega
    have hr := ratio_lt R (a := n1) (c := n2) (p := x) (q := y + 1) (by omega) (by omega) (by omega) (by omega) h1 h2
      (by rw [e2]; exact hc) (by nlinarith)
    exact ⟨x + 1, y, Or.inl ⟨rfl, rfl⟩, .inl (by unfold InteriorStep; rw [if_pos (hq.2 hc)]), by omega, by omega,
      stepx hxlt hr⟩
  · have hylt : y < n2 - 2 := by
      by_contra hcon
      have hye : y = n2 - 2 := by omega
      subst hye
      nlinarith
    by_cases hxe : x = n1 - 2
    · have hye : y = n2 - 3 := by
        subst hxe
        have : n2 - 1 = y + 2 := by
          have h' : (n1 - 1) * (n2 - 1) = (n1 - 1) * (y + 2) := by rw [← hc]; ring
          exact mul_left_cancel₀ (by omega : n1 - 1 ≠ 0) h'
        omega
      have hr : R.fl (rBi R n1 x b1 / rBi R n2 (y + 1) b2) ≤ R.fl (b1 / b2) := by
        rw [hxe, rt1, hye, show n2 - 3 + 1 = n2 - 2 by ring, rt2]
      exact ⟨x, y + 1, Or.inr ⟨rfl, rfl⟩, .inl (by unfold InteriorStep; rw [if_neg (fun h => (hq.1 h).ne hc)]),
        by omega, by omega, stepy hylt hr⟩
    · rcases lt_or_ge (R.fl (b1 / b2)) (R.fl (rBi R n1 x b1 / rBi R n2 (y + 1) b2)) with hr | hr
      · exact ⟨x + 1, y, Or.inl ⟨rfl, rfl⟩, .inr ⟨hqe hc, by dsimp only; omega, hylt, Or.inl ⟨rfl, rfl⟩⟩, by omega,
          by omega, stepx (by omega) hr⟩
      · exact ⟨x, y + 1, Or.inr ⟨rfl, rfl⟩, .inr ⟨hqe hc, by dsimp only; omega, hylt, Or.inr ⟨rfl, rfl⟩⟩, by omega,
          by omega, stepy (by omega) hr⟩
  · have hylt : y < n2 - 2 := by
      by_contra hcon
      have hye : y = n2 - 2 := by omega
      subst hye
      nlinarith
    have hr := ratio_le R (a := n1) (c := n2) (p := x) (q := y + 1) (by omega) (by omega) (by omega) (by omega) h1 h2
      (by rw [e2]; exact hc) (by rw [e2]; nlinarith)
    exact ⟨x, y + 1, Or.inr ⟨rfl, rfl⟩,
      .inl (by unfold InteriorStep; rw [if_neg (fun h => (hq.1 h).not_gt hc)]), by omega, by omega, stepy hylt hr⟩

theorem zonedLoop_spec {n1 n2 : ℤ} (hn1 : 3 ≤ n1) (hn2 : 3 ≤ n2) (hP : n1 * n2 ≤ 10 ^ 15) {b1 b2 : K} (h1 : 0 < b1)
    (h2 : 0 < b2) (rt1 : rBi R n1 (n1 - 2) b1 = b1) (rt2 : rBi R n2 (n2 - 2) b2 = b2) (t : Bool) (m : ℕ) :
    ∀ {x y : ℤ}, 1 ≤ x → x ≤ n1 - 2 → 1 ≤ y → y ≤ n2 - 2 → (n1 - 2 - x) + (n2 - 2 - y) = m →
    ∃ path : List (ℤ × ℤ),
      UnitPath (x, y) (n1 - 2, n2 - 2) ((x, y) :: path) ∧
      ((x, y) :: path).IsChain (RoundedStep n1 n2) ∧
      ∀ fuel dom, m < fuel → zonedLoop R n1 n2 b1 b2 t fuel x y dom =
        .ok (dom ++ path.map fun q : ℤ × ℤ => maybeTranspose t (rZoned R n1 n2 b1 b2 q.1 q.2)) := by
  induction m with
  | zero =>
    intro x y hx hx' hy hy' hm
    have e1 : x = n1 - 2 := by omega
    have e2 : y = n2 - 2 := by omega
    subst e1; subst e2
    refine ⟨[], ⟨rfl, rfl, List.IsChain.singleton _⟩, List.IsChain.singleton _, ?_⟩
    intro fuel dom hf
    obtain ⟨k, rfl⟩ : ∃ k, fuel = k + 1 := ⟨fuel - 1, by omega⟩
    rw [zonedLoop, if_neg (by omega)]
    simp
  | succ m ih =>
    intro x y hx hx' hy hy' hm
    obtain ⟨x', y', hstep, hint, bx, bY, hloop⟩ :=
      zonedLoop_step R hn1 hn2 hP h1 h2 rt1 rt2 t hx hx' hy hy' (by omega)
    have hs : x' + y' = x + y + 1 ∧ x ≤ x' ∧ y ≤ y' := by
      rcases hstep with h | h <;> simp at h <;> omega
    obtain ⟨path, hp, hi, hlast⟩ :=
      ih (x := x') (y := y') (by omega) bx (by omega) bY (by omega)
    refine ⟨(x', y') :: path, ⟨rfl, ?_, ?_⟩, List.IsChain.cons_cons hint hi, ?_⟩
    · rw [List.getLast?_cons_cons]; exact hp.2.1
    · exact List.IsChain.cons_cons hstep hp.2.2
    · intro fuel dom hfuel
      obtain ⟨k, rfl⟩ : ∃ k, fuel = k + 1 := ⟨fuel - 1, by omega⟩
      rw [hloop, hlast _ _ (by omega)]
      simp

/-- what a zoned domain is, for sides of at least three boreholes -/
theorem zonedRectangleDomain_path {X Y : K} (hX : 0 < X) (hY : 0 < Y) {nx ny : ℤ} (t : Bool)
    {n1 n2 : ℤ} {L1 L2 : K}
    (hsel : (L1, L2, n1, n2) = if X ≥ Y then (X, Y, nx, ny) else (Y, X, ny, nx))
    (hn1 : 3 ≤ n1) (hn2 : 3 ≤ n2) (hP : n1 * n2 ≤ 10 ^ 15)
    (rt1 : rBi R n1 (n1 - 2) (R.fl (L1 / ((n1 - 1 : ℤ) : K))) = R.fl (L1 / ((n1 - 1 : ℤ) : K)))
    (rt2 : rBi R n2 (n2 - 2) (R.fl (L2 / ((n2 - 1 : ℤ) : K))) = R.fl (L2 / ((n2 - 1 : ℤ) : K))) :
    ∃ path : List (ℤ × ℤ),
      UnitPath (1, 1) (n1 - 2, n2 - 2) ((1, 1) :: path) ∧
      ((1, 1) :: path).IsChain (RoundedStep n1 n2) ∧
      ∀ fuel : ℕ, n1 + n2 ≤ fuel → zonedRectangleDomain R fuel X Y nx ny t =
        .ok (rZoned R n1 n2 (R.fl (L1 / ((n1 - 1 : ℤ) : K))) (R.fl (L2 / ((n2 - 1 : ℤ) : K))) 1 1 ::
          path.map fun q : ℤ × ℤ => maybeTranspose t
            (rZoned R n1 n2 (R.fl (L1 / ((n1 - 1 : ℤ) : K))) (R.fl (L2 / ((n2 - 1 : ℤ) : K))) q.1 q.2)) := by
  have hL : 0 < L1 ∧ 0 < L2 := by
    split at hsel <;> simp only [Prod.mk.injEq] at hsel <;> obtain ⟨rfl, rfl, _⟩ := hsel
    · exact ⟨hX, hY⟩
    · exact ⟨hY, hX⟩
  have pa : (0 : K) < ((n1 - 1 : ℤ) : K) := by exact_mod_cast (by omega : 0 < n1 - 1)
  have pc : (0 : K) < ((n2 - 1 : ℤ) : K) := by exact_mod_cast (by omega : 0 < n2 - 1)
  have hb1 := fl_pos R (div_pos hL.1 pa)
  have hb2 := fl_pos R (div_pos hL.2 pc)
  obtain ⟨path, hp, hi, hloop⟩ := zonedLoop_spec R hn1 hn2 hP hb1 hb2 rt1 rt2 t
    (n1 + n2 - 6).toNat (x := 1) (y := 1) le_rfl (by omega) le_rfl (by omega) (by omega)
  refine ⟨path, hp, hi, ?_⟩
  intro fuel hfuel
  unfold zonedRectangleDomain
  rw [← hsel]
  dsimp only
  rw [div_ok R pa.ne', Except.ok_bind, div_ok R pc.ne', Except.ok_bind,
    zonedRectangle_ok R le_rfl le_rfl (by omega) (by omega), Except.ok_bind, hloop _ _ (by omega)]
  rfl

section double
variable [FloorRing K]

/-- in double precision the spacing of the full interior is the spacing of the outline -/
theorem rBi_double {L : K} (hL : 0 < L) (hr : double L = L) {n : ℤ} (h1 : 2 ≤ n) (hn : n ≤ 2 ^ 53) :
    rBi Rounding.double n (n - 2) (Rounding.double.fl (L / ((n - 1 : ℤ) : K))) =
      Rounding.double.fl (L / ((n - 1 : ℤ) : K)) := by
  have := double_round_trip hL hr (m := n - 1) (by omega) (by omega)
  unfold rBi
  rw [show n - 2 + 1 = n - 1 by ring]
  exact this

end double

end Ghedt.Rounded
