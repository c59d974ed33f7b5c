import Verif.Lemmas.HeatConcave
import Verif.Props.WholeValue
import Verif.Props.Radial

/-!
# C103: the short-time response slows down
-/

set_option linter.unusedSectionVars false

namespace Ghedt.Radial
open Real Ghedt.Spec Ghedt.GL

noncomputable section
variable {u : Tube}

/-- C103: while the load stays constant, the fluid warms ever more slowly.  Of the samples of the g-function, taken
every 120 seconds, each exceeds the one before by no more than that one exceeded its own predecessor; the second
exceeds the first by no more than the first exceeds the value `-2 π k R_b` of an undisturbed fluid. -/
theorem C103_samples {solve : Solver} (hu : u.Sound) (hsol : ExactSolver solve) (final : Option ℝ) :
    ∃ N r lntts g, (∀ fuel, N ≤ fuel → calcSts solve u final false fuel = .ok (r, lntts, g)) ∧ g.length = N ∧
      (∀ k a b c, g[k]? = some a → g[k + 1]? = some b → g[k + 2]? = some c → c - b ≤ b - a) ∧
      ∀ a b, g[0]? = some a → g[1]? = some b → b - a ≤ a - -(2 * π * u.kSoil * u.Rb) := by
  have hp := gridOf_pos hu
  have hH := heat_history hp (by norm_num) 1 20
  obtain ⟨N, -, -, -, h⟩ := run hu hsol final hH
  have hk : 0 < 2 * π * u.kSoil := by have := hu.kSoil; positivity
  set A := heat 535 (condOf (gridOf u)) (capOf 120 (gridOf u)) 1 20 hp (by norm_num) with hA
  have hget : ∀ k a, ((List.range N).map fun j => 2 * π * u.kSoil * ((A (j + 1) 0 - 20) - u.Rb))[k]? = some a →
      a = 2 * π * u.kSoil * ((A (k + 1) 0 - 20) - u.Rb) := by
    intro k a ha
    rw [List.getElem?_map] at ha
    by_cases hkN : k < N
    · rw [List.getElem?_range hkN] at ha
      cases ha; rfl
    · rw [List.getElem?_eq_none (by rw [List.length_range]; omega)] at ha
      cases ha
  refine ⟨N, _, _, _, h, by rw [List.length_map, List.length_range], ?_, ?_⟩
  · intro k a b c ha hb hc
    rw [hget _ _ ha, hget _ _ hb, hget _ _ hc]
    have := hH.gain_core hp (by norm_num) zero_le_one (k + 1)
    have := mul_le_mul_of_nonneg_left this hk.le
    rw [show k + 1 + 2 = k + 2 + 1 by ring] at this
    linarith
  · intro a b ha hb
    rw [hget _ _ ha, hget _ _ hb]
    have := hH.gain_core hp (by norm_num) zero_le_one 0
    have := mul_le_mul_of_nonneg_left this hk.le
    rw [hH.1 0 (by norm_num)] at this
    simp only [Nat.zero_add] at this ⊢
    linarith

/-- a value of the response lies between the samples around it -/
theorem between_samples {x y : ℕ → ℝ} {N : ℕ} (hx : ∀ k, k + 1 < N → x k < x (k + 1))
    (hy : ∀ k, k + 1 < N → y k < y (k + 1)) {j : ℕ} (hj : j + 1 < N) {v d : ℝ} (h1 : x j < v) (h2 : v < x (j + 1))
    (h : interp1d ((List.range N).map x) ((List.range N).map y) v = .ok d) : y j ≤ d ∧ d ≤ y (j + 1) := by
  have hxm : ∀ a b, a ≤ b → b < N → x a ≤ x b := by
    intro a b hab
    induction b, hab using Nat.le_induction with
    | base => intro _; exact le_rfl
    | succ b _ ih => intro hb; exact (ih (by omega)).trans (hx b hb).le
  have hs : ((List.range N).map x).Pairwise (· ≤ ·) := by
    rw [List.pairwise_map]
    refine List.Pairwise.imp_of_mem ?_ List.pairwise_lt_range
    intro a b _ hb hab
    exact hxm a b hab.le (List.mem_range.1 hb)
  have hpts : ((List.range N).map x).zip ((List.range N).map y) = (List.range N).map fun k => (x k, y k) := by
    rw [List.zip_map']
  rcases Whole.interp1d_polyline hs h with hm | ⟨k, p, q, e1, e2, e3, e4, e5⟩
  · rw [hpts] at hm
    obtain ⟨i, hi, e⟩ := List.mem_map.1 hm
    have hi := List.mem_range.1 hi
    simp only [Prod.mk.injEq] at e
    exfalso
    rcases Nat.lt_or_ge j i with hji | hij
    · have := hxm (j + 1) i hji hi; linarith
    · have := hxm i j hij (by omega); linarith
  · rw [hpts, List.getElem?_map] at e1 e2
    have hk : k + 1 < N := by
      by_contra hcon
      rw [List.getElem?_eq_none (by rw [List.length_range]; omega)] at e2
      cases e2
    rw [List.getElem?_range (by omega)] at e1
    rw [List.getElem?_range hk] at e2
    cases e1; cases e2
    dsimp only at e3 e4 e5
    have hkj : k = j := by
      rcases Nat.lt_trichotomy k j with hl | he | hg
      · have := hxm (k + 1) j hl (by omega); linarith
      · exact he
      · have := hxm (j + 1) k hg (by omega); linarith
    subst hkj
    have hpos : 0 < x (k + 1) - x k := by linarith
    have hs' : 0 ≤ (y (k + 1) - y k) / (x (k + 1) - x k) := div_nonneg (by linarith [hy k hk]) hpos.le
    constructor
    · rw [e5]
      have := mul_nonneg hs' (show 0 ≤ v - x k by linarith)
      linarith
    · rw [e5]
      have := mul_le_mul_of_nonneg_left (show v - x k ≤ x (k + 1) - x k by linarith) hs'
      rw [div_mul_cancel₀ _ hpos.ne'] at this
      linarith

/-- the values at the hours, and the samples they lie between -/
theorem slow_located {solve : Solver} (hu : u.Sound) (hsol : ExactSolver solve) (final : Option ℝ)
    {M : ℕ} (hM : (M : ℝ) * 3600 ≤ horizon u final - 120) :
    ∃ N r lntts g, (∀ fuel, N ≤ fuel → calcSts solve u final false fuel = .ok (r, lntts, g)) ∧
      ∃ G : ℕ → ℝ, (∀ t : ℕ, 1 ≤ t → t ≤ M → (respOf u r lntts g).g (t : ℤ) = .ok (G t)) ∧
        (∀ t, 1 ≤ t → t < M → G t ≤ G (t + 1)) ∧
        (∀ t, 1 ≤ t → t ≤ M → -(2 * π * u.kSoil * u.Rb) < G t) ∧
        (∀ s t : ℕ, 1 ≤ s → s ≤ t → t ≤ M →
          (s : ℝ) * (G t / (2 * π * u.kSoil) + u.Rb) ≤ ((t : ℝ) + 1 / 30) * (G s / (2 * π * u.kSoil) + u.Rb)) ∧
        ∀ H, HeatHistory 535 (condOf (gridOf u)) (capOf 120 (gridOf u)) 1 20 H → ∀ t : ℕ, 1 ≤ t → t ≤ M →
          H (30 * t) 0 - 20 ≤ G t / (2 * π * u.kSoil) + u.Rb ∧
          G t / (2 * π * u.kSoil) + u.Rb ≤ H (30 * t + 1) 0 - 20 := by
  obtain ⟨N', r', lntts', g', h', G, g1, g2, g3⟩ := hours hu hsol final hM
  refine ⟨N', r', lntts', g', h', G, g1, g2, g3, ?_⟩
  have hp := gridOf_pos hu
  have hH := heat_history hp (by norm_num) 1 20
  obtain ⟨N, h0, h1, -, h⟩ := run hu hsol final hH
  have e1 := h' (max N N') (le_max_right _ _)
  rw [h (max N N') (le_max_left _ _)] at e1
  cases e1
  have hts := ts_pos hu 20
  have hk : 0 < 2 * π * u.kSoil := by have := hu.kSoil; positivity
  set A := heat 535 (condOf (gridOf u)) (capOf 120 (gridOf u)) 1 20 hp (by norm_num) with hA
  have hmono : StrictMono fun k => A k 0 :=
    strictMono_nat_of_lt_succ fun k => hH.core_strict hp (by norm_num) one_pos k
  have hx : ∀ k, log (sampleTime k / (radialOf u 20).ts) < log (sampleTime (k + 1) / (radialOf u 20).ts) := by
    intro k
    apply log_lt_log
    · exact div_pos (by unfold sampleTime; positivity) hts
    · apply div_lt_div_of_pos_right _ hts
      unfold sampleTime
      push_cast; linarith
  have hy : ∀ k, 2 * π * u.kSoil * ((A (k + 1) 0 - 20) - u.Rb) <
      2 * π * u.kSoil * ((A (k + 1 + 1) 0 - 20) - u.Rb) := by
    intro k
    apply mul_lt_mul_of_pos_left _ hk
    have := hmono (Nat.lt_succ_self (k + 1))
    simp only [Nat.succ_eq_add_one] at this
    linarith
  have hpow : (0 : ℝ) < 1 / 10 ^ 12 := by positivity
  have hpow' : (1 : ℝ) / 10 ^ 12 < 120 := by norm_num
  -- the value at an hour lies between two samples
  have hloc : ∀ t : ℕ, 1 ≤ t → t ≤ M → A (30 * t) 0 - 20 ≤ G t / (2 * π * u.kSoil) + u.Rb ∧
      G t / (2 * π * u.kSoil) + u.Rb ≤ A (30 * t + 1) 0 - 20 := by
    intro t t1 t2
    have c3 : (t : ℝ) ≤ M := by exact_mod_cast t2
    have c1 : (1 : ℝ) ≤ t := by exact_mod_cast t1
    have hN : 30 * t < N := by
      have : (30 * t : ℝ) < N := by
        unfold sampleTime at h1
        linarith
      exact_mod_cast this
    have ht := g1 t t1 t2
    obtain ⟨b1, b2⟩ := between_samples (fun k _ => hx k) (fun k _ => hy k) (j := 30 * t - 1) (by omega) (by
      apply log_lt_log
      · exact div_pos (by unfold sampleTime; positivity) hts
      · apply div_lt_div_of_pos_right _ hts
        unfold sampleTime
        rw [Nat.cast_sub (by omega), Int.cast_natCast]
        push_cast
        linarith) (by
      apply log_lt_log
      · exact div_pos (by rw [Int.cast_natCast]; linarith) hts
      · apply div_lt_div_of_pos_right _ hts
        rw [show 30 * t - 1 + 1 = 30 * t by omega]
        unfold sampleTime
        rw [Int.cast_natCast]
        push_cast
        linarith) ht
    rw [show 30 * t - 1 + 1 = 30 * t by omega] at b1 b2
    constructor
    · have := div_le_div_of_nonneg_right b1 hk.le
      rw [mul_div_cancel_left₀ _ hk.ne'] at this
      linarith
    · have := div_le_div_of_nonneg_right b2 hk.le
      rw [mul_div_cancel_left₀ _ hk.ne'] at this
      linarith
  refine ⟨?_, fun H hH' t t1 t2 => by
    rw [hH'.unique hp (by norm_num) hH _ _ (by norm_num), hH'.unique hp (by norm_num) hH _ _ (by norm_num)]
    exact hloc t t1 t2⟩
  intro s t s1 hst htM
  have hc := chord (R := fun k => A k 0 - 20) (by
    rw [hH.1 0 (by norm_num), sub_self]) (fun k => by
    have := hH.gain_core hp (by norm_num) zero_le_one k
    linarith) (a := 30 * s) (b := 30 * t + 1) (by omega)
  have l1 := (hloc s s1 (by omega)).1
  have l2 := (hloc t (by omega) htM).2
  push_cast at hc
  have s0 : (0 : ℝ) ≤ s := Nat.cast_nonneg s
  have t0 : (0 : ℝ) ≤ t := Nat.cast_nonneg t
  have m1 := mul_le_mul_of_nonneg_left l2 (show (0 : ℝ) ≤ 30 * s by positivity)
  have m2 := mul_le_mul_of_nonneg_left l1 (show (0 : ℝ) ≤ 30 * t + 1 by positivity)
  linarith

/-- the values at the hours -/
theorem slow_hours {solve : Solver} (hu : u.Sound) (hsol : ExactSolver solve) (final : Option ℝ)
    {M : ℕ} (hM : (M : ℝ) * 3600 ≤ horizon u final - 120) :
    ∃ N r lntts g, (∀ fuel, N ≤ fuel → calcSts solve u final false fuel = .ok (r, lntts, g)) ∧
      ∃ G : ℕ → ℝ, (∀ t : ℕ, 1 ≤ t → t ≤ M → (respOf u r lntts g).g (t : ℤ) = .ok (G t)) ∧
        (∀ t, 1 ≤ t → t < M → G t ≤ G (t + 1)) ∧
        (∀ t, 1 ≤ t → t ≤ M → -(2 * π * u.kSoil * u.Rb) < G t) ∧
        ∀ s t : ℕ, 1 ≤ s → s ≤ t → t ≤ M →
          (s : ℝ) * (G t / (2 * π * u.kSoil) + u.Rb) ≤ ((t : ℝ) + 1 / 30) * (G s / (2 * π * u.kSoil) + u.Rb) := by
  obtain ⟨N, r, lntts, g, h, G, g1, g2, g3, g4, -⟩ := slow_located hu hsol final hM
  exact ⟨N, r, lntts, g, h, G, g1, g2, g3, g4⟩

/-- C103: read at whole hours `s ≤ t`, the temperature rise of the fluid per unit of load, `g / (2 π k) + R_b`, grows
at most in proportion to time (up to the two minutes between samples). -/
theorem C103_hours {solve : Solver} (hu : u.Sound) (hsol : ExactSolver solve) :
    ∃ N r lntts g, (∀ fuel, N ≤ fuel → calcSts solve u none false fuel = .ok (r, lntts, g)) ∧
      ∀ s t : ℕ, 1 ≤ s → s ≤ t → t ≤ 48 → ∃ a b, (respOf u r lntts g).g (s : ℤ) = .ok a ∧
        (respOf u r lntts g).g (t : ℤ) = .ok b ∧ 0 < a / (2 * π * u.kSoil) + u.Rb ∧
        (s : ℝ) * (b / (2 * π * u.kSoil) + u.Rb) ≤ ((t : ℝ) + 1 / 30) * (a / (2 * π * u.kSoil) + u.Rb) := by
  obtain ⟨N, r, lntts, g, h, G, g1, g2, g3, g4⟩ := slow_hours hu hsol none (M := 48) (by
    unfold horizon
    rw [Option.getD_none]
    have := le_max_right (u.H ^ 2 / (9 * (u.ks / u.rhoCpSoil)) * exp (-(86 / 10))) (49 * 3600)
    push_cast
    linarith)
  have hk : 0 < 2 * π * u.kSoil := by have := hu.kSoil; positivity
  refine ⟨N, r, lntts, g, h, fun s t s1 st t1 => ⟨G s, G t, g1 s s1 (by omega), g1 t (by omega) t1, ?_, g4 s t s1 st t1⟩⟩
  have := g3 s s1 (by omega)
  rw [div_add' _ _ _ hk.ne']
  apply div_pos _ hk
  linarith [mul_comm u.Rb (2 * π * u.kSoil)]

/-- The hypotheses are met by a usual borehole. -/
example : ∃ N r lntts g, (∀ fuel, N ≤ fuel → calcSts exSolver exTube none false fuel = .ok (r, lntts, g)) ∧ g.length = N ∧
      (∀ k a b c, g[k]? = some a → g[k + 1]? = some b → g[k + 2]? = some c → c - b ≤ b - a) ∧
      ∀ a b, g[0]? = some a → g[1]? = some b → b - a ≤ a - -(2 * π * exTube.kSoil * exTube.Rb) :=
  C103_samples exTube_sound exSolver_exact none

example := C103_hours exTube_sound exSolver_exact

end

end Ghedt.Radial
