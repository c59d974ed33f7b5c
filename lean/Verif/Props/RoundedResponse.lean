import Verif.Model.RoundedResponse
import Verif.Lemmas.RoundedInterp
import Verif.Props.RoundedGhe
import Verif.Props.RoundedLoads
import Verif.Spec.Tabulated

set_option linter.unusedSectionVars false

/-!
# The ground response in floating-point arithmetic
-/

namespace Ghedt.Rounded
open GHE Spec Real

/-- C146: without rounding the model is that of the other claims. -/
theorem C146_exact (ts : ℝ) (x y : List ℝ) (τ : ℝ) (g : List ℝ) (rb rbStar : ℝ) :
    response Rounding.exact log ts x y τ = Whole.response ts x y τ ∧
    radiusCorrection Rounding.exact log g rb rbStar = GF.radiusCorrection log g rb rbStar := by
  refine ⟨?_, rfl⟩
  unfold response Whole.response interp1d Ghedt.interp1d
  rw [interpNodes_exact]
  rfl

/-- C146: linear interpolation in floating-point arithmetic raises what it raises in exact arithmetic, and otherwise gives a
value within `2^-47` of the largest ordinate. -/
theorem C146_interp {K : Type} [Field K] [LinearOrder K] [IsStrictOrderedRing K] (R : Rounding K) (x y : List K) (v M : K)
    (hM : ∀ a ∈ y, |a| ≤ M) :
    (∃ d d', Ghedt.interp1d x y v = .ok d ∧ interp1d R x y v = .ok d' ∧ |d' - d| ≤ M / 2 ^ 47) ∨
    (∃ e, Ghedt.interp1d x y v = .error e ∧ interp1d R x y v = .error e) := by
  unfold Ghedt.interp1d interp1d
  split_ifs
  · exact .inr ⟨_, rfl, rfl⟩
  · refine interpNodes_rounded R _ v (fun p hp => hM _ ?_)
    rw [List.mem_insertionSort] at hp
    exact (List.of_mem_zip hp).2

/-- C146: at the points of a table (strictly increasing abscissae) the interpolation returns the number stored there, without
any error. -/
theorem C146_points {K : Type} [Field K] [LinearOrder K] [IsStrictOrderedRing K] (R : Rounding K) (N : ℕ) (x y : ℕ → K)
    (hx : ∀ k, k + 1 < N → x k < x (k + 1)) (k : ℕ) (hk : k < N) (hy : R.fl (y k) = y k) :
    interp1d R ((List.range N).map x) ((List.range N).map y) (x k) = .ok (y k) := by
  have hxm : ∀ i j, i < j → j < N → x i < x j := by
    intro i j hij
    induction j, hij using Nat.le_induction with
    | base => intro h; exact hx i h
    | succ j _ ih => intro hj; exact (ih (by omega)).trans (hx j hj)
  have hp : ((List.range N).map fun k => (x k, y k)).Pairwise fun p q => p.1 < q.1 := by
    rw [List.pairwise_map]
    refine List.Pairwise.imp_of_mem ?_ List.pairwise_lt_range
    intro a b _ hb hab
    exact hxm a b hab (List.mem_range.1 hb)
  unfold interp1d
  rw [if_neg (by simp), List.zip_map', List.Pairwise.insertionSort_eq (hp.imp fun h => h.le)]
  exact interpNodes_point R _ hp (x k, y k) (List.mem_map.2 ⟨k, List.mem_range.2 hk, rfl⟩) hy

section
variable {R : Rounding ℝ} {ℓ : ℝ → ℝ} {η : ℝ}

/-- the logarithm of something computed with three roundings -/
theorem log_close (hℓ : Accurate η ℓ) (hη : 0 ≤ η) {z z' W : ℝ} (hz : 0 < z) (h : |z' - z| ≤ 3 / 2 ^ 52 * z)
    (hW : |log z| ≤ W) : 0 < z' ∧ |ℓ z' - log z| ≤ shift η W := by
  obtain ⟨h1, h2⟩ := abs_le.1 h
  have hz' : 0 < z' := by
    have : 3 / 2 ^ 52 * z < z := by
      have : (3 / 2 ^ 52 : ℝ) < 1 := by norm_num
      nlinarith
    linarith
  have hr : 0 < z' / z := by positivity
  have e : log z' - log z = log (z' / z) := (log_div hz'.ne' hz.ne').symm
  have up : log (z' / z) ≤ 1 / 2 ^ 50 := by
    have h3 := log_le_sub_one_of_pos hr
    have : z' / z ≤ 1 + 3 / 2 ^ 52 := by rw [div_le_iff₀ hz]; linarith
    have : (3 / 2 ^ 52 : ℝ) ≤ 1 / 2 ^ 50 := by norm_num
    linarith
  have low : -(1 / 2 ^ 50) ≤ log (z' / z) := by
    have h3 := one_sub_inv_le_log_of_pos hr
    have : (z' / z)⁻¹ ≤ 1 + 1 / 2 ^ 50 := by
      rw [inv_div, div_le_iff₀ hz']
      have : (1 + 1 / 2 ^ 50 : ℝ) * ((1 - 3 / 2 ^ 52) * z) ≤ (1 + 1 / 2 ^ 50) * z' :=
        mul_le_mul_of_nonneg_left (by linarith) (by positivity)
      have : z ≤ (1 + 1 / 2 ^ 50 : ℝ) * ((1 - 3 / 2 ^ 52) * z) := by
        have : (1 : ℝ) ≤ (1 + 1 / 2 ^ 50) * (1 - 3 / 2 ^ 52) := by norm_num
        nlinarith
      linarith
    linarith
  have hd : |log z' - log z| ≤ 1 / 2 ^ 50 := by rw [e]; exact abs_le.2 ⟨low, up⟩
  have hz2 : |log z'| ≤ W + 1 / 2 ^ 50 := by
    have := abs_add_le (log z' - log z) (log z)
    rw [sub_add_cancel] at this
    linarith
  refine ⟨hz', ?_⟩
  have t1 := hℓ z' hz'
  have t2 := mul_le_mul_of_nonneg_left hz2 hη
  have t3 := abs_add_le (ℓ z' - log z') (log z' - log z)
  rw [sub_add_sub_cancel] at t3
  unfold shift
  linarith

/-- C146: the correction of a curve for another borehole radius: with the same radius the curve is unchanged, without any
error; otherwise each entry is off by at most `2^-53` of its size and what the logarithm is off, `2^-52` of which comes from
the quotient. -/
theorem C146_radius (hℓ : Accurate η ℓ) (hη : 0 ≤ η) (g : List ℝ) (rb rbStar : ℝ) (h1 : 0 < rb) (h2 : 0 < rbStar) :
    (rbStar = rb → (∀ v ∈ g, R.fl v = v) → radiusCorrection R ℓ g rb rbStar = .ok g) ∧
    ∃ c, radiusCorrection R ℓ g rb rbStar = .ok c ∧ c.length = g.length ∧
      ∀ (i : ℕ) (v w : ℝ), g[i]? = some v → c[i]? = some w →
        |w - (v - log (rbStar / rb))| ≤ (1 + 1 / 2 ^ 53) * shift η |log (rbStar / rb)| +
          1 / 2 ^ 53 * |v - log (rbStar / rb)| := by
  have heq : radiusCorrection R ℓ g rb rbStar = .ok (g.map fun v => R.fl (v - ℓ (R.fl (rbStar / rb)))) := by
    unfold radiusCorrection
    have : ∀ l : List ℝ, (l.mapM fun v => do
        let q ← div R rbStar rb
        return sub R v (ℓ q) : Py (List ℝ)) = .ok (l.map fun v => R.fl (v - ℓ (R.fl (rbStar / rb)))) := by
      intro l
      induction l with
      | nil => rfl
      | cons v l ih =>
        rw [List.mapM_cons, ih]
        unfold div
        rw [if_neg h1.ne']
        rfl
    exact this g
  constructor
  · rintro rfl hg
    rw [heq, div_self h1.ne', fl_one]
    have : ℓ 1 = 0 := by
      have := hℓ 1 one_pos
      rw [log_one, abs_zero, mul_zero, sub_zero] at this
      exact abs_eq_zero.1 (le_antisymm this (abs_nonneg _))
    rw [this]
    congr 1
    conv_rhs => rw [← List.map_id g]
    refine List.map_congr_left fun v hv => ?_
    rw [sub_zero, hg v hv]
    rfl
  · refine ⟨_, heq, by rw [List.length_map], ?_⟩
    intro i v w hv hw
    rw [List.getElem?_map, hv] at hw
    cases hw
    have hz : 0 < rbStar / rb := by positivity
    have hq := R.err (rbStar / rb)
    rw [abs_of_pos hz] at hq
    have h3 : |R.fl (rbStar / rb) - rbStar / rb| ≤ 3 / 2 ^ 52 * (rbStar / rb) :=
      hq.trans (mul_le_mul_of_nonneg_right (by norm_num) hz.le)
    have hl := (log_close hℓ hη hz h3 le_rfl).2
    have he := R.err (v - ℓ (R.fl (rbStar / rb)))
    set a := ℓ (R.fl (rbStar / rb))
    set b := log (rbStar / rb)
    have t1 : |v - a| ≤ |v - b| + |a - b| := by
      have := abs_add_le (v - b) (b - a)
      rw [sub_add_sub_cancel, abs_sub_comm b a] at this
      exact this
    have t2 : |R.fl (v - a) - (v - b)| ≤ |R.fl (v - a) - (v - a)| + |a - b| := by
      have := abs_add_le (R.fl (v - a) - (v - a)) (b - a)
      rw [abs_sub_comm b a] at this
      refine le_trans (le_of_eq ?_) this
      congr 1
      ring
    have t3 : (1 / 2 ^ 53 : ℝ) * |v - a| ≤ 1 / 2 ^ 53 * (|v - b| + |a - b|) := mul_le_mul_of_nonneg_left t1 (by positivity)
    nlinarith

variable {N : ℕ} {x y : ℕ → ℝ} {W M L ts : ℝ}

theorem slope_nonneg (hT : Tabulated N x y W M L) (h2 : 1 < N) : 0 ≤ L := by
  have h1 := hT.inc 0 h2
  have h3 := (abs_nonneg _).trans (hT.slope 0 h2)
  exact nonneg_of_mul_nonneg_left h3 (by linarith)

/-- C146: the response at a time, evaluated in floating-point arithmetic with a logarithm of relative error `η`, from a time
that is off by one rounding: within `L` times the shift of the abscissa and `2^-47` of the largest ordinate of what it is in
exact arithmetic, unless the time is so close to the ends of the table that the shift leads out of it. -/
theorem C146_response (hℓ : Accurate η ℓ) (hη : 0 ≤ η) (hT : Tabulated N x y W M L) (hts : 0 < ts) (τ τ' : ℝ) (hτ : 0 < τ)
    (hτ' : |τ' - τ| ≤ 1 / 2 ^ 53 * |τ|) (h1 : x 0 + shift η W ≤ log (τ * 3600 / ts))
    (h2 : log (τ * 3600 / ts) ≤ x (N - 1) - shift η W) :
    ∃ d d', Whole.response ts ((List.range N).map x) ((List.range N).map y) τ = .ok d ∧
      response R ℓ ts ((List.range N).map x) ((List.range N).map y) τ' = .ok d' ∧ |d' - d| ≤ L * shift η W + M / 2 ^ 47 := by
  have hs : 0 ≤ shift η W := by
    have : 0 ≤ W := (abs_nonneg _).trans (hT.abscissa 0 hT.pos)
    unfold shift
    positivity
  have hz : 0 < τ * 3600 / ts := by positivity
  have hτ0 : 0 < τ' := by
    rw [abs_of_pos hτ] at hτ'
    have := (abs_le.1 hτ').1
    have : (1 / 2 ^ 53 : ℝ) * τ < τ := by
      have : (1 / 2 ^ 53 : ℝ) < 1 := by norm_num
      nlinarith
    linarith
  have hW : |log (τ * 3600 / ts)| ≤ W := by
    have a := abs_le.1 (hT.abscissa 0 hT.pos)
    have b := abs_le.1 (hT.abscissa (N - 1) (by have := hT.pos; omega))
    exact abs_le.2 ⟨by linarith, by linarith⟩
  have hclose : |R.fl (R.fl (τ' * 3600) / ts) - τ * 3600 / ts| ≤ 3 / 2 ^ 52 * (τ * 3600 / ts) := by
    have o0 : Off 1 τ' τ |τ| := ⟨by rw [grow_one]; exact hτ', le_rfl⟩
    have o1 := ((o0.mul_const 3600).fl R)
    have o2 := (o1.div_const hts).fl R
    have hg := grow_le (K := ℝ) (k := 3) (by norm_num)
    refine o2.1.trans ?_
    rw [abs_of_pos hτ, abs_of_pos (show (0 : ℝ) < 3600 by norm_num)]
    exact mul_le_mul_of_nonneg_right (by exact_mod_cast hg) hz.le
  obtain ⟨hz', hl⟩ := log_close hℓ hη hz hclose hW
  set v := log (τ * 3600 / ts) with hv
  set v' := ℓ (R.fl (R.fl (τ' * 3600) / ts)) with hv'
  obtain ⟨l1, l2⟩ := abs_le.1 hl
  obtain ⟨d, hd⟩ := interp1d_exists y hT.inc hT.pos (v := v) (by linarith) (by linarith)
  obtain ⟨d1, hd1⟩ := interp1d_exists y hT.inc hT.pos (v := v') (by linarith) (by linarith)
  obtain ⟨e1, d', he, hd', hc⟩ | ⟨e, he, -⟩ := C146_interp R ((List.range N).map x) ((List.range N).map y) v' M (by
    intro a ha
    obtain ⟨k, hk, rfl⟩ := List.mem_map.1 ha
    exact hT.ordinate k (List.mem_range.1 hk))
  swap
  · rw [hd1] at he; cases he
  obtain rfl : d1 = e1 := Except.ok.inj (hd1.symm.trans he)
  have hxm : ∀ i j, i < j → j < N → x i < x j := by
    intro i j hij
    induction j, hij using Nat.le_induction with
    | base => intro h; exact hT.inc i h
    | succ j _ ih => intro hj; exact (ih (by omega)).trans (hT.inc j hj)
  have hp : ((List.range N).map fun k => (x k, y k)).Pairwise fun p q => p.1 < q.1 := by
    rw [List.pairwise_map]
    refine List.Pairwise.imp_of_mem ?_ List.pairwise_lt_range
    intro a b _ hb hab
    exact hxm a b hab (List.mem_range.1 hb)
  have hch : ((List.range N).map fun k => (x k, y k)).IsChain fun p q => |q.2 - p.2| ≤ L * (q.1 - p.1) := by
    rw [List.isChain_iff_getElem]
    intro k hk
    rw [List.length_map, List.length_range] at hk
    simp only [List.getElem_map, List.getElem_range]
    exact hT.slope k hk
  have hslope : |d1 - d| ≤ L * |v' - v| := by
    rw [interp1d_range_eq (fun k hk => (hT.inc k hk).le)] at hd hd1
    rcases le_total v v' with h | h
    · rw [abs_of_nonneg (show 0 ≤ v' - v by linarith)]
      exact interpNodes_slope _ hp hch v v' d d1 h hd hd1
    · rw [abs_sub_comm v' v, abs_of_nonneg (show 0 ≤ v - v' by linarith), abs_sub_comm]
      exact interpNodes_slope _ hp hch v' v d1 d h hd1 hd
  have hL : L * |v' - v| ≤ L * shift η W := by
    by_cases hN : 1 < N
    · exact mul_le_mul_of_nonneg_left hl (slope_nonneg hT hN)
    · have : N = 1 := by have := hT.pos; omega
      have hs0 : 0 < shift η W := by
        have : 0 ≤ W := (abs_nonneg _).trans (hT.abscissa 0 hT.pos)
        unfold shift
        positivity
      rw [this] at h2
      norm_num at h2
      linarith
  refine ⟨d, d', ?_, ?_, ?_⟩
  · unfold Whole.response
    rw [if_neg (not_le.2 hτ)]
    exact hd
  · unfold response
    rw [if_neg (not_le.2 hτ0)]
    exact hd'
  · have := abs_add_le (d' - d1) (d1 - d)
    rw [sub_add_sub_cancel] at this
    linarith

theorem exit_close (p : Plant ℝ) (hp : p.Sound) {G G' : ℕ → ℕ → ℝ} {Q : ℕ → ℝ} {i : ℕ} {δ : ℝ}
    (h : ∀ j < i, |G' i j - G i j| ≤ δ) :
    |p.exit G' Q i - p.exit G Q i| ≤ δ * p.changes Q i ∧ p.size G' Q i ≤ p.size G Q i + δ * p.changes Q i := by
  have hD : 0 < p.boreholes * p.height * p.twoPiK := mul_pos (mul_pos hp.boreholes hp.height) hp.twoPiK
  constructor
  · have e : p.exit G' Q i - p.exit G Q i =
        ∑ j ∈ Finset.range i, (Q (j + 1) - Q j) / (p.boreholes * p.height * p.twoPiK) * (G' i j - G i j) := by
      unfold Plant.exit
      simp only [mul_sub, Finset.sum_sub_distrib]
      ring
    rw [e]
    refine (Finset.abs_sum_le_sum_abs _ _).trans ?_
    unfold Plant.changes
    rw [Finset.mul_sum]
    refine Finset.sum_le_sum fun j hj => ?_
    rw [abs_mul, abs_div, abs_of_pos hD, mul_comm δ]
    refine mul_le_mul ?_ (h j (Finset.mem_range.1 hj)) (abs_nonneg _) (by positivity)
    exact div_le_div_of_nonneg_right (abs_sub _ _) hD.le
  · unfold Plant.size Plant.changes
    rw [Finset.mul_sum]
    have : ∑ j ∈ Finset.range i, (|Q (j + 1)| + |Q j|) / (p.boreholes * p.height * p.twoPiK) * |G' i j| ≤
        ∑ j ∈ Finset.range i, (|Q (j + 1)| + |Q j|) / (p.boreholes * p.height * p.twoPiK) * |G i j| +
        ∑ j ∈ Finset.range i, δ * ((|Q (j + 1)| + |Q j|) / (p.boreholes * p.height * p.twoPiK)) := by
      rw [← Finset.sum_add_distrib]
      refine Finset.sum_le_sum fun j hj => ?_
      have t : |G' i j| ≤ |G i j| + δ := by
        have := abs_add_le (G' i j - G i j) (G i j)
        rw [sub_add_cancel] at this
        have := h j (Finset.mem_range.1 hj)
        linarith
      have := mul_le_mul_of_nonneg_left t (show 0 ≤ (|Q (j + 1)| + |Q j|) / (p.boreholes * p.height * p.twoPiK) by positivity)
      linarith
    linarith

/-- the responses a simulation is given -/
theorem responses_close (R : Rounding ℝ) (hℓ : Accurate η ℓ) (hη : 0 ≤ η) (hT : Tabulated N x y W M L) (hts : 0 < ts)
    (G : ℕ → ℕ → ℝ) (n : ℕ) (t : ℕ → ℝ)
    (hin : ∀ i ≤ n, ∀ j < i, t j ≤ t i → t j < t i ∧ x 0 + shift η W ≤ log ((t i - t j) * 3600 / ts) ∧
      log ((t i - t j) * 3600 / ts) ≤ x (N - 1) - shift η W)
    (hG : ∀ i ≤ n, ∀ j < i, t j ≤ t i →
      Whole.response ts ((List.range N).map x) ((List.range N).map y) (t i - t j) = .ok (G i j)) :
    ∃ G' : ℕ → ℕ → ℝ, (∀ i ≤ n, ∀ j < i, t j ≤ t i →
      response R ℓ ts ((List.range N).map x) ((List.range N).map y) (R.fl (t i - t j)) = .ok (G' i j)) ∧
      ∀ i ≤ n, ∀ j < i, t j ≤ t i → |G' i j - G i j| ≤ L * shift η W + M / 2 ^ 47 := by
  have key : ∀ i j, ∃ g, i ≤ n → j < i → t j ≤ t i →
      response R ℓ ts ((List.range N).map x) ((List.range N).map y) (R.fl (t i - t j)) = .ok g ∧
      |g - G i j| ≤ L * shift η W + M / 2 ^ 47 := by
    intro i j
    by_cases h : i ≤ n ∧ j < i ∧ t j ≤ t i
    · obtain ⟨h1, h2, h3⟩ := h
      obtain ⟨a, b, c⟩ := hin i h1 j h2 h3
      obtain ⟨d, d', e1, e2, e3⟩ := C146_response (R := R) hℓ hη hT hts (t i - t j) (R.fl (t i - t j)) (by linarith)
        (R.err _) b c
      rw [hG i h1 j h2 h3] at e1
      cases e1
      exact ⟨d', fun _ _ _ => ⟨e2, e3⟩⟩
    · exact ⟨0, fun h1 h2 h3 => absurd ⟨h1, h2, h3⟩ h⟩
  choose G' hG' using key
  exact ⟨G', fun i h1 j h2 h3 => (hG' i j h1 h2 h3).1, fun i h1 j h2 h3 => (hG' i j h1 h2 h3).2⟩

/-- C146: the temperatures that `_simulate_detailed` computes in floating-point arithmetic, all operations rounded: the time
differences, their logarithms (relative error `η`), the interpolation and the superposition.  `G i j` is the response to the
difference of `t i` and `t j` in exact arithmetic, from the same table.  Temperature `i` is within `(i + 8) / 2^52` of the
superposition in exact arithmetic, relative to the size of what is added up, and the error of the responses (C146_response),
twice for each change of the load. -/
theorem C146_temperatures (R : Rounding ℝ) (dot : List ℝ → List ℝ → ℝ)
    (hdot : ∀ w v : List ℝ, w.length = v.length → Summed R (w.zip v) (dot w v)) (p : Plant ℝ) (hp : p.Sound)
    (hℓ : Accurate η ℓ) (hη : 0 ≤ η) (hT : Tabulated N x y W M L) (hts : 0 < ts)
    (G : ℕ → ℕ → ℝ) (n : ℕ) (hn : n + 8 ≤ 2 ^ 52) (Q' Q t : ℕ → ℝ) (hQ0 : Q 0 = 0) (ht0 : t 0 = 0)
    (hQ : ∀ j, 1 ≤ j → j ≤ n → |Q' j - Q j| ≤ 1 / 2 ^ 53 * |Q j|)
    (hin : ∀ i ≤ n, ∀ j < i, t j ≤ t i → t j < t i ∧ x 0 + shift η W ≤ log ((t i - t j) * 3600 / ts) ∧
      log ((t i - t j) * 3600 / ts) ≤ x (N - 1) - shift η W)
    (hG : ∀ i ≤ n, ∀ j < i, t j ≤ t i →
      Whole.response ts ((List.range N).map x) ((List.range N).map y) (t i - t j) = .ok (G i j)) :
    ∃ T d, simulateDetailed R dot (thermalOf p (response R ℓ ts ((List.range N).map x) ((List.range N).map y)))
        ((List.range n).map fun k => Q' (k + 1)) ((List.range n).map fun k => t (k + 1)) = .ok (T, d) ∧ T.length = n ∧
      ∀ i, 1 ≤ i → i ≤ n → (∀ j < i, t j ≤ t i) → ∃ v, T[i - 1]? = some (some v) ∧
        |v - p.exit G Q i| ≤ ((i + 8 : ℕ) : ℝ) / 2 ^ 52 * p.size G Q i +
          2 * (L * shift η W + M / 2 ^ 47) * p.changes Q i := by
  obtain ⟨G', g1, g2⟩ := responses_close R hℓ hη hT hts G n t hin hG
  obtain ⟨T, d, a1, a2, a3⟩ := C127_temperatures R dot hdot p hp _ G' n hn Q' Q t hQ0 ht0 hQ g1
  refine ⟨T, d, a1, a2, fun i h1 h2 h3 => ?_⟩
  obtain ⟨v, b1, b2⟩ := (a3 i h1 h2).2 h3
  refine ⟨v, b1, ?_⟩
  obtain ⟨c1, c2⟩ := exit_close p hp (Q := Q) (fun j hj => g2 i h2 j hj (h3 j hj))
  have hi : ((i + 8 : ℕ) : ℝ) / 2 ^ 52 ≤ 1 := by
    rw [div_le_one (by positivity)]
    exact_mod_cast (by omega : i + 8 ≤ 2 ^ 52)
  have hi0 : (0 : ℝ) ≤ ((i + 8 : ℕ) : ℝ) / 2 ^ 52 := by positivity
  have hb : 0 ≤ (L * shift η W + M / 2 ^ 47) * p.changes Q i := (abs_nonneg _).trans c1
  have t1 := mul_le_mul_of_nonneg_left c2 hi0
  have t2 := mul_le_mul_of_nonneg_right hi hb
  have t3 := abs_add_le (v - p.exit G' Q i) (p.exit G' Q i - p.exit G Q i)
  rw [sub_add_sub_cancel] at t3
  nlinarith

/-- C146: so the excess computed for an exchanger of height `H`, whose response is evaluated like this, is at most 0 only if
the superposition in exact arithmetic meets the limits up to that error, and is at most 0 if it meets them with that error to
spare. -/
theorem C146_decision (R : Rounding ℝ) (dot : List ℝ → List ℝ → ℝ)
    (hdot : ∀ w v : List ℝ, w.length = v.length → Summed R (w.zip v) (dot w v)) (p : Plant ℝ) (hp : p.Sound)
    (hℓ : Accurate η ℓ) (hη : 0 ≤ η) (hT : Tabulated N x y W M L) (hts : 0 < ts)
    (G : ℕ → ℕ → ℝ) (n : ℕ) (h0 : 1 ≤ n) (hn : n + 8 ≤ 2 ^ 52) (Q' Q t : ℕ → ℝ) (hQ0 : Q 0 = 0) (ht0 : t 0 = 0)
    (ht1 : 0 ≤ t 1) (hQ : ∀ j, 1 ≤ j → j ≤ n → |Q' j - Q j| ≤ 1 / 2 ^ 53 * |Q j|)
    (hin : ∀ i ≤ n, ∀ j < i, t j ≤ t i → t j < t i ∧ x 0 + shift η W ≤ log ((t i - t j) * 3600 / ts) ∧
      log ((t i - t j) * 3600 / ts) ≤ x (N - 1) - shift η W)
    (hG : ∀ i ≤ n, ∀ j < i, t j ≤ t i →
      Whole.response ts ((List.range N).map x) ((List.range N).map y) (t i - t j) = .ok (G i j))
    (err : ℕ → ℝ) (herr : ∀ i, err i = ((i + 8 : ℕ) : ℝ) / 2 ^ 52 * p.size G Q i +
      2 * (L * shift η W + M / 2 ^ 47) * p.changes Q i)
    (env : GheEnv ℝ) (method : String) (s : GheState ℝ)
    (hload : simulationInput R env method =
      .ok ((List.range n).map (fun k => Q' (k + 1)), (List.range n).map fun k => t (k + 1)))
    (hth : env.thermal p.height =
      .ok (thermalOf p (response R ℓ ts ((List.range N).map x) ((List.range N).map y)))) :
    ∃ e s', localObjective R dot env method p.height s = (.ok e, s') ∧ s'.H = p.height ∧
      (e ≤ 0 → ∀ i, 1 ≤ i → i ≤ n → (∀ j < i, t j ≤ t i) →
        env.minEFT - err i ≤ p.exit G Q i ∧ p.exit G Q i ≤ env.maxEFT + err i) ∧
      ((∀ i, 1 ≤ i → i ≤ n → (∀ j < i, t j ≤ t i) →
        env.minEFT + err i ≤ p.exit G Q i ∧ p.exit G Q i ≤ env.maxEFT - err i) → e ≤ 0) := by
  obtain ⟨G', g1, g2⟩ := responses_close R hℓ hη hT hts G n t hin hG
  obtain ⟨e, s', a1, a2, -, a3, a4⟩ := C127_decision R dot hdot p hp _ G' n h0 hn Q' Q t hQ0 ht0 hQ ht1 g1 env method s hload hth
  have key : ∀ i, i ≤ n → (∀ j < i, t j ≤ t i) →
      |p.exit G' Q i - p.exit G Q i| + ((i + 8 : ℕ) : ℝ) / 2 ^ 52 * p.size G' Q i ≤ err i := by
    intro i h2 h3
    obtain ⟨c1, c2⟩ := exit_close p hp (Q := Q) (fun j hj => g2 i h2 j hj (h3 j hj))
    have hi : ((i + 8 : ℕ) : ℝ) / 2 ^ 52 ≤ 1 := by
      rw [div_le_one (by positivity)]
      exact_mod_cast (by omega : i + 8 ≤ 2 ^ 52)
    have hi0 : (0 : ℝ) ≤ ((i + 8 : ℕ) : ℝ) / 2 ^ 52 := by positivity
    have hb : 0 ≤ (L * shift η W + M / 2 ^ 47) * p.changes Q i := (abs_nonneg _).trans c1
    have t1 := mul_le_mul_of_nonneg_left c2 hi0
    have t2 := mul_le_mul_of_nonneg_right hi hb
    rw [herr]
    nlinarith
  refine ⟨e, s', a1, a2, ?_, ?_⟩
  · intro he i h1 h2 h3
    obtain ⟨b1, b2⟩ := a3 he i h1 h2 h3
    have k := key i h2 h3
    obtain ⟨k1, k2⟩ := abs_le.1 (le_refl |p.exit G' Q i - p.exit G Q i|)
    constructor <;> linarith
  · intro h
    refine a4 fun i h1 h2 h3 => ?_
    obtain ⟨b1, b2⟩ := h i h1 h2 h3
    have k := key i h2 h3
    obtain ⟨k1, k2⟩ := abs_le.1 (le_refl |p.exit G' Q i - p.exit G Q i|)
    constructor <;> linarith

/-! ## A case -/

/-- four points, ten apart -/
def exX (k : ℕ) : ℝ := -20 + 10 * k
def exY (k : ℕ) : ℝ := (k : ℝ) ^ 2

theorem exTable : Tabulated 4 exX exY 20 9 (1 / 2) where
  pos := by norm_num
  inc k _ := by unfold exX; push_cast; linarith
  abscissa k hk := by
    unfold exX
    have : (k : ℝ) ≤ 3 := by exact_mod_cast (by omega : k ≤ 3)
    have : (0 : ℝ) ≤ k := k.cast_nonneg
    exact abs_le.2 ⟨by linarith, by linarith⟩
  ordinate k hk := by
    unfold exY
    have : (k : ℝ) ≤ 3 := by exact_mod_cast (by omega : k ≤ 3)
    have : (0 : ℝ) ≤ k := k.cast_nonneg
    exact abs_le.2 ⟨by nlinarith, by nlinarith⟩
  slope k hk := by
    unfold exX exY
    have : (k : ℝ) ≤ 2 := by exact_mod_cast (by omega : k ≤ 2)
    have : (0 : ℝ) ≤ k := k.cast_nonneg
    push_cast
    refine abs_le.2 ⟨by nlinarith, by nlinarith⟩

/-- a logarithm that is off by a rounding -/
theorem exLog (R : Rounding ℝ) : Accurate (1 / 2 ^ 53) (fun z => R.fl (log z)) := fun z _ => R.err (log z)

/-- the error of the responses of this table -/
example : 1 / 2 * shift (1 / 2 ^ 53) 20 + 9 / 2 ^ 47 < 1 / 10 ^ 12 := by
  unfold shift
  norm_num

noncomputable def exPlantR : Plant ℝ := ⟨10, 100, 12, 10, 1 / 10, 1 / 5, 4000⟩

theorem exPlantR_sound : exPlantR.Sound := by constructor <;> (simp only [exPlantR]; norm_num)

theorem exInside (i : ℕ) (hi : i ≤ 3) (j : ℕ) (hj : j < i) : (j : ℝ) < i ∧
    exX 0 + shift (1 / 2 ^ 53) 20 ≤ log (((i : ℝ) - j) * 3600 / 3600) ∧
    log (((i : ℝ) - j) * 3600 / 3600) ≤ exX (4 - 1) - shift (1 / 2 ^ 53) 20 := by
  have h1 : (j : ℝ) + 1 ≤ i := by exact_mod_cast hj
  have h2 : (i : ℝ) ≤ 3 := by exact_mod_cast hi
  have h3 : (0 : ℝ) ≤ j := j.cast_nonneg
  have e : ((i : ℝ) - j) * 3600 / 3600 = i - j := by ring
  have l1 : 0 ≤ log ((i : ℝ) - j) := log_nonneg (by linarith)
  have l2 := log_le_sub_one_of_pos (show (0 : ℝ) < i - j by linarith)
  rw [e]
  have hs : shift (1 / 2 ^ 53) 20 ≤ 1 := by unfold shift; norm_num
  refine ⟨by linarith, ?_, ?_⟩
  · unfold exX
    norm_num
    linarith
  · unfold exX
    norm_num
    linarith

/-- C146_temperatures applies: three hours with loads of 1, 2 and 3 kW -/
example : ∃ (G : ℕ → ℕ → ℝ) (T d : List (Num ℝ)),
    (∀ i : ℕ, i ≤ 3 → ∀ j : ℕ, j < i → Whole.response 3600 ((List.range 4).map exX) ((List.range 4).map exY)
      ((i : ℝ) - j) = .ok (G i j)) ∧
    simulateDetailed Rounding.double (dotFromLeft Rounding.double)
      (thermalOf exPlantR (response Rounding.double (fun z => Rounding.double.fl (log z)) 3600 ((List.range 4).map exX)
        ((List.range 4).map exY)))
      ((List.range 3).map fun k : ℕ => 1000 * ((k + 1 : ℕ) : ℝ)) ((List.range 3).map fun k : ℕ => ((k + 1 : ℕ) : ℝ)) =
        .ok (T, d) ∧ T.length = 3 ∧
    ∀ i, 1 ≤ i → i ≤ 3 → ∃ v, T[i - 1]? = some (some v) ∧
      |v - exPlantR.exit G (fun j => 1000 * (j : ℝ)) i| ≤
        ((i + 8 : ℕ) : ℝ) / 2 ^ 52 * exPlantR.size G (fun j => 1000 * (j : ℝ)) i +
          2 * (1 / 2 * shift (1 / 2 ^ 53) 20 + 9 / 2 ^ 47) * exPlantR.changes (fun j => 1000 * (j : ℝ)) i := by
  have hG : ∀ i j : ℕ, ∃ g, i ≤ 3 → j < i →
      Whole.response 3600 ((List.range 4).map exX) ((List.range 4).map exY) ((i : ℝ) - j) = .ok g := by
    intro i j
    by_cases h : i ≤ 3 ∧ j < i
    · obtain ⟨a, b, c⟩ := exInside i h.1 j h.2
      obtain ⟨d, -, e, -⟩ := C146_response (R := Rounding.double) (exLog Rounding.double) (by positivity) exTable
        (show (0 : ℝ) < 3600 by norm_num) ((i : ℝ) - j) ((i : ℝ) - j) (by linarith) (by rw [sub_self, abs_zero]; positivity) b c
      exact ⟨d, fun _ _ => e⟩
    · exact ⟨0, fun h1 h2 => absurd ⟨h1, h2⟩ h⟩
  choose G hG using hG
  obtain ⟨T, d, h1, h2, h3⟩ := C146_temperatures Rounding.double (dotFromLeft Rounding.double)
    (fun w v _ => dotFromLeft_summed Rounding.double w v) exPlantR exPlantR_sound (exLog Rounding.double) (by positivity) exTable
    (show (0 : ℝ) < 3600 by norm_num) G 3 (by norm_num) (fun j => 1000 * (j : ℝ)) (fun j => 1000 * (j : ℝ))
    (fun j => (j : ℝ)) (by simp) (by simp) (fun j _ _ => by rw [sub_self, abs_zero]; positivity)
    (fun i hi j hj _ => exInside i hi j hj) (fun i hi j hj _ => hG i j hi hj)
  exact ⟨G, T, d, fun i hi j hj => hG i j hi hj, h1, h2, fun i a b => h3 i a b fun j hj => by exact_mod_cast hj.le⟩

/-- C146_decision applies to the same plant, with limits of 5 and 12 degrees -/
noncomputable def exEnvR : GheEnv ℝ :=
  { bSpacing := 5, thermal := fun H => .ok (thermalOf { exPlantR with height := H }
      (response Rounding.double (fun z => Rounding.double.fl (log z)) 3600 ((List.range 4).map exX) ((List.range 4).map exY))),
    load := [0, 0, 1, 2, 3], hour := [0, 0, 1, 2, 3], hourly := [], startMonth := 1, endMonth := 12,
    maxEFT := 12, minEFT := 5, minHeight := 50, maxHeight := 150 }

example (s : GheState ℝ) : ∃ (G : ℕ → ℕ → ℝ) (e : ℝ) (s' : GheState ℝ),
    (∀ i : ℕ, i ≤ 3 → ∀ j : ℕ, j < i → Whole.response 3600 ((List.range 4).map exX) ((List.range 4).map exY)
      ((i : ℝ) - j) = .ok (G i j)) ∧
    localObjective Rounding.double (dotFromLeft Rounding.double) exEnvR "hybrid" 100 s = (.ok e, s') ∧
    (e ≤ 0 → ∀ i, 1 ≤ i → i ≤ 3 → exPlantR.exit G (fun j => (j : ℝ) * 1000) i ≤
      12 + (((i + 8 : ℕ) : ℝ) / 2 ^ 52 * exPlantR.size G (fun j => (j : ℝ) * 1000) i +
        2 * (1 / 2 * shift (1 / 2 ^ 53) 20 + 9 / 2 ^ 47) * exPlantR.changes (fun j => (j : ℝ) * 1000) i)) := by
  have hG : ∀ i j : ℕ, ∃ g, i ≤ 3 → j < i →
      Whole.response 3600 ((List.range 4).map exX) ((List.range 4).map exY) ((i : ℝ) - j) = .ok g := by
    intro i j
    by_cases h : i ≤ 3 ∧ j < i
    · obtain ⟨a, b, c⟩ := exInside i h.1 j h.2
      obtain ⟨d, -, e, -⟩ := C146_response (R := Rounding.double) (exLog Rounding.double) (by positivity) exTable
        (show (0 : ℝ) < 3600 by norm_num) ((i : ℝ) - j) ((i : ℝ) - j) (by linarith) (by rw [sub_self, abs_zero]; positivity) b c
      exact ⟨d, fun _ _ => e⟩
    · exact ⟨0, fun h1 h2 => absurd ⟨h1, h2⟩ h⟩
  choose G hG using hG
  obtain ⟨e, s', h1, -, h3, -⟩ := C146_decision Rounding.double (dotFromLeft Rounding.double)
    (fun w v _ => dotFromLeft_summed Rounding.double w v) exPlantR exPlantR_sound (exLog Rounding.double) (by positivity) exTable
    (show (0 : ℝ) < 3600 by norm_num) G 3 (by norm_num) (by norm_num) (fun j => mul Rounding.double (j : ℝ) 1000)
    (fun j => (j : ℝ) * 1000) (fun j => (j : ℝ)) (by simp) (by simp) (by simp) (fun j _ _ => Rounding.double.err _)
    (fun i hi j hj _ => exInside i hi j hj) (fun i hi j hj _ => hG i j hi hj) _ (fun _ => rfl) exEnvR "hybrid" s (by
      unfold simulationInput
      rw [if_pos rfl]
      simp [exEnvR, List.range_succ]
      norm_num) rfl
  exact ⟨G, e, s', fun i hi j hj => hG i j hi hj, h1, fun he i a b => (h3 he i a b fun j hj => by exact_mod_cast hj.le).2⟩

/-- C146_points applies -/
example : interp1d Rounding.double ((List.range 4).map exX) ((List.range 4).map exY) (exX 2) = .ok 4 := by
  have h := C146_points Rounding.double 4 exX exY exTable.inc 2 (by norm_num)
  have e : exY 2 = 4 := by unfold exY; norm_num
  rw [e] at h
  exact h (by have := Rounding.double.int (K := ℝ) 4 (by norm_num); exact_mod_cast this)

/-- C146_radius applies: a curve of two entries, from radius 75 mm to 60 mm -/
example : ∃ c, radiusCorrection Rounding.double (fun z => Rounding.double.fl (log z)) [1, 2] (75 / 1000) (60 / 1000) = .ok c ∧
    c.length = 2 := by
  obtain ⟨-, c, h1, h2, -⟩ := C146_radius (R := Rounding.double) (exLog Rounding.double) (by positivity) [1, 2] (75 / 1000)
    (60 / 1000) (by norm_num) (by norm_num)
  exact ⟨c, h1, h2⟩

end

end Ghedt.Rounded
