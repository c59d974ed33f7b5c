import Verif.Model.Pipes
import Verif.Lemmas.GroundLoads

/-!
# Properties of pipe placement, Reynolds numbers and flow splitting (C75, C76, C83)
-/

set_option linter.unusedSectionVars false

namespace Ghedt.Bhe
open Real

/-! ## C75 — `place_pipes` -/

/-- the `j`-th of `2 n` equidistant points on the circle of radius `D`, starting on the negative
x-axis -/
noncomputable def onCircle (D : ℝ) (n j : ℕ) : ℝ × ℝ :=
  (D * cos (π + j * π / n), D * sin (π + j * π / n))

theorem placePipes_ok (s r : ℝ) (n : ℕ) (hn : 0 < n) :
    placePipes s r n = .ok ((List.range (2 * n)).map (onCircle (s / 2 + r) n)) := by
  have hn' : ((n : ℤ) : ℝ) ≠ 0 := by exact_mod_cast hn.ne'
  unfold placePipes
  dsimp only
  rw [pyDiv_ok hn', Except.ok_bind]
  set D := s / 2 + r with hD
  have key := foldlM_pyRange_inv (f := placeStep D (π / ((n : ℤ) : ℝ)))
    (fun i l => l.length = 2 * n ∧ ∀ j : ℕ, (j : ℤ) < 2 * i → l[j]? = some (onCircle D n j))
    (a := 0) (b := n) (by omega) ?_
    (s := (pyRange 0 (2 * (n : ℤ))).map fun _ : ℤ => ((0 : ℝ), (0 : ℝ))) ?_
  · obtain ⟨l, hl, hlen, hget⟩ := key
    rw [hl]
    refine congrArg Except.ok ?_
    apply List.ext_getElem?
    intro j
    by_cases hj : j < 2 * n
    · rw [hget j (by omega), List.getElem?_map, List.getElem?_range hj]; rfl
    · rw [List.getElem?_eq_none (by omega), List.getElem?_eq_none (by simp; omega)]
  · rintro i l hi1 hi2 ⟨hlen, hget⟩
    obtain ⟨k, rfl⟩ := Int.eq_ofNat_of_zero_le hi1
    have hn2 : (n : ℝ) ≠ 0 := by exact_mod_cast hn.ne'
    have e1 : (2 * (k : ℤ)) = ((2 * k : ℕ) : ℤ) := by push_cast; ring
    have e2 : (2 * (k : ℤ) + 1) = ((2 * k + 1 : ℕ) : ℤ) := by push_cast; ring
    refine ⟨(l.set (2 * k) (onCircle D n (2 * k))).set (2 * k + 1) (onCircle D n (2 * k + 1)), ?_,
      by simp [hlen], ?_⟩
    · unfold placeStep
      rw [e2, e1, pySet_ok (by omega), Except.ok_bind, pySet_ok (by simp; omega)]
      have a1 : 2 * (((k : ℕ) : ℤ) : ℝ) * (π / ((n : ℤ) : ℝ)) + π = π + ((2 * k : ℕ) : ℝ) * π / n := by
        push_cast; ring
      have a2 : 2 * (((k : ℕ) : ℤ) : ℝ) * (π / ((n : ℤ) : ℝ)) + π + π / ((n : ℤ) : ℝ) =
          π + ((2 * k + 1 : ℕ) : ℝ) * π / n := by
        push_cast; ring
      rw [a2, a1]
      rfl
    · intro j hj
      rw [List.getElem?_set]
      split
      · next h => rw [if_pos (by simp; omega), h]
      · next h =>
        rw [List.getElem?_set]
        split
        · next h' => rw [if_pos (by omega), h']
        · exact hget j (by omega)
  · refine ⟨by simp; omega, ?_⟩
    intro j hj; omega

/-- squared distance of two points of the plane -/
def distSq (p q : ℝ × ℝ) : ℝ := (p.1 - q.1) ^ 2 + (p.2 - q.2) ^ 2

theorem onCircle_distSq (D : ℝ) {n j k : ℕ} (hn : 0 < n) (h : j ≤ k) :
    distSq (onCircle D n j) (onCircle D n k) = (2 * D * sin ((k - j : ℕ) * π / (2 * n))) ^ 2 := by
  have hn' : (n : ℝ) ≠ 0 := by exact_mod_cast hn.ne'
  unfold distSq onCircle
  dsimp only
  set a := π + j * π / n
  set b := π + k * π / n with hb
  have hx : (b - a) / 2 = (k - j : ℕ) * π / (2 * n) := by
    rw [Nat.cast_sub h]; simp only [a, b]; field_simp; ring
  rw [← hx]
  have hc : cos (b - a) = 1 - 2 * sin ((b - a) / 2) ^ 2 := by
    have := Real.cos_sq' ((b - a) / 2)
    have h2 := Real.cos_two_mul ((b - a) / 2)
    rw [show 2 * ((b - a) / 2) = b - a by ring] at h2
    rw [h2, this]; ring
  have hcs : cos (b - a) = cos b * cos a + sin b * sin a := Real.cos_sub b a
  have s1 := Real.sin_sq_add_cos_sq a
  have s2 := Real.sin_sq_add_cos_sq b
  have : sin ((b - a) / 2) ^ 2 = (1 - (cos b * cos a + sin b * sin a)) / 2 := by
    rw [← hcs, hc]; ring
  rw [mul_pow, this]
  have c1 : cos a ^ 2 = 1 - sin a ^ 2 := by linarith
  have c2 : cos b ^ 2 = 1 - sin b ^ 2 := by linarith
  linear_combination D ^ 2 * c1 + D ^ 2 * c2

/-- C75: `2 n` pipe centres, all at distance `s/2 + r_out` from the borehole axis. -/
theorem C75_circle (s r : ℝ) (n : ℕ) (hn : 0 < n) : ∃ pos, placePipes s r n = .ok pos ∧
    pos.length = 2 * n ∧ ∀ p ∈ pos, distSq p (0, 0) = (s / 2 + r) ^ 2 := by
  refine ⟨_, placePipes_ok s r n hn, by simp, ?_⟩
  intro p hp
  rw [List.mem_map] at hp
  obtain ⟨j, -, rfl⟩ := hp
  unfold distSq onCircle
  dsimp only
  have := Real.sin_sq_add_cos_sq (π + j * π / n)
  linear_combination (s / 2 + r) ^ 2 * this

/-- C75: opposite pipes: the `j`-th and the `j+n`-th centre are symmetric about the axis, and the sum
of all centres is the axis. -/
theorem C75_centroid (s r : ℝ) (n : ℕ) (hn : 0 < n) : ∃ pos, placePipes s r n = .ok pos ∧
    (∀ j < n, ∃ p, pos[j]? = some p ∧ pos[j + n]? = some (-p)) ∧ pos.sum = 0 := by
  have hn' : (n : ℝ) ≠ 0 := by exact_mod_cast hn.ne'
  have opp : ∀ j, onCircle (s / 2 + r) n (j + n) = -onCircle (s / 2 + r) n j := by
    intro j
    have e : π + ((j + n : ℕ) : ℝ) * π / n = (π + j * π / n) + π := by push_cast; field_simp; ring
    unfold onCircle
    rw [e, Real.cos_add_pi, Real.sin_add_pi]
    ext <;> simp
  refine ⟨_, placePipes_ok s r n hn, ?_, ?_⟩
  · intro j hj
    refine ⟨onCircle (s / 2 + r) n j, ?_, ?_⟩
    · rw [List.getElem?_map, List.getElem?_range (by omega)]; rfl
    · rw [List.getElem?_map, List.getElem?_range (by omega), ← opp]; rfl
  · rw [two_mul, List.range_add, List.map_append, List.sum_append, List.map_map]
    have : (onCircle (s / 2 + r) n ∘ fun x => n + x) = fun j => -onCircle (s / 2 + r) n j := by
      funext j; rw [Function.comp, add_comm n j, opp]
    rw [this]
    generalize List.range n = l
    induction l with
    | nil => simp
    | cons a l ih =>
      simp only [List.map_cons, List.sum_cons]
      rw [show ∀ x y z w : ℝ × ℝ, x + y + (z + w) = (x + z) + (y + w) from fun x y z w => by abel, ih]
      simp

theorem sin_ge (n m : ℕ) (hm : 1 ≤ m) (hm2 : m + 1 ≤ 2 * n) :
    sin (π / (2 * n)) ≤ sin (m * π / (2 * n)) := by
  have hn : (0 : ℝ) < n := by
    have : 0 < n := by omega
    exact_mod_cast this
  have hpi := Real.pi_pos
  have h1 : (1 : ℝ) ≤ m := by exact_mod_cast hm
  have h2 : (m : ℝ) + 1 ≤ 2 * n := by exact_mod_cast hm2
  have n1 : (1 : ℝ) ≤ n := by
    have : 1 ≤ n := by omega
    exact_mod_cast this
  have hq : π / (2 * n) ≤ π / 2 := by
    apply div_le_div_of_nonneg_left hpi.le (by norm_num); linarith
  have hq0 : 0 < π / (2 * n) := by positivity
  by_cases h : (m : ℝ) ≤ n
  · apply Real.sin_le_sin_of_le_of_le_pi_div_two
    · linarith
    · rw [div_le_div_iff₀ (by positivity) (by norm_num)]
      nlinarith
    · gcongr; nlinarith
  · push Not at h
    rw [← Real.sin_pi_sub (m * π / (2 * n))]
    have e : π - m * π / (2 * n) = (2 * n - m) * π / (2 * n) := by field_simp
    rw [e]
    apply Real.sin_le_sin_of_le_of_le_pi_div_two
    · linarith
    · rw [div_le_div_iff₀ (by positivity) (by norm_num)]
      nlinarith
    · gcongr; nlinarith

/-- C75: the pipes are disjoint (centres at least `2 r_out` apart) exactly when the circle is wide
enough for two neighbours: `r_out ≤ (s/2 + r_out) · sin (π / 2n)`. -/
theorem C75_disjoint (s r : ℝ) (n : ℕ) (hn : 0 < n) (hr : 0 ≤ r) (hs : 0 ≤ s) :
    ∃ pos, placePipes s r n = .ok pos ∧
      (pos.Pairwise (fun p q => (2 * r) ^ 2 ≤ distSq p q) ↔ r ≤ (s / 2 + r) * sin (π / (2 * n))) := by
  have hD : 0 ≤ s / 2 + r := by linarith
  have hn' : (0 : ℝ) < n := by exact_mod_cast hn
  have n1 : (1 : ℝ) ≤ n := by exact_mod_cast hn
  have hs0 : 0 ≤ sin (π / (2 * n)) := by
    apply Real.sin_nonneg_of_nonneg_of_le_pi (by positivity)
    exact div_le_self Real.pi_pos.le (by linarith)
  refine ⟨_, placePipes_ok s r n hn, ?_⟩
  rw [List.pairwise_iff_getElem]
  constructor
  · intro h
    have h01 := h 0 1 (by simp; omega) (by simp; omega) (by omega)
    rw [List.getElem_map, List.getElem_map, List.getElem_range, List.getElem_range,
      onCircle_distSq _ hn (by omega)] at h01
    simp only [Nat.sub_zero, Nat.cast_one, one_mul] at h01
    have := sq_le_sq.1 h01
    rw [abs_of_nonneg (by positivity), abs_of_nonneg (by positivity)] at this
    linarith
  · intro h i j hi hj hij
    rw [List.getElem_map, List.getElem_map, List.getElem_range, List.getElem_range,
      onCircle_distSq _ hn hij.le]
    have hj' : j < 2 * n := by simpa using hj
    have hsin := sin_ge n (j - i) (by omega) (by omega)
    apply pow_le_pow_left₀ (by positivity)
    have := mul_le_mul_of_nonneg_left hsin hD
    linarith

/-- C75: one U-tube: the legs are at `(∓(s/2 + r_out), 0)`, exactly `s + 2 r_out` apart, the shank
spacing between the pipe walls. -/
theorem C75_legs (s r : ℝ) : ∃ p q, placePipes s r 1 = .ok [p, q] ∧
    p = (-(s / 2 + r), 0) ∧ q = (s / 2 + r, 0) ∧ distSq p q = (s + 2 * r) ^ 2 := by
  have h := placePipes_ok s r 1 one_pos
  have e0 : onCircle (s / 2 + r) 1 0 = (-(s / 2 + r), 0) := by
    unfold onCircle; simp
  have e1 : onCircle (s / 2 + r) 1 1 = (s / 2 + r, 0) := by
    unfold onCircle
    rw [show π + ((1 : ℕ) : ℝ) * π / ((1 : ℕ) : ℝ) = 2 * π by push_cast; ring]
    simp
  refine ⟨_, _, ?_, rfl, rfl, ?_⟩
  · have : (List.range (2 * 1)) = [0, 1] := rfl
    rw [this, List.map_cons, List.map_cons, List.map_nil, e0, e1] at h
    exact_mod_cast h
  · unfold distSq; ring

/-- C75: without U-tubes `place_pipes` divides by zero; a negative number gives no pipes. -/
theorem C75_none (s r : ℝ) : placePipes s r 0 = .error .zeroDivisionError ∧
    ∀ n : ℤ, n < 0 → placePipes s r n = .ok [] := by
  constructor
  · unfold placePipes
    simp [pyDiv]
  · intro n hn
    unfold placePipes
    have h : ((n : ℤ) : ℝ) ≠ 0 := by exact_mod_cast hn.ne
    dsimp only
    rw [pyDiv_ok h, Except.ok_bind, pyRange_empty (by omega), pyRange_empty (by omega)]
    rfl

/-- four pipes of radius 2 with spacing 4 do not touch, with spacing 1 they overlap -/
example : (∃ pos, placePipes 4 2 2 = .ok pos ∧ pos.Pairwise fun p q => (2 * 2) ^ 2 ≤ distSq p q) ∧
    ∃ pos, placePipes 1 2 2 = .ok pos ∧ ¬ pos.Pairwise fun p q => (2 * 2) ^ 2 ≤ distSq p q := by
  have hs : sin (π / (2 * (2 : ℕ))) = √2 / 2 := by
    rw [show π / (2 * ((2 : ℕ) : ℝ)) = π / 4 by push_cast; ring, Real.sin_pi_div_four]
  have h2 : (1.4 : ℝ) < √2 := by
    rw [Real.lt_sqrt (by norm_num)]; norm_num
  have h3 : √2 < 1.5 := by
    rw [Real.sqrt_lt' (by norm_num)]; norm_num
  constructor
  · obtain ⟨pos, h, hp⟩ := C75_disjoint 4 2 2 (by norm_num) (by norm_num) (by norm_num)
    refine ⟨pos, by exact_mod_cast h, hp.2 ?_⟩
    rw [hs]; linarith
  · obtain ⟨pos, h, hp⟩ := C75_disjoint 1 2 2 (by norm_num) (by norm_num) (by norm_num)
    refine ⟨pos, by exact_mod_cast h, fun hc => ?_⟩
    have := hp.1 hc
    rw [hs] at this; linarith

/-! ## C76 — Reynolds numbers -/

/-- C76: the Reynolds number of a pipe is `2 m / (π μ r_in)`: roughness and density do not matter. -/
theorem C76_pipe (m rIn eps : ℝ) (fluid : Fluid) (hr : 0 < rIn) (hrho : 0 < fluid.rho)
    (hmu : 0 < fluid.mu) :
    computeReynolds m rIn eps fluid = .ok (2 * m / (π * fluid.mu * rIn)) := by
  have hpi := Real.pi_pos
  unfold computeReynolds
  dsimp only
  rw [pyDiv_ok (by positivity), Except.ok_bind, pyDiv_ok hrho.ne', Except.ok_bind,
    pyDiv_ok (by positivity), Except.ok_bind, pyDiv_ok hmu.ne']
  refine congrArg Except.ok ?_
  field_simp

/-- C76: the Reynolds number of an annulus is `2 m / (π μ (r_in + r_out))`. -/
theorem C76_annulus (m a b : ℝ) (fluid : Fluid) (ha : 0 < a) (hab : a < b)
    (hrho : 0 < fluid.rho) (hmu : 0 < fluid.mu) :
    computeReynoldsConcentric m a b fluid = .ok (2 * m / (π * fluid.mu * (a + b))) := by
  have hpi := Real.pi_pos
  have h1 : 0 < b - a := by linarith
  have h2 : b ^ 2 - a ^ 2 = (b - a) * (b + a) := by ring
  have h3 : 0 < b + a := by linarith
  unfold computeReynoldsConcentric
  dsimp only
  rw [h2, pyDiv_ok hrho.ne', Except.ok_bind, pyDiv_ok (by positivity), Except.ok_bind,
    pyDiv_ok hmu.ne']
  refine congrArg Except.ok ?_
  have h4 : a + b ≠ 0 := by linarith
  field_simp
  rw [add_comm]

/-- C76: an annulus without width raises `ZeroDivisionError`. -/
theorem C76_no_annulus (m a : ℝ) (fluid : Fluid) (hrho : fluid.rho ≠ 0) :
    computeReynoldsConcentric m a a fluid = .error .zeroDivisionError := by
  unfold computeReynoldsConcentric
  dsimp only
  rw [pyDiv_ok hrho, Except.ok_bind]
  simp [pyDiv]

/-- C76: the value in the pipe report is not the pipe's Reynolds number but
`2 m / (π μ (r_in + ε))`: smaller by the factor `r_in / (r_in + ε)`, so different whenever there is
flow and roughness. -/
theorem C76_report (m rIn eps : ℝ) (fluid : Fluid) (hm : 0 < m) (he : 0 < eps)
    (hre : eps ≠ rIn) (hr : 0 < rIn) (hrho : 0 < fluid.rho) (hmu : 0 < fluid.mu) :
    ∃ re shown, computeReynolds m rIn eps fluid = .ok re ∧
      reportedReynolds m rIn eps fluid = .ok shown ∧
      shown = re * (rIn / (rIn + eps)) ∧ shown < re := by
  have hpi := Real.pi_pos
  have h1 : eps - rIn ≠ 0 := sub_ne_zero.2 hre
  have h2 : eps ^ 2 - rIn ^ 2 = (eps - rIn) * (eps + rIn) := by ring
  have h3 : 0 < eps + rIn := by linarith
  refine ⟨_, 2 * m / (π * fluid.mu * rIn) * (rIn / (rIn + eps)), C76_pipe m rIn eps fluid hr hrho hmu,
    ?_, rfl, ?_⟩
  · unfold reportedReynolds computeReynoldsConcentric
    dsimp only
    rw [h2, pyDiv_ok hrho.ne', Except.ok_bind,
      pyDiv_ok (mul_ne_zero hpi.ne' (mul_ne_zero h1 h3.ne')), Except.ok_bind, pyDiv_ok hmu.ne']
    refine congrArg Except.ok ?_
    have h4 : rIn + eps ≠ 0 := by linarith
    field_simp
    rw [add_comm]
  · apply mul_lt_of_lt_one_right (by positivity)
    rw [div_lt_one (by positivity)]
    linarith

/-- roughness equal to the inner radius: the report raises; twice the radius: it shows a third -/
example : reportedReynolds 3 1 1 ⟨1, 1, 1, 1⟩ = .error .zeroDivisionError ∧
    ∃ re shown, computeReynolds 3 1 2 ⟨1, 1, 1, 1⟩ = .ok re ∧
      reportedReynolds 3 1 2 ⟨1, 1, 1, 1⟩ = .ok shown ∧ shown = re * (1 / (1 + 2)) ∧ shown < re :=
  ⟨C76_no_annulus 3 1 _ one_ne_zero, C76_report 3 1 2 _ (by norm_num) (by norm_num) (by norm_num)
    (by norm_num) (by norm_num) (by norm_num)⟩

/-! ## C83 — flow per pipe -/

/-- C83: the flow through each pipe: all of the borehole's in a single U-tube and in series, half of
it in parallel whatever the number of U-tubes; any other configuration raises `ValueError`. -/
theorem C83_flow (m : ℝ) (config : Option String) :
    (config = none ∨ config = some "series" → massFlowRatePipe m config = .ok m) ∧
    (config = some "parallel" → massFlowRatePipe m config = .ok (m / 2)) ∧
    (config ≠ none → config ≠ some "series" → config ≠ some "parallel" →
      massFlowRatePipe m config = .error .valueError) := by
  unfold massFlowRatePipe
  refine ⟨?_, ?_, ?_⟩
  · rintro (h | h) <;> simp [h]
  · intro h; simp [h]
  · intro h1 h2 h3; simp [h1, h2, h3]

/-- C83: so the flows of `n` U-tubes in parallel add up to the flow of the borehole only for
`n = 2`. -/
theorem C83_balance (m f : ℝ) (n : ℕ) (hm : m ≠ 0)
    (h : massFlowRatePipe m (some "parallel") = .ok f) : n * f = m ↔ n = 2 := by
  rw [(C83_flow m _).2.1 rfl] at h
  cases h
  constructor
  · intro h
    have h2 : (n : ℝ) * m = 2 * m := by linarith
    have := mul_right_cancel₀ hm h2
    exact_mod_cast this
  · rintro rfl; push_cast; ring

example : massFlowRatePipe 3 (some "parallel") = .ok (3 / 2) ∧
    massFlowRatePipe 3 (some "Parallel") = .error .valueError := by
  constructor
  · exact (C83_flow 3 _).2.1 rfl
  · exact (C83_flow 3 _).2.2 (by simp) (by decide) (by decide)

/-! ### The theorems applied to concrete cases -/

example := C75_circle 4 2 3 (by norm_num)
example := C75_centroid 4 2 3 (by norm_num)
example := C76_annulus 3 1 2 ⟨1, 1, 1, 1⟩ (by norm_num) (by norm_num) (by norm_num) (by norm_num)
example := C83_balance 3 (3 / 2) 2 (by norm_num) ((C83_flow 3 _).2.1 rfl)

end Ghedt.Bhe
