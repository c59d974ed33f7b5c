import Verif.Lemmas.RoundedHybrid
import Verif.Spec.Floats

set_option linter.unusedSectionVars false

/-!
# The hybrid load in floating-point arithmetic: error bounds
-/

namespace Ghedt.Rounded
open GL Spec Search
variable {K : Type} [Field K] [LinearOrder K] [IsStrictOrderedRing K] (R : Rounding K)

theorem err_ur (x : K) : |R.fl x - x| ≤ ur * |x| := R.err x

/-- one more rounding -/
theorem fl_step {x x' a X : K} (h : |x' - x| ≤ a) (hX : |x| ≤ X) : |R.fl x' - x| ≤ a + ur * (X + a) := by
  have h1 := err_ur R x'
  have h2 : |x'| ≤ X + a := by
    have := abs_le.1 h
    have := abs_le.1 hX
    exact abs_le.2 ⟨by linarith, by linarith⟩
  have h3 : ur * |x'| ≤ ur * (X + a) := mul_le_mul_of_nonneg_left h2 ur_pos.le
  have h4 := abs_le.1 h1
  have h5 := abs_le.1 h
  exact abs_le.2 ⟨by linarith, by linarith⟩

variable {R}

theorem hoursOf_ge {i : ℕ} (hi : 1 ≤ i) : hoursOf (i - 1) + 672 ≤ hoursOf i := by
  obtain ⟨n, rfl⟩ : ∃ n, i = n + 1 := ⟨i - 1, by omega⟩
  rw [hoursOf_succ]
  have := (monthLength_bounds false (show 1 ≤ n % 12 + 1 by omega) (show n % 12 + 1 ≤ 12 by omega)).1
  have e : n + 1 - 1 = n := by omega
  rw [e]
  omega

theorem start_bounds {i : ℕ} (hi : 1 ≤ i) (hT : (hoursOf i : ℤ) ≤ 2 ^ 52) {s : Side K} (hs : FloatSide R s) :
    |rStart R i s - peakStart i s| ≤ ur * (5 / 4 * (hoursOf i : K)) ∧
    |rEnd R i s - rStart R i s - s.duration| ≤ ur * (5 / 4 * (hoursOf i : K)) := by
  have g := hoursOf_ge hi
  have gK : ((hoursOf (i - 1) : ℕ) : K) + 672 ≤ (hoursOf i : K) := by exact_mod_cast g
  have g0 : (0 : K) ≤ ((hoursOf (i - 1) : ℕ) : K) := Nat.cast_nonneg _
  have d0 := hs.day0
  have d1 := hs.day1
  have hd := abs_le.1 hs.dur
  have hu := ur_pos (K := K)
  have hu' := ur_le (K := K)
  set n : ℤ := 1 + (hoursOf (i - 1) : ℤ) + ((s.day - 1) * 24 + 12) with hn
  have hnabs : |n| ≤ 2 ^ 53 := abs_le.2 ⟨by omega, by omega⟩
  have hn1 : -11 ≤ n := by omega
  have hn2 : n ≤ hoursOf i + 61 := by omega
  have hn1K : (-11 : K) ≤ (n : K) := by exact_mod_cast hn1
  have hn2K : (n : K) ≤ (hoursOf i : K) + 61 := by exact_mod_cast hn2
  have eS : rStart R i s = if R.fl ((n : K) - s.duration / 2) < 0 then R.fl (1 / 1000000)
      else R.fl ((n : K) - s.duration / 2) := by
    unfold rStart
    rw [← hn, R.int n hnabs, hs.half]
  have eP : peakStart i s = if (n : K) - s.duration / 2 < 0 then 1 / 1000000 else (n : K) - s.duration / 2 := by
    have e : ((hoursOf (i - 1) : K) + 1) + ((s.day : K) - 1) * 24 + 12 - s.duration / 2 = (n : K) - s.duration / 2 := by
      rw [hn]; push_cast; ring
    unfold peakStart
    rw [e]
  have key : ∃ x : K, 0 ≤ x ∧ x ≤ (hoursOf i : K) + 86 ∧ rStart R i s = R.fl x ∧ peakStart i s = x := by
    by_cases hneg : (n : K) - s.duration / 2 < 0
    · have : R.fl ((n : K) - s.duration / 2) < 0 := by
        have h1 := err_ur R ((n : K) - s.duration / 2)
        rw [abs_of_neg hneg] at h1
        have h2 := (abs_le.1 h1).2
        have : ur * -((n : K) - s.duration / 2) < 1 * -((n : K) - s.duration / 2) :=
          mul_lt_mul_of_pos_right (by linarith) (by linarith)
        linarith
      refine ⟨1 / 1000000, by norm_num, ?_, ?_, ?_⟩
      · have : (1 / 1000000 : K) ≤ 1 := by norm_num
        linarith
      · rw [eS, if_pos this]
      · rw [eP, if_pos hneg]
    · have : ¬ R.fl ((n : K) - s.duration / 2) < 0 := not_lt.2 (fl_nonneg R (not_lt.1 hneg))
      refine ⟨(n : K) - s.duration / 2, not_lt.1 hneg, by linarith, ?_, ?_⟩
      · rw [eS, if_neg this]
      · rw [eP, if_neg hneg]
  obtain ⟨x, x0, x1, xs, xp⟩ := key
  have hx := err_ur R x
  rw [abs_of_nonneg x0] at hx
  rw [← xs] at hx
  have hT0 : (672 : K) ≤ (hoursOf i : K) := by linarith
  have hux : ur * x ≤ ur * (5 / 4 * (hoursOf i : K) - 50) := mul_le_mul_of_nonneg_left (by linarith) hu.le
  have hu50 : ur * (5 / 4 * (hoursOf i : K) - 50) ≤ ur * (5 / 4 * (hoursOf i : K)) :=
    mul_le_mul_of_nonneg_left (by linarith) hu.le
  refine ⟨by rw [xp]; exact hx.trans (hux.trans hu50), ?_⟩
  have hy := err_ur R (rStart R i s + s.duration)
  have hxs : ur * x ≤ 1 := by
    have h1 : (hoursOf i : K) ≤ 2 ^ 52 := by exact_mod_cast hT
    have h2 : x ≤ 8000000000000000 := by linarith
    calc ur * x ≤ 1 / 9000000000000000 * 8000000000000000 := mul_le_mul hu' h2 x0 (by norm_num)
      _ ≤ 1 := by norm_num
  have h5 := abs_le.1 hx
  have hsum : |rStart R i s + s.duration| ≤ 5 / 4 * (hoursOf i : K) := abs_le.2 ⟨by linarith, by linarith⟩
  have := hy.trans (mul_le_mul_of_nonneg_left hsum hu.le)
  unfold rEnd
  rwa [sub_sub]

theorem len_bounds {m : ℕ} (hm1 : 1 ≤ m) (hm2 : m ≤ 12) {c h : Side K} (hc : FloatSide R c) (hh : FloatSide R h) :
    (574 : K) ≤ (monthLength false m : K) * 24 - c.duration - h.duration ∧
    |rLen R m c h - ((monthLength false m : K) * 24 - c.duration - h.duration)| ≤
      ur * (3 * ((monthLength false m : K) * 24 - c.duration - h.duration)) := by
  obtain ⟨b1, b2⟩ := monthLength_bounds false hm1 hm2
  have B1 : (28 : K) ≤ (monthLength false m : K) := by exact_mod_cast b1
  have B2 : (monthLength false m : K) ≤ 31 := by exact_mod_cast b2
  have hu := ur_pos (K := K)
  have hu' := ur_le (K := K)
  have h1 := abs_le.1 hc.dur
  have h2 := abs_le.1 hh.dur
  have e : R.fl ((monthLength false m * 24 : ℤ) : K) = (monthLength false m : K) * 24 := by
    rw [R.int]
    · push_cast; ring
    · exact abs_le.2 ⟨by omega, by omega⟩
  have s1 := err_ur R ((monthLength false m : K) * 24 - c.duration)
  have s1' : |R.fl ((monthLength false m : K) * 24 - c.duration) - ((monthLength false m : K) * 24 - c.duration)| ≤
      ur * 793 := s1.trans (mul_le_mul_of_nonneg_left (abs_le.2 ⟨by linarith, by linarith⟩) hu.le)
  have s2 : |(R.fl ((monthLength false m : K) * 24 - c.duration) - h.duration) -
      ((monthLength false m : K) * 24 - c.duration - h.duration)| ≤ ur * 793 := by
    convert s1' using 2; ring
  have s3 := fl_step R s2 (show |(monthLength false m : K) * 24 - c.duration - h.duration| ≤ 842 from
    abs_le.2 ⟨by linarith, by linarith⟩)
  refine ⟨by linarith, ?_⟩
  unfold rLen
  rw [e]
  refine s3.trans ?_
  have : (ur : K) * 793 ≤ 1 := by linarith
  have q : (ur : K) * 793 + ur * (842 + ur * 793) ≤ ur * 793 + ur * 843 := by
    have := mul_le_mul_of_nonneg_left (show 842 + (ur : K) * 793 ≤ 843 by linarith) hu.le
    linarith
  refine q.trans ?_
  rw [← mul_add]
  exact mul_le_mul_of_nonneg_left (by linarith) hu.le

theorem rLen_pos {m : ℕ} (hm1 : 1 ≤ m) (hm2 : m ≤ 12) {c h : Side K} (hc : FloatSide R c) (hh : FloatSide R h) :
    0 < rLen R m c h := by
  obtain ⟨h1, h2⟩ := len_bounds hm1 hm2 hc hh
  have hu' := ur_le (K := K)
  have hu := ur_pos (K := K)
  have := (abs_le.1 h2).1
  set D := (monthLength false m : K) * 24 - c.duration - h.duration
  have q : ur * (3 * D) ≤ 1 / 9000000000000000 * (3 * D) := mul_le_mul_of_nonneg_right hu' (by linarith)
  linarith

/-- the rounded energy difference -/
theorem load_bounds (c h : Side K) :
    |R.fl (R.fl (R.fl (c.total - h.total) - R.fl (c.peak * c.duration)) + R.fl (h.peak * h.duration)) -
      (c.total - h.total - c.peak * c.duration + h.peak * h.duration)| ≤ ur * (4 * turnover c h) := by
  have hu := ur_pos (K := K)
  have hu' := ur_le (K := K)
  unfold turnover
  set a := |c.total|
  set b := |h.total|
  set x := |c.peak * c.duration|
  set y := |h.peak * h.duration|
  have ha : 0 ≤ a := abs_nonneg _
  have hb : 0 ≤ b := abs_nonneg _
  have hx : 0 ≤ x := abs_nonneg _
  have hy : 0 ≤ y := abs_nonneg _
  have a1 : |c.total - h.total| ≤ a + b := abs_sub _ _
  have e1 : |R.fl (c.total - h.total) - (c.total - h.total)| ≤ ur * (a + b) :=
    (err_ur R _).trans (mul_le_mul_of_nonneg_left a1 hu.le)
  have e2 := err_ur R (c.peak * c.duration)
  have e3 := err_ur R (h.peak * h.duration)
  have e4 : |R.fl (c.total - h.total) - R.fl (c.peak * c.duration) - (c.total - h.total - c.peak * c.duration)| ≤
      ur * (a + b) + ur * x := by
    have p := abs_le.1 e1
    have q := abs_le.1 e2
    exact abs_le.2 ⟨by linarith, by linarith⟩
  have a2 : |c.total - h.total - c.peak * c.duration| ≤ a + b + x := (abs_sub _ _).trans (by linarith)
  have e5 := fl_step R e4 a2
  have w1 : ur * (a + b) + ur * x = ur * (a + b + x) := by ring
  rw [w1] at e5
  have w2 : ur * (a + b + x) ≤ 1 / 100 * (a + b + x) := mul_le_mul_of_nonneg_right (by linarith) (by linarith)
  have w3 : ur * (a + b + x + ur * (a + b + x)) ≤ ur * (101 / 100 * (a + b + x)) :=
    mul_le_mul_of_nonneg_left (by linarith) hu.le
  have e6 : |R.fl (R.fl (c.total - h.total) - R.fl (c.peak * c.duration)) + R.fl (h.peak * h.duration) -
      (c.total - h.total - c.peak * c.duration + h.peak * h.duration)| ≤ ur * (201 / 100 * (a + b + x) + y) := by
    have p := abs_le.1 e5
    have q := abs_le.1 e3
    have z : ur * (201 / 100 * (a + b + x) + y) = ur * (a + b + x) + ur * (101 / 100 * (a + b + x)) + ur * y := by ring
    exact abs_le.2 ⟨by linarith, by linarith⟩
  have a3 : |c.total - h.total - c.peak * c.duration + h.peak * h.duration| ≤ a + b + x + y :=
    (abs_add_le _ _).trans (by linarith)
  have e7 := fl_step R e6 a3
  refine e7.trans ?_
  have w4 : ur * (201 / 100 * (a + b + x) + y) ≤ 1 / 100 * (201 / 100 * (a + b + x) + y) :=
    mul_le_mul_of_nonneg_right (by linarith) (by linarith)
  have w5 : ur * (a + b + x + y + ur * (201 / 100 * (a + b + x) + y)) ≤
      ur * (a + b + x + y + 1 / 100 * (201 / 100 * (a + b + x) + y)) := mul_le_mul_of_nonneg_left (by linarith) hu.le
  rw [← mul_add] 
  refine mul_le_mul_of_nonneg_left ?_ hu.le
  linarith

theorem turnover_nonneg (c h : Side K) : 0 ≤ turnover c h := by unfold turnover; positivity

/-- a rounded quotient of two rounded numbers -/
theorem quot_bounds {m m' D D' S : K} (hD : 0 < D) (h1 : |m' - m| ≤ ur * (4 * S)) (hm : |m| ≤ S)
    (h2 : |D' - D| ≤ ur * (3 * D)) : |R.fl (m' / D') - m / D| ≤ ur * (9 * (S / D)) := by
  have hu := ur_pos (K := K)
  have hu' := ur_le (K := K)
  have hS : 0 ≤ S := (abs_nonneg _).trans hm
  have d := abs_le.1 h2
  have uD : ur * (3 * D) ≤ 1 / 1000 * D := by
    have := mul_le_mul_of_nonneg_right hu' (show 0 ≤ 3 * D by linarith)
    linarith
  have hD' : 999 / 1000 * D ≤ D' := by linarith
  have hD'0 : 0 < D' := by linarith
  have q0 : 0 ≤ S / D := div_nonneg hS hD.le
  have e : m' / D' - m / D = ((m' - m) - m / D * (D' - D)) / D' := by
    field_simp; ring
  have hmD : |m / D| ≤ S / D := by
    rw [abs_div, abs_of_pos hD]; exact div_le_div_of_nonneg_right hm hD.le
  have n1 : |m / D * (D' - D)| ≤ ur * (3 * S) := by
    rw [abs_mul]
    calc |m / D| * |D' - D| ≤ S / D * (ur * (3 * D)) := mul_le_mul hmD h2 (abs_nonneg _) q0
      _ = ur * (3 * S) := by field_simp
  have n2 : |(m' - m) - m / D * (D' - D)| ≤ ur * (7 * S) := by
    refine (abs_sub _ _).trans ?_
    linarith
  have n3 : |m' / D' - m / D| ≤ ur * (7 * S) / (999 / 1000 * D) := by
    rw [e, abs_div, abs_of_pos hD'0]
    exact div_le_div₀ (by positivity) n2 (by linarith) hD'
  have n4 : ur * (7 * S) / (999 / 1000 * D) ≤ ur * (71 / 10 * (S / D)) := by
    have : ur * (7 * S) / (999 / 1000 * D) = ur * (7000 / 999 * (S / D)) := by field_simp; ring
    rw [this]
    exact mul_le_mul_of_nonneg_left (by linarith) hu.le
  have n5 := fl_step R (n3.trans n4) hmD
  refine n5.trans ?_
  have w : ur * (71 / 10 * (S / D)) ≤ 1 / 10 * (S / D) := by
    have := mul_le_mul_of_nonneg_right hu' (show 0 ≤ 71 / 10 * (S / D) by linarith)
    linarith
  rw [← mul_add]
  exact mul_le_mul_of_nonneg_left (by linarith) hu.le

/-- the hours the background load is computed for -/
def restLen (ret : Prop) [Decidable ret] (m : ℕ) (c h : Side K) : K :=
  if ret then (monthLength false m : K) * 24 - c.duration - h.duration else (monthLength false m : K) * 24

theorem restLen_ge (ret : Prop) [Decidable ret] {m : ℕ} (hm1 : 1 ≤ m) (hm2 : m ≤ 12) {c h : Side K}
    (hc : FloatSide R c) (hh : FloatSide R h) : (574 : K) ≤ restLen ret m c h := by
  unfold restLen
  split
  · exact (len_bounds hm1 hm2 hc hh).1
  · have B1 : (28 : K) ≤ (monthLength false m : K) := by exact_mod_cast (monthLength_bounds false hm1 hm2).1
    linarith

theorem rate_bounds (ret : Prop) [Decidable ret] {m : ℕ} (hm1 : 1 ≤ m) (hm2 : m ≤ 12) {c h : Side K}
    (hc : FloatSide R c) (hh : FloatSide R h) :
    |rRate R ret m c h - rateOf ret m c h| ≤ ur * (9 * (turnover c h / restLen ret m c h)) ∧
    |rateOf ret m c h| ≤ turnover c h / restLen ret m c h := by
  have hD := restLen_ge ret hm1 hm2 hc hh
  have hu := ur_pos (K := K)
  unfold rRate rateOf
  by_cases hr : ret
  · have e : restLen ret m c h = (monthLength false m : K) * 24 - c.duration - h.duration := if_pos hr
    rw [if_pos hr, if_pos hr]
    obtain ⟨l1, l2⟩ := len_bounds hm1 hm2 hc hh
    have hm : |c.total - h.total - c.peak * c.duration + h.peak * h.duration| ≤ turnover c h := by
      unfold turnover
      have := abs_add_le (c.total - h.total - c.peak * c.duration) (h.peak * h.duration)
      have := abs_sub (c.total - h.total) (c.peak * c.duration)
      have := abs_sub c.total h.total
      linarith
    rw [← e] at l2 ⊢
    refine ⟨quot_bounds (by linarith) (load_bounds c h) hm l2, ?_⟩
    rw [abs_div, abs_of_pos (show 0 < restLen ret m c h by linarith)]
    exact div_le_div_of_nonneg_right hm (by linarith)
  · have e : restLen ret m c h = (monthLength false m : K) * 24 := if_neg hr
    rw [if_neg hr, if_neg hr]
    have B := monthLength_bounds false hm1 hm2
    have e' : R.fl ((monthLength false m * 24 : ℤ) : K) = (monthLength false m : K) * 24 := by
      rw [R.int]
      · push_cast; ring
      · exact abs_le.2 ⟨by omega, by omega⟩
    have hm : |c.total - h.total| ≤ turnover c h := by
      unfold turnover
      have := abs_sub c.total h.total
      have := abs_nonneg (c.peak * c.duration)
      have := abs_nonneg (h.peak * h.duration)
      linarith
    rw [e', ← e]
    refine ⟨quot_bounds (by linarith) ?_ hm ?_, ?_⟩
    · refine (err_ur R _).trans (mul_le_mul_of_nonneg_left ?_ hu.le)
      have := turnover_nonneg c h
      linarith
    · rw [sub_self, abs_zero]
      exact mul_nonneg hu.le (by linarith)
    · rw [abs_div, abs_of_pos (show 0 < restLen ret m c h by linarith)]
      exact div_le_div_of_nonneg_right hm (by linarith)

end Ghedt.Rounded
