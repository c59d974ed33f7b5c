import Verif.Lemmas.RoundedGhe
import Verif.Lemmas.InterpClose

set_option linter.unusedSectionVars false

/-!
# Linear interpolation in floating-point arithmetic
-/

namespace Ghedt.Rounded
open Spec
variable {K : Type} [Field K] [LinearOrder K] [IsStrictOrderedRing K]

theorem Off.recip (R : Rounding K) {a : K} (ha : 0 < a) : Off 2 (1 / R.fl a) (1 / a) (1 / a) := by
  have hu := ur_pos (K := K)
  have hu' := ur_le (K := K)
  have l1 := le_fl R (x := a) ha.le
  have l2 := fl_le R (x := a) ha.le
  have p1 : 0 < R.fl a := fl_pos R ha
  refine ⟨?_, by rw [abs_of_pos (by positivity)]⟩
  have e : 1 / R.fl a - 1 / a = (a / R.fl a - 1) * (1 / a) := by field_simp
  rw [e, abs_mul, abs_of_pos (show 0 < 1 / a by positivity)]
  refine mul_le_mul_of_nonneg_right ?_ (by positivity)
  have up : a / R.fl a ≤ 1 + grow 2 := by
    rw [div_le_iff₀ p1]
    have hg : (1 : K) ≤ (1 + grow 2) * (1 - ur) := by
      have : (1 + grow 2 : K) * (1 - ur) = 1 + ur * (1 - ur - ur ^ 2) := by unfold grow; ring
      rw [this]
      have : (0 : K) ≤ ur * (1 - ur - ur ^ 2) := mul_nonneg hu.le (by nlinarith)
      linarith
    have h1 := mul_le_mul_of_nonneg_left l1 (show (0 : K) ≤ 1 + grow 2 by have := grow_nonneg (K := K) 2; linarith)
    have h2 := mul_le_mul_of_nonneg_right hg ha.le
    nlinarith
  have low : 1 - grow 2 ≤ a / R.fl a := by
    rw [le_div_iff₀ p1]
    have hg : (1 - grow 2 : K) * (1 + ur) ≤ 1 := by
      have : (1 - grow 2 : K) * (1 + ur) = 1 - ur * (1 + 3 * ur + ur ^ 2) := by unfold grow; ring
      rw [this]
      have : (0 : K) ≤ ur * (1 + 3 * ur + ur ^ 2) := by positivity
      linarith
    have h0 : (0 : K) ≤ 1 - grow 2 := by
      have := grow_le (K := K) (k := 2) (by norm_num)
      norm_num at this ⊢
      linarith
    have h1 := mul_le_mul_of_nonneg_left l2 h0
    have h2 := mul_le_mul_of_nonneg_right hg ha.le
    nlinarith
  rw [abs_le]
  constructor <;> linarith

/-- one segment -/
theorem segment_close (R : Rounding K) {a b c d v M : K} (h1 : a ≤ v) (h2 : v < b) (hc : |c| ≤ M) (hd : |d| ≤ M) :
    |add R (mul R (R.fl (sub R d c / sub R b a)) (sub R v a)) c - ((d - c) / (b - a) * (v - a) + c)| ≤ M / 2 ^ 47 := by
  have hpos : 0 < b - a := by linarith
  have o1 : Off 1 (R.fl (d - c)) (d - c) |d - c| := (Off.refl 0 _).fl R
  have o2 := Off.recip R hpos
  have o3 := (o1.mul o2).fl R
  have o4 : Off 1 (R.fl (v - a)) (v - a) |v - a| := (Off.refl 0 _).fl R
  have o5 := (o3.mul o4).fl R
  have o6 := (o5.add (Off.refl _ c)).fl R
  have hM : 0 ≤ M := (abs_nonneg _).trans hc
  have key := o6.1
  have hX : |d - c| * (1 / (b - a)) * |v - a| + |c| ≤ 3 * M := by
    have q1 : 1 / (b - a) * |v - a| ≤ 1 := by
      rw [abs_of_nonneg (by linarith), one_div, inv_mul_eq_div, div_le_one hpos]
      linarith
    have q2 : |d - c| ≤ 2 * M := (abs_sub _ _).trans (by linarith)
    have := mul_le_mul q2 q1 (by positivity) (by linarith)
    rw [mul_assoc]
    linarith
  have hg := grow_le (K := K) (k := 7) (by norm_num)
  have := mul_le_mul hg hX (by positivity) (by positivity)
  unfold add mul sub
  have e1 : R.fl (d - c) / R.fl (b - a) = R.fl (d - c) * (1 / R.fl (b - a)) := by ring
  have e2 : (d - c) / (b - a) = (d - c) * (1 / (b - a)) := by ring
  rw [e1, e2]
  refine key.trans (this.trans ?_)
  norm_num
  linarith

/-- rounding changes neither what is raised nor, by much, the value -/
theorem interpNodes_rounded (R : Rounding K) {M : K} : ∀ (l : List (K × K)) (v : K), (∀ p ∈ l, |p.2| ≤ M) →
    (∃ d d', Ghedt.interpNodes l v = .ok d ∧ interpNodes R l v = .ok d' ∧ |d' - d| ≤ M / 2 ^ 47) ∨
    (∃ e, Ghedt.interpNodes l v = .error e ∧ interpNodes R l v = .error e)
  | [], v, _ => .inr ⟨_, rfl, rfl⟩
  | [p], v, h => by
    have hM : 0 ≤ M := (abs_nonneg _).trans (h p (by simp))
    unfold Ghedt.interpNodes interpNodes
    by_cases hv : v = p.1
    · simp only [if_pos hv]
      exact .inl ⟨_, _, rfl, rfl, by rw [sub_self, abs_zero]; positivity⟩
    · simp only [if_neg hv]
      exact .inr ⟨_, rfl, rfl⟩
  | p :: q :: rest, v, h => by
    unfold Ghedt.interpNodes interpNodes
    by_cases h1 : v < p.1
    · rw [if_pos h1, if_pos h1]
      exact .inr ⟨_, rfl, rfl⟩
    rw [if_neg h1, if_neg h1]
    by_cases h2 : v < q.1
    · rw [if_pos h2, if_pos h2]
      exact .inl ⟨_, _, rfl, rfl, segment_close R (not_lt.1 h1) h2 (h p (by simp)) (h q (by simp))⟩
    · rw [if_neg h2, if_neg h2]
      exact interpNodes_rounded R (q :: rest) v (fun a ha => h a (List.mem_cons_of_mem _ ha))

/-- at the first point the first ordinate -/
theorem interpNodes_first (p : K × K) (rest : List (K × K)) (h : ∀ q ∈ rest, p.1 < q.1) :
    Ghedt.interpNodes (p :: rest) p.1 = .ok p.2 := by
  cases rest with
  | nil => exact if_pos rfl
  | cons q rest =>
    unfold Ghedt.interpNodes
    rw [if_neg (lt_irrefl _), if_pos (h q (by simp)), sub_self, mul_zero, zero_add]

/-- linear interpolation has no slope greater than the segments -/
theorem interpNodes_slope {L : K} : ∀ (l : List (K × K)), l.Pairwise (fun p q => p.1 < q.1) →
    l.IsChain (fun p q => |q.2 - p.2| ≤ L * (q.1 - p.1)) → ∀ v v' d d', v ≤ v' →
    Ghedt.interpNodes l v = .ok d → Ghedt.interpNodes l v' = .ok d' → |d' - d| ≤ L * (v' - v)
  | [], _, _, _, _, _, _, _, h, _ => by cases h
  | [p], _, _, v, v', d, d', _, h, h' => by
    unfold Ghedt.interpNodes at h h'
    split_ifs at h h' with e e'
    cases h
    cases h'
    rw [e, e', sub_self, sub_self, abs_zero, mul_zero]
  | p :: q :: rest, hp, hs, v, v', d, d', hv, h, h' => by
    rw [List.pairwise_cons] at hp
    rw [List.isChain_cons_cons] at hs
    have ih := interpNodes_slope (q :: rest) hp.2 hs.2
    have hpq : p.1 < q.1 := hp.1 q (by simp)
    have hpos : 0 < q.1 - p.1 := by linarith
    have seg : ∀ a b : K, a ≤ b → |(q.2 - p.2) / (q.1 - p.1) * (b - a)| ≤ L * (b - a) := by
      intro a b hab
      rw [abs_mul, abs_div, abs_of_pos hpos, abs_of_nonneg (show 0 ≤ b - a by linarith)]
      exact mul_le_mul_of_nonneg_right ((div_le_iff₀ hpos).2 hs.1) (by linarith)
    have hfirst : Ghedt.interpNodes (q :: rest) q.1 = .ok q.2 :=
      interpNodes_first q rest (fun r hr => (List.pairwise_cons.1 hp.2).1 r hr)
    unfold Ghedt.interpNodes at h h'
    by_cases h1 : v < p.1
    · rw [if_pos h1] at h; cases h
    have h1' : ¬ v' < p.1 := fun h => h1 (hv.trans_lt h)
    rw [if_neg h1] at h
    rw [if_neg h1'] at h'
    by_cases h2 : v < q.1
    · rw [if_pos h2] at h
      cases h
      by_cases h2' : v' < q.1
      · rw [if_pos h2'] at h'
        cases h'
        have := seg v v' hv
        refine le_trans (le_of_eq ?_) this
        congr 1
        ring
      · rw [if_neg h2'] at h'
        have t1 := ih q.1 v' q.2 d' (not_lt.1 h2') hfirst h'
        have t2 := seg v q.1 h2.le
        have e : (q.2 - p.2) / (q.1 - p.1) * (q.1 - v) = q.2 - ((q.2 - p.2) / (q.1 - p.1) * (v - p.1) + p.2) := by
          field_simp
          ring
        rw [e] at t2
        have := abs_add_le (d' - q.2) (q.2 - ((q.2 - p.2) / (q.1 - p.1) * (v - p.1) + p.2))
        rw [sub_add_sub_cancel] at this
        linarith
    · rw [if_neg h2] at h
      rw [if_neg (not_lt.2 ((not_lt.1 h2).trans hv))] at h'
      exact ih v v' d d' hv h h'

/-- at a point of the table rounding changes nothing -/
theorem interpNodes_point (R : Rounding K) : ∀ (l : List (K × K)), l.Pairwise (fun p q => p.1 < q.1) →
    ∀ p ∈ l, R.fl p.2 = p.2 → interpNodes R l p.1 = .ok p.2
  | [], _, p, h, _ => by simp at h
  | [a], _, p, h, _ => by
    rw [List.mem_singleton] at h
    rw [h]
    exact if_pos rfl
  | a :: b :: rest, hl, p, h, hf => by
    rw [List.pairwise_cons] at hl
    have hab : a.1 < b.1 := hl.1 b (by simp)
    unfold interpNodes
    rcases List.mem_cons.1 h with rfl | h
    · rw [if_neg (lt_irrefl _), if_pos hab]
      unfold sub add mul
      rw [sub_self, fl_zero, mul_zero, fl_zero, zero_add, hf]
    · have hap : a.1 < p.1 := hl.1 p h
      have hbp : b.1 ≤ p.1 := by
        rcases List.mem_cons.1 h with rfl | h'
        · exact le_rfl
        · exact ((List.pairwise_cons.1 hl.2).1 p h').le
      rw [if_neg hap.not_gt, if_neg hbp.not_gt]
      exact interpNodes_point R (b :: rest) hl.2 p h hf

end Ghedt.Rounded
