import Verif.Lemmas.RoundedLoads
import Verif.Lemmas.HybridTotal
import Verif.Lemmas.Rounding
import Verif.Spec.Floats

set_option linter.unusedSectionVars false

/-!
# What `Loads` constructs in floating-point arithmetic
-/

namespace Ghedt
variable {K : Type} [Field K] [LinearOrder K] [FloorRing K] [IsStrictOrderedRing K]

theorem double_half {x : K} (h : double x = x) : double (x / 2) = x / 2 := by
  obtain ⟨m, e, hm, he⟩ := double_eq_repr x
  rw [h] at he
  have : x / 2 = (m : K) * 2 ^ (e - 1) := by
    rw [he, zpow_sub_one₀ (by norm_num : (2 : K) ≠ 0)]
    ring
  rw [this]
  exact double_repr m (e - 1) hm

end Ghedt

namespace Ghedt.Rounded
open GL Spec Search
variable {K : Type} [Field K] [LinearOrder K] [IsStrictOrderedRing K] (R : Rounding K)

/-- interpolation between whole hours gives a representable number, at most 49 -/
theorem interpNodes_floats (pts : List (K × K)) (hb : ∀ p ∈ pts, ∃ n : ℤ, p.2 = (n : K) ∧ 0 ≤ n ∧ n ≤ 48) {v d : K}
    (h : interpNodes R pts v = .ok d) : R.fl d = d ∧ |d| ≤ 49 := by
  induction pts with
  | nil => cases h
  | cons p pts ih =>
    have hone : ∀ n : ℤ, 0 ≤ n → n ≤ 48 → R.fl (n : K) = n ∧ |(n : K)| ≤ 49 := by
      intro n h1 h2
      have a : (0 : K) ≤ (n : K) := by exact_mod_cast h1
      have b : (n : K) ≤ 48 := by exact_mod_cast h2
      exact ⟨R.int n (abs_le.2 ⟨by omega, by omega⟩), abs_le.2 ⟨by linarith, by linarith⟩⟩
    cases pts with
    | nil =>
      unfold interpNodes at h
      split at h
      · cases h
        obtain ⟨n, e, h1, h2⟩ := hb p List.mem_cons_self
        rw [e]
        exact hone n h1 h2
      · cases h
    | cons q rest =>
      unfold interpNodes at h
      split at h
      · cases h
      · rename_i h1
        split at h
        · rename_i h2
          cases h
          rw [not_lt] at h1
          refine ⟨R.idem _, ?_⟩
          obtain ⟨a, ea, a1, a2⟩ := hb p List.mem_cons_self
          obtain ⟨b, eb, b1, b2⟩ := hb q (by simp)
          have hu := ur_pos (K := K)
          have hu' := ur_le (K := K)
          unfold add mul sub
          rw [ea, eb]
          have eab : R.fl ((b : K) - (a : K)) = (b : K) - a := by
            rw [← Int.cast_sub]
            exact R.int _ (abs_le.2 ⟨by omega, by omega⟩)
          rw [eab]
          have A1 : (0 : K) ≤ a := by exact_mod_cast a1
          have A2 : (a : K) ≤ 48 := by exact_mod_cast a2
          have B1 : (0 : K) ≤ b := by exact_mod_cast b1
          have B2 : (b : K) ≤ 48 := by exact_mod_cast b2
          have ht0 : 0 ≤ R.fl (v - p.1) := fl_nonneg R (by linarith)
          have hts : R.fl (v - p.1) ≤ R.fl (q.1 - p.1) := R.mono (by linarith)
          have hs : 0 < R.fl (q.1 - p.1) := fl_pos R (by linarith)
          generalize R.fl (v - p.1) = t at *
          generalize R.fl (q.1 - p.1) = s at *
          have hθ0 : 0 ≤ t / s := div_nonneg ht0 hs.le
          have hθ1 : t / s ≤ 1 := (div_le_one hs).2 hts
          -- the rounded slope
          have q1 : |R.fl (((b : K) - a) / s) * t - ((b : K) - a) * (t / s)| ≤ ur * 48 := by
            have e := R.err (((b : K) - a) / s)
            have e2 : R.fl (((b : K) - a) / s) * t - ((b : K) - a) * (t / s) =
                (R.fl (((b : K) - a) / s) - ((b : K) - a) / s) * t := by ring
            rw [e2, abs_mul, abs_of_nonneg ht0]
            calc |R.fl (((b : K) - a) / s) - ((b : K) - a) / s| * t ≤ (ur * |((b : K) - a) / s|) * t :=
                  mul_le_mul_of_nonneg_right e ht0
              _ = ur * (|(b : K) - a| * (t / s)) := by rw [abs_div, abs_of_pos hs]; ring
              _ ≤ ur * (48 * 1) := by
                  refine mul_le_mul_of_nonneg_left (mul_le_mul ?_ hθ1 hθ0 (by norm_num)) hu.le
                  exact abs_le.2 ⟨by linarith, by linarith⟩
              _ = ur * 48 := by ring
          have q2 : |((b : K) - a) * (t / s)| ≤ 48 := by
            rw [abs_mul, abs_of_nonneg hθ0]
            calc |(b : K) - a| * (t / s) ≤ 48 * 1 :=
                  mul_le_mul (abs_le.2 ⟨by linarith, by linarith⟩) hθ1 hθ0 (by norm_num)
              _ = 48 := by ring
          generalize R.fl (((b : K) - a) / s) * t = w at *
          have q3 : 0 ≤ ((b : K) - a) * (t / s) + a ∧ ((b : K) - a) * (t / s) + a ≤ 48 := by
            have e : ((b : K) - a) * (t / s) + a = (1 - t / s) * a + t / s * b := by ring
            rw [e]
            constructor
            · have := mul_nonneg (show 0 ≤ 1 - t / s by linarith) A1
              have := mul_nonneg hθ0 B1
              linarith
            · have := mul_le_mul_of_nonneg_left A2 (show 0 ≤ 1 - t / s by linarith)
              have := mul_le_mul_of_nonneg_left B2 hθ0
              linarith
          generalize ((b : K) - a) * (t / s) = x at *
          have r1 := R.err w
          have c1 := abs_le.1 q1
          have c2 := abs_le.1 q2
          have u48 : (ur : K) * 48 ≤ 1 / 100 := by linarith
          have hw : |w| ≤ 49 := abs_le.2 ⟨by linarith, by linarith⟩
          have r1' := abs_le.1 (r1.trans (mul_le_mul_of_nonneg_left hw (hu.le : (0 : K) ≤ 1 / 2 ^ 53)))
          have u49 : (1 / 2 ^ 53 : K) * 49 ≤ 1 / 100 := by norm_num
          have hz : |R.fl w + (a : K)| ≤ 49 := abs_le.2 ⟨by linarith, by linarith⟩
          have r2 := R.err (R.fl w + (a : K))
          have r2' := abs_le.1 (r2.trans (mul_le_mul_of_nonneg_left hz (hu.le : (0 : K) ≤ 1 / 2 ^ 53)))
          exact abs_le.2 ⟨by linarith, by linarith⟩
        · exact ih (fun x hx => hb x (List.mem_cons_of_mem _ hx)) h

theorem millionth_floats : R.fl (R.fl (1 / 1000000)) = R.fl (1 / 1000000) ∧ |R.fl (1 / 1000000 : K)| ≤ 49 := by
  refine ⟨R.idem _, ?_⟩
  have h1 : (0 : K) ≤ R.fl (1 / 1000000) := fl_nonneg R (by norm_num)
  have h2 : R.fl (1 / 1000000 : K) ≤ 1 := by
    have := fl_le_int R (n := 1) (by norm_num) (x := (1 / 1000000 : K)) (by norm_num)
    simpa using this
  exact abs_le.2 ⟨by linarith, by linarith⟩

theorem performMonth_floats {dot : List K → List K → K} {r : Resp K} {w : List K} {p a : K} {x : K × List K × List K}
    (h : performMonth R dot r w p a = .ok x) : R.fl x.1 = x.1 ∧ |x.1| ≤ 49 := by
  unfold performMonth at h
  dsimp only at h
  simp only [bind_eq_ok] at h
  obtain ⟨_, _, _, _, _, _, m, _, d, hd, hx⟩ := h
  cases hx
  split at hd
  · unfold interp1d at hd
    split at hd
    · cases hd
    · refine interpNodes_floats R _ ?_ hd
      intro y hy
      rw [(List.perm_insertionSort _ _).mem_iff] at hy
      have hy := (List.of_mem_zip hy).2
      rw [List.mem_map] at hy
      obtain ⟨t, ht, e⟩ := hy
      rw [mem_pyRange] at ht
      exact ⟨t, e.symm, by omega, by omega⟩
  · cases hd
    exact millionth_floats R

theorem durationStep_floats {dot : List K → List K → K} {r : Resp K} {td : List (List K)} {pk av : List K}
    {s s' : List K × List (List K) × List (List K)} {i : ℤ}
    (hs : s.1.length = 13 ∧ ∀ x ∈ s.1, R.fl x = x ∧ |x| ≤ 49) (h : durationStep R dot r td pk av s i = .ok s') :
    s'.1.length = 13 ∧ ∀ x ∈ s'.1, R.fl x = x ∧ |x| ≤ 49 := by
  unfold durationStep at h
  simp only [bind_eq_ok] at h
  obtain ⟨w, -, p, -, m, -, a, -, h⟩ := h
  generalize (if |sub R p m| < R.fl (1 / 10) then p else m) = used at h
  split at h
  · rw [bind_eq_ok] at h
    obtain ⟨⟨d, x, y⟩, hx, h⟩ := h
    dsimp only at h
    rw [bind_eq_ok] at h
    obtain ⟨l, hl, h⟩ := h
    cases h
    obtain ⟨l1, l2⟩ := pySet_inv hl
    refine ⟨by rw [← hs.1]; exact l1, fun y hy => ?_⟩
    rcases l2 y hy with h | rfl
    · exact hs.2 y h
    · exact performMonth_floats R hx
  · rw [bind_eq_ok] at h
    obtain ⟨l, hl, h⟩ := h
    cases h
    obtain ⟨l1, l2⟩ := pySet_inv hl
    refine ⟨by rw [← hs.1]; exact l1, fun y hy => ?_⟩
    rcases l2 y hy with h | rfl
    · exact hs.2 y h
    · exact millionth_floats R

/-- whatever the response: the durations of a constructed `Loads` are representable and at most 49 h -/
theorem mkLoads_floats {dot : List K → List K → K} {r : Resp K} {hourly : List K} {year : ℤ} {L : Loads K}
    (h : mkLoads R dot r hourly year = .ok L) : Full L ∧ ∀ x ∈ L.duration, R.fl x = x ∧ |x| ≤ 49 := by
  have hM := mkLoads_rinv h
  have hd : L.duration.length = 13 ∧ ∀ x ∈ L.duration, R.fl x = x ∧ |x| ≤ 49 := by
    by_cases hlen : hourly.length = yearHours (decide (LeapYear year))
    · obtain ⟨total, peak, average, peakDay, twoDay, -, hmk⟩ := mkLoads_rgood R dot r hlen
      rw [hmk] at h
      cases hf : (pyRange 1 13).foldlM (durationStep R dot r twoDay peak average)
          (List.replicate 13 0, [[0]], [[0]]) with
      | error e => rw [hf] at h; cases h
      | ok s =>
        rw [hf] at h
        cases h
        refine foldlM_inv_of_ok
          (fun s : List K × List (List K) × List (List K) => s.1.length = 13 ∧ ∀ x ∈ s.1, R.fl x = x ∧ |x| ≤ 49)
          (fun s a s' hs e => durationStep_floats R hs e) _ _ _ ⟨by simp, ?_⟩ hf
        intro x hx
        rw [List.eq_of_mem_replicate hx]
        exact ⟨fl_zero R, by norm_num⟩
    · rw [mkLoads_rbad R dot r hlen] at h; cases h
  exact ⟨⟨hM.total_length, hM.peak_length, hd.1, hM.day_length⟩, hd.2⟩

end Ghedt.Rounded
