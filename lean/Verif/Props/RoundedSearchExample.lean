import Verif.Props.RoundedSearch
import Verif.Props.RoundedWholeExample

/-!
# Concrete cases for C148

The two U-tubes of `exLoaded`, a constant load and a large g-function: one borehole is too hot, a long row is not.
-/

namespace Ghedt.WholeSearch
open Real Ghedt.GHE Ghedt.Bhe Ghedt.Radial Ghedt.Whole Ghedt.Search Ghedt.Utilities Ghedt.Spec Ghedt.Network Ghedt.Design

noncomputable section

/-- the last instant of the short-time part is well before the g-function begins -/
theorem exSeam_gap {s : UTube} {H : ℝ} (hH : H = 50 ∨ H = 100) (hct : charTime s = 100000 * H ^ 2) (j : ℕ)
    (hj : log (sampleTime j / charTime s) ≤ -(85 / 10)) : log (sampleTime j / charTime s) + 1 / 40000 ≤ -(85 / 10) := by
  obtain ⟨e1, e2⟩ := exp_bounds
  have hT : 0 < charTime s := by rw [hct]; rcases hH with rfl | rfl <;> norm_num
  have hpos : 0 < sampleTime j := by unfold sampleTime; positivity
  have h1 : sampleTime j / charTime s ≤ exp (-(85 / 10)) := by
    rw [← log_le_log_iff (by positivity) (exp_pos _), log_exp]
    exact hj
  have h2 : sampleTime j / charTime s ≤ exp (-(85 / 10)) * (1 - 1 / 40000) := by
    have e3 := exp_pos (-(85 / 10 : ℝ))
    rw [div_le_iff₀ hT] at h1 ⊢
    generalize exp (-(85 / 10 : ℝ)) = y at *
    rw [hct] at h1 ⊢
    unfold sampleTime at h1 ⊢
    have key : ∀ n : ℕ, (j : ℝ) ≤ n ∨ (n : ℝ) + 1 ≤ j := by
      intro n
      rcases Nat.lt_or_ge n j with h | h
      · exact .inr (by exact_mod_cast h)
      · exact .inl (by exact_mod_cast h)
    rcases hH with rfl | rfl
    · rcases key 423 with h | h <;> rw [Nat.cast_ofNat] at h <;> norm_num at h1 e1 e2 ⊢ <;> linarith
    · rcases key 1695 with h | h <;> rw [Nat.cast_ofNat] at h <;> norm_num at h1 e1 e2 ⊢ <;> linarith
  have h3 : log (sampleTime j / charTime s) ≤ log (exp (-(85 / 10)) * (1 - 1 / 40000)) := log_le_log (by positivity) h2
  rw [log_mul (exp_pos _).ne' (by norm_num), log_exp] at h3
  have := log_le_sub_one_of_pos (show (0 : ℝ) < 1 - 1 / 40000 by norm_num)
  linarith

/-- the bounds on the response for any g-function, from those for a g-function that is 0 -/
theorem exTame {K L g q : ℝ} {m : ℕ} {f : Field} {H : ℝ} {s : UTube} (hH : H = 50 ∨ H = 100)
    (h : Usable exProblem f H (.multiple (exDouble H)) s) (hct : charTime s = 100000 * H ^ 2) (hm : 1 ≤ m)
    (hb : Tame (exLoaded 0 q m) f H s (max |log (1 / 10 ^ 12 / charTime s)| (3003 / 1000)) K L) (hK : 0 ≤ K) (hL : 0 ≤ L) :
    Tame (exLoaded g q m) f H s (max |log (1 / 10 ^ 12 / charTime s)| (3003 / 1000)) (K + |g|) (L + 40000 * (K + |g|)) := by
  intro rad lt gs c hsts hc
  have hu := exLoaded_usable (g := g) (q := q) hm h
  have hord := points_ordered hu (exSeam s H hH hct) hsts hc
  obtain ⟨b1, b2⟩ := hb rad lt gs _ hsts rfl
  cases hc
  have habs := abs_nonneg g
  set A := (lt.zip gs).filter (fun q => decide (q.1 ≤ -(85 / 10))) with hA
  have ep : ∀ v : ℝ, points lt gs (List.replicate 27 v) = A ++ (eskilsonLogTimes : List ℝ).zip (List.replicate 27 v) := fun _ => rfl
  have e27 : (eskilsonLogTimes : List ℝ).length = 27 := by simp [eskilsonLogTimes]
  have htail : ∀ (v : ℝ) (k : ℕ) (w : ℝ × ℝ), ((eskilsonLogTimes : List ℝ).zip (List.replicate 27 v))[k]? = some w →
      w.2 = v ∧ (eskilsonLogTimes : List ℝ)[k]? = some w.1 := by
    intro v k w hw
    obtain ⟨w1, w2⟩ := List.getElem?_zip_eq_some.1 hw
    exact ⟨List.eq_of_mem_replicate (List.mem_of_getElem? w2), w1⟩
  constructor
  · intro w hw
    rw [ep] at hw
    rcases List.mem_append.1 hw with hw | hw
    · obtain ⟨a1, a2⟩ := b1 w (by rw [ep]; exact List.mem_append_left _ hw)
      exact ⟨a1, by linarith⟩
    · obtain ⟨k, hk⟩ := List.mem_iff_getElem?.1 hw
      obtain ⟨w1, w2⟩ := htail _ _ _ hk
      have hk27 : k < 27 := by rw [← e27]; exact (List.getElem?_eq_some_iff.1 w2).1
      have : (w.1, (0 : ℝ)) ∈ (eskilsonLogTimes : List ℝ).zip (List.replicate 27 0) := by
        refine List.mem_of_getElem? (i := k) (List.getElem?_zip_eq_some.2 ⟨w2, ?_⟩)
        rw [List.getElem?_replicate, if_pos hk27]
      obtain ⟨a1, -⟩ := b1 _ (by rw [ep]; exact List.mem_append_right _ this)
      exact ⟨a1, by rw [w1]; linarith⟩
  · intro k a b ha hb
    have hlt : a.1 < b.1 := by
      obtain ⟨q1, q2⟩ := List.getElem?_eq_some_iff.1 ha
      obtain ⟨r1, r2⟩ := List.getElem?_eq_some_iff.1 hb
      have := List.pairwise_iff_getElem.1 hord k (k + 1) q1 r1 (by omega)
      rwa [q2, r2] at this
    have hnn : 0 ≤ 40000 * (K + |g|) := by positivity
    rw [ep] at ha hb
    rcases Nat.lt_or_ge (k + 1) A.length with hk | hk
    · have := b2 k a b (by rw [ep]; rwa [List.getElem?_append_left (by omega)] at ha ⊢)
        (by rw [ep]; rwa [List.getElem?_append_left hk] at hb ⊢)
      nlinarith
    · rw [List.getElem?_append_right hk] at hb
      obtain ⟨hb1, hb2⟩ := htail _ _ _ hb
      rcases Nat.lt_or_ge k A.length with hk' | hk'
      · rw [List.getElem?_append_left hk'] at ha
        have ham := List.mem_of_getElem? ha
        obtain ⟨-, a2⟩ := b1 a (by rw [ep]; exact List.mem_append_left _ ham)
        obtain ⟨m1, m2⟩ := List.mem_filter.1 ham
        have m2 : a.1 ≤ -(85 / 10) := by simpa using m2
        obtain ⟨B, c', sts, cl, hl, hy, -⟩ := fresh_ok hu
        obtain ⟨N, r, ys, -, -, -, e'⟩ := calcSts_ok (hu.works B c' (cl, hl, hy))
        change calcSts (exLoaded g q m).solve (radialTube (exLoaded g q m).ext s) none false (exLoaded g q m).fuel = _ at e'
        rw [hsts] at e'
        cases e'
        obtain ⟨j, -, ej⟩ := List.mem_map.1 (List.of_mem_zip (a := a.1) (b := a.2) m1).1
        have hgap := exSeam_gap hH hct j (by rw [ej]; exact m2)
        rw [ej] at hgap
        have hk0 : k + 1 - A.length = 0 := by omega
        rw [hk0] at hb2
        have hb3 : b.1 = -(85 / 10) := by
          have : (eskilsonLogTimes : List ℝ)[0]? = some (-85 / 10 : ℝ) := by simp [eskilsonLogTimes]
          rw [this] at hb2
          have := Option.some.inj hb2
          rw [← this]
          norm_num
        have h1 : |b.2 - a.2| ≤ K + |g| := by
          rw [hb1]
          have := abs_sub g a.2
          linarith
        have h2 : 1 / 40000 ≤ b.1 - a.1 := by rw [hb3]; linarith
        have h3 : K + |g| ≤ 40000 * (K + |g|) * (b.1 - a.1) := by nlinarith
        have h4 : 0 ≤ L * (b.1 - a.1) := mul_nonneg hL (by linarith)
        linarith
      · rw [List.getElem?_append_right hk'] at ha
        obtain ⟨ha1, -⟩ := htail _ _ _ ha
        rw [ha1, hb1, sub_self, abs_zero]
        exact mul_nonneg (by linarith) (by linarith)

/-- a logarithm off by one part in 2^53 and the times of an exchanger of either height -/
theorem exShift' {s : UTube} {H : ℝ} (hH : H = 50 ∨ H = 100) (hct : charTime s = 100000 * H ^ 2) :
    0 ≤ shift (1 / 2 ^ 53) (max |log (1 / 10 ^ 12 / charTime s)| (3003 / 1000)) ∧
      shift (1 / 2 ^ 53) (max |log (1 / 10 ^ 12 / charTime s)| (3003 / 1000)) ≤ 1 / 2 ^ 45 := by
  have h10 : log 10 ≤ 9 := by
    have := log_le_sub_one_of_pos (show (0 : ℝ) < 10 by norm_num)
    linarith
  have hT : 0 < charTime s := by rw [hct]; rcases hH with rfl | rfl <;> norm_num
  have e : |log (1 / 10 ^ 12 / charTime s)| ≤ 200 := by
    have h1 : (1 / 10 ^ 12 / charTime s) = (10 ^ 12 * charTime s)⁻¹ := by
      field_simp
    rw [h1, log_inv, abs_neg, abs_of_nonneg (log_nonneg (by rw [hct]; rcases hH with rfl | rfl <;> norm_num))]
    have h2 : log (10 ^ 12 * charTime s) ≤ log (10 ^ 21) := by
      apply log_le_log (by positivity)
      rw [hct]
      rcases hH with rfl | rfl <;> norm_num
    rw [log_pow] at h2
    push_cast at h2
    linarith
  have hW : max |log (1 / 10 ^ 12 / charTime s)| (3003 / 1000) ≤ 200 := max_le e (by norm_num)
  have hW0 : 0 ≤ max |log (1 / 10 ^ 12 / charTime s)| (3003 / 1000) := (abs_nonneg _).trans (le_max_left _ _)
  generalize max |log (1 / 10 ^ 12 / charTime s)| (3003 / 1000) = W at *
  unfold shift
  refine ⟨by positivity, ?_⟩
  have : (1 / 2 ^ 53 : ℝ) * (W + 1 / 2 ^ 50) ≤ 1 / 2 ^ 53 * (200 + 1 / 2 ^ 50) := by gcongr
  refine le_trans (add_le_add_right this _) ?_
  norm_num

/-- the error of the temperatures of a year -/
theorem exSlack {g L M σ : ℝ} {n : ℕ} {H : ℝ} (hH : H = 50 ∨ H = 100) (hn : n ≠ 0) (hL : 0 ≤ L) (hM : 0 ≤ M) (hσ : 0 ≤ σ)
    (hσ' : σ ≤ 1 / 2 ^ 45) {i : ℕ} (hi0 : i ≠ 0) (hi : i ≤ 8760) :
    (plantOf (exLoaded g 10000 1) (exRow n) H (.multiple (exDouble H))).slack M ((L + 40000 * M) * σ + M / 2 ^ 47)
      (fun i => if i = 0 then 0 else 10000) i ≤ 1 / 100 + (1 + L + M / 100) / n := by
  set P := plantOf (exLoaded g 10000 1) (exRow n) H (.multiple (exDouble H)) with hP
  have hpi := Real.pi_gt_three
  have hn' : (0 : ℝ) < n := by exact_mod_cast Nat.pos_of_ne_zero hn
  have hn1 : (1 : ℝ) ≤ n := by exact_mod_cast Nat.one_le_iff_ne_zero.2 hn
  have h50 : 50 ≤ H := by rcases hH with rfl | rfl <;> norm_num
  have e1 : P.boreholes = n := by
    show ((exRow n).length : ℝ) = n
    rw [exRow_length]
  have e2 : P.height = H := rfl
  have e3 : P.twoPiK = 2 * π * 2 := rfl
  have e4 : P.ground = 18 := rfl
  have e5 : P.resistance = 51 / 400 := exLoaded_rb (g := g) (q := 10000) (m := 1)
  have e6 : P.flow = 2 := exLoaded_flow (g := g) (q := 10000) (m := 1) (f := exRow n)
  have e7 : P.cp = 4182 := rfl
  have hch : P.changes (fun i => if i = 0 then 0 else 10000) i ≤ 297840 / n := by
    unfold Plant.changes
    rw [e1, e2, e3]
    have : ∀ j ∈ Finset.range i, (|(if j + 1 = 0 then (0 : ℝ) else 10000)| + |if j = 0 then (0 : ℝ) else 10000|) /
        (n * H * (2 * π * 2)) ≤ 34 / n := by
      intro j _
      have h1 : |(if j + 1 = 0 then (0 : ℝ) else 10000)| + |if j = 0 then (0 : ℝ) else 10000| ≤ 20000 := by
        split_ifs <;> norm_num
      rw [div_le_div_iff₀ (by positivity) hn']
      have h2 : (600 : ℝ) ≤ H * (2 * π * 2) := by nlinarith
      have h3 : (n : ℝ) * 600 ≤ n * (H * (2 * π * 2)) := mul_le_mul_of_nonneg_left h2 hn'.le
      have h4 := mul_le_mul_of_nonneg_right h1 hn'.le
      nlinarith
    refine (Finset.sum_le_card_nsmul _ _ _ this).trans ?_
    rw [Finset.card_range, nsmul_eq_mul, mul_div_assoc']
    have : (i : ℝ) ≤ 8760 := by exact_mod_cast hi
    gcongr
    linarith
  have hch0 : 0 ≤ P.changes (fun i => if i = 0 then 0 else 10000) i := by
    unfold Plant.changes
    rw [e1, e2, e3]
    exact Finset.sum_nonneg fun j _ => by positivity
  have hi' : ((i + 8 : ℕ) : ℝ) ≤ 8768 := by exact_mod_cast (by omega : i + 8 ≤ 8768)
  have h200 : 10000 / ((n : ℝ) * H) ≤ 200 / n := by
    rw [div_le_div_iff₀ (by positivity) hn']
    nlinarith
  have hδ : (L + 40000 * M) * σ + M / 2 ^ 47 ≤ (L + 40000 * M) * (1 / 2 ^ 45) + M / 2 ^ 47 := by gcongr
  have hδ0 : 0 ≤ (L + 40000 * M) * σ + M / 2 ^ 47 := by positivity
  unfold Plant.slack
  dsimp only
  rw [if_neg hi0, e1, e2, e4, e5, e6, e7]
  generalize P.changes (fun i => if i = 0 then 0 else 10000) i = X at hch hch0
  generalize (L + 40000 * M) * σ + M / 2 ^ 47 = δ at hδ hδ0
  have step : ((i + 8 : ℕ) : ℝ) / 2 ^ 52 * (|(18 : ℝ)| + M * X + |(10000 : ℝ)| / (n * H) * |(51 / 400 : ℝ)| +
      |(10000 : ℝ)| / (n * (2 * 2 * 4182))) + 2 * δ * X ≤
      8768 / 2 ^ 52 * (18 + M * (297840 / n) + 200 / n * (51 / 400) + 10000 / (n * (2 * 2 * 4182))) +
        2 * ((L + 40000 * M) * (1 / 2 ^ 45) + M / 2 ^ 47) * (297840 / n) := by
    rw [abs_of_pos (by norm_num : (0 : ℝ) < 18), abs_of_pos (by norm_num : (0 : ℝ) < 10000),
      abs_of_pos (by norm_num : (0 : ℝ) < 51 / 400)]
    gcongr
  refine step.trans ?_
  have hu : 0 < 1 / (n : ℝ) := by positivity
  have hMu : 0 ≤ M * (1 / n) := by positivity
  have hLu : 0 ≤ L * (1 / n) := by positivity
  have r1 : 8768 / 2 ^ 52 * (18 + M * (297840 / n) + 200 / n * (51 / 400) + 10000 / (n * (2 * 2 * 4182))) +
      2 * ((L + 40000 * M) * (1 / 2 ^ 45) + M / 2 ^ 47) * (297840 / n) =
      8768 / 2 ^ 52 * (18 + 297840 * (M * (1 / n)) + 200 * (51 / 400) * (1 / n) + 10000 / (2 * 2 * 4182) * (1 / n)) +
      2 * 297840 * ((L * (1 / n) + 40000 * (M * (1 / n))) * (1 / 2 ^ 45) + M * (1 / n) / 2 ^ 47) := by
    field_simp
  have r2 : (1 + L + M / 100) / n = 1 / n + L * (1 / n) + M * (1 / n) / 100 := by ring
  rw [r1, r2]
  generalize M * (1 / (n : ℝ)) = a at *
  generalize L * (1 / (n : ℝ)) = b at *
  generalize 1 / (n : ℝ) = u at *
  norm_num
  linarith

/-- every row has temperatures computed with that error -/
theorem exComputed : ∃ K L : ℝ, 0 ≤ K ∧ 0 ≤ L ∧ ∀ (j : ℕ) (n : ℕ), n ≠ 0 → ∀ H, H = 50 ∨ H = 100 →
    Computed Rounding.double (Rounded.dotFromLeft Rounding.double) log (exLoaded (2 ^ j) 10000 1) (exRow n) H
      (1 / 100 + (1 + L + (K + 2 ^ j) / 100) / n) := by
  have one : ∀ H, H = 50 ∨ H = 100 → ∃ K L : ℝ, 0 ≤ K ∧ 0 ≤ L ∧ ∀ (j : ℕ) (n : ℕ), n ≠ 0 →
      Computed Rounding.double (Rounded.dotFromLeft Rounding.double) log (exLoaded (2 ^ j) 10000 1) (exRow n) H
        (1 / 100 + (1 + L + (K + 2 ^ j) / 100) / n) := by
    intro H hH
    obtain ⟨s, hu, hct⟩ := exUsable (exRow 1) (exRow_ne one_ne_zero) H (by tauto) (exRow_spacing 1)
    have hs := exSeam s H hH hct
    obtain ⟨K, L, hb⟩ := C147_bounds (exLoaded_usable (g := 0) (q := 10000) (m := 1) le_rfl hu) hs
    have hb' : Tame (exLoaded 0 10000 1) (exRow 1) H s (max |log (1 / 10 ^ 12 / charTime s)| (3003 / 1000)) |K| |L| := by
      intro rad lt gs c h1 h2
      obtain ⟨b1, b2⟩ := hb rad lt gs c h1 h2
      have hord := points_ordered (exLoaded_usable (g := 0) (q := 10000) (m := 1) le_rfl hu) hs h1 h2
      refine ⟨fun w hw => ⟨(b1 w hw).1, (b1 w hw).2.trans (le_abs_self K)⟩, fun k a b ha hb => (b2 k a b ha hb).trans ?_⟩
      obtain ⟨q1, q2⟩ := List.getElem?_eq_some_iff.1 ha
      obtain ⟨r1, r2⟩ := List.getElem?_eq_some_iff.1 hb
      have := List.pairwise_iff_getElem.1 hord k (k + 1) q1 r1 (by omega)
      rw [q2, r2] at this
      exact mul_le_mul_of_nonneg_right (le_abs_self L) (by linarith)
    refine ⟨|K|, |L|, abs_nonneg _, abs_nonneg _, fun j n hn => ?_⟩
    obtain ⟨s', hu', hct'⟩ := exUsable (exRow n) (exRow_ne hn) H (by tauto) (exRow_spacing n)
    have hss : s' = s := by
      have h1 := hu.converts
      have h2 := hu'.converts
      rw [h1] at h2
      cases h2
      rfl
    subst hss
    have hb2 : Tame (exLoaded 0 10000 1) (exRow n) H s' (max |log (1 / 10 ^ 12 / charTime s')| (3003 / 1000)) |K| |L| := by
      intro rad lt gs c h1 h2
      exact hb' rad lt gs c h1 h2
    have ht := exTame (g := 2 ^ j) hH hu' hct le_rfl hb2 (abs_nonneg _) (abs_nonneg _)
    have habs : |(2 : ℝ) ^ j| = 2 ^ j := abs_of_pos (by positivity)
    rw [habs] at ht
    obtain ⟨hs0, hs1⟩ := exShift' hH hct
    set W := max |log (1 / 10 ^ 12 / charTime s')| (3003 / 1000) with hW
    refine C148_hourly (Rounded.dotFromLeft Rounding.double) (fun w v _ => Rounded.dotFromLeft_summed _ w v) exAccurate
      (by positivity) (exLoaded_usable le_rfl hu') hs ht (hs1.trans (by norm_num)) (by rw [exLoaded_flow]; norm_num)
      (by show (0 : ℝ) < 4182; norm_num) rfl 1 le_rfl (by norm_num) exLoaded_months (by
        have : 1 ≤ exp (3003 / 1000 - shift (1 / 2 ^ 53) W) := one_le_exp (by
          have : (1 : ℝ) / 2 ^ 45 ≤ 1 := by norm_num
          linarith)
        rw [hct]
        generalize exp (3003 / 1000 - shift (1 / 2 ^ 53) W) = z at this
        rcases hH with rfl | rfl <;> norm_num <;> linarith) (by
        intro c hc v hv
        cases hc
        rw [List.eq_of_mem_replicate hv]
        have := double_repr (K := ℝ) 1 j (by norm_num)
        simpa using this) (by
        intro q hq
        have : q = -10000 := List.eq_of_mem_replicate hq
        rw [this]
        have := Rounding.double.int (K := ℝ) (-10000) (by norm_num)
        push_cast at this
        exact this) (fun i => if i = 0 then 0 else 10000) rfl (by
        intro k
        show (List.replicate 8760 (-10000 : ℝ))[k % 8760]? = _
        rw [List.getElem?_replicate, if_pos (Nat.mod_lt _ (by norm_num))]
        simp) (fun k hk => exSlack hH hn (abs_nonneg _) (by positivity) hs0 hs1 (by omega) (by omega))
  obtain ⟨K1, L1, k1, l1, h1⟩ := one 50 (.inl rfl)
  obtain ⟨K2, L2, k2, l2, h2⟩ := one 100 (.inr rfl)
  have weaken : ∀ {p f H E E'}, E ≤ E' → Computed Rounding.double (Rounded.dotFromLeft Rounding.double) log p f H E →
      Computed Rounding.double (Rounded.dotFromLeft Rounding.double) log p f H E' := by
    rintro p f H E E' hE ⟨x, hi, lo, hi', lo', a, b, c, d, e⟩
    exact ⟨x, hi, lo, hi', lo', a, b, c, d.trans hE, e.trans hE⟩
  refine ⟨K1 + K2, L1 + L2, by positivity, by positivity, fun j n hn H hH => ?_⟩
  rcases hH with rfl | rfl
  · refine weaken ?_ (h1 j n hn)
    gcongr <;> linarith
  · refine weaken ?_ (h2 j n hn)
    gcongr <;> linarith

/-- one borehole that gets too hot and a row that is long enough: C148_returned and C148_same apply, and the search in double
precision returns the row -/
example : ∃ (g : ℝ) (n : ℕ), (Rounded.findDesign Rounding.double (Rounded.dotFromLeft Rounding.double) log (exLoaded g 10000 1) "rectangle"
    (.flat [exRow 1, exRow n]) {}).1 = .ok (some (1, exRow n)) ∧
    ∃ hi lo, Extremes (exLoaded g 10000 1) (exRow n) 100 hi lo ∧ hi ≤ 35 + 1 / 10 ∧ 5 - 1 / 10 ≤ lo := by
  obtain ⟨K0, hK0⟩ := exShort
  obtain ⟨K, L, hK, hL, hC⟩ := exComputed
  obtain ⟨j, hj⟩ := pow_unbounded_of_one_lt (20 + K + L) (one_lt_two : (1 : ℝ) < 2)
  have hC := hC j
  generalize (2 : ℝ) ^ j = g at hj hC
  obtain ⟨N1, hN1⟩ := exLoaded_graded (g := g) (q := 10000) (m := 1) hK0 (by linarith) le_rfl le_rfl (by norm_num)
  obtain ⟨N2, hN2⟩ := exists_nat_gt (16 * max K0 |g| + 100 + 100 * (1 + L + (K + g) / 100))
  obtain ⟨n, hn⟩ : ∃ n, n = N1 + N2 := ⟨_, rfl⟩
  obtain ⟨hn0, G⟩ := hN1 n (by omega)
  have hn2 : 16 * max K0 |g| + 100 + 100 * (1 + L + (K + g) / 100) < (n : ℝ) := by
    rw [hn]; push_cast
    have : (0 : ℝ) ≤ N1 := by positivity
    linarith
  have hn' : (0 : ℝ) < n := by exact_mod_cast Nat.pos_of_ne_zero hn0
  have hpi := Real.pi_gt_three
  have hpi4 := Real.pi_lt_four
  have hmax0 : 0 ≤ max K0 |g| := (abs_nonneg _).trans (le_max_right _ _)
  set p := exLoaded g 10000 1 with hp
  -- the excess of one borehole
  have hot : ∀ H, H = 50 ∨ H = 100 → ∀ e, Exceeds p (exRow 1) H e → 5 * g ≤ e := by
    rintro H hH e ⟨hi, lo, he, rfl⟩
    obtain ⟨x, y, h1, -, -, h2⟩ := exLoaded_extremes (g := g) (q := 10000) (m := 1) hK0 (by norm_num) le_rfl (by norm_num) hH
      (exRow_ne one_ne_zero) (exRow_spacing 1)
    obtain ⟨rfl, rfl⟩ := he.unique h1
    refine le_trans ?_ (le_max_left _ _)
    show 5 * g ≤ hi - 35
    rw [exRow_length, Nat.cast_one, div_one] at h2
    have h3 : (100 : ℝ) ≤ 10000 / H := by rcases hH with rfl | rfl <;> norm_num
    have h4 : (6 : ℝ) ≤ 10000 / H / (4 * π) := by
      rw [le_div_iff₀ (by positivity)]
      nlinarith
    have h5 : 6 * g ≤ 10000 / H / (4 * π) * g := mul_le_mul_of_nonneg_right h4 (by linarith)
    linarith
  -- the excess of the row
  have cool : ∀ H, H = 50 ∨ H = 100 → ∀ e, Exceeds p (exRow n) H e → -17 ≤ e ∧ e ≤ -11 := by
    rintro H hH e ⟨hi, lo, he, rfl⟩
    obtain ⟨x, y, h1, h2, h3, h4⟩ := exLoaded_extremes (g := g) (q := 10000) (m := 1) hK0 (by norm_num) le_rfl (by norm_num) hH
      (exRow_ne hn0) (exRow_spacing n)
    obtain ⟨rfl, rfl⟩ := he.unique h1
    rw [exRow_length] at h2 h3 h4
    have h100 : (10000 : ℝ) / H ≤ 200 := by rcases hH with rfl | rfl <;> norm_num
    have h100' : (100 : ℝ) ≤ 10000 / H := by rcases hH with rfl | rfl <;> norm_num
    have h6 : 10000 / H / (4 * π) ≤ 17 := by
      rw [div_le_iff₀ (by positivity)]
      nlinarith
    have h7 : 0 ≤ 10000 / H / (4 * π) := by positivity
    have hk : (10000 / H / (4 * π) * max K0 |g| + 10000 / H * (51 / 400) + 10000 / 16728) / n ≤ 2 := by
      rw [div_le_iff₀ hn']
      nlinarith
    have hk' : 0 ≤ (10000 / H / (4 * π) * g + 10000 / H * (51 / 400) - 10000 / 16728) / (n : ℝ) := by
      apply div_nonneg _ hn'.le
      have : 0 ≤ 10000 / H / (4 * π) * g := mul_nonneg h7 (by linarith)
      linarith
    show -17 ≤ max (hi - 35) (5 - lo) ∧ max (hi - 35) (5 - lo) ≤ -11
    exact ⟨le_trans (by linarith) (le_max_left _ _), max_le (by linarith) (by linarith)⟩
  -- the errors
  have hE1 : 1 / 100 + (1 + L + (K + g) / 100) / ((1 : ℕ) : ℝ) ≤ 2 * g := by
    rw [Nat.cast_one, div_one]
    linarith
  have hE1' : 0 ≤ 1 / 100 + (1 + L + (K + g) / 100) / ((1 : ℕ) : ℝ) := by
    rw [Nat.cast_one, div_one]
    linarith
  have hEn : 1 / 100 + (1 + L + (K + g) / 100) / (n : ℝ) ≤ 1 / 10 := by
    have : (1 + L + (K + g) / 100) / (n : ℝ) ≤ 1 / 100 := by
      rw [div_le_iff₀ hn']
      linarith
    linarith
  have hEn' : 0 ≤ 1 / 100 + (1 + L + (K + g) / 100) / (n : ℝ) := by
    have : 0 ≤ (1 + L + (K + g) / 100) / (n : ℝ) := div_nonneg (by linarith) hn'.le
    linarith
  have hne : (exRow n) ≠ exRow 1 := by
    intro h
    have := congrArg List.length h
    rw [exRow_length, exRow_length] at this
    rw [this, Nat.cast_one] at hn2
    linarith
  obtain ⟨E, hEdef⟩ : ∃ E : Field → ℝ → ℝ, E = fun f _ => 1 / 100 + (1 + L + (K + g) / 100) / (f.length : ℝ) := ⟨_, rfl⟩
  have rows : ∀ f, Among (.flat [exRow 1, exRow n]) f → f = exRow 1 ∨ f = exRow n := by
    rintro f ⟨k, hk⟩
    exact List.mem_pair.1 (List.mem_of_getElem? hk)
  have hcomp : ∀ f, Among (.flat [exRow 1, exRow n]) f → ∀ H, H = p.minHeight ∨ H = p.maxHeight →
      Computed Rounding.double (Rounded.dotFromLeft Rounding.double) log p f H (E f H) := by
    intro f hf H hH
    have hH : H = 50 ∨ H = 100 := hH
    rw [hEdef]
    dsimp only
    rcases rows f hf with rfl | rfl
    · rw [exRow_length]; exact hC 1 one_ne_zero H hH
    · rw [exRow_length]; exact hC n hn0 H hH
  have hE1e : ∀ H, E (exRow 1) H = 1 / 100 + (1 + L + (K + g) / 100) / ((1 : ℕ) : ℝ) := fun H => by
    rw [hEdef]; dsimp only; rw [exRow_length]
  have hEne : ∀ H, E (exRow n) H = 1 / 100 + (1 + L + (K + g) / 100) / (n : ℝ) := fun H => by
    rw [hEdef]; dsimp only; rw [exRow_length]
  generalize 1 / 100 + (1 + L + (K + g) / 100) / ((1 : ℕ) : ℝ) = E1 at *
  generalize 1 / 100 + (1 + L + (K + g) / 100) / (n : ℝ) = En at *
  have hsame := C148_same (p := p) (R := Rounding.double) (dot := Rounded.dotFromLeft Rounding.double) (ℓ := log) "rectangle"
    (by decide) (.flat [exRow 1, exRow n]) E hcomp (by
      intro f hf H hH e he
      have hH : H = 50 ∨ H = 100 := hH
      rcases rows f hf with rfl | rfl
      · have := hot H hH e he
        rw [hE1e, abs_of_nonneg (show 0 ≤ e by linarith)]
        linarith
      · have := cool H hH e he
        rw [hEne, abs_of_nonpos (show e ≤ 0 by linarith)]
        linarith) (by
      intro f f' hf hf' hff a b ha hb
      rcases rows f hf with rfl | rfl <;> rcases rows f' hf' with rfl | rfl
      · exact absurd rfl hff
      · have h1 := hot _ (.inr rfl) a ha
        have h2 := cool _ (.inr rfl) b hb
        rw [hE1e, hEne, abs_of_nonneg (show 0 ≤ a by linarith), abs_of_nonpos (show b ≤ 0 by linarith),
          abs_of_nonneg (show 0 ≤ a - b by linarith)]
        linarith
      · have h1 := hot _ (.inr rfl) b hb
        have h2 := cool _ (.inr rfl) a ha
        rw [hE1e, hEne, abs_of_nonneg (show 0 ≤ b by linarith), abs_of_nonpos (show a ≤ 0 by linarith),
          abs_of_nonpos (show a - b ≤ 0 by linarith)]
        linarith
      · exact absurd rfl hff)
  obtain ⟨k, f, e1, hk, -, -⟩ := flat_smallest (p := p) "rectangle" (.inr rfl) _ G (by simp) (by
    intro f hf
    cases hf
    obtain ⟨s, hu, -⟩ := exUsable (exRow 1) (exRow_ne one_ne_zero) 100 (by tauto) (exRow_spacing 1)
    obtain ⟨x, hx, -⟩ := C95_made (exLoaded_usable (g := g) (q := 10000) le_rfl hu)
    exact ⟨x, hx⟩)
  rw [e1] at hsame
  obtain ⟨k', f', hr, -, hcase⟩ := C148_returned (p := p) "rectangle" (by decide) (.flat [exRow 1, exRow n]) E hcomp _ hsame
  cases hr
  match k, hk with
  | 0, hk =>
    exfalso
    cases hk
    have bad : ∀ H, H = 50 ∨ H = 100 → ∀ hi lo, Extremes p (exRow 1) H hi lo → hi ≤ 35 + E1 → 5 - E1 ≤ lo → False := by
      intro H hH hi lo he h1 h2
      have := hot H hH _ ⟨hi, lo, he, rfl⟩
      have h3 : max (hi - p.maxEFT) (p.minEFT - lo) ≤ E1 := max_le (by show hi - 35 ≤ E1; linarith) (by show 5 - lo ≤ E1; linarith)
      linarith
    rcases hcase with ⟨hi, lo, he, h1, h2⟩ | ⟨-, hi, lo, he, h1, h2⟩
    · rw [hE1e] at h1 h2
      exact bad 100 (.inr rfl) hi lo he h1 h2
    · rw [hE1e] at h1 h2
      exact bad 50 (.inl rfl) hi lo he h1 h2
  | 1, hk =>
    cases hk
    refine ⟨g, n, hsame, ?_⟩
    rcases hcase with ⟨hi, lo, he, h1, h2⟩ | ⟨h0, -⟩
    · rw [hEne] at h1 h2
      have h1 : hi ≤ 35 + En := h1
      have h2 : 5 - En ≤ lo := h2
      exact ⟨hi, lo, he, by linarith, by linarith⟩
    · omega
  | k + 2, hk => cases hk

end

end Ghedt.WholeSearch
