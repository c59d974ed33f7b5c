import Verif.Props.Gaps

/-!
# C104: when exactly the times of the hybrid load are in order
-/

set_option linter.unusedSectionVars false

namespace Ghedt.GL
open Spec Search

section
variable {K : Type} [Field K] [LinearOrder K] [IsStrictOrderedRing K]

/-- A peak lies inside its month of `n` days: it starts at least `δ` after the beginning and ends at least `δ` before the end, and
lasts at least `δ`.  (It is centred at 13 o'clock of its day.) -/
def Inside (δ : K) (n : ℕ) (s : Side K) : Prop :=
  δ ≤ 24 * ((s.day : K) - 1) + 13 - s.duration / 2 ∧ 24 * ((s.day : K) - 1) + 13 + s.duration / 2 + δ ≤ 24 * (n : K) ∧
    δ ≤ s.duration

/-- the hours of one month keep their distance -/
theorem block_apart {ret : Prop} [Decidable ret] {i : ℕ} (hi : 1 ≤ i) {c h : Side K} {δ : K} (hδ : 0 < δ) (hδ1 : δ ≤ 1)
    (hc : 0 < c.peak → Inside δ (monthLength false (calMonth i)) c) (hh : 0 < h.peak → Inside δ (monthLength false (calMonth i)) h)
    (ha : 0 < c.peak → 0 < h.peak → c.day < h.day → (c.duration + h.duration) / 2 + δ ≤ 24 * ((h.day : K) - c.day))
    (ha' : 0 < c.peak → 0 < h.peak → h.day < c.day → (c.duration + h.duration) / 2 + δ ≤ 24 * ((c.day : K) - h.day)) :
    ((monthBlock ret i c h).map Prod.snd).Pairwise (fun u v => δ ≤ v - u) ∧
    ∀ t ∈ (monthBlock ret i c h).map Prod.snd, (hoursOf (i - 1) : K) + δ ≤ t ∧ t ≤ (hoursOf i : K) := by
  have hE := hours_of_month (K := K) hi
  have hml : (28 : K) ≤ (monthLength false (calMonth i) : K) := by
    exact_mod_cast (monthLength_bounds false (m := calMonth i) (by unfold calMonth; omega)
      (by unfold calMonth; omega)).1
  have hst : ∀ s : Side K, (0 < s.peak → Inside δ (monthLength false (calMonth i)) s) → 0 < s.peak →
      peakStart i s = (hoursOf (i - 1) : K) + 1 + ((s.day : K) - 1) * 24 + 12 - s.duration / 2 ∧
      Inside δ (monthLength false (calMonth i)) s := by
    intro s hs hp
    obtain ⟨q1, q2, q3⟩ := hs hp
    have hP : (0 : K) ≤ (hoursOf (i - 1) : K) := Nat.cast_nonneg _
    refine ⟨?_, q1, q2, q3⟩
    unfold peakStart
    rw [if_neg (by linarith)]
  have hc' := hst c hc
  have hh' := hst h hh
  clear hst
  unfold monthBlock
  generalize rateOf ret (calMonth i) c h = rate
  generalize (hoursOf (i - 1) : K) = P at *
  generalize (hoursOf i : K) = E at *
  by_cases q1 : ret ∧ c.day < h.day
  · rw [if_pos q1]
    unfold peakBlock
    by_cases p1 : 0 < c.peak <;> by_cases p2 : 0 < h.peak <;> simp only [p1, p2, if_true, if_false]
    · obtain ⟨x0, x1, x2, x3⟩ := hc' p1
      obtain ⟨y0, y1, y2, y3⟩ := hh' p2
      have := ha p1 p2 q1.2
      rw [x0, y0]
      simp <;> (repeat' apply And.intro) <;> linarith
    · obtain ⟨x0, x1, x2, x3⟩ := hc' p1
      rw [x0]
      simp <;> (repeat' apply And.intro) <;> linarith
    · obtain ⟨y0, y1, y2, y3⟩ := hh' p2
      rw [y0]
      simp <;> (repeat' apply And.intro) <;> linarith
    · simp; linarith
  · rw [if_neg q1]
    by_cases q2 : ret ∧ h.day < c.day
    · rw [if_pos q2]
      unfold peakBlock
      by_cases p1 : 0 < c.peak <;> by_cases p2 : 0 < h.peak <;> simp only [p1, p2, if_true, if_false]
      · obtain ⟨x0, x1, x2, x3⟩ := hc' p1
        obtain ⟨y0, y1, y2, y3⟩ := hh' p2
        have := ha' p1 p2 q2.2
        rw [x0, y0]
        simp <;> (repeat' apply And.intro) <;> linarith
      · obtain ⟨x0, x1, x2, x3⟩ := hc' p1
        rw [x0]
        simp <;> (repeat' apply And.intro) <;> linarith
      · obtain ⟨y0, y1, y2, y3⟩ := hh' p2
        rw [y0]
        simp <;> (repeat' apply And.intro) <;> linarith
      · simp; linarith
    · rw [if_neg q2]
      simp
      linarith

/-- C104: if every positive peak lies inside its month, by `δ` (at most an hour), and of two peaks of one month attributed to
different days the later one starts at least `δ` after the end of the earlier one, then the times of the sequence, from the start
of its first month on, are at least `δ` apart. -/
theorem C104_apart {cl hl : Loads K} (hc : Full cl) (hh : Full hl) (hz : NonZero cl hl)
    {start finish : ℕ} (hs : 1 ≤ start) (hsf : start ≤ finish) {H : Hybrid K}
    (h : processMonthlyLoads cl hl (start : ℤ) (finish : ℤ) = .ok H) {δ : K} (hδ : 0 < δ) (hδ1 : δ ≤ 1)
    (hd : ∀ m : ℕ, 1 ≤ m → m ≤ 12 → ∀ s, s = cl.side m ∨ s = hl.side m → 0 < s.peak → Inside δ (monthLength false m) s)
    (ha : ∀ m : ℕ, 1 ≤ m → m ≤ 12 → ∀ s t, (s = cl.side m ∧ t = hl.side m) ∨ (s = hl.side m ∧ t = cl.side m) →
      0 < s.peak → 0 < t.peak → s.day < t.day → (s.duration + t.duration) / 2 + δ ≤ 24 * ((t.day : K) - s.day)) :
    (H.hour.drop 1).Pairwise (fun u v => δ ≤ v - u) ∧ (0 :: H.hour.drop 2).Pairwise (fun u v => δ ≤ v - u) := by
  rw [process_eq hc hh hz hs hsf] at h
  cases h
  dsimp only
  have key : ∀ n, (((allEntries cl hl start finish n).map Prod.snd).drop 1).Pairwise (fun u v => δ ≤ v - u) ∧
      ∀ t ∈ ((allEntries cl hl start finish n).map Prod.snd).drop 1, t ≤ (hoursOf (start + n - 1) : K) := by
    intro n
    induction n with
    | zero => simp [allEntries]
    | succ n ih =>
      obtain ⟨i1, i2⟩ := ih
      have m1 : 1 ≤ calMonth (start + n) := by unfold calMonth; omega
      have m2 : calMonth (start + n) ≤ 12 := by unfold calMonth; omega
      obtain ⟨b1, b2⟩ := block_apart (ret := Retained start finish (start + n)) (show 1 ≤ start + n by omega) hδ hδ1
        (hd _ m1 m2 _ (Or.inl rfl)) (hd _ m1 m2 _ (Or.inr rfl))
        (fun p1 p2 hlt => ha _ m1 m2 _ _ (Or.inl ⟨rfl, rfl⟩) p1 p2 hlt) (fun p1 p2 hlt => by
          rw [add_comm (cl.side _).duration]
          exact ha _ m1 m2 _ _ (Or.inr ⟨rfl, rfl⟩) p2 p1 hlt)
      rw [allEntries_succ, List.map_append, List.drop_append_of_le_length (by simp [allEntries])]
      refine ⟨?_, ?_⟩
      · rw [List.pairwise_append]
        refine ⟨i1, b1, fun x hx y hy => ?_⟩
        have := i2 x hx
        have := (b2 y hy).1
        linarith
      · intro t ht
        rw [show start + (n + 1) - 1 = start + n by omega]
        rcases List.mem_append.mp ht with ht | ht
        · refine (i2 t ht).trans ?_
          rw [hours_of_month (show 1 ≤ start + n by omega)]
          have : (0 : K) ≤ (monthLength false (calMonth (start + n)) : K) := Nat.cast_nonneg _
          linarith
        · exact (b2 t ht).2
  have k1 := (key (finish + 1 - start)).1
  refine ⟨k1, ?_⟩
  unfold allEntries at k1 ⊢
  simp only [List.cons_append, List.nil_append, List.map_cons, List.drop_succ_cons, List.drop_zero] at k1 ⊢
  rw [List.pairwise_cons] at k1 ⊢
  refine ⟨fun t ht => ?_, k1.2⟩
  have := k1.1 t ht
  have hP : (0 : K) ≤ (hoursOf (start - 1) : K) := Nat.cast_nonneg _
  linarith

/-- C104, when the peaks are short: if every positive peak lasts at least `δ` (at most half an hour) and at most 21 hours, and
none is attributed to day 0 (it is not in the very first hour of its month), then the times are at least `δ` apart.  Peaks on the
first and the last day and on neighbouring days are then harmless. -/
theorem C104_short {cl hl : Loads K} (hc : Full cl) (hh : Full hl) (hz : NonZero cl hl)
    {start finish : ℕ} (hs : 1 ≤ start) (hsf : start ≤ finish) {H : Hybrid K}
    (h : processMonthlyLoads cl hl (start : ℤ) (finish : ℤ) = .ok H) {δ : K} (hδ : 0 < δ) (hδ1 : δ ≤ 1 / 2)
    (hd : ∀ m : ℕ, 1 ≤ m → m ≤ 12 → ∀ s, s = cl.side m ∨ s = hl.side m → 0 < s.peak →
      1 ≤ s.day ∧ s.day ≤ monthLength false m ∧ δ ≤ s.duration ∧ s.duration ≤ 21) :
    (H.hour.drop 1).Pairwise (fun u v => δ ≤ v - u) ∧ (0 :: H.hour.drop 2).Pairwise (fun u v => δ ≤ v - u) := by
  refine C104_apart hc hh hz hs hsf h hδ (by linarith) (fun m m1 m2 s hs hp => ?_) (fun m m1 m2 s t hst p1 p2 hlt => ?_)
  · obtain ⟨d1, d2, d3, d4⟩ := hd m m1 m2 s hs hp
    have d1' : (1 : K) ≤ s.day := by exact_mod_cast d1
    have d2' : (s.day : K) ≤ (monthLength false m : K) := by exact_mod_cast d2
    exact ⟨by linarith, by linarith, d3⟩
  · have hlt' : (s.day : K) + 1 ≤ t.day := by exact_mod_cast hlt
    have k1 : s.duration ≤ 21 ∧ t.duration ≤ 21 := by
      rcases hst with ⟨rfl, rfl⟩ | ⟨rfl, rfl⟩
      · exact ⟨(hd m m1 m2 _ (.inl rfl) p1).2.2.2, (hd m m1 m2 _ (.inr rfl) p2).2.2.2⟩
      · exact ⟨(hd m m1 m2 _ (.inr rfl) p1).2.2.2, (hd m m1 m2 _ (.inl rfl) p2).2.2.2⟩
    obtain ⟨k1, k2⟩ := k1
    linarith

end

/-- The hypotheses are met, by peaks on the first two days of every month, of which C104_gaps says nothing. -/
example : ∃ H, processMonthlyLoads (exLoads 1000 5 20 1) (exLoads 600 3 21 2) (1 : ℕ) (240 : ℕ) = .ok H ∧
    (0 :: H.hour.drop 2).Pairwise (fun u v => 1 / 2 ≤ v - u) := by
  have hz : NonZero (exLoads 1000 5 20 1) (exLoads 600 3 21 2) := exLoads_nonZero (by norm_num)
  obtain ⟨H, hH⟩ := C63_total (exLoads_full 1000 5 20 1) (exLoads_full 600 3 21 2) hz (start := 1) (finish := 240) (by norm_num)
    (by norm_num)
  refine ⟨H, hH, (C104_short (exLoads_full _ _ _ _) (exLoads_full _ _ _ _) hz (by norm_num) (by norm_num) hH (by norm_num) le_rfl
    ?_).2⟩
  intro m m1 m2 s hs _
  have := (monthLength_bounds false m1 m2).1
  rw [exLoads_side _ _ _ _ m2, exLoads_side _ _ _ _ m2] at hs
  rcases hs with rfl | rfl <;> refine ⟨?_, ?_, ?_, ?_⟩ <;> norm_num <;> omega

end Ghedt.GL
