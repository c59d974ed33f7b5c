import Verif.Props.GapsExact

/-!
# C104: the times of the hybrid load are in order exactly when the peaks fit their months
-/

set_option linter.unusedSectionVars false

namespace Ghedt.GL
open Spec Search

section
variable {K : Type} [Field K] [LinearOrder K] [IsStrictOrderedRing K]

/-- The peaks of simulation month `i` fit: each that is shown starts in the month and ends in it, and of two the one with the later
day starts after the other has ended. -/
def PeaksFit (i : ℕ) (c h : Side K) : Prop :=
  (∀ s, s = c ∨ s = h → 0 < s.peak → (hoursOf (i - 1) : K) ≤ peakStart i s ∧ 0 ≤ s.duration ∧
    peakStart i s + s.duration ≤ (hoursOf i : K)) ∧
  ∀ s t, s = c ∧ t = h ∨ s = h ∧ t = c → 0 < s.peak → 0 < t.peak → s.day < t.day → peakStart i s + s.duration ≤ peakStart i t

theorem pairwise_after {l b : List K} {a : K} (hl : l.getLast? = some a) :
    (l ++ b).Pairwise (· ≤ ·) ↔ l.Pairwise (· ≤ ·) ∧ (a :: b).Pairwise (· ≤ ·) := by
  obtain ⟨l', rfl⟩ : ∃ l', l = l' ++ [a] := List.getLast?_eq_some_iff.1 hl
  rw [List.pairwise_append, List.pairwise_cons]
  constructor
  · rintro ⟨h1, h2, h3⟩
    exact ⟨h1, fun y hy => h3 a (by simp) y hy, h2⟩
  · rintro ⟨h1, h2, h3⟩
    refine ⟨h1, h3, fun x hx y hy => ?_⟩
    rcases List.mem_append.1 hx with hx | hx
    · exact ((List.pairwise_append.1 h1).2.2 x hx a (by simp)).trans (h2 y hy)
    · rw [List.mem_singleton.1 hx]
      exact h2 y hy

theorem two_peaks {i : ℕ} {x y : Side K} {rate σ τ P E r : K} (hE : P ≤ E) :
    (P :: (peakBlock rate σ i x ++ peakBlock rate τ i y ++ [(r, E)]).map Prod.snd).Pairwise (· ≤ ·) ↔
      (0 < x.peak → P ≤ peakStart i x ∧ 0 ≤ x.duration ∧ peakStart i x + x.duration ≤ E) ∧
      (0 < y.peak → P ≤ peakStart i y ∧ 0 ≤ y.duration ∧ peakStart i y + y.duration ≤ E) ∧
      (0 < x.peak → 0 < y.peak → peakStart i x + x.duration ≤ peakStart i y) := by
  unfold peakBlock
  generalize peakStart i x = a
  generalize peakStart i y = b
  generalize x.duration = u
  generalize y.duration = v
  by_cases p1 : 0 < x.peak <;> by_cases p2 : 0 < y.peak
  · simp [p1, p2]
    constructor
    · rintro ⟨⟨a1, a2, a3, a4, -⟩, ⟨b1, b2, b3, b4⟩, ⟨c1, c2, c3⟩, ⟨d1, d2⟩, e1⟩
      (repeat' apply And.intro) <;> linarith
    · rintro ⟨⟨a1, a2, a3⟩, ⟨b1, b2, b3⟩, c⟩
      (repeat' apply And.intro) <;> linarith
  · simp [p1, p2]
    constructor
    · rintro ⟨⟨a1, a2, a3⟩, ⟨b1, b2⟩, c1⟩
      (repeat' apply And.intro) <;> linarith
    · rintro ⟨a1, a2, a3⟩
      (repeat' apply And.intro) <;> linarith
  · simp [p1, p2]
    constructor
    · rintro ⟨⟨a1, a2, a3⟩, ⟨b1, b2⟩, c1⟩
      (repeat' apply And.intro) <;> linarith
    · rintro ⟨a1, a2, a3⟩
      (repeat' apply And.intro) <;> linarith
  · simp [p1, p2, hE]

theorem block_iff {ret : Prop} [Decidable ret] {i : ℕ} (hi : 1 ≤ i) {c h : Side K} :
    ((hoursOf (i - 1) : K) :: (monthBlock ret i c h).map Prod.snd).Pairwise (· ≤ ·) ↔
      (ret → c.day ≠ h.day → PeaksFit i c h) := by
  have hE : (hoursOf (i - 1) : K) ≤ (hoursOf i : K) := by
    rw [hours_of_month hi]
    have : (0 : K) ≤ (monthLength false (calMonth i) : K) := Nat.cast_nonneg _
    linarith
  unfold monthBlock PeaksFit
  by_cases hr : ret
  swap
  · simp [hr, hE]
  rcases lt_trichotomy c.day h.day with q | q | q
  · rw [if_pos ⟨hr, q⟩, two_peaks hE]
    constructor
    · rintro ⟨k1, k2, k3⟩ - -
      refine ⟨?_, ?_⟩
      · rintro s (rfl | rfl) hp
        · exact k1 hp
        · exact k2 hp
      · rintro s t (⟨rfl, rfl⟩ | ⟨rfl, rfl⟩) p1 p2 hlt
        · exact k3 p1 p2
        · omega
    · intro k
      obtain ⟨k1, k2⟩ := k hr (by omega)
      exact ⟨k1 c (.inl rfl), k1 h (.inr rfl), fun p1 p2 => k2 c h (.inl ⟨rfl, rfl⟩) p1 p2 q⟩
  · rw [if_neg (by omega), if_neg (by omega)]
    simp [hE, q]
  · rw [if_neg (by omega), if_pos ⟨hr, q⟩, two_peaks hE]
    constructor
    · rintro ⟨k1, k2, k3⟩ - -
      refine ⟨?_, ?_⟩
      · rintro s (rfl | rfl) hp
        · exact k2 hp
        · exact k1 hp
      · rintro s t (⟨rfl, rfl⟩ | ⟨rfl, rfl⟩) p1 p2 hlt
        · omega
        · exact k3 p1 p2
    · intro k
      obtain ⟨k1, k2⟩ := k hr (by omega)
      exact ⟨k1 h (.inr rfl), k1 c (.inl rfl), fun p1 p2 => k2 h c (.inr ⟨rfl, rfl⟩) p1 p2 q⟩

/-- C104: the times of the hybrid load, from the start of its first month on, never go back if and only if in every month whose
peaks are shown (the first and last twelve, unless both peaks are attributed to the same day) the peaks fit. -/
theorem C104_iff {cl hl : Loads K} (hc : Full cl) (hh : Full hl) (hz : NonZero cl hl)
    {start finish : ℕ} (hs : 1 ≤ start) (hsf : start ≤ finish) {H : Hybrid K}
    (h : processMonthlyLoads cl hl (start : ℤ) (finish : ℤ) = .ok H) :
    (H.hour.drop 1).Pairwise (· ≤ ·) ↔ ∀ i, start ≤ i → i ≤ finish → Retained start finish i →
      (cl.side (calMonth i)).day ≠ (hl.side (calMonth i)).day → PeaksFit i (cl.side (calMonth i)) (hl.side (calMonth i)) := by
  rw [process_eq hc hh hz hs hsf] at h
  cases h
  dsimp only
  have key : ∀ n, ((((allEntries cl hl start finish n).map Prod.snd).drop 1).Pairwise (· ≤ ·) ↔
      ∀ i, start ≤ i → i < start + n → Retained start finish i →
      (cl.side (calMonth i)).day ≠ (hl.side (calMonth i)).day → PeaksFit i (cl.side (calMonth i)) (hl.side (calMonth i))) ∧
      (((allEntries cl hl start finish n).map Prod.snd).drop 1).getLast? = some (hoursOf (start + n - 1) : K) := by
    intro n
    induction n with
    | zero =>
      refine ⟨⟨fun _ i h1 h2 => by omega, fun _ => by simp [allEntries]⟩, by simp [allEntries]⟩
    | succ n ih =>
      obtain ⟨i1, i2⟩ := ih
      rw [allEntries_succ, List.map_append, List.drop_append_of_le_length (by simp [allEntries])]
      refine ⟨?_, ?_⟩
      · rw [pairwise_after i2, i1, block_iff (by omega : 1 ≤ start + n)]
        constructor
        · rintro ⟨k1, k2⟩ i h1 h2
          rcases Nat.lt_or_ge i (start + n) with h3 | h3
          · exact k1 i h1 h3
          · obtain rfl : i = start + n := by omega
            exact k2
        · intro k
          exact ⟨fun i h1 h2 => k i h1 (by omega), k (start + n) (by omega) (by omega)⟩
      · rw [List.getLast?_append]
        unfold monthBlock
        simp
  rw [(key (finish + 1 - start)).1]
  refine forall_congr' fun i => forall_congr' fun h1 => ?_
  rw [show i < start + (finish + 1 - start) ↔ i ≤ finish by omega]

/-- C104: a peak of the first twelve months that is attributed to the last day of its month, to another day than the month's other
peak, and lasts more than 22 hours, puts the times out of order. -/
theorem C104_late {cl hl : Loads K} (hc : Full cl) (hh : Full hl) (hz : NonZero cl hl)
    {start finish : ℕ} (hs : 1 ≤ start) (hsf : start ≤ finish) {H : Hybrid K}
    (h : processMonthlyLoads cl hl (start : ℤ) (finish : ℤ) = .ok H) {i : ℕ} (h1 : start ≤ i) (h2 : i ≤ finish)
    (h3 : i < start + 12) (hd : (cl.side (calMonth i)).day ≠ (hl.side (calMonth i)).day)
    {s : Side K} (hside : s = cl.side (calMonth i) ∨ s = hl.side (calMonth i)) (hp : 0 < s.peak)
    (hday : s.day = monthLength false (calMonth i)) (hdur : 22 < s.duration) : ¬ (H.hour.drop 1).Pairwise (· ≤ ·) := by
  rw [C104_iff hc hh hz hs hsf h]
  intro hall
  obtain ⟨k1, k2, k3⟩ := (hall i h1 h2 (.inl h3) hd).1 s hside hp
  have hi : 1 ≤ i := by omega
  have e := hours_of_month (K := K) hi
  have hml : (28 : K) ≤ (monthLength false (calMonth i) : K) := by
    exact_mod_cast (monthLength_bounds false (m := calMonth i) (by unfold calMonth; omega)
      (by unfold calMonth; omega)).1
  have hday' : (s.day : K) = (monthLength false (calMonth i) : K) := by rw [hday]; simp
  have hP : (0 : K) ≤ (hoursOf (i - 1) : K) := Nat.cast_nonneg _
  unfold peakStart at k3 k1
  rw [hday'] at k3 k1
  split at k3
  · linarith
  · linarith

end

/-- C104_late applies: peaks of 23 hours on the 31st of January -/
example : ∃ H, processMonthlyLoads (exLoads 1000 5 23 31) (exLoads 600 3 2 10) (1 : ℕ) (240 : ℕ) = .ok H ∧
    ¬ (H.hour.drop 1).Pairwise (· ≤ ·) := by
  have hz : NonZero (exLoads 1000 5 23 31) (exLoads 600 3 2 10) := exLoads_nonZero (by norm_num)
  obtain ⟨H, hH⟩ := C63_total (exLoads_full 1000 5 23 31) (exLoads_full 600 3 2 10) hz (start := 1) (finish := 240) (by norm_num)
    (by norm_num)
  refine ⟨H, hH, C104_late (exLoads_full _ _ _ _) (exLoads_full _ _ _ _) hz (by norm_num) (by norm_num) hH (i := 1) le_rfl
    (by norm_num) (by norm_num) ?_ (.inl rfl) ?_ ?_ ?_⟩ <;>
  simp only [exLoads_side _ _ _ _ (show calMonth 1 ≤ 12 by decide)] <;> first | rfl | norm_num

end Ghedt.GL
