import Verif.Lemmas.DurationFloor
import Verif.Props.Hybrid
import Verif.Props.Slowing
import Verif.Spec.Peaks

/-!
# C104: peaks do not vanish, and the hours of the hybrid sequence do not collide
-/

set_option linter.unusedSectionVars false

namespace Ghedt.GL
open Spec Search

section
variable {K : Type} [Field K] [LinearOrder K] [IsStrictOrderedRing K]

theorem ceil_dayOf (i : ℕ) : ⌈(i : ℚ) / 24⌉ = (dayOf i : ℤ) := by
  rw [Int.ceil_eq_iff]
  have h1 : 24 * dayOf i < i + 24 := by unfold dayOf; omega
  have h2 : i ≤ 24 * dayOf i := by unfold dayOf; omega
  have h1' : (24 * dayOf i : ℚ) < i + 24 := by exact_mod_cast h1
  have h2' : (i : ℚ) ≤ 24 * dayOf i := by exact_mod_cast h2
  rw [Int.cast_natCast]
  constructor
  · rw [lt_div_iff₀ (by norm_num)]; linarith
  · rw [div_le_iff₀ (by norm_num)]; linarith

theorem PeaksAt.unique {month : List K} {i j : ℕ} {P Q : K} (h : PeaksAt month i P) (h' : PeaksAt month j Q) :
    i = j ∧ P = Q := by
  have hP : P = Q := le_antisymm (h'.2.2 P (List.mem_of_getElem? h.1)) (h.2.2 Q (List.mem_of_getElem? h'.1))
  subst hP
  refine ⟨?_, rfl⟩
  rcases Nat.lt_trichotomy i j with hl | he | hg
  · exact absurd h.1 (h'.2.1 i hl)
  · exact he
  · exact absurd h'.1 (h.2.1 j hg)

/-- what is recorded for a month -/
theorem side_facts {r : Resp K} {hourly : List K} {year : ℤ} {L : Loads K} (h : mkLoads r hourly year = .ok L)
    {m : ℕ} (m1 : 1 ≤ m) (m2 : m ≤ 12) :
    ∃ i, PeaksAt (monthLoads (decide (LeapYear year)) hourly m) i (L.side m).peak ∧ (L.side m).day = dayOf i := by
  obtain ⟨hM, -⟩ := mkLoads_inv h
  obtain ⟨t, p, a, d, w, e1, e2, e3, e4, e5, f, g⟩ := hM.month m m1 m2
  obtain ⟨i, d1, d2, d3⟩ := f.day_eq
  have hp : (L.side m).peak = p := by simp [Loads.side, List.getD_eq_getElem?_getD, e2]
  have hd : (L.side m).day = d := by simp [Loads.side, List.getD_eq_getElem?_getD, e4]
  rw [hp, hd]
  exact ⟨i, ⟨d1, d2, f.peak_max⟩, by rw [d3, ceil_dayOf]⟩

/-- C104, one month: let the response not decrease from hour 1 to hour 48, be positive at hour 1 and, up to hour 25,
grow at most in proportion to time (but for nine tenths of an hour).  Then a positive peak of nonnegative loads that is neither
on the first nor on the last day of its month, and stands out, lasts at least a millionth of an hour. -/
theorem C104_month {r : Resp K} {G : ℕ → K} (hr : ∀ t : ℕ, 1 ≤ t → t ≤ 48 → r.g (t : ℤ) = .ok (G t))
    (hk : 0 < r.twoPiK) (hG : ∀ t, 1 ≤ t → t < 48 → G t ≤ G (t + 1)) (h1 : 0 < G 1 / r.twoPiK + r.Rb)
    (hslow : ∀ t : ℕ, 1 ≤ t → t ≤ 25 → G t / r.twoPiK + r.Rb ≤ ((t : K) + 9 / 10) * (G 1 / r.twoPiK + r.Rb))
    {hourly : List K} {year : ℤ} {L : Loads K} (h : mkLoads r hourly year = .ok L) (hpos : ∀ x ∈ hourly, 0 ≤ x)
    {m : ℕ} (m1 : 1 ≤ m) (m2 : m ≤ 12) (hpl : Placed (monthLoads (decide (LeapYear year)) hourly m))
    {i : ℕ} {P : K} (hP : PeaksAt (monthLoads (decide (LeapYear year)) hourly m) i P) (hP0 : 0 < P) :
    ∃ d, L.duration[m]? = some d ∧ 1 / 1000000 ≤ d ∧ d ≤ 48 := by
  obtain ⟨s1, s2, l1, q2, q3⟩ := mkLoads_entry h m1 m2
  obtain ⟨hM, -⟩ := mkLoads_inv h
  obtain ⟨hfull, hdur⟩ := mkLoads_full h
  obtain ⟨t, p, a, day, w, e1, e2, e3, e4, e5, f, g⟩ := hM.month m m1 m2
  obtain ⟨i', d1, d2, d3⟩ := f.day_eq
  obtain ⟨rfl, rfl⟩ := PeaksAt.unique hP ⟨d1, d2, f.peak_max⟩
  rw [ceil_dayOf] at d3
  subst d3
  obtain ⟨c1, c2, c3⟩ := hpl i P hP hP0
  have ha : averageOf (monthLoads (decide (LeapYear year)) hourly m) = a := f.average_eq.symm
  rw [ha] at c3
  have hlenm := monthLoads_length hM.length m2
  have hend := monthStart_le (decide (LeapYear year)) (show m + 1 ≤ 13 by omega)
  rw [monthStart_succ, ← hM.length] at hend
  have hlenY := hM.length
  generalize decide (LeapYear year) = leap at *
  rw [hlenm] at c2
  -- the window lies in the month
  have hwin : ∀ j : ℕ, j < 48 → w[j]? = (monthLoads leap hourly m)[24 * (dayOf i - 1) + j]? := by
    intro j hj
    rw [g.2 j hj]
    unfold monthLoads
    rw [List.getElem?_take_of_lt (by omega), List.getElem?_drop]
    congr 1
    have : (monthStart leap m : ℤ) + ((dayOf i : ℤ) - 1) * 24 + j =
      ((monthStart leap m + (24 * (dayOf i - 1) + j) : ℕ) : ℤ) := by omega
    rw [this, Int.emod_eq_of_lt (by omega) (by omega), Int.toNat_natCast]
  have hmem : ∀ x ∈ w, x ∈ monthLoads leap hourly m := by
    intro x hx
    obtain ⟨j, hj, rfl⟩ := List.mem_iff_getElem.mp hx
    rw [g.1] at hj
    have := hwin j hj
    rw [List.getElem?_eq_getElem (by rw [g.1]; exact hj)] at this
    exact List.mem_of_getElem? this.symm
  have hx : ∀ x ∈ w, 0 ≤ x ∧ x ≤ P := fun x hx =>
    ⟨hpos x (List.mem_of_mem_drop (List.mem_of_mem_take (hmem x hx))), f.peak_max x (hmem x hx)⟩
  have b1 : 24 * dayOf i < i + 24 := by unfold dayOf; omega
  have b2 : i ≤ 24 * dayOf i := by unfold dayOf; omega
  have hjP : w[i - 24 * (dayOf i - 1)]? = some P := by
    rw [hwin _ (by omega), show 24 * (dayOf i - 1) + (i - 24 * (dayOf i - 1)) = i by omega]
    exact d1
  obtain ⟨M, hMx⟩ := pyMax_ok_of_ne_nil (l := 0 :: w) (by simp)
  obtain ⟨hMm, hMle⟩ := pyMax_eq_ok hMx
  have hMP : M = P := by
    apply le_antisymm
    · rcases List.mem_cons.1 hMm with h | h
      · rw [h]; exact hP0.le
      · exact (hx M h).2
    · exact hMle P (List.mem_cons_of_mem _ (List.mem_of_getElem? hjP))
  subst hMP
  have hap : a ≤ M := by
    have hb := (monthLength_bounds leap m1 m2).1
    have hposl : (0 : K) < ((monthLoads leap hourly m).length : K) := by
      rw [hlenm]; exact_mod_cast (by omega)
    rw [f.average_eq, div_le_iff₀ hposl]
    have := List.sum_le_card_nsmul _ M f.peak_max
    rw [nsmul_eq_mul] at this
    linarith [mul_comm M ((monthLoads leap hourly m).length : K)]
  rw [durationStep_eq (by omega) e5 e2 e3 hMx, sub_self, abs_zero, ite_self, if_pos hP0.ne', bind_eq_ok] at q2
  obtain ⟨⟨d, x, y⟩, q4, q5⟩ := q2
  cases q5
  rw [List.getElem?_set_self (by omega)] at q3
  refine ⟨d, q3, ?_, (hdur d (List.mem_of_getElem? q3)).2⟩
  refine month_floor hr hk hG h1 hslow g.1 hP0 hap hx (j := i - 24 * (dayOf i - 1)) (by omega) hjP ?_ q4
  rcases c3 with c3 | c3
  · exact Or.inl c3
  · right
    intro k hk x hkx
    rw [hwin k (by omega)] at hkx
    exact c3 (24 * (dayOf i - 1) + k) (by omega) (by omega) x hkx

/-- the hours of one month keep their distance -/
theorem block_gap {ret : Prop} [Decidable ret] {i : ℕ} (hi : 1 ≤ i) {c h : Side K} {δ : K} (hδ : 0 < δ) (hδ1 : δ ≤ 1)
    (hc : 0 < c.peak → 2 ≤ c.day ∧ c.day + 1 ≤ monthLength false (calMonth i) ∧ δ ≤ c.duration ∧ c.duration ≤ 48)
    (hh : 0 < h.peak → 2 ≤ h.day ∧ h.day + 1 ≤ monthLength false (calMonth i) ∧ δ ≤ h.duration ∧ h.duration ≤ 48)
    (ha : 0 < c.peak → 0 < h.peak → c.day = h.day ∨ c.day + 3 ≤ h.day ∨ h.day + 3 ≤ c.day) :
    ((monthBlock ret i c h).map Prod.snd).Pairwise (fun u v => δ ≤ v - u) ∧
    ∀ t ∈ (monthBlock ret i c h).map Prod.snd, (hoursOf (i - 1) : K) + δ ≤ t ∧ t ≤ (hoursOf i : K) := by
  have hE := hours_of_month (K := K) hi
  have hml : (28 : K) ≤ (monthLength false (calMonth i) : K) := by
    exact_mod_cast (monthLength_bounds false (m := calMonth i) (by unfold calMonth; omega)
      (by unfold calMonth; omega)).1
  have hst : ∀ s : Side K, (0 < s.peak → 2 ≤ s.day ∧ s.day + 1 ≤ monthLength false (calMonth i) ∧ δ ≤ s.duration ∧
      s.duration ≤ 48) → 0 < s.peak →
      peakStart i s = (hoursOf (i - 1) : K) + 1 + ((s.day : K) - 1) * 24 + 12 - s.duration / 2 ∧ (2 : K) ≤ s.day ∧
      (s.day : K) + 1 ≤ (monthLength false (calMonth i) : K) ∧ δ ≤ s.duration ∧ s.duration ≤ 48 := by
    intro s hs hp
    obtain ⟨q1, q2, q3, q4⟩ := hs hp
    have hP : (0 : K) ≤ (hoursOf (i - 1) : K) := Nat.cast_nonneg _
    have q1' : (2 : K) ≤ s.day := by exact_mod_cast q1
    have q2' : (s.day : K) + 1 ≤ (monthLength false (calMonth i) : K) := by exact_mod_cast q2
    refine ⟨?_, q1', q2', q3, q4⟩
    unfold peakStart
    rw [if_neg (by linarith)]
  have hc' := hst c hc
  have hh' := hst h hh
  clear hst
  unfold monthBlock
  generalize rateOf ret (calMonth i) c h = rate
  generalize (hoursOf (i - 1) : K) = P at *
  generalize (hoursOf i : K) = E at *
  by_cases q1 : ret ∧ c.day < h.day
  · rw [if_pos q1]
    unfold peakBlock
    by_cases p1 : 0 < c.peak <;> by_cases p2 : 0 < h.peak <;> simp only [p1, p2, if_true, if_false]
    · obtain ⟨x0, x1, x2, x3, x4⟩ := hc' p1
      obtain ⟨y0, y1, y2, y3, y4⟩ := hh' p2
      have : (c.day : K) + 3 ≤ h.day := by
        have := ha p1 p2
        exact_mod_cast (by omega : c.day + 3 ≤ h.day)
      rw [x0, y0]
      simp <;> (repeat' apply And.intro) <;> linarith
    · obtain ⟨x0, x1, x2, x3, x4⟩ := hc' p1
      rw [x0]
      simp <;> (repeat' apply And.intro) <;> linarith
    · obtain ⟨y0, y1, y2, y3, y4⟩ := hh' p2
      rw [y0]
      simp <;> (repeat' apply And.intro) <;> linarith
    · simp; linarith
  · rw [if_neg q1]
    by_cases q2 : ret ∧ h.day < c.day
    · rw [if_pos q2]
      unfold peakBlock
      by_cases p1 : 0 < c.peak <;> by_cases p2 : 0 < h.peak <;> simp only [p1, p2, if_true, if_false]
      · obtain ⟨x0, x1, x2, x3, x4⟩ := hc' p1
        obtain ⟨y0, y1, y2, y3, y4⟩ := hh' p2
        have : (h.day : K) + 3 ≤ c.day := by
          have := ha p1 p2
          exact_mod_cast (by omega : h.day + 3 ≤ c.day)
        rw [x0, y0]
        simp <;> (repeat' apply And.intro) <;> linarith
      · obtain ⟨x0, x1, x2, x3, x4⟩ := hc' p1
        rw [x0]
        simp <;> (repeat' apply And.intro) <;> linarith
      · obtain ⟨y0, y1, y2, y3, y4⟩ := hh' p2
        rw [y0]
        simp <;> (repeat' apply And.intro) <;> linarith
      · simp; linarith
    · rw [if_neg q2]
      simp
      linarith

/-- C104: if every positive peak lasts at least `δ` (at most an hour) and at most 48 hours and is attributed to neither
the first nor the last day of its month, and two peaks of one month are attributed to the same day or to days at least
three apart, then the times of the sequence, from the start of its first month on, are at least `δ` apart. -/
theorem C104_gaps {cl hl : Loads K} (hc : Full cl) (hh : Full hl) (hz : NonZero cl hl)
    {start finish : ℕ} (hs : 1 ≤ start) (hsf : start ≤ finish) {H : Hybrid K}
    (h : processMonthlyLoads cl hl (start : ℤ) (finish : ℤ) = .ok H) {δ : K} (hδ : 0 < δ) (hδ1 : δ ≤ 1)
    (hd : ∀ m : ℕ, 1 ≤ m → m ≤ 12 → ∀ s, s = cl.side m ∨ s = hl.side m → 0 < s.peak →
      2 ≤ s.day ∧ s.day + 1 ≤ monthLength false m ∧ δ ≤ s.duration ∧ s.duration ≤ 48)
    (ha : ∀ m : ℕ, 1 ≤ m → m ≤ 12 → 0 < (cl.side m).peak → 0 < (hl.side m).peak →
      (cl.side m).day = (hl.side m).day ∨ (cl.side m).day + 3 ≤ (hl.side m).day ∨
        (hl.side m).day + 3 ≤ (cl.side m).day) :
    (H.hour.drop 1).Pairwise (fun u v => δ ≤ v - u) ∧ (0 :: H.hour.drop 2).Pairwise (fun u v => δ ≤ v - u) := by
  rw [process_eq hc hh hz hs hsf] at h
  cases h
  dsimp only
  have key : ∀ n, (((allEntries cl hl start finish n).map Prod.snd).drop 1).Pairwise (fun u v => δ ≤ v - u) ∧
      ∀ t ∈ ((allEntries cl hl start finish n).map Prod.snd).drop 1, t ≤ (hoursOf (start + n - 1) : K) := by
    intro n
    induction n with
    | zero => simp [allEntries]
    | succ n ih =>
      obtain ⟨i1, i2⟩ := ih
      have m1 : 1 ≤ calMonth (start + n) := by unfold calMonth; omega
      have m2 : calMonth (start + n) ≤ 12 := by unfold calMonth; omega
      obtain ⟨b1, b2⟩ := block_gap (ret := Retained start finish (start + n)) (show 1 ≤ start + n by omega) hδ hδ1
        (hd _ m1 m2 _ (Or.inl rfl)) (hd _ m1 m2 _ (Or.inr rfl)) (ha _ m1 m2)
      rw [allEntries_succ, List.map_append, List.drop_append_of_le_length (by simp [allEntries])]
      refine ⟨?_, ?_⟩
      · rw [List.pairwise_append]
        refine ⟨i1, b1, fun x hx y hy => ?_⟩
        have := i2 x hx
        have := (b2 y hy).1
        linarith
      · intro t ht
        rw [show start + (n + 1) - 1 = start + n by omega]
        rcases List.mem_append.mp ht with ht | ht
        · refine (i2 t ht).trans ?_
          rw [hours_of_month (show 1 ≤ start + n by omega)]
          have : (0 : K) ≤ (monthLength false (calMonth (start + n)) : K) := Nat.cast_nonneg _
          linarith
        · exact (b2 t ht).2
  have k1 := (key (finish + 1 - start)).1
  refine ⟨k1, ?_⟩
  unfold allEntries at k1 ⊢
  simp only [List.cons_append, List.nil_append, List.map_cons, List.drop_succ_cons, List.drop_zero] at k1 ⊢
  rw [List.pairwise_cons] at k1 ⊢
  refine ⟨fun t ht => ?_, k1.2⟩
  have := k1.1 t ht
  have hP : (0 : K) ≤ (hoursOf (start - 1) : K) := Nat.cast_nonneg _
  linarith

end

end Ghedt.GL
