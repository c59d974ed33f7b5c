import Verif.Lemmas.Hybrid
import Verif.Lemmas.RoundedBasic
import Verif.Model.RoundedHybrid

set_option linter.unusedSectionVars false

/-!
# The hybrid load in floating-point arithmetic: closed form
-/

namespace Ghedt.Rounded
open GL Spec Search
variable {K : Type} [Field K] [LinearOrder K] [IsStrictOrderedRing K] (R : Rounding K)

/-- start of a peak -/
def rStart (i : ℕ) (s : Side K) : K :=
  if R.fl (R.fl ((1 + (hoursOf (i - 1) : ℤ) + ((s.day - 1) * 24 + 12) : ℤ) : K) - R.fl (s.duration / 2)) < 0 then
    R.fl (1 / 1000000)
  else R.fl (R.fl ((1 + (hoursOf (i - 1) : ℤ) + ((s.day - 1) * 24 + 12) : ℤ) : K) - R.fl (s.duration / 2))

/-- end of a peak -/
def rEnd (i : ℕ) (s : Side K) : K := R.fl (rStart R i s + s.duration)

theorem peakHourRange_eq {L : Loads K} (hL : Full L) {m i : ℕ} (hm : m ≤ 12) (hi : 1 ≤ i) :
    peakHourRange R L (m : ℤ) (i : ℤ) = .ok (rStart R i (L.side m), rEnd R i (L.side m)) := by
  have h1 := hL.day
  have h2 := hL.duration
  unfold peakHourRange
  rw [getD_ok (by omega) 0, Except.ok_bind, getD_ok (by omega) 0, Except.ok_bind,
    firstmonthhour_int (by omega), Except.ok_bind]
  have hn : ((i : ℤ) - 1).toNat = i - 1 := by omega
  rw [hn]
  rfl

/-- the divisor of the background load -/
def rLen (m : ℕ) (c h : Side K) : K :=
  R.fl (R.fl (R.fl ((monthLength false m * 24 : ℤ) : K) - c.duration) - h.duration)

/-- the background load of a month -/
def rRate (ret : Prop) [Decidable ret] (m : ℕ) (c h : Side K) : K :=
  if ret then R.fl (R.fl (R.fl (R.fl (c.total - h.total) - R.fl (c.peak * c.duration)) + R.fl (h.peak * h.duration)) /
    rLen R m c h)
  else R.fl (R.fl (c.total - h.total) / R.fl ((monthLength false m * 24 : ℤ) : K))

/-- the two entries of one peak -/
def rPeakBlock (rate sign : K) (i : ℕ) (s : Side K) : List (K × K) :=
  if 0 < s.peak then [(rate, rStart R i s), (R.fl (sign * s.peak), rEnd R i s)] else []

/-- all entries of a month -/
def rMonthBlock (ret : Prop) [Decidable ret] (i : ℕ) (c h : Side K) : List (K × K) :=
  (if ret ∧ c.day < h.day then
      rPeakBlock R (rRate R ret (calMonth i) c h) 1 i c ++ rPeakBlock R (rRate R ret (calMonth i) c h) (-1) i h
    else if ret ∧ h.day < c.day then
      rPeakBlock R (rRate R ret (calMonth i) c h) (-1) i h ++ rPeakBlock R (rRate R ret (calMonth i) c h) 1 i c
    else []) ++ [(rRate R ret (calMonth i) c h, R.fl (hoursOf i : K))]

theorem placeLoads_eq {a b : Loads K} (ha : Full a) (hb : Full b) {m i : ℕ} (hm : m ≤ 12)
    (hi : 1 ≤ i) (sa sb rate : K) (s : Hybrid K) :
    placeLoads R [(a, sa), (b, sb)] rate (m : ℤ) (i : ℤ) true s =
      .ok (s.app (rPeakBlock R rate sa i (a.side m) ++ rPeakBlock R rate sb i (b.side m) ++
        [(rate, R.fl (hoursOf i : K))])) := by
  have h1 := ha.peak
  have h2 := hb.peak
  have one : ∀ {L : Loads K} (_ : Full L) (sg : K) (s : Hybrid K),
      placeStep R rate (m : ℤ) (i : ℤ) true s (L, sg) =
        .ok (s.app (rPeakBlock R rate sg i (L.side m))) := by
    intro L hL sg s
    have := hL.peak
    unfold placeStep
    dsimp only
    rw [getD_ok (by omega) 0, Except.ok_bind, peakHourRange_eq R hL hm hi]
    unfold rPeakBlock
    by_cases hp : 0 < (L.side m).peak
    · rw [if_pos hp, if_pos ⟨hp, rfl⟩]
      rw [Except.ok_bind]
      dsimp only
      rw [push_eq, push_eq, app_app]
      rfl
    · rw [if_neg hp, if_neg (fun h => hp h.1), app_nil]; rfl
  unfold placeLoads
  rw [List.foldlM_cons, one ha sa s, Except.ok_bind, List.foldlM_cons, one hb sb, Except.ok_bind,
    List.foldlM_nil, Except.pure_eq, Except.ok_bind, lastmonthhour_eq, Except.ok_bind, app_app,
    push_eq, app_app]
  simp

/-- the divisor of the background load is not zero -/
def RNonZero (cl hl : Loads K) : Prop := ∀ m : ℕ, 1 ≤ m → m ≤ 12 → rLen R m (cl.side m) (hl.side m) ≠ 0

theorem monthRate_eq {cl hl : Loads K} (hc : Full cl) (hh : Full hl) (hz : RNonZero R cl hl) {m : ℕ}
    (hm1 : 1 ≤ m) (hm2 : m ≤ 12) (ret : Prop) [Decidable ret] :
    monthRate R cl hl (m : ℤ) (decide ret) = .ok (rRate R ret m (cl.side m) (hl.side m),
      if ret then (cl.side m).day - (hl.side m).day else 0) := by
  have hmd : monthdays (m : ℤ) = .ok (monthLength false m : ℤ) := by
    rw [monthdays_eq (by omega)]
    congr 3
    omega
  have c1 := hc.total; have c2 := hc.peak; have c3 := hc.duration; have c4 := hc.day
  have k1 := hh.total; have k2 := hh.peak; have k3 := hh.duration; have k4 := hh.day
  have hlen := (monthLength_bounds false hm1 hm2).1
  unfold monthRate
  rw [hmd, Except.ok_bind, getD_ok (l := cl.total) (by omega) 0, Except.ok_bind,
    getD_ok (l := hl.total) (by omega) 0, Except.ok_bind]
  unfold rRate
  by_cases hret : ret
  · rw [if_pos (decide_eq_true hret), if_pos hret, if_pos hret]
    unfold peakEnergy
    rw [getD_ok (l := cl.duration) (by omega) 0, Except.ok_bind,
      getD_ok (l := hl.duration) (by omega) 0, Except.ok_bind,
      getD_ok (l := cl.peak) (by omega) 0, getD_ok (l := hl.peak) (by omega) 0]
    simp only [Except.ok_bind, Except.pure_eq]
    have hd := hz m hm1 hm2
    simp only [Loads.side, rLen] at hd ⊢
    unfold sub at *
    rw [div_ok R hd, Except.ok_bind, getD_ok (l := cl.peakDay) (by omega) 0, Except.ok_bind,
      getD_ok (l := hl.peakDay) (by omega) 0, Except.ok_bind]
    rfl
  · rw [if_neg (by simpa using hret), if_neg hret, if_neg hret]
    have hd : R.fl (((monthLength false m * 24 : ℤ)) : K) ≠ 0 := by
      apply (fl_pos R _).ne'
      exact_mod_cast (by omega : (0 : ℤ) < (monthLength false m : ℤ) * 24)
    dsimp only
    rw [div_ok R hd]
    rfl

theorem monthStep_eq {cl hl : Loads K} (hc : Full cl) (hh : Full hl) (hz : RNonZero R cl hl)
    {start finish i : ℕ} (hi : 1 ≤ i) (s : Hybrid K) :
    monthStep R cl hl (start : ℤ) (finish : ℤ) s (i : ℤ) =
      .ok (s.app (rMonthBlock R (Retained start finish i) i (cl.side (calMonth i))
        (hl.side (calMonth i)))) := by
  have hm1 : 1 ≤ calMonth i := by unfold calMonth; omega
  have hm2 : calMonth i ≤ 12 := by unfold calMonth; omega
  have hmi : (if (i : ℤ) % 12 = 0 then 12 else (i : ℤ) % 12) = (calMonth i : ℤ) := by
    unfold calMonth; split <;> omega
  have hinc : (if (i : ℤ) < (start : ℤ) + 12 then true
      else if (i : ℤ) > (finish : ℤ) - 12 then true else false) =
      decide (Retained start finish i) := by
    by_cases h1 : (i : ℤ) < (start : ℤ) + 12
    · have : Retained start finish i := Or.inl (by omega)
      rw [if_pos h1, decide_eq_true this]
    · rw [if_neg h1]
      by_cases h2 : (i : ℤ) > (finish : ℤ) - 12
      · have : Retained start finish i := Or.inr (by omega)
        rw [if_pos h2, decide_eq_true this]
      · rw [if_neg h2, decide_eq_false]
        rintro (h | h) <;> omega
  unfold monthStep
  dsimp only
  rw [hmi, hinc, monthRate_eq R hc hh hz hm1 hm2, Except.ok_bind]
  dsimp only
  unfold rMonthBlock
  generalize rRate R (Retained start finish i) (calMonth i) (cl.side (calMonth i))
    (hl.side (calMonth i)) = rate
  have q : ∀ a b : ℤ, a - b < 0 ↔ a < b := fun a b => by omega
  have q' : ∀ a b : ℤ, a - b > 0 ↔ b < a := fun a b => by omega
  by_cases hret : Retained start finish i
  · rw [if_pos hret, decide_eq_true hret]
    simp only [q, q', hret, true_and]
    by_cases h1 : (cl.side (calMonth i)).day < (hl.side (calMonth i)).day
    · rw [if_pos h1, if_pos h1, placeLoads_eq R hc hh hm2 hi]
    · rw [if_neg h1, if_neg h1]
      by_cases h2 : (hl.side (calMonth i)).day < (cl.side (calMonth i)).day
      · rw [if_pos h2, if_pos h2, placeLoads_eq R hh hc hm2 hi]
      · rw [if_neg h2, if_neg h2, lastmonthhour_eq, Except.ok_bind, push_eq]
        simp
  · rw [if_neg hret, if_neg (by omega), if_neg (by omega)]
    simp only [hret, false_and, if_false]
    rw [lastmonthhour_eq, Except.ok_bind, push_eq]
    simp

/-- all entries -/
def rEntries (cl hl : Loads K) (start finish n : ℕ) : List (K × K) :=
  [(0, 0), (0, R.fl (hoursOf (start - 1) : K))] ++ (List.range n).flatMap fun k =>
    rMonthBlock R (Retained start finish (start + k)) (start + k) (cl.side (calMonth (start + k)))
      (hl.side (calMonth (start + k)))

theorem months_fold {cl hl : Loads K} (hc : Full cl) (hh : Full hl) (hz : RNonZero R cl hl)
    {start finish : ℕ} (hs : 1 ≤ start) (n : ℕ) (s : Hybrid K) :
    ((List.range n).map fun k : ℕ => ((start + k : ℕ) : ℤ)).foldlM
      (monthStep R cl hl (start : ℤ) (finish : ℤ)) s =
      .ok (s.app ((List.range n).flatMap fun k =>
        rMonthBlock R (Retained start finish (start + k)) (start + k) (cl.side (calMonth (start + k)))
          (hl.side (calMonth (start + k))))) := by
  induction n with
  | zero => simp [app_nil]
  | succ n ih =>
    rw [List.range_succ, List.map_append, List.foldlM_append, ih, Except.ok_bind, List.map_cons,
      List.map_nil, List.foldlM_cons, monthStep_eq R hc hh hz (by omega), Except.ok_bind,
      List.foldlM_nil, app_app, List.flatMap_append]
    simp

theorem sf_fold (load : List K) (n : ℕ) (hn : n + 1 ≤ load.length) (sf : List K) :
    ((List.range n).map fun k : ℕ => ((k + 1 : ℕ) : ℤ)).foldlM (sfStep R load) sf =
      .ok (sf ++ (List.range n).map fun k => R.fl (load.getD (k + 1) 0 - load.getD k 0)) := by
  induction n with
  | zero => simp
  | succ n ih =>
    rw [List.range_succ, List.map_append, List.foldlM_append, ih (by omega), Except.ok_bind,
      List.map_cons, List.map_nil, List.foldlM_cons]
    unfold sfStep
    rw [getD_ok (by omega) 0, Except.ok_bind, show ((n + 1 : ℕ) : ℤ) - 1 = (n : ℤ) by push_cast; ring,
      getD_ok (by omega) 0]
    simp [sub]

theorem process_eq {cl hl : Loads K} (hc : Full cl) (hh : Full hl) (hz : RNonZero R cl hl)
    {start finish : ℕ} (hs : 1 ≤ start) (hsf : start ≤ finish) :
    processMonthlyLoads R cl hl (start : ℤ) (finish : ℤ) =
      .ok ⟨(rEntries R cl hl start finish (finish + 1 - start)).map Prod.fst,
        (rEntries R cl hl start finish (finish + 1 - start)).map Prod.snd,
        0 :: (List.range ((rEntries R cl hl start finish (finish + 1 - start)).length - 1)).map fun k =>
          R.fl (((rEntries R cl hl start finish (finish + 1 - start)).map Prod.fst).getD (k + 1) 0 -
          ((rEntries R cl hl start finish (finish + 1 - start)).map Prod.fst).getD k 0)⟩ := by
  unfold processMonthlyLoads
  dsimp only
  rw [firstmonthhour_int (by omega), Except.ok_bind]
  have hr : pyRange (start : ℤ) ((finish : ℤ) + 1) =
      (List.range (finish + 1 - start)).map fun k : ℕ => ((start + k : ℕ) : ℤ) := by
    unfold pyRange
    rw [show ((finish : ℤ) + 1 - start).toNat = finish + 1 - start by omega]
    apply List.map_congr_left
    intro k _; push_cast; ring
  rw [hr, months_fold R hc hh hz hs, Except.ok_bind]
  set E := rEntries R cl hl start finish (finish + 1 - start) with hE
  have hst : (({ load := [0], hour := [0], sfload := [0] } : Hybrid K).push 0
      (R.fl ((1 + (hoursOf ((start : ℤ) - 1).toNat : ℤ) - 1 : ℤ) : K))).app
      ((List.range (finish + 1 - start)).flatMap fun k =>
        rMonthBlock R (Retained start finish (start + k)) (start + k) (cl.side (calMonth (start + k)))
          (hl.side (calMonth (start + k)))) = ⟨E.map Prod.fst, E.map Prod.snd, [0]⟩ := by
    rw [hE]
    unfold rEntries Hybrid.app Hybrid.push
    rw [show ((start : ℤ) - 1).toNat = start - 1 by omega]
    simp
  rw [hst]
  have hlen : (E.map Prod.snd).length = E.length := List.length_map ..
  have hpos : 1 ≤ E.length := by rw [hE]; simp [rEntries]
  have hr2 : pyRange 1 ((E.map Prod.snd).length : ℤ) =
      (List.range (E.length - 1)).map fun k : ℕ => ((k + 1 : ℕ) : ℤ) := by
    unfold pyRange
    rw [hlen, show ((E.length : ℤ) - 1).toNat = E.length - 1 by omega]
    apply List.map_congr_left
    intro k _; push_cast; ring
  dsimp only
  rw [hr2, sf_fold R _ _ (by rw [List.length_map]; omega), Except.ok_bind]
  rfl

/-! ### the entries correspond -/

theorem rPeakBlock_length (rate rate' sign : K) (i : ℕ) (s : Side K) :
    (rPeakBlock R rate sign i s).length = (peakBlock rate' sign i s).length := by
  unfold rPeakBlock peakBlock; split <;> rfl

theorem rMonthBlock_length (ret : Prop) [Decidable ret] (i : ℕ) (c h : Side K) :
    (rMonthBlock R ret i c h).length = (monthBlock ret i c h).length := by
  unfold rMonthBlock monthBlock
  rw [List.length_append, List.length_append]
  congr 1
  by_cases h1 : ret ∧ c.day < h.day
  · rw [if_pos h1, if_pos h1, List.length_append, List.length_append, rPeakBlock_length, rPeakBlock_length]
  · rw [if_neg h1, if_neg h1]
    by_cases h2 : ret ∧ h.day < c.day
    · rw [if_pos h2, if_pos h2, List.length_append, List.length_append, rPeakBlock_length, rPeakBlock_length]
    · rw [if_neg h2, if_neg h2]

theorem rEntries_succ (cl hl : Loads K) (start finish n : ℕ) :
    rEntries R cl hl start finish (n + 1) = rEntries R cl hl start finish n ++
      rMonthBlock R (Retained start finish (start + n)) (start + n) (cl.side (calMonth (start + n)))
        (hl.side (calMonth (start + n))) := by
  unfold rEntries
  rw [List.range_succ, List.flatMap_append, List.append_assoc]
  simp

theorem rEntries_length (cl hl : Loads K) (start finish n : ℕ) :
    (rEntries R cl hl start finish n).length = (allEntries cl hl start finish n).length := by
  induction n with
  | zero => rfl
  | succ n ih => rw [rEntries_succ, allEntries_succ, List.length_append, List.length_append, ih, rMonthBlock_length]

theorem rEntries_prefix (cl hl : Loads K) (start finish : ℕ) {n N : ℕ} (h : n ≤ N) :
    ∃ post, rEntries R cl hl start finish N = rEntries R cl hl start finish n ++ post := by
  induction N, h using Nat.le_induction with
  | base => exact ⟨[], by simp⟩
  | succ N _ ih =>
    obtain ⟨post, hp⟩ := ih
    exact ⟨_, by rw [rEntries_succ, hp, List.append_assoc]⟩

theorem rEntries_last (cl hl : Loads K) {start : ℕ} (hs : 1 ≤ start) (finish n : ℕ) :
    ∃ pre rate, rEntries R cl hl start finish n = pre ++ [(rate, R.fl (hoursOf (start + n - 1) : K))] := by
  cases n with
  | zero => exact ⟨[(0, 0)], 0, rfl⟩
  | succ n =>
    rw [rEntries_succ]
    unfold rMonthBlock
    rw [← List.append_assoc]
    exact ⟨_, _, rfl⟩

/-- the integral over a month, in terms of its entries -/
theorem month_integral {cl hl : Loads K} (hc : Full cl) (hh : Full hl) (hz : RNonZero R cl hl)
    {start finish : ℕ} (hs : 1 ≤ start) (hsf : start ≤ finish) {H : Hybrid K}
    (h : processMonthlyLoads R cl hl (start : ℤ) (finish : ℤ) = .ok H) {i : ℕ} (h1 : start ≤ i)
    (h2 : i ≤ finish) :
    stepIntegral H.load H.hour (monthEndPos start finish cl.side hl.side (i - 1))
      (monthEndPos start finish cl.side hl.side i) =
      segInt (R.fl (hoursOf (i - 1) : K)) (rMonthBlock R (Retained start finish i) i (cl.side (calMonth i))
        (hl.side (calMonth i))) := by
  rw [process_eq R hc hh hz hs hsf] at h
  cases h
  dsimp only
  have e0 : i + 1 - start = i - start + 1 := by omega
  obtain ⟨post, hp⟩ := rEntries_prefix R cl hl start finish
    (show i + 1 - start ≤ finish + 1 - start by omega)
  obtain ⟨pre, rate, e⟩ := rEntries_last R cl hl hs finish (i - start)
  have p1 := monthEndPos_eq cl hl start finish (i - 1)
  have p2 := monthEndPos_eq cl hl start finish i
  rw [← rEntries_length R] at p1 p2
  rw [show i - 1 + 1 - start = i - start by omega, e] at p1
  rw [e0, rEntries_succ, e, List.length_append] at p2
  rw [e0, rEntries_succ, e, show start + (i - start) = i by omega] at hp
  rw [show start + (i - start) = i by omega] at p2
  rw [List.length_append, List.length_singleton] at p1 p2
  have q1 : monthEndPos start finish cl.side hl.side (i - 1) = pre.length := by omega
  have q2 : monthEndPos start finish cl.side hl.side i = pre.length + (rMonthBlock R
      (Retained start finish i) i (cl.side (calMonth i)) (hl.side (calMonth i))).length := by omega
  rw [q1, q2, hp]
  have := stepIntegral_eq (rMonthBlock R (Retained start finish i) i (cl.side (calMonth i))
      (hl.side (calMonth i))) pre post (rate, R.fl (hoursOf (i - 1) : K))
  rw [show ∀ B : List (K × K), pre ++ [(rate, R.fl (hoursOf (i - 1) : K))] ++ B ++ post =
    pre ++ (rate, R.fl (hoursOf (i - 1) : K)) :: (B ++ post) from fun B => by simp]
  exact this

theorem segInt_rblock (ret : Prop) [Decidable ret] {i : ℕ} (c h : Side K) (x : K) :
    segInt x (rMonthBlock R ret i c h) =
      rRate R ret (calMonth i) c h * (R.fl (hoursOf i : K) - x) +
      (if ret ∧ c.day ≠ h.day ∧ 0 < c.peak then
        (R.fl (1 * c.peak) - rRate R ret (calMonth i) c h) * (rEnd R i c - rStart R i c) else 0) +
      (if ret ∧ c.day ≠ h.day ∧ 0 < h.peak then
        (R.fl (-1 * h.peak) - rRate R ret (calMonth i) c h) * (rEnd R i h - rStart R i h) else 0) := by
  unfold rMonthBlock
  generalize rRate R ret (calMonth i) c h = rate
  generalize R.fl (hoursOf i : K) = y
  by_cases hr : ret
  · rcases lt_trichotomy c.day h.day with h1 | h1 | h1
    · have hne : c.day ≠ h.day := h1.ne
      simp only [hr, h1, hne, true_and, and_self, if_true, ne_eq, not_false_eq_true]
      unfold rPeakBlock
      by_cases hc : 0 < c.peak <;> by_cases hh : 0 < h.peak <;> simp only [hc, hh, if_true, if_false] <;>
        simp [segInt] <;> ring
    · simp only [h1, lt_irrefl, and_false, if_false, ne_eq, not_true_eq_false, false_and]
      simp [segInt]
    · have hne : c.day ≠ h.day := h1.ne'
      simp only [hr, h1, hne, true_and, and_self, if_true, ne_eq, not_false_eq_true, not_lt.mpr h1.le,
        if_false]
      unfold rPeakBlock
      by_cases hc : 0 < c.peak <;> by_cases hh : 0 < h.peak <;> simp only [hc, hh, if_true, if_false] <;>
        simp [segInt] <;> ring
  · simp only [hr, false_and, if_false]
    simp [segInt]

end Ghedt.Rounded
