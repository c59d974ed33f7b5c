import Verif.Lemmas.Duration
import Verif.Spec.Hybrid

set_option linter.unusedSectionVars false

namespace Ghedt.GL
open Spec Search
variable {K : Type} [Field K] [LinearOrder K] [IsStrictOrderedRing K]

/-- the data of calendar month `m` -/
def Loads.side (L : Loads K) (m : ℕ) : Side K :=
  ⟨L.total.getD m 0, L.peak.getD m 0, L.duration.getD m 0, L.peakDay.getD m 0⟩

/-- all monthly lists have their thirteen entries -/
structure Full (L : Loads K) : Prop where
  total : L.total.length = 13
  peak : L.peak.length = 13
  duration : L.duration.length = 13
  day : L.peakDay.length = 13

theorem getD_ok {α : Type} {l : List α} {m : ℕ} (h : m < l.length) (d : α) :
    pyGet l (m : ℤ) = .ok (l.getD m d) := by
  apply pyGet_ok'
  rw [List.getD_eq_getElem?_getD, List.getElem?_eq_getElem h, Option.getD_some]

theorem peakHourRange_eq {L : Loads K} (hL : Full L) {m i : ℕ} (hm : m ≤ 12) (hi : 1 ≤ i) :
    peakHourRange L (m : ℤ) (i : ℤ) =
      .ok (peakStart i (L.side m), peakStart i (L.side m) + (L.side m).duration) := by
  have h1 := hL.day
  have h2 := hL.duration
  unfold peakHourRange
  rw [getD_ok (by omega) 0, Except.ok_bind, getD_ok (by omega) 0, Except.ok_bind,
    firstmonthhour_int (by omega), Except.ok_bind]
  have hn : ((i : ℤ) - 1).toNat = i - 1 := by omega
  have e : ((1 + (hoursOf ((i : ℤ) - 1).toNat : ℤ) : ℤ) : K) +
      (((L.peakDay.getD m 0 - 1) * 24 + 12 : ℤ) : K) - L.duration.getD m 0 / 2 =
      ((hoursOf (i - 1) : K) + 1) + (((L.side m).day : K) - 1) * 24 + 12 -
        (L.side m).duration / 2 := by
    rw [hn]
    unfold Loads.side
    push_cast
    ring
  dsimp only
  rw [e]
  rfl

/-- the background load of a month -/
def rateOf (ret : Prop) [Decidable ret] (m : ℕ) (c h : Side K) : K :=
  if ret then (c.total - h.total - c.peak * c.duration + h.peak * h.duration) /
    ((monthLength false m : K) * 24 - c.duration - h.duration)
  else (c.total - h.total) / ((monthLength false m : K) * 24)

/-- the two entries of one peak -/
def peakBlock (rate sign : K) (i : ℕ) (s : Side K) : List (K × K) :=
  if 0 < s.peak then [(rate, peakStart i s), (sign * s.peak, peakStart i s + s.duration)] else []

/-- all entries of a month -/
def monthBlock (ret : Prop) [Decidable ret] (i : ℕ) (c h : Side K) : List (K × K) :=
  (if ret ∧ c.day < h.day then
      peakBlock (rateOf ret (calMonth i) c h) 1 i c ++ peakBlock (rateOf ret (calMonth i) c h) (-1) i h
    else if ret ∧ h.day < c.day then
      peakBlock (rateOf ret (calMonth i) c h) (-1) i h ++ peakBlock (rateOf ret (calMonth i) c h) 1 i c
    else []) ++ [(rateOf ret (calMonth i) c h, (hoursOf i : K))]

/-- appending several pairs -/
def Hybrid.app (s : Hybrid K) (l : List (K × K)) : Hybrid K :=
  ⟨s.load ++ l.map Prod.fst, s.hour ++ l.map Prod.snd, s.sfload⟩

theorem app_app (s : Hybrid K) (l l' : List (K × K)) : (s.app l).app l' = s.app (l ++ l') := by
  simp [Hybrid.app, List.append_assoc]

theorem push_eq (s : Hybrid K) (l h : K) : s.push l h = s.app [(l, h)] := by
  simp [Hybrid.app, Hybrid.push]

theorem app_nil (s : Hybrid K) : s.app [] = s := by
  simp [Hybrid.app]

theorem placeLoads_eq {a b : Loads K} (ha : Full a) (hb : Full b) {m i : ℕ} (hm : m ≤ 12)
    (hi : 1 ≤ i) (sa sb rate : K) (s : Hybrid K) :
    placeLoads [(a, sa), (b, sb)] rate (m : ℤ) (i : ℤ) true s =
      .ok (s.app (peakBlock rate sa i (a.side m) ++ peakBlock rate sb i (b.side m) ++
        [(rate, (hoursOf i : K))])) := by
  have h1 := ha.peak
  have h2 := hb.peak
  have one : ∀ {L : Loads K} (_ : Full L) (sg : K) (s : Hybrid K),
      placeStep rate (m : ℤ) (i : ℤ) true s (L, sg) =
        .ok (s.app (peakBlock rate sg i (L.side m))) := by
    intro L hL sg s
    have := hL.peak
    unfold placeStep
    dsimp only
    rw [getD_ok (by omega) 0, Except.ok_bind, peakHourRange_eq hL hm hi]
    unfold peakBlock
    by_cases hp : 0 < (L.side m).peak
    · rw [if_pos hp, if_pos ⟨hp, rfl⟩]
      rw [Except.ok_bind]
      dsimp only
      rw [push_eq, push_eq, app_app]
      rfl
    · rw [if_neg hp, if_neg (fun h => hp h.1), app_nil]; rfl
  unfold placeLoads
  rw [List.foldlM_cons, one ha sa s, Except.ok_bind, List.foldlM_cons, one hb sb, Except.ok_bind,
    List.foldlM_nil, Except.pure_eq, Except.ok_bind, lastmonthhour_eq, Except.ok_bind, app_app,
    push_eq, app_app]
  simp

/-- the divisor of the background load is not zero -/
def NonZero (cl hl : Loads K) : Prop := ∀ m : ℕ, 1 ≤ m → m ≤ 12 →
  (monthLength false m : K) * 24 - (cl.side m).duration - (hl.side m).duration ≠ 0

theorem monthRate_eq {cl hl : Loads K} (hc : Full cl) (hh : Full hl) (hz : NonZero cl hl) {m : ℕ}
    (hm1 : 1 ≤ m) (hm2 : m ≤ 12) (ret : Prop) [Decidable ret] :
    monthRate cl hl (m : ℤ) (decide ret) = .ok (rateOf ret m (cl.side m) (hl.side m),
      if ret then (cl.side m).day - (hl.side m).day else 0) := by
  have hmd : monthdays (m : ℤ) = .ok (monthLength false m : ℤ) := by
    rw [monthdays_eq (by omega)]
    congr 3
    omega
  have c1 := hc.total; have c2 := hc.peak; have c3 := hc.duration; have c4 := hc.day
  have k1 := hh.total; have k2 := hh.peak; have k3 := hh.duration; have k4 := hh.day
  have hlen := (monthLength_bounds false hm1 hm2).1
  unfold monthRate
  rw [hmd, Except.ok_bind, getD_ok (l := cl.total) (by omega) 0, Except.ok_bind,
    getD_ok (l := hl.total) (by omega) 0, Except.ok_bind]
  unfold rateOf
  by_cases hret : ret
  · rw [if_pos (decide_eq_true hret), if_pos hret, if_pos hret]
    unfold peakEnergy
    rw [getD_ok (l := cl.duration) (by omega) 0, Except.ok_bind,
      getD_ok (l := hl.duration) (by omega) 0, Except.ok_bind,
      getD_ok (l := cl.peak) (by omega) 0, getD_ok (l := hl.peak) (by omega) 0]
    simp only [Except.ok_bind, Except.pure_eq]
    have hd := hz m hm1 hm2
    simp only [Loads.side] at hd ⊢
    rw [show (((monthLength false m : ℤ)) : K) = (monthLength false m : K) by push_cast; rfl,
      pyDiv_ok hd, Except.ok_bind, getD_ok (l := cl.peakDay) (by omega) 0, Except.ok_bind,
      getD_ok (l := hl.peakDay) (by omega) 0, Except.ok_bind]
  · rw [if_neg (by simpa using hret), if_neg hret, if_neg hret]
    have hd : (((monthLength false m : ℤ)) : K) * 24 ≠ 0 := by
      have : (0 : K) < (monthLength false m : K) := by exact_mod_cast (by omega : 0 < monthLength false m)
      push_cast
      positivity
    dsimp only
    rw [pyDiv_ok hd]
    simp [Loads.side]

theorem monthStep_eq {cl hl : Loads K} (hc : Full cl) (hh : Full hl) (hz : NonZero cl hl)
    {start finish i : ℕ} (hi : 1 ≤ i) (s : Hybrid K) :
    monthStep cl hl (start : ℤ) (finish : ℤ) s (i : ℤ) =
      .ok (s.app (monthBlock (Retained start finish i) i (cl.side (calMonth i))
        (hl.side (calMonth i)))) := by
  have hm1 : 1 ≤ calMonth i := by unfold calMonth; omega
  have hm2 : calMonth i ≤ 12 := by unfold calMonth; omega
  have hmi : (if (i : ℤ) % 12 = 0 then 12 else (i : ℤ) % 12) = (calMonth i : ℤ) := by
    unfold calMonth; split <;> omega
  have hinc : (if (i : ℤ) < (start : ℤ) + 12 then true
      else if (i : ℤ) > (finish : ℤ) - 12 then true else false) =
      decide (Retained start finish i) := by
    by_cases h1 : (i : ℤ) < (start : ℤ) + 12
    · have : Retained start finish i := Or.inl (by omega)
      rw [if_pos h1, decide_eq_true this]
    · rw [if_neg h1]
      by_cases h2 : (i : ℤ) > (finish : ℤ) - 12
      · have : Retained start finish i := Or.inr (by omega)
        rw [if_pos h2, decide_eq_true this]
      · rw [if_neg h2, decide_eq_false]
        rintro (h | h) <;> omega
  unfold monthStep
  dsimp only
  rw [hmi, hinc, monthRate_eq hc hh hz hm1 hm2, Except.ok_bind]
  dsimp only
  unfold monthBlock
  generalize rateOf (Retained start finish i) (calMonth i) (cl.side (calMonth i))
    (hl.side (calMonth i)) = rate
  have q : ∀ a b : ℤ, a - b < 0 ↔ a < b := fun a b => by omega
  have q' : ∀ a b : ℤ, a - b > 0 ↔ b < a := fun a b => by omega
  by_cases hret : Retained start finish i
  · rw [if_pos hret, decide_eq_true hret]
    simp only [q, q', hret, true_and]
    by_cases h1 : (cl.side (calMonth i)).day < (hl.side (calMonth i)).day
    · rw [if_pos h1, if_pos h1, placeLoads_eq hc hh hm2 hi]
    · rw [if_neg h1, if_neg h1]
      by_cases h2 : (hl.side (calMonth i)).day < (cl.side (calMonth i)).day
      · rw [if_pos h2, if_pos h2, placeLoads_eq hh hc hm2 hi]
      · rw [if_neg h2, if_neg h2, lastmonthhour_eq, Except.ok_bind, push_eq]
        simp
  · rw [if_neg hret, if_neg (by omega), if_neg (by omega)]
    simp only [hret, false_and, if_false]
    rw [lastmonthhour_eq, Except.ok_bind, push_eq]
    simp

/-! ### the whole sequence -/

/-- all entries -/
def allEntries (cl hl : Loads K) (start finish n : ℕ) : List (K × K) :=
  [(0, 0), (0, (hoursOf (start - 1) : K))] ++ (List.range n).flatMap fun k =>
    monthBlock (Retained start finish (start + k)) (start + k) (cl.side (calMonth (start + k)))
      (hl.side (calMonth (start + k)))

theorem months_fold {cl hl : Loads K} (hc : Full cl) (hh : Full hl) (hz : NonZero cl hl)
    {start finish : ℕ} (hs : 1 ≤ start) (n : ℕ) (s : Hybrid K) :
    ((List.range n).map fun k : ℕ => ((start + k : ℕ) : ℤ)).foldlM
      (monthStep cl hl (start : ℤ) (finish : ℤ)) s =
      .ok (s.app ((List.range n).flatMap fun k =>
        monthBlock (Retained start finish (start + k)) (start + k) (cl.side (calMonth (start + k)))
          (hl.side (calMonth (start + k))))) := by
  induction n with
  | zero => simp [app_nil]
  | succ n ih =>
    rw [List.range_succ, List.map_append, List.foldlM_append, ih, Except.ok_bind, List.map_cons,
      List.map_nil, List.foldlM_cons, monthStep_eq hc hh hz (by omega), Except.ok_bind,
      List.foldlM_nil, app_app, List.flatMap_append]
    simp

theorem sf_fold (load : List K) (n : ℕ) (hn : n + 1 ≤ load.length) (sf : List K) :
    ((List.range n).map fun k : ℕ => ((k + 1 : ℕ) : ℤ)).foldlM (sfStep load) sf =
      .ok (sf ++ (List.range n).map fun k => load.getD (k + 1) 0 - load.getD k 0) := by
  induction n with
  | zero => simp
  | succ n ih =>
    rw [List.range_succ, List.map_append, List.foldlM_append, ih (by omega), Except.ok_bind,
      List.map_cons, List.map_nil, List.foldlM_cons]
    unfold sfStep
    rw [getD_ok (by omega) 0, Except.ok_bind, show ((n + 1 : ℕ) : ℤ) - 1 = (n : ℤ) by push_cast; ring,
      getD_ok (by omega) 0]
    simp

theorem process_eq {cl hl : Loads K} (hc : Full cl) (hh : Full hl) (hz : NonZero cl hl)
    {start finish : ℕ} (hs : 1 ≤ start) (hsf : start ≤ finish) :
    processMonthlyLoads cl hl (start : ℤ) (finish : ℤ) =
      .ok ⟨(allEntries cl hl start finish (finish + 1 - start)).map Prod.fst,
        (allEntries cl hl start finish (finish + 1 - start)).map Prod.snd,
        0 :: (List.range ((allEntries cl hl start finish (finish + 1 - start)).length - 1)).map fun k =>
          ((allEntries cl hl start finish (finish + 1 - start)).map Prod.fst).getD (k + 1) 0 -
          ((allEntries cl hl start finish (finish + 1 - start)).map Prod.fst).getD k 0⟩ := by
  unfold processMonthlyLoads
  dsimp only
  rw [firstmonthhour_int (by omega), Except.ok_bind]
  have hr : pyRange (start : ℤ) ((finish : ℤ) + 1) =
      (List.range (finish + 1 - start)).map fun k : ℕ => ((start + k : ℕ) : ℤ) := by
    unfold pyRange
    rw [show ((finish : ℤ) + 1 - start).toNat = finish + 1 - start by omega]
    apply List.map_congr_left
    intro k _; push_cast; ring
  rw [hr, months_fold hc hh hz hs, Except.ok_bind]
  set E := allEntries cl hl start finish (finish + 1 - start) with hE
  have hst : (({ load := [0], hour := [0], sfload := [0] } : Hybrid K).push 0
      ((1 + (hoursOf ((start : ℤ) - 1).toNat : ℤ) - 1 : ℤ) : K)).app
      ((List.range (finish + 1 - start)).flatMap fun k =>
        monthBlock (Retained start finish (start + k)) (start + k) (cl.side (calMonth (start + k)))
          (hl.side (calMonth (start + k)))) = ⟨E.map Prod.fst, E.map Prod.snd, [0]⟩ := by
    rw [hE]
    unfold allEntries Hybrid.app Hybrid.push
    rw [show ((start : ℤ) - 1).toNat = start - 1 by omega]
    simp
  rw [hst]
  have hlen : (E.map Prod.snd).length = E.length := List.length_map ..
  have hpos : 1 ≤ E.length := by rw [hE]; simp [allEntries]
  have hr2 : pyRange 1 ((E.map Prod.snd).length : ℤ) =
      (List.range (E.length - 1)).map fun k : ℕ => ((k + 1 : ℕ) : ℤ) := by
    unfold pyRange
    rw [hlen, show ((E.length : ℤ) - 1).toNat = E.length - 1 by omega]
    apply List.map_congr_left
    intro k _; push_cast; ring
  dsimp only
  rw [hr2, sf_fold _ _ (by rw [List.length_map]; omega), Except.ok_bind]
  rfl

/-! ### positions and integrals -/

theorem peakBlock_length (rate sign : K) (i : ℕ) (s : Side K) :
    (peakBlock rate sign i s).length = 2 * (if 0 < s.peak then 1 else 0) := by
  unfold peakBlock; split <;> rfl

theorem monthBlock_length (ret : Prop) [Decidable ret] (i : ℕ) (c h : Side K) :
    (monthBlock ret i c h).length = 1 + 2 * peaksShown ret c h := by
  unfold monthBlock peaksShown
  rw [List.length_append]
  by_cases hr : ret
  · rcases lt_trichotomy c.day h.day with h1 | h1 | h1
    · rw [if_pos ⟨hr, h1⟩, if_pos ⟨hr, h1.ne⟩, List.length_append, peakBlock_length, peakBlock_length]
      simp only [List.length_singleton]; ring
    · rw [if_neg (fun h => h1.not_lt h.2), if_neg (fun h => h1.not_gt h.2),
        if_neg (fun h => h.2 h1)]; rfl
    · rw [if_neg (fun h => h1.not_gt h.2), if_pos ⟨hr, h1⟩, if_pos ⟨hr, h1.ne'⟩, List.length_append,
        peakBlock_length, peakBlock_length]
      simp only [List.length_singleton]; ring
  · rw [if_neg (fun h => hr h.1), if_neg (fun h => hr h.1), if_neg (fun h => hr h.1)]; rfl

theorem allEntries_succ (cl hl : Loads K) (start finish n : ℕ) :
    allEntries cl hl start finish (n + 1) = allEntries cl hl start finish n ++
      monthBlock (Retained start finish (start + n)) (start + n) (cl.side (calMonth (start + n)))
        (hl.side (calMonth (start + n))) := by
  unfold allEntries
  rw [List.range_succ, List.flatMap_append, List.append_assoc]
  simp

theorem allEntries_prefix (cl hl : Loads K) (start finish : ℕ) {n N : ℕ} (h : n ≤ N) :
    ∃ post, allEntries cl hl start finish N = allEntries cl hl start finish n ++ post := by
  induction N, h using Nat.le_induction with
  | base => exact ⟨[], by simp⟩
  | succ N _ ih =>
    obtain ⟨post, hp⟩ := ih
    exact ⟨_, by rw [allEntries_succ, hp, List.append_assoc]⟩

theorem allEntries_length (cl hl : Loads K) (start finish n : ℕ) :
    (allEntries cl hl start finish n).length =
      2 + ∑ k ∈ Finset.range n, (1 + 2 * peaksShown (Retained start finish (start + k))
        (cl.side (calMonth (start + k))) (hl.side (calMonth (start + k)))) := by
  induction n with
  | zero => rfl
  | succ n ih => rw [allEntries_succ, List.length_append, ih, monthBlock_length,
      Finset.sum_range_succ]; ring

theorem monthEndPos_eq (cl hl : Loads K) (start finish i : ℕ) :
    monthEndPos start finish cl.side hl.side i + 1 =
      (allEntries cl hl start finish (i + 1 - start)).length := by
  rw [allEntries_length]
  unfold monthEndPos
  rw [Finset.sum_Ico_eq_sum_range]
  ring

/-- the entries up to the end of a month end with that month's last hour -/
theorem allEntries_last (cl hl : Loads K) {start : ℕ} (hs : 1 ≤ start) (finish n : ℕ) :
    ∃ pre rate, allEntries cl hl start finish n = pre ++ [(rate, (hoursOf (start + n - 1) : K))] := by
  cases n with
  | zero => exact ⟨[(0, 0)], 0, rfl⟩
  | succ n =>
    rw [allEntries_succ]
    unfold monthBlock
    rw [← List.append_assoc]
    exact ⟨_, _, rfl⟩

/-- integral of consecutive entries -/
def segInt : K → List (K × K) → K
  | _, [] => 0
  | p, (l, t) :: r => l * (t - p) + segInt t r

theorem segInt_append (l l' : List (K × K)) (x : K × K) : ∀ p,
    segInt p (l ++ x :: l') = segInt p (l ++ [x]) + segInt x.2 l' := by
  induction l with
  | nil => intro p; obtain ⟨a, b⟩ := x; simp [segInt]
  | cons y l ih => intro p; obtain ⟨a, b⟩ := y; simp only [List.cons_append, segInt, ih b]; ring

theorem stepIntegral_eq (seg : List (K × K)) : ∀ (pre post : List (K × K)) (x : K × K),
    stepIntegral ((pre ++ x :: (seg ++ post)).map Prod.fst) ((pre ++ x :: (seg ++ post)).map Prod.snd)
      pre.length (pre.length + seg.length) = segInt x.2 seg := by
  induction seg with
  | nil => intro pre post x; simp [stepIntegral, segInt]
  | cons y seg ih =>
    intro pre post x
    obtain ⟨l, t⟩ := y
    have h := ih (pre ++ [x]) post (l, t)
    unfold stepIntegral at h ⊢
    rw [List.length_append, List.length_singleton] at h
    have e : pre ++ [x] ++ (l, t) :: (seg ++ post) = pre ++ x :: ((l, t) :: seg ++ post) := by simp
    rw [e] at h
    rw [Finset.sum_eq_sum_Ico_succ_bot (by simp), List.length_cons,
      show pre.length + (seg.length + 1) = pre.length + 1 + seg.length by ring, h]
    simp [segInt]

end Ghedt.GL
