import Verif.Lemmas.HybridTotal
import Verif.Lemmas.DurationFloor
import Verif.Lemmas.MirrorLoads

/-!
# The hybrid load of loads multiplied by a positive number
-/

namespace Ghedt.Multiple
open Ghedt.GL Spec Search

variable {K : Type} [Field K] [LinearOrder K] [IsStrictOrderedRing K]

/-! ### Python primitives -/

theorem pyGet_map {α β : Type} (g : α → β) (l : List α) (i : ℤ) : pyGet (l.map g) i = (pyGet l i).map g := by
  unfold pyGet
  dsimp only
  rw [List.length_map]
  generalize (if i < 0 then i + (l.length : ℤ) else i) = j
  split_ifs
  · rfl
  · rw [List.getElem?_map]
    cases l[j.toNat]? <;> rfl

theorem pySet_map {α β : Type} (g : α → β) (l : List α) (i : ℤ) (v : α) :
    pySet (l.map g) i (g v) = (pySet l i v).map (List.map g) := by
  unfold pySet
  dsimp only
  rw [List.length_map]
  split_ifs <;> first | rfl | exact congrArg _ (List.map_set ..).symm

theorem pySlice_map {α β : Type} (g : α → β) (l : List α) (i j : ℤ) : pySlice (l.map g) i j = (pySlice l i j).map g := by
  unfold pySlice
  rw [List.length_map, List.map_drop, List.map_take]

theorem pyMax_map {a : K} (ha : 0 < a) (l : List K) : pyMax (l.map (a * ·)) = (pyMax l).map (a * ·) := by
  cases l with
  | nil => rfl
  | cons b l =>
    show Except.ok _ = Except.ok _
    congr 1
    show (l.map (a * ·)).foldl max (a * b) = a * l.foldl max b
    induction l generalizing b with
    | nil => rfl
    | cons c l ih =>
      rw [List.map_cons, List.foldl_cons, List.foldl_cons, ← ih, mul_max_of_nonneg _ _ ha.le]

theorem pyIndexOf_map {a : K} (ha : 0 < a) (l : List K) (x : K) : pyIndexOf (l.map (a * ·)) (a * x) = pyIndexOf l x := by
  unfold pyIndexOf
  rw [List.findIdx?_map]
  have : ((fun y : K => decide (y = a * x)) ∘ (a * ·)) = fun y => decide (y = x) := by
    funext y
    show decide (a * y = a * x) = _
    rw [decide_eq_decide]
    exact mul_right_inj' ha.ne'
  rw [this]

theorem sum_map (a : K) (l : List K) : (l.map (a * ·)).sum = a * l.sum := by
  rw [List.sum_map_mul_left, List.map_id']

theorem pyDiv_mul (a x y : K) : pyDiv (a * x) y = (pyDiv x y).map (a * ·) := by
  unfold pyDiv
  split_ifs
  · rfl
  · exact congrArg Except.ok (mul_div_assoc ..)

theorem pyDiv_both {a : K} (ha : 0 < a) (x y : K) : pyDiv (a * x) (a * y) = pyDiv x y := by
  unfold pyDiv
  by_cases h : y = 0
  · rw [if_pos h, if_pos (by rw [h, mul_zero])]
  · rw [if_neg h, if_neg (mul_ne_zero ha.ne' h), mul_div_mul_left _ _ ha.ne']

/-- a computation and one that gives the image of its result, step by step -/
theorem bind_map {α α' β β' : Type} {x : Py α} {y : Py α'} {g : α → α'} {k : α → Py β} {k' : α' → Py β'} {h : β → β'}
    (hx : y = x.map g) (hk : ∀ v, x = .ok v → k' (g v) = (k v).map h) : (y >>= k') = (x >>= k).map h := by
  subst hx
  cases x with
  | error e => rfl
  | ok v => exact hk v rfl

theorem bind_same {α β β' : Type} {x : Py α} {k : α → Py β} {k' : α → Py β'} {h : β → β'}
    (hk : ∀ v, x = .ok v → k' v = (k v).map h) : (x >>= k') = (x >>= k).map h := by
  cases x with
  | error e => rfl
  | ok v => exact hk v rfl

theorem foldlM_map {σ τ ι : Type} {f : σ → ι → Py σ} {f' : τ → ι → Py τ} (g : σ → τ) : ∀ (l : List ι) (s : σ),
    (∀ i ∈ l, ∀ s, f' (g s) i = (f s i).map g) → l.foldlM f' (g s) = (l.foldlM f s).map g := by
  intro l
  induction l with
  | nil => intro s _; rfl
  | cons i l ih =>
    intro s h
    rw [List.foldlM_cons, List.foldlM_cons]
    exact bind_map (h i (by simp) s) fun v _ => ih v fun j hj => h j (by simp [hj])

theorem mapM_map {α β γ : Type} {f : α → Py β} {f' : α → Py γ} (g : β → γ) (l : List α)
    (h : ∀ x ∈ l, f' x = (f x).map g) : l.mapM f' = (l.mapM f).map (List.map g) := by
  induction l with
  | nil => rfl
  | cons a l ih =>
    rw [List.mapM_cons, List.mapM_cons]
    exact bind_map (h a (by simp)) fun v _ => bind_map (ih fun x hx => h x (by simp [hx])) fun w _ => rfl

/-! ### the months -/

variable {a : K}

def split (a : K) (s : Split K) : Split K := ⟨s.prev, s.total.map (a * ·), s.peak.map (a * ·), s.average.map (a * ·), s.peakDay⟩

theorem splitStep_mul (ha : 0 < a) (hourly : List K) (s : Split K) (q : ℤ × ℕ) :
    splitStep (hourly.map (a * ·)) (split a s) q = (splitStep hourly s q).map (split a) := by
  unfold splitStep
  dsimp only [split]
  rw [pySlice_map, List.length_map, sum_map]
  refine bind_same fun _ _ => ?_
  refine bind_map (pySet_map (a * ·) _ _ _) fun total _ => ?_
  refine bind_map (pyMax_map ha _) fun pk _ => ?_
  refine bind_map (pySet_map (a * ·) _ _ _) fun peak _ => ?_
  refine bind_map (pyDiv_mul _ _ _) fun avg _ => ?_
  refine bind_map (pySet_map (a * ·) _ _ _) fun average _ => ?_
  rw [pyIndexOf_map ha]
  refine bind_same fun idx _ => ?_
  refine bind_same fun d _ => ?_
  rfl

theorem splitLoadByMonth_mul (ha : 0 < a) (hourly : List K) (days : List ℤ) :
    splitLoadByMonth (hourly.map (a * ·)) days = (splitLoadByMonth hourly days).map (split a) := by
  unfold splitLoadByMonth
  rw [← foldlM_map (split a) _ _ fun i _ s => splitStep_mul ha hourly s i]
  congr 1
  simp [split]

theorem processTwoDayLoads_mul (hourly : List K) (days peakDay : List ℤ) :
    processTwoDayLoads (hourly.map (a * ·)) days peakDay =
      (processTwoDayLoads hourly days peakDay).map (List.map (List.map (a * ·))) := by
  unfold processTwoDayLoads
  dsimp only
  rw [List.length_map, pySlice_map, pySlice_map, ← List.map_append, ← List.map_append]
  refine bind_map (g := fun s : ℤ × List (List K) => (s.1, s.2.map (List.map (a * ·)))) ?_ fun _ _ => rfl
  have h0 := foldlM_map (fun s : ℤ × List (List K) => (s.1, s.2.map (List.map (a * ·))))
    (f := twoDayStep (pySlice hourly ((hourly.length : ℤ) - 24) hourly.length ++ hourly ++ pySlice hourly 0 24) days peakDay)
    (f' := twoDayStep ((pySlice hourly ((hourly.length : ℤ) - 24) hourly.length ++ hourly ++ pySlice hourly 0 24).map (a * ·))
      days peakDay) ((days.drop 1).zipIdx 1) (24, [[0]]) ?_
  · rw [← h0]
    simp
  · intro q _ s
    unfold twoDayStep
    dsimp only
    refine bind_same fun pd _ => ?_
    rw [pySlice_map, List.length_map]
    refine bind_same fun _ _ => ?_
    refine bind_same fun _ _ => ?_
    show Except.ok _ = Except.ok _
    simp

/-! ### the peak durations -/

theorem simulateHourly_mul (r : Resp K) (time : List ℤ) (q : List K) :
    simulateHourly r time (q.map (a * ·)) = (simulateHourly r time q).map (List.map (a * ·)) := by
  unfold simulateHourly
  refine bind_map (g := List.map (a * ·)) (mapM_map _ _ fun n _ => ?_) fun out _ => by
    show Except.ok _ = Except.ok _
    simp
  refine bind_same fun tn _ => ?_
  refine bind_same fun gv _ => ?_
  dsimp only
  have e : ((List.zipWith (· - ·) (q.map (a * ·)).tail (q.map (a * ·))).take n.toNat).map (· / r.twoPiK) =
      (((List.zipWith (· - ·) q.tail q).take n.toNat).map (· / r.twoPiK)).map (a * ·) := by
    rw [← List.map_tail, List.zipWith_map]
    rw [show (fun x y : K => a * x - a * y) = fun x y => a * (x - y) by funext x y; ring,
      ← List.map_zipWith, ← List.map_take, List.map_map, List.map_map]
    refine List.map_congr_left fun x _ => ?_
    show a * x / _ = a * (x / _)
    ring
  rw [e, List.length_map]
  split_ifs
  · rfl
  · refine bind_map (pyGet_map (a * ·) _ _) fun qn _ => ?_
    show Except.ok _ = Except.ok _
    congr 1
    rw [List.zipWith_map_left, show (fun x y : K => a * x * y) = fun x y => a * (x * y) by funext x y; ring,
      ← List.map_zipWith, sum_map]
    ring

theorem interpNodes_mul (ha : 0 < a) (l : List (K × K)) (v : K) :
    interpNodes (l.map fun p => (a * p.1, p.2)) (a * v) = interpNodes l v := by
  induction l with
  | nil => rfl
  | cons p l ih =>
    cases l with
    | nil =>
      simp only [List.map_cons, List.map_nil, interpNodes]
      simp only [mul_right_inj' ha.ne']
    | cons q l =>
      rw [List.map_cons] at ih
      simp only [List.map_cons, interpNodes]
      rw [ih]
      simp only [mul_lt_mul_iff_right₀ ha]
      congr 3
      rw [← mul_sub, ← mul_sub, mul_comm a (q.1 - p.1), ← div_div, div_mul_eq_mul_div, mul_comm a, ← mul_assoc,
        mul_div_assoc, div_self ha.ne', mul_one]

theorem interp1d_mul (ha : 0 < a) (x y : List K) (v : K) : interp1d (x.map (a * ·)) y (a * v) = interp1d x y v := by
  unfold interp1d
  rw [List.length_map]
  split_ifs
  · rfl
  · rw [← interpNodes_mul ha ((x.zip y).insertionSort _), List.zip_map_left]
    congr 1
    rw [show Prod.map (a * ·) id = fun p : K × K => (a * p.1, p.2) from rfl]
    symm
    exact List.map_insertionSort (r := fun x y : K × K => x.1 ≤ y.1) (s := fun x y : K × K => x.1 ≤ y.1)
      (fun p : K × K => (a * p.1, p.2)) _
      fun p _ q _ => (mul_le_mul_iff_right₀ ha).symm

theorem performMonth_mul (ha : 0 < a) (r : Resp K) (w : List K) (p v : K) :
    performMonth r (w.map (a * ·)) (a * p) (a * v) =
      (performMonth r w p v).map fun x => (x.1, x.2.1.map (a * ·), x.2.2.map (a * ·)) := by
  unfold performMonth
  dsimp only
  have e1 : (0 :: List.replicate (2 * 24) (a * p - a * v)) = (0 :: List.replicate (2 * 24) (p - v)).map (a * ·) := by
    rw [List.map_cons, List.map_replicate, mul_zero, mul_sub]
  rw [e1, List.length_map]
  refine bind_map (g := List.map (a * ·)) (mapM_map _ _ fun i _ => ?_) fun qn _ => ?_
  · refine bind_map (pyGet_map (a * ·) _ _) fun l _ => ?_
    rw [← mul_sub, pyDiv_both ha]
    refine bind_same fun b _ => ?_
    show Except.ok _ = Except.ok _
    congr 1
    ring
  refine bind_map (simulateHourly_mul r _ _) fun pk _ => ?_
  rw [show (0 : K) :: qn.map (a * ·) = (0 :: qn).map (a * ·) by simp]
  refine bind_map (simulateHourly_mul r _ _) fun nm _ => ?_
  refine bind_map (pyMax_map ha _) fun m _ => ?_
  have e2 : (if a * m > 0 then interp1d (pk.map (a * ·)) ((pyRange 0 (2 * 24 + 1)).map fun h : ℤ => (h : K)) (a * m)
      else .ok (1 / 1000000)) = (if m > 0 then interp1d pk ((pyRange 0 (2 * 24 + 1)).map fun h : ℤ => (h : K)) m
      else .ok (1 / 1000000)) := by
    rw [interp1d_mul ha]
    simp only [gt_iff_lt, mul_pos_iff_of_pos_left ha]
  rw [e2]
  refine bind_same fun d _ => ?_
  rfl

/-- the difference between the peak of month `i` and the largest load of its two days is on the same side of 0.1 kW before
and after the multiplication -/
def Agrees (a : K) (twoDay : List (List K)) (peak : List K) (i : ℤ) : Prop :=
  ∀ w p m, pyGet twoDay i = .ok w → pyGet peak i = .ok p → pyMax (0 :: w) = .ok m →
    p = m ∨ (|p - m| < 1 / 10 ↔ |a * p - a * m| < 1 / 10)

def pass (a : K) (s : List K × List (List K) × List (List K)) : List K × List (List K) × List (List K) :=
  (s.1, s.2.1.map (List.map (a * ·)), s.2.2.map (List.map (a * ·)))

theorem durationStep_mul (ha : 0 < a) (r : Resp K) (twoDay : List (List K)) (peak average : List K) (i : ℤ)
    (hag : Agrees a twoDay peak i) (s : List K × List (List K) × List (List K)) :
    durationStep r (twoDay.map (List.map (a * ·))) (peak.map (a * ·)) (average.map (a * ·)) (pass a s) i =
      (durationStep r twoDay peak average s i).map (pass a) := by
  unfold durationStep
  refine bind_map (pyGet_map _ _ _) fun w hw => ?_
  dsimp only
  refine bind_map (pyGet_map (a * ·) _ _) fun p hp => ?_
  rw [show (0 : K) :: w.map (a * ·) = (0 :: w).map (a * ·) by simp]
  refine bind_map (pyMax_map ha _) fun m hm => ?_
  have hu : (if |a * p - a * m| < 1 / 10 then a * p else a * m) = a * (if |p - m| < 1 / 10 then p else m) := by
    rcases hag w p m hw hp hm with rfl | h
    · simp
    · simp only [← h]
      split_ifs <;> rfl
  rw [hu]
  generalize (if |p - m| < 1 / 10 then p else m) = used
  refine bind_map (pyGet_map (a * ·) _ _) fun v _ => ?_
  by_cases h0 : used ≠ 0
  · rw [if_pos h0, if_pos (mul_ne_zero ha.ne' h0)]
    refine bind_map (performMonth_mul ha r _ _ _) fun x _ => ?_
    refine bind_same fun d _ => ?_
    show Except.ok _ = Except.ok _
    simp [pass]
  · rw [if_neg h0, if_neg (by simpa [ha.ne'] using h0)]
    refine bind_same fun d _ => ?_
    rfl

/-- the attributes of `Loads`, multiplied -/
def loads (a : K) (L : Loads K) : Loads K where
  hourly := L.hourly.map (a * ·)
  days := L.days
  total := L.total.map (a * ·)
  peak := L.peak.map (a * ·)
  average := L.average.map (a * ·)
  peakDay := L.peakDay
  twoDay := L.twoDay.map (List.map (a * ·))
  tempsNm := L.tempsNm.map (List.map (a * ·))
  tempsPk := L.tempsPk.map (List.map (a * ·))
  duration := L.duration

theorem mkLoads_mul (ha : 0 < a) (r : Resp K) (hourly : List K) (year : ℤ) {L : Loads K} (h : mkLoads r hourly year = .ok L)
    (hag : ∀ i : ℤ, 1 ≤ i → i < 13 → Agrees a L.twoDay L.peak i) :
    mkLoads r (hourly.map (a * ·)) year = .ok (loads a L) := by
  have hd : L.days.length = 13 := by rw [(mkLoads_inv h).2.2.1]; rfl
  have key : mkLoads r (hourly.map (a * ·)) year = (mkLoads r hourly year).map (loads a) := by
    revert h
    unfold mkLoads
    rw [List.length_map]
    intro h
    simp only [bind_eq_ok] at h
    obtain ⟨days, h1, _, h2, s, h3, td, h4, ⟨du, pk, nm⟩, h5, h6⟩ := h
    cases h6
    rw [h1, Except.ok_bind, Except.ok_bind, h2, Except.ok_bind, Except.ok_bind, splitLoadByMonth_mul ha, h3]
    show ((processTwoDayLoads _ _ s.peakDay) >>= _) = _
    rw [processTwoDayLoads_mul, Except.ok_bind, h4]
    show _ = Except.map _ (_ >>= _)
    refine bind_map (g := pass a) ?_ fun x _ => rfl
    rw [← foldlM_map (pass a) _ _ fun i hi s => durationStep_mul ha r _ _ _ i (hag i ?_ ?_) s]
    · simp [pass]
      rfl
    · exact (mem_pyRange.1 hi).1
    · have := (mem_pyRange.1 hi).2
      dsimp only at hd
      omega
  rw [key, h]
  rfl

/-! ### the hybrid load -/

def hybrid (a : K) (s : Hybrid K) : Hybrid K := ⟨s.load.map (a * ·), s.hour, s.sfload.map (a * ·)⟩

omit [LinearOrder K] [IsStrictOrderedRing K] in
theorem hybrid_push (a : K) (s : Hybrid K) (l h : K) : (hybrid a s).push (a * l) h = hybrid a (s.push l h) := by
  simp [hybrid, Hybrid.push]

theorem placeLoads_mul (ha : 0 < a) (order : List (Loads K × K)) (rate : K) (mi i : ℤ) (b : Bool) (s : Hybrid K) :
    placeLoads (order.map fun o => (loads a o.1, o.2)) (a * rate) mi i b (hybrid a s) =
      (placeLoads order rate mi i b s).map (hybrid a) := by
  unfold placeLoads
  rw [List.foldlM_map]
  refine bind_map (g := hybrid a) (foldlM_map (hybrid a) order s fun o _ s => ?_) fun s _ => ?_
  · unfold placeStep
    refine bind_map (pyGet_map (a * ·) _ _) fun p _ => ?_
    simp only [gt_iff_lt, mul_pos_iff_of_pos_left ha]
    split_ifs
    · refine bind_same (x := peakHourRange o.1 mi i) fun v _ => ?_
      show Except.ok _ = Except.ok _
      congr 1
      show ((hybrid a s).push (a * rate) v.1).push (o.2 * (a * p)) v.2 = _
      rw [hybrid_push, mul_left_comm, hybrid_push]
    · rfl
  · refine bind_same fun e _ => ?_
    show Except.ok _ = Except.ok _
    rw [hybrid_push]

theorem monthRate_mul (cl hl : Loads K) (mi : ℤ) (b : Bool) :
    monthRate (loads a cl) (loads a hl) mi b = (monthRate cl hl mi b).map fun x => (a * x.1, x.2) := by
  unfold monthRate
  refine bind_same fun md _ => ?_
  refine bind_map (pyGet_map (a * ·) _ _) fun tc _ => ?_
  refine bind_map (pyGet_map (a * ·) _ _) fun th _ => ?_
  have he : ∀ L : Loads K, peakEnergy (loads a L) mi = (peakEnergy L mi).map (a * ·) := by
    intro L
    unfold peakEnergy
    refine bind_map (pyGet_map (a * ·) _ _) fun p _ => ?_
    refine bind_same fun d _ => ?_
    show Except.ok _ = Except.ok _
    rw [mul_assoc]
  split_ifs
  · refine bind_same fun dc _ => ?_
    refine bind_same fun dh _ => ?_
    refine bind_map (he cl) fun ec _ => ?_
    refine bind_map (he hl) fun eh _ => ?_
    dsimp only
    rw [show a * tc - a * th - a * ec + a * eh = a * (tc - th - ec + eh) by ring]
    refine bind_map (pyDiv_mul _ _ _) fun rate _ => ?_
    refine bind_same fun pc _ => ?_
    refine bind_same fun ph _ => ?_
    rfl
  · dsimp only
    rw [← mul_sub]
    exact bind_map (pyDiv_mul _ _ _) fun rate _ => rfl

theorem monthStep_mul (ha : 0 < a) (cl hl : Loads K) (sm em : ℤ) (s : Hybrid K) (i : ℤ) :
    monthStep (loads a cl) (loads a hl) sm em (hybrid a s) i = (monthStep cl hl sm em s i).map (hybrid a) := by
  unfold monthStep
  dsimp only
  generalize (if i % 12 = 0 then 12 else i % 12) = mi
  generalize (if i < sm + 12 then true else if i > em - 12 then true else false) = b
  refine bind_map (monthRate_mul cl hl mi b) fun x _ => ?_
  obtain ⟨rate, d⟩ := x
  dsimp only
  split_ifs
  · exact placeLoads_mul ha [(cl, 1), (hl, -1)] rate mi i b s
  · exact placeLoads_mul ha [(hl, -1), (cl, 1)] rate mi i b s
  · refine bind_same fun e _ => ?_
    show Except.ok _ = Except.ok _
    rw [hybrid_push]

theorem processMonthlyLoads_mul (ha : 0 < a) (cl hl : Loads K) (sm em : ℤ) :
    processMonthlyLoads (loads a cl) (loads a hl) sm em = (processMonthlyLoads cl hl sm em).map (hybrid a) := by
  unfold processMonthlyLoads
  refine bind_same fun f _ => ?_
  dsimp only
  have h0 : (⟨[0], [0], [0]⟩ : Hybrid K).push 0 ((f - 1 : ℤ) : K) =
      hybrid a ((⟨[0], [0], [0]⟩ : Hybrid K).push 0 ((f - 1 : ℤ) : K)) := by
    simp [hybrid, Hybrid.push]
  conv_lhs => rw [h0]
  refine bind_map (foldlM_map (hybrid a) _ _ fun i _ s => monthStep_mul ha cl hl sm em s i) fun s _ => ?_
  · refine bind_map (g := List.map (a * ·)) (foldlM_map (List.map (a * ·)) _ s.sfload fun i _ sf => ?_) fun sf _ => rfl
    unfold sfStep
    refine bind_map (pyGet_map (a * ·) _ _) fun x _ => ?_
    refine bind_map (pyGet_map (a * ·) _ _) fun y _ => ?_
    show Except.ok _ = Except.ok _
    rw [List.map_append, List.map_singleton, mul_sub]

theorem mkHybrid_mul (ha : 0 < a) (r : Resp K) (rej ext : List K) (sm em year : ℤ) {cl hl : Loads K} {H : Hybrid K}
    (h : mkHybrid r rej ext sm em year = .ok (cl, hl, H))
    (hc : ∀ i : ℤ, 1 ≤ i → i < 13 → Agrees a cl.twoDay cl.peak i) (hh : ∀ i : ℤ, 1 ≤ i → i < 13 → Agrees a hl.twoDay hl.peak i) :
    mkHybrid r (rej.map (a * ·)) (ext.map (a * ·)) sm em year = .ok (loads a cl, loads a hl, hybrid a H) := by
  unfold mkHybrid at h ⊢
  simp only [bind_eq_ok] at h
  obtain ⟨cl', h1, hl', h2, H', h3, h4⟩ := h
  cases h4
  rw [mkLoads_mul ha r rej year h1 hc, Except.ok_bind, mkLoads_mul ha r ext year h2 hh, Except.ok_bind,
    processMonthlyLoads_mul ha, h3]
  rfl

end Ghedt.Multiple
