import Verif.Lemmas.Commute
import Verif.Lemmas.HybridTotal
import Verif.Lemmas.DurationFloor
import Verif.Lemmas.Alike

/-!
# The hybrid load with rejection and extraction exchanged
-/

namespace Ghedt.Mirror
open Ghedt.GL Spec Search

/-- The computation raises nothing but `ValueError`. -/
def OnlyValue {α : Type} (x : Py α) : Prop := ∀ e, x = .error e → e = .valueError

theorem OnlyValue.ok {α : Type} (a : α) : OnlyValue (.ok a : Py α) := fun _ h => by cases h

theorem OnlyValue.bind {α β : Type} {x : Py α} {f : α → Py β} (hx : OnlyValue x) (hf : ∀ a, x = .ok a → OnlyValue (f a)) :
    OnlyValue (x >>= f) := by
  cases x with
  | error e => exact fun e' h => hx e' (by cases h; rfl)
  | ok a => exact hf a rfl

theorem OnlyValue.mapM {α β : Type} {f : α → Py β} (l : List α) (hf : ∀ a ∈ l, OnlyValue (f a)) : OnlyValue (l.mapM f) := by
  induction l with
  | nil => exact OnlyValue.ok _
  | cons a l ih =>
    rw [List.mapM_cons]
    exact (hf a (by simp)).bind fun b _ => (ih fun x hx => hf x (by simp [hx])).bind fun c _ => OnlyValue.ok _

theorem OnlyValue.foldlM {α σ : Type} (I : σ → Prop) {f : σ → α → Py σ} (l : List α)
    (hf : ∀ s, ∀ a ∈ l, I s → OnlyValue (f s a) ∧ ∀ t, f s a = .ok t → I t) : ∀ s, I s → OnlyValue (l.foldlM f s) := by
  induction l with
  | nil => exact fun s _ => OnlyValue.ok _
  | cons a l ih =>
    intro s hs
    rw [List.foldlM_cons]
    obtain ⟨h1, h2⟩ := hf s a (by simp) hs
    exact h1.bind fun t ht => ih (fun s x hx => hf s x (by simp [hx])) t (h2 t ht)

theorem OnlyValue.pyMax {K : Type} [LinearOrder K] (l : List K) : OnlyValue (pyMax l) := by
  cases l with
  | nil => intro e h; cases h; rfl
  | cons a l => exact OnlyValue.ok _

theorem OnlyValue.pyGet {α : Type} {l : List α} {i : ℤ} (h0 : 0 ≤ i) (h : i < l.length) : OnlyValue (pyGet l i) := by
  unfold Ghedt.pyGet
  have h2 : i.toNat < l.length := by omega
  simp only [if_neg (not_lt.2 h0), List.getElem?_eq_getElem h2]
  exact OnlyValue.ok _

theorem OnlyValue.pySet {α : Type} {l : List α} {i : ℤ} (v : α) (h0 : 0 ≤ i) (h : i < l.length) : OnlyValue (pySet l i v) := by
  unfold Ghedt.pySet
  have h2 : i.toNat < l.length := by omega
  simp only [if_neg (not_lt.2 h0), if_pos h2]
  exact OnlyValue.ok _

theorem OnlyValue.pyDiv {x y : ℝ} (h : y ≠ 0) : OnlyValue (pyDiv x y) := by
  unfold Ghedt.pyDiv
  rw [if_neg h]
  exact OnlyValue.ok _

theorem OnlyValue.interp (l : List (ℝ × ℝ)) (v : ℝ) : OnlyValue (interpNodes l v) := by
  induction l with
  | nil => intro e h; cases h; rfl
  | cons p l ih =>
    cases l with
    | nil =>
      intro e h
      simp only [interpNodes] at h
      split_ifs at h
      cases h; rfl
    | cons q rest =>
      intro e h
      simp only [interpNodes] at h
      split_ifs at h
      · cases h; rfl
      · exact ih e h

theorem OnlyValue.interp1d (x y : List ℝ) (v : ℝ) : OnlyValue (interp1d x y v) := by
  unfold Ghedt.interp1d
  split_ifs
  · intro e h; cases h; rfl
  · exact OnlyValue.interp _ _

variable {r : Resp ℝ}

theorem onlyValue_simulateHourly (hr : ∀ t, OnlyValue (r.g t)) (time : List ℤ) (q : List ℝ) (h : time.length = q.length) :
    OnlyValue (simulateHourly r time q) := by
  unfold simulateHourly
  refine OnlyValue.bind (OnlyValue.mapM _ fun n hn => ?_) fun _ _ => OnlyValue.ok _
  have hn' : 1 ≤ n ∧ n < time.length := by
    simpa [mem_pyRange] using hn
  refine OnlyValue.bind (OnlyValue.pyGet (by omega) (by omega)) fun tn _ => OnlyValue.bind (OnlyValue.mapM _ fun τ _ => hr _)
    fun gv _ => ?_
  dsimp only
  split_ifs
  · intro e h; cases h; rfl
  · exact OnlyValue.bind (OnlyValue.pyGet (by omega) (by omega)) fun _ _ => OnlyValue.ok _

theorem mapM_len {α β : Type} {f : α → Py β} : ∀ {l : List α} {l' : List β}, l.mapM f = .ok l' → l'.length = l.length
  | [], _, h => by cases h; rfl
  | a :: l, l', h => by
    rw [List.mapM_cons] at h
    obtain ⟨b, -, h⟩ := bind_eq_ok.mp h
    obtain ⟨c, hc, h⟩ := bind_eq_ok.mp h
    cases h
    simp [mapM_len hc]

theorem onlyValue_performMonth (hr : ∀ t, OnlyValue (r.g t)) {w : List ℝ} (hw : w.length = 49) {p avg : ℝ} (hp : p ≠ 0) :
    OnlyValue (performMonth r w p avg) := by
  unfold performMonth
  refine OnlyValue.bind (OnlyValue.mapM _ fun i hi => ?_) fun qn hqn => ?_
  · have hi' : 1 ≤ i ∧ i < 49 := by
      have := mem_pyRange.1 hi
      simpa using this
    exact OnlyValue.bind (OnlyValue.pyGet (by omega) (by omega)) fun l _ => OnlyValue.bind (OnlyValue.pyDiv hp) fun _ _ =>
      OnlyValue.ok _
  have hl : qn.length = 48 := by
    have := mapM_len hqn
    simpa using this
  have ht : (pyRange 0 (2 * 24 + 1)).length = 49 := by simp [pyRange]
  refine OnlyValue.bind (onlyValue_simulateHourly hr _ _ (by rw [ht]; simp)) fun pk _ =>
    OnlyValue.bind (onlyValue_simulateHourly hr _ _ (by rw [ht]; simp [hl])) fun nm _ =>
    OnlyValue.bind (OnlyValue.pyMax _) fun m _ => OnlyValue.bind ?_ fun _ _ => OnlyValue.ok _
  split_ifs
  · exact OnlyValue.interp1d _ _ _
  · exact OnlyValue.ok _

theorem onlyValue_durationStep (hr : ∀ t, OnlyValue (r.g t)) {twoDay : List (List ℝ)} {peak average : List ℝ} {i : ℤ}
    (h0 : 1 ≤ i) (h12 : i < 13) (hp : peak.length = 13) (ha : average.length = 13) (ht : twoDay.length = 13)
    (hw : ∀ w, pyGet twoDay i = .ok w → w.length = 48) {s : List ℝ × List (List ℝ) × List (List ℝ)} (hs : s.1.length = 13) :
    OnlyValue (durationStep r twoDay peak average s i) ∧
      ∀ t, durationStep r twoDay peak average s i = .ok t → t.1.length = 13 := by
  constructor
  · unfold durationStep
    refine OnlyValue.bind (OnlyValue.pyGet (by omega) (by omega)) fun w hw' => OnlyValue.bind
      (OnlyValue.pyGet (by omega) (by omega)) fun p _ => OnlyValue.bind (OnlyValue.pyMax _) fun m _ => OnlyValue.bind
      (OnlyValue.pyGet (by omega) (by omega)) fun avg _ => ?_
    dsimp only
    generalize (if |p - m| < 1 / 10 then p else m) = u
    split_ifs with hu
    · exact OnlyValue.bind (onlyValue_performMonth hr (by simp [hw w hw']) hu) fun x _ => OnlyValue.bind
        (OnlyValue.pySet _ (by omega) (by omega)) fun _ _ => OnlyValue.ok _
    · exact OnlyValue.bind (OnlyValue.pySet _ (by omega) (by omega)) fun _ _ => OnlyValue.ok _
  · intro t h
    rw [durationStep_length h, hs]

theorem onlyValue_mkLoads (hr : ∀ t, OnlyValue (r.g t)) {hourly : List ℝ} {year : ℤ}
    (hlen : hourly.length = yearHours (decide (LeapYear year))) : OnlyValue (mkLoads r hourly year) := by
  obtain ⟨total, peak, average, peakDay, twoDay, hM, h⟩ := mkLoads_good r hlen
  rw [h]
  refine OnlyValue.bind (OnlyValue.foldlM (fun s => s.1.length = 13) _ (fun s i hi hs => ?_) _ (by simp)) fun _ _ => OnlyValue.ok _
  have hi' := mem_pyRange.1 hi
  refine onlyValue_durationStep hr hi'.1 hi'.2 hM.peak_length hM.average_length hM.twoDay_length (fun w hw => ?_) hs
  obtain ⟨t, p, a, d, w', -, -, -, -, e, -, hw'⟩ := hM.month i.toNat (by omega) (by omega)
  have : (i.toNat : ℤ) = i := by omega
  rw [← this, pyGet_ok' e] at hw
  cases hw
  exact hw'.1

/-! ### exchanging the two -/

/-- The hybrid load of the other sign. -/
def hybrid (h : Hybrid ℝ) : Hybrid ℝ := ⟨h.load.map fun q => -q, h.hour, h.sfload.map fun q => -q⟩

theorem push_hybrid (h : Hybrid ℝ) (l t : ℝ) : (hybrid h).push (-l) t = hybrid (h.push l t) := by
  simp [hybrid, Hybrid.push]

theorem pyGet_cases {α : Type} (l : List α) (i : ℤ) : (∃ a, pyGet l i = .ok a) ∨ pyGet l i = .error .indexError := by
  unfold pyGet
  dsimp only
  repeat' split
  all_goals simp

theorem pyGet_map {α β : Type} (f : α → β) (l : List α) (i : ℤ) : pyGet (l.map f) i = (pyGet l i).map f := by
  unfold pyGet
  simp only [List.length_map, List.getElem?_map]
  split_ifs
  all_goals first | rfl | (split <;> rename_i h <;> revert h <;> cases l[(_ : ℕ)]? <;> simp [Except.map, eq_comm])

theorem pyDiv_neg (x y : ℝ) : pyDiv (-x) y = (pyDiv x y).map fun q => -q := by
  unfold pyDiv
  split_ifs
  · rfl
  · exact congrArg Except.ok (neg_div y x)

theorem peakEnergy_cases (L : Loads ℝ) (mi : ℤ) :
    (∃ a, peakEnergy L mi = .ok a) ∨ peakEnergy L mi = .error .indexError := by
  unfold peakEnergy
  rcases pyGet_cases L.peak mi with ⟨p, h⟩ | h <;> rcases pyGet_cases L.duration mi with ⟨d, h'⟩ | h' <;> rw [h]
  · rw [Except.ok_bind, h']; exact .inl ⟨_, rfl⟩
  · rw [Except.ok_bind, h']; exact .inr rfl
  · exact .inr rfl
  · exact .inr rfl

theorem monthRate_swap (cl hl : Loads ℝ) (mi : ℤ) (inc : Bool) :
    monthRate hl cl mi inc = (monthRate cl hl mi inc).map fun x => (-x.1, -x.2) := by
  unfold monthRate
  cases monthdays mi with
  | error e => rfl
  | ok md =>
    simp only [Except.ok_bind]
    rcases pyGet_cases cl.total mi with ⟨tc, h1⟩ | h1 <;> rcases pyGet_cases hl.total mi with ⟨th, h2⟩ | h2 <;>
      simp only [h1, h2, Except.ok_bind]
    on_goal 1 =>
      by_cases hi : inc = true
      · simp only [if_pos hi]
        rcases pyGet_cases cl.duration mi with ⟨dc, h3⟩ | h3 <;> rcases pyGet_cases hl.duration mi with ⟨dh, h4⟩ | h4 <;>
          simp only [h3, h4, Except.ok_bind]
        on_goal 1 =>
          rcases peakEnergy_cases cl mi with ⟨ec, h5⟩ | h5 <;> rcases peakEnergy_cases hl mi with ⟨eh, h6⟩ | h6 <;>
            simp only [h5, h6, Except.ok_bind]
          on_goal 1 =>
            have e1 : th - tc - eh + ec = -(tc - th - ec + eh) := by ring
            have e2 : (md : ℝ) * 24 - dh - dc = (md : ℝ) * 24 - dc - dh := by ring
            rw [e1, e2, pyDiv_neg]
            cases pyDiv (tc - th - ec + eh) ((md : ℝ) * 24 - dc - dh) with
            | error e => rfl
            | ok q =>
              simp only [Except.map, Except.ok_bind]
              rcases pyGet_cases cl.peakDay mi with ⟨pc, h7⟩ | h7 <;> rcases pyGet_cases hl.peakDay mi with ⟨ph, h8⟩ | h8 <;>
                simp only [h7, h8, Except.ok_bind]
              all_goals first | rfl | (show Except.ok _ = Except.ok _; simp)
          all_goals rfl
        all_goals rfl
      · simp only [if_neg hi]
        have e1 : th - tc = -(tc - th) := by ring
        rw [e1, pyDiv_neg]
        cases pyDiv (tc - th) ((md : ℝ) * 24) with
        | error e => rfl
        | ok q =>
          show Except.ok _ = Except.ok _
          simp
    all_goals rfl

theorem placeStep_neg (rate : ℝ) (mi i : ℤ) (inc : Bool) (s : Hybrid ℝ) (o : Loads ℝ × ℝ) :
    placeStep (-rate) mi i inc (hybrid s) (o.1, -o.2) = (placeStep rate mi i inc s o).map hybrid := by
  unfold placeStep
  dsimp only
  cases pyGet o.1.peak mi with
  | error e => rfl
  | ok p =>
    simp only [Except.ok_bind]
    split_ifs
    · cases peakHourRange o.1 mi i with
      | error e => rfl
      | ok x =>
        show Except.ok _ = Except.ok _
        rw [push_hybrid, neg_mul, push_hybrid]
    · rfl

theorem placeLoads_neg (order : List (Loads ℝ × ℝ)) (rate : ℝ) (mi i : ℤ) (inc : Bool) (s : Hybrid ℝ) :
    placeLoads (order.map fun o => (o.1, -o.2)) (-rate) mi i inc (hybrid s) =
      (placeLoads order rate mi i inc s).map hybrid := by
  unfold placeLoads
  have h : ∀ (l : List (Loads ℝ × ℝ)) (s : Hybrid ℝ), (l.map fun o => (o.1, -o.2)).foldlM (placeStep (-rate) mi i inc) (hybrid s) =
      (l.foldlM (placeStep rate mi i inc) s).map hybrid := by
    intro l
    induction l with
    | nil => intro s; rfl
    | cons o l ih =>
      intro s
      simp only [List.map_cons, List.foldlM_cons, placeStep_neg]
      cases placeStep rate mi i inc s o with
      | error e => rfl
      | ok s' => exact ih s'
  rw [h]
  cases order.foldlM (placeStep rate mi i inc) s with
  | error e => rfl
  | ok s' =>
    simp only [Except.map, Except.ok_bind]
    cases lastmonthhour i with
    | error e => rfl
    | ok e =>
      show Except.ok _ = Except.ok _
      rw [push_hybrid]

theorem monthStep_swap (cl hl : Loads ℝ) (sm em : ℤ) (s : Hybrid ℝ) (i : ℤ) :
    monthStep hl cl sm em (hybrid s) i = (monthStep cl hl sm em s i).map hybrid := by
  unfold monthStep
  dsimp only
  rw [monthRate_swap cl hl]
  cases monthRate cl hl (if i % 12 = 0 then 12 else i % 12)
      (if i < sm + 12 then true else if i > em - 12 then true else false) with
  | error e => rfl
  | ok x =>
    obtain ⟨rate, d⟩ := x
    simp only [Except.map, Except.ok_bind]
    rcases lt_trichotomy d 0 with h | h | h
    · rw [if_neg (by omega), if_pos (by omega), if_pos h]
      have := placeLoads_neg [(cl, 1), (hl, -1)] rate (if i % 12 = 0 then 12 else i % 12) i
        (if i < sm + 12 then true else if i > em - 12 then true else false) s
      simp only [List.map_cons, List.map_nil, neg_neg] at this
      exact this
    · subst h
      simp only [neg_zero, lt_irrefl, gt_iff_lt, if_false]
      cases lastmonthhour i with
      | error e => rfl
      | ok e =>
        show Except.ok _ = Except.ok _
        rw [push_hybrid]
    · rw [if_pos (show -d < 0 by omega), if_neg (show ¬ d < 0 by omega), if_pos h]
      have := placeLoads_neg [(hl, -1), (cl, 1)] rate (if i % 12 = 0 then 12 else i % 12) i
        (if i < sm + 12 then true else if i > em - 12 then true else false) s
      simp only [List.map_cons, List.map_nil, neg_neg] at this
      exact this

theorem processMonthlyLoads_swap (cl hl : Loads ℝ) (sm em : ℤ) :
    processMonthlyLoads hl cl sm em = (processMonthlyLoads cl hl sm em).map hybrid := by
  unfold processMonthlyLoads
  dsimp only
  cases firstmonthhour sm with
  | error e => rfl
  | ok f =>
    simp only [Except.ok_bind]
    have h0 : Hybrid.push (⟨[0], [0], [0]⟩ : Hybrid ℝ) 0 ((f - 1 : ℤ) : ℝ) =
        hybrid (Hybrid.push ⟨[0], [0], [0]⟩ 0 ((f - 1 : ℤ) : ℝ)) := by
      simp [hybrid, Hybrid.push]
    conv_lhs => rw [h0]
    rw [Alike.foldlM_map hybrid (monthStep_swap cl hl sm em)]
    cases (pyRange sm (em + 1)).foldlM (monthStep cl hl sm em) (Hybrid.push ⟨[0], [0], [0]⟩ 0 ((f - 1 : ℤ) : ℝ)) with
    | error e => rfl
    | ok s =>
      simp only [Except.map, Except.ok_bind]
      have h1 : ∀ (sf : List ℝ) (i : ℤ), sfStep (hybrid s).load (sf.map fun q => -q) i =
          (sfStep s.load sf i).map (List.map fun q => -q) := by
        intro sf i
        unfold sfStep
        simp only [hybrid, pyGet_map]
        cases pyGet s.load i with
        | error e => rfl
        | ok a =>
          simp only [Except.map, Except.ok_bind]
          cases pyGet s.load (i - 1) with
          | error e => rfl
          | ok b =>
            show Except.ok _ = Except.ok _
            simp [sub_eq_add_neg, add_comm]
      have h2 := Alike.foldlM_map (List.map fun q : ℝ => -q) h1 (pyRange 1 s.hour.length) s.sfload
      have h3 : (hybrid s).sfload = s.sfload.map fun q => -q := rfl
      have h4 : (hybrid s).hour = s.hour := rfl
      rw [h3, h4, h2]
      cases (pyRange 1 s.hour.length).foldlM (sfStep s.load) s.sfload <;> rfl

theorem mkHybrid_swap (hr : ∀ t, OnlyValue (r.g t)) {rejection extraction : List ℝ} (hl : rejection.length = extraction.length)
    (sm em year : ℤ) : mkHybrid r extraction rejection sm em year =
      (mkHybrid r rejection extraction sm em year).map fun x => (x.2.1, x.1, hybrid x.2.2) := by
  unfold mkHybrid
  by_cases hlen : rejection.length = yearHours (decide (LeapYear year))
  · have h1 := onlyValue_mkLoads hr hlen
    have h2 := onlyValue_mkLoads hr (hl ▸ hlen)
    rcases e1 : mkLoads r rejection year with e | cl <;> rcases e2 : mkLoads r extraction year with e' | hl'
    · rw [h1 e e1, h2 e' e2]; rfl
    · rw [h1 e e1]; rfl
    · rw [h2 e' e2]; rfl
    · simp only [Except.ok_bind]
      rw [processMonthlyLoads_swap cl hl']
      cases processMonthlyLoads cl hl' sm em <;> rfl
  · rw [mkLoads_bad r hlen, mkLoads_bad r (hl ▸ hlen)]; rfl

end Ghedt.Mirror
