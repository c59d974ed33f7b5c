import Verif.Props.NestedSearch

/-!
# All outcomes of `BisectionZD` (C37)
-/

set_option linter.unusedSectionVars false

namespace Ghedt.Search
open Utilities

variable {F K : Type} [Field K] [LinearOrder K] [IsStrictOrderedRing K] [FloorRing K]

/-- How a search along nested domains ends when nothing is wrong with its start: a field within the limits at maximum
height is returned; or some field is at a limit exactly; or sizing one of the fields failed, and that exception is passed
on. -/
def Ends (env : Env F K) (ex : F → K → K) (nested : List (List F)) (r : Py (ℤ × F)) : Prop :=
  (∃ (d : List F) (k : ℕ) (f : F), d ∈ nested ∧ d[k]? = some f ∧ ex f env.maxHeight ≤ 0 ∧ r = .ok ((k : ℤ), f)) ∨
  (∃ d ∈ nested, ∃ f ∈ d, ex f env.minHeight = 0 ∨ ex f env.maxHeight = 0) ∧ r = .error .zeroDivisionError ∨
  ∃ d ∈ nested, ∃ f ∈ d, ∃ e, env.sizeH f env.maxHeight = .error e ∧ r = .error e

theorem search_total {env : Env F K} {ex : F → K → K} {d : List F} (h : Answers env ex d) (hne : d ≠ []) (s : State F K)
    (hs : s.temps = []) :
    (∃ k f s', search env d s = (.ok (some (k, f)), s')) ∨ (search env d s).1 = .error .valueError ∨
    (∃ f ∈ d, ex f env.minHeight = 0 ∨ ex f env.maxHeight = 0) ∧ (search env d s).1 = .error .zeroDivisionError := by
  have h0 := List.head?_eq_some_head hne
  have hl := List.getLast?_eq_some_getLast hne
  obtain ⟨t1, t2, t3, t4, t5⟩ := (C32_outcomes env ex d h s hs).2 _ _ h0 hl _ _ _ rfl rfl rfl
  have hok : ∀ {k f}, (search env d s).1 = .ok (some (k, f)) → ∃ k f s', search env d s = (.ok (some (k, f)), s') := by
    intro k f e
    exact ⟨k, f, (search env d s).2, by rw [← e]⟩
  rcases lt_trichotomy (ex (d.head hne) env.minHeight * ex (d.head hne) env.maxHeight) 0 with hab | hab | hab
  · exact .inl (hok (t2 hab))
  · have := mul_eq_zero.1 hab
    exact .inr (.inr ⟨⟨_, List.head_mem hne, this⟩, t1 this⟩)
  · rcases lt_trichotomy (ex (d.head hne) env.maxHeight * ex (d.getLast hne) env.maxHeight) 0 with hbc | hbc | hbc
    · rcases t5 hab hbc with ⟨k, f, -, -, e⟩ | ⟨k, f, -, -, e1, e2, e3⟩
      · exact .inl (hok e)
      · exact .inr (.inr ⟨⟨f, List.mem_of_getElem? e1, .inr e2⟩, e3⟩)
    · rcases mul_eq_zero.1 hbc with hb | hc
      · rw [hb, mul_zero] at hab
        exact absurd hab (lt_irrefl _)
      · exact .inr (.inr ⟨⟨_, List.getLast_mem hne, .inr hc⟩, t3 hab hc⟩)
    · exact .inr (.inl (t4 hab hbc))

theorem successiveLoop_total {env : Env F K} {ex : F → K → K} {nested : List (List F)} (h : Answers env ex nested.flatten)
    (hdne : ∀ d ∈ nested, d ≠ []) : ∀ (rem : ℕ) (i : ℤ) (old : K) (s : State F K), 0 ≤ i → i + rem ≤ nested.length →
    (∃ s', successiveLoop env nested rem i old s = (.ok (), s')) ∨
    (∃ d ∈ nested, ∃ f ∈ d, ex f env.minHeight = 0 ∨ ex f env.maxHeight = 0) ∧
      (successiveLoop env nested rem i old s).1 = .error .zeroDivisionError ∨
    ∃ d ∈ nested, ∃ f ∈ d, ∃ e, env.sizeH f env.maxHeight = .error e ∧
      (successiveLoop env nested rem i old s).1 = .error e := by
  intro rem
  induction rem with
  | zero => exact fun i old s _ _ => .inl ⟨s, rfl⟩
  | succ rem ih =>
    intro i old s hi hl
    have hlt : i.toNat < nested.length := by omega
    have hget : nested[i.toNat]? = some nested[i.toNat] := List.getElem?_eq_getElem hlt
    set d := nested[i.toNat] with hd
    have hdm : d ∈ nested := List.getElem_mem hlt
    unfold successiveLoop
    rw [St.lift_ok ((pyGet_eq_ok hi).2 hget), St.modify_bind]
    set s0 : State F K := { s with temps := [] } with hs0
    rcases search_total (nested_answers h hdm) (hdne d hdm) s0 rfl with ⟨k, f, s1, e⟩ | e | ⟨hz, e⟩
    · have : St.tryExcept (do let r ← search env d; return some r : St (State F K) _) .valueError (pure none) s0 =
          (.ok (some (some (k, f))), s1) := by
        unfold St.tryExcept
        rw [St.bind_ok e]
        rfl
      rw [St.bind_ok this]
      dsimp only
      rw [St.modify_bind]
      obtain ⟨k', f', v, e', hk0, hf, -, -, hg, -⟩ := search_ok e (by intro q hq; cases hq)
      cases e'
      have hfm : f ∈ d := by
        rw [pyGet_eq_ok hk0] at hf
        exact List.mem_of_getElem? hf
      cases hsz : env.sizeH f env.maxHeight with
      | error er =>
        refine .inr (.inr ⟨d, hdm, f, hfm, er, hsz, ?_⟩)
        rw [St.bind_error (e := er) (s' := { s1 with tempsNested := PyDict.set s1.tempsNested i s1.temps })]
        unfold sizeHeld
        rw [St.get_bind]
        simp only [hg]
        rw [St.lift_error hsz]
      | ok H =>
        rw [St.bind_ok (a := (f, H)) (s' := { s1 with
          tempsNested := PyDict.set s1.tempsNested i s1.temps, ghe := some (f, H) })]
        · dsimp only
          rw [St.modify_bind]
          split_ifs with hc
          · exact .inl ⟨_, rfl⟩
          · exact ih (i + 1) _ _ (by omega) (by push_cast at hl; omega)
        · unfold sizeHeld
          rw [St.get_bind]
          simp only [hg]
          rw [St.lift_ok hsz, St.modify_bind]
          rfl
    · rcases hsr : search env d s0 with ⟨r, s1⟩
      rw [hsr] at e
      dsimp only at e
      subst e
      have : St.tryExcept (do let r ← search env d; return some r : St (State F K) _) .valueError (pure none) s0 =
          (.ok none, s1) := by
        unfold St.tryExcept
        rw [St.bind_error hsr]
        simp
      rw [St.bind_ok this]
      exact .inl ⟨_, rfl⟩
    · rcases hsr : search env d s0 with ⟨r, s1⟩
      rw [hsr] at e
      dsimp only at e
      subst e
      have : St.tryExcept (do let r ← search env d; return some r : St (State F K) _) .valueError (pure none) s0 =
          (.error .zeroDivisionError, s1) := by
        unfold St.tryExcept
        rw [St.bind_error hsr]
        simp
      refine .inr (.inl ⟨?_, by rw [St.bind_error this]⟩)
      obtain ⟨f, hf, hz⟩ := hz
      exact ⟨d, hdm, f, hf, hz⟩

theorem searchSuccessive_total {env : Env F K} {ex : F → K → K} {nested : List (List F)} (h : Answers env ex nested.flatten)
    (hdne : ∀ d ∈ nested, d ≠ []) (k0 : ℤ) (hk0 : 0 ≤ k0) (hk1 : k0 < nested.length) (s : State F K)
    (hh : s.heights = []) (hn : s.tempsNested = []) :
    (Ends env ex nested (searchSuccessive env nested k0 s).1 ∨ (searchSuccessive env nested k0 s).1 = .error .valueError) ∧
    (∀ d, nested[k0.toNat]? = some d → (∃ f, d.getLast? = some f ∧ ex f env.maxHeight ≤ 0) →
      (∀ d ∈ nested, ∀ f, d.head? = some f → 0 < ex f env.minHeight ∧ 0 < ex f env.maxHeight) →
      Ends env ex nested (searchSuccessive env nested k0 s).1) := by
  set rem := (min (nested.length : ℤ) (k0 + 7) - k0).toNat with hrem
  have hrem1 : 0 < rem := by omega
  have hreml : k0 + rem ≤ nested.length := by omega
  unfold searchSuccessive
  dsimp only
  rw [← hrem]
  rcases successiveLoop_total h hdne rem k0 99999 s hk0 hreml with ⟨s1, h1⟩ | ⟨hz, e⟩ | ⟨d, hd, f, hf, er, hsz, e⟩
  rotate_left
  · have : Ends env ex nested ((do
        successiveLoop env nested rem k0 99999
        let s ← St.get
        let keys := PyDict.keys s.heights
        let values := PyDict.values s.heights
        let m ← St.lift (pyMin values)
        let idx ← St.lift (pyIndexOf values m)
        let selOuter ← St.lift (pyGet keys idx)
        let temps ← St.lift (PyDict.get s.tempsNested selOuter)
        St.modify fun s => { s with temps := temps }
        let key ← St.lift (selectKey temps)
        let domain ← St.lift (pyGet nested selOuter)
        let selected ← St.lift (pyGet domain key)
        initializeGhe env selected env.maxHeight
        let _ ← sizeHeld env
        return (key, selected) : St (State F K) (ℤ × F)) s).1 := by
      refine .inr (.inl ⟨hz, ?_⟩)
      rcases hr : successiveLoop env nested rem k0 99999 s with ⟨r, s1⟩
      rw [hr] at e
      dsimp only at e
      subst e
      rw [St.bind_error hr]
    exact ⟨.inl this, fun _ _ _ _ => this⟩
  · have : Ends env ex nested ((do
        successiveLoop env nested rem k0 99999
        let s ← St.get
        let keys := PyDict.keys s.heights
        let values := PyDict.values s.heights
        let m ← St.lift (pyMin values)
        let idx ← St.lift (pyIndexOf values m)
        let selOuter ← St.lift (pyGet keys idx)
        let temps ← St.lift (PyDict.get s.tempsNested selOuter)
        St.modify fun s => { s with temps := temps }
        let key ← St.lift (selectKey temps)
        let domain ← St.lift (pyGet nested selOuter)
        let selected ← St.lift (pyGet domain key)
        initializeGhe env selected env.maxHeight
        let _ ← sizeHeld env
        return (key, selected) : St (State F K) (ℤ × F)) s).1 := by
      refine .inr (.inr ⟨d, hd, f, hf, er, hsz, ?_⟩)
      rcases hr : successiveLoop env nested rem k0 99999 s with ⟨r, s1⟩
      rw [hr] at e
      dsimp only at e
      subst e
      rw [St.bind_error hr]
    exact ⟨.inl this, fun _ _ _ _ => this⟩
  obtain ⟨ts, t1, t2, t3, t4, -, t6⟩ := successiveLoop_spec _ _ _ _ _ h1 (by rw [hh]; simp) (by rw [hn]; simp)
  rw [hh, List.nil_append] at t2
  rw [hn, List.nil_append] at t3
  rw [St.bind_ok h1, St.get_bind]
  -- nothing was sized
  by_cases hts : ts = []
  · subst hts
    have hv : (St.lift (pyMin (PyDict.values s1.heights)) >>= fun m => do
        let idx ← St.lift (pyIndexOf (PyDict.values s1.heights) m)
        let selOuter ← St.lift (pyGet (PyDict.keys s1.heights) idx)
        let temps ← St.lift (PyDict.get s1.tempsNested selOuter)
        St.modify fun s => { s with temps := temps }
        let key ← St.lift (selectKey temps)
        let domain ← St.lift (pyGet nested selOuter)
        let selected ← St.lift (pyGet domain key)
        initializeGhe env selected env.maxHeight
        let _ ← sizeHeld env
        return (key, selected) : St (State F K) (ℤ × F)) s1 = (.error .valueError, s1) := by
      rw [St.lift_error (e := .valueError)]
      rw [t2]
      rfl
    refine ⟨.inr (by rw [hv]), ?_⟩
    intro d hd ⟨fl, hfl, hle⟩ hsmall
    exfalso
    rcases t6 with t6 | ⟨d', s0, hd', hs0, hf⟩ | t6
    · simp at t6
      omega
    · simp only [List.length_nil, Nat.cast_zero, add_zero] at hd'
      rw [pyGet_eq_ok hk0, hd] at hd'
      cases hd'
      have hdm := List.mem_of_getElem? hd
      have h0 := List.head?_eq_some_head (hdne d hdm)
      obtain ⟨u1, u2⟩ := hsmall d hdm _ h0
      obtain ⟨-, -, v3, -, v5⟩ := (C32_outcomes env ex d (nested_answers h hdm) s0 hs0).2 _ _ h0 hfl _ _ _ rfl rfl rfl
      rcases hle.eq_or_lt with hle | hle
      · rw [v3 (mul_pos u1 u2) hle] at hf
        cases hf
      · rcases v5 (mul_pos u1 u2) (mul_neg_of_pos_of_neg u2 hle) with ⟨k, f, -, -, e⟩ | ⟨k, f, -, -, -, -, e⟩ <;>
          (rw [e] at hf; cases hf)
    · exact t6.1 rfl
  have hvals : PyDict.values s1.heights = ts.map Prod.fst := by
    rw [t2, PyDict.values]
    apply List.ext_getElem?
    intro j
    simp [List.getElem?_mapIdx]
    cases ts[j]? <;> simp
  obtain ⟨best, hbest⟩ := pyMin_ok_of_ne_nil (l := PyDict.values s1.heights) (by rw [hvals]; simpa using hts)
  obtain ⟨idx, hidx⟩ := pyIndexOf_of_mem (pyMin_eq_ok hbest).1
  obtain ⟨m, rfl, hm1, hm2⟩ := pyIndexOf_eq_ok hidx
  rw [hvals] at hm1
  obtain ⟨t, ht, htb⟩ : ∃ t, ts[m]? = some t ∧ t.1 = best := by
    rw [List.getElem?_map, Option.map_eq_some_iff] at hm1
    exact hm1
  have hsel : pyGet (PyDict.keys s1.heights) (m : ℤ) = .ok (k0 + m) := by
    rw [pyGet_eq_ok (by omega), Int.toNat_natCast, PyDict.keys, t2, List.getElem?_map, List.getElem?_mapIdx, ht]
    rfl
  have htemps : PyDict.get s1.tempsNested (k0 + m) = .ok t.2 := by
    unfold PyDict.get
    rw [t3, find?_mapIdx Prod.snd ts k0 m t ht]
  rw [St.lift_ok hbest, St.lift_ok hidx, St.lift_ok hsel, St.lift_ok htemps, St.modify_bind]
  obtain ⟨d, s0, s2, k, g, H, hd, hs0, hsr, hH, -, htt⟩ := t4 m t ht
  have hdm : d ∈ nested := by
    rw [pyGet_eq_ok (by omega)] at hd
    exact List.mem_of_getElem? hd
  obtain ⟨k', g', v, e, hk'0, hg', hv, hmem, -, hto, -, -, hc⟩ := search_ok hsr (by rw [hs0]; intro q hq; cases hq)
  cases e
  -- once a field is selected
  have hfin : ∀ key, selectKey t.2 = .ok key → Ends env ex nested ((do
      let key ← St.lift (selectKey t.2)
      let domain ← St.lift (pyGet nested (k0 + m))
      let selected ← St.lift (pyGet domain key)
      initializeGhe env selected env.maxHeight
      let _ ← sizeHeld env
      return (key, selected) : St (State F K) (ℤ × F)) { s1 with temps := t.2 }).1 := by
    intro key hkey
    obtain ⟨pre, post, w, hpre, hw, -, -⟩ := selectKey_eq_ok hkey
    have hkm : (key, w) ∈ s2.temps := by rw [← htt, hpre]; simp
    obtain ⟨q1, f, q2, q3⟩ := hto _ hkm
    simp only at q1 q2 q3
    have hf : d[key.toNat]? = some f := (pyGet_eq_ok q1).1 q2
    have hfm := List.mem_of_getElem? hf
    obtain ⟨b1, b2⟩ := h f (List.mem_flatten.2 ⟨d, hdm, hfm⟩) _ (.inr rfl)
    rw [q3] at b2
    cases b2
    rw [St.lift_ok hkey, St.lift_ok hd, St.lift_ok q2, St.bind_ok (initializeGhe_eq_ok.2 ⟨b1, rfl⟩)]
    cases hsz : env.sizeH f env.maxHeight with
    | error er =>
      refine .inr (.inr ⟨d, hdm, f, hfm, er, hsz, ?_⟩)
      rw [St.bind_error (e := er) (s' := { s1 with temps := t.2, ghe := some (f, env.maxHeight) })]
      unfold sizeHeld
      rw [St.get_bind]
      dsimp only
      rw [St.lift_error hsz]
    | ok H' =>
      refine .inl ⟨d, key.toNat, f, hdm, hf, hw, ?_⟩
      rw [St.bind_ok (a := (f, H')) (s' := { s1 with temps := t.2, ghe := some (f, H') })]
      · rw [Int.toNat_of_nonneg q1]
        rfl
      · unfold sizeHeld
        rw [St.get_bind]
        dsimp only
        rw [St.lift_ok hsz, St.modify_bind]
        rfl
  constructor
  · cases hkey : selectKey t.2 with
    | ok key =>
      have := hfin key hkey
      rw [hkey] at this
      exact .inl this
    | error er =>
      right
      rw [St.lift_error (e := er) rfl]
      have : er = .valueError := by
        by_cases hex : ∃ q ∈ t.2, q.2 ≤ 0
        · obtain ⟨q, hq, hq0⟩ := hex
          obtain ⟨k, hk⟩ := selectKey_ok hq hq0
          rw [hkey] at hk
          cases hk
        · push Not at hex
          have := selectKey_error (d := t.2) (fun q hq => not_le.2 (hex q hq))
          rw [hkey] at this
          cases this
          rfl
      rw [this]
  · intro d' _ _ hsmall
    rcases hc with ⟨-, hc⟩ | ⟨rfl, a, ha, hav⟩
    · exact hfin k (by rw [htt]; exact hc)
    · exfalso
      have hg0 : d.head? = some g := by
        rw [List.head?_eq_getElem?]
        exact (pyGet_eq_ok le_rfl).1 hg'
      obtain ⟨u1, u2⟩ := hsmall d hdm g hg0
      have hgm := List.mem_flatten.2 ⟨d, hdm, List.mem_of_mem_head? hg0⟩
      have r1 := (h g hgm _ (.inl rfl)).2
      have r2 := (h g hgm _ (.inr rfl)).2
      rw [ha] at r1
      rw [hv] at r2
      cases r1
      cases r2
      exact absurd hav (not_lt.2 (mul_pos u1 u2).le)

theorem outerDomain_first {nested : List (List F)} {d0 : List F} {f0 : F} (hd0 : nested.head? = some d0)
    (hf0 : d0.head? = some f0) (hdne : ∀ d ∈ nested, d ≠ []) :
    outerDomain nested = .ok (f0 :: nested.map fun d => d.getLastD f0) := by
  unfold outerDomain
  rw [List.head?_eq_getElem?] at hd0 hf0
  rw [(pyGet_eq_ok le_rfl).2 hd0, Except.ok_bind, (pyGet_eq_ok le_rfl).2 hf0, Except.ok_bind,
    mapM_ok (g := fun d => d.getLastD f0)]
  · rfl
  · intro d hd
    rw [pyGet_neg_one (hdne d hd), List.getLastD_eq_getLast?, List.getLast?_eq_some_getLast (hdne d hd)]
    rfl

/-- C37: all outcomes of `BisectionZD`, when the simulations of the search do not raise (sizing may).  `a`, `b` are the
excess of the very first field at minimum and maximum height, `c` that of the largest field of the last nested domain at
maximum height.  If the first field of every nested domain is too small and the last one large enough, a field within the
limits is returned, unless a field is at a limit exactly or sizing fails.  In general `ValueError` is possible, too: the
first field of the nested domain selected can be more than enough (`C37_nothing_sized`). -/
theorem C37_outcomes (env : Env F K) (ex : F → K → K) (nested : List (List F)) (h : Answers env ex nested.flatten)
    (hdne : ∀ d ∈ nested, d ≠ []) (d0 dl : List F) (f0 fl : F) (hd0 : nested.head? = some d0) (hf0 : d0.head? = some f0)
    (hdl : nested.getLast? = some dl) (hfl : dl.getLast? = some fl) (hB : env.build f0 env.boreholeH = .ok ()) (a b c : K)
    (ha : a = ex f0 env.minHeight) (hb : b = ex f0 env.maxHeight) (hc : c = ex fl env.maxHeight) (s : State F K)
    (hs : s.tempsNested = []) :
    (a = 0 ∨ b = 0 → (bisectionZD env nested s).1 = .error .zeroDivisionError) ∧
    (0 < a * b → c = 0 → (bisectionZD env nested s).1 = .error .zeroDivisionError) ∧
    (0 < a * b → 0 < b * c → (bisectionZD env nested s).1 = .error .valueError) ∧
    (Ends env ex nested (bisectionZD env nested s).1 ∨ (bisectionZD env nested s).1 = .error .valueError) ∧
    ((∀ d ∈ nested, ∀ f, d.head? = some f → 0 < ex f env.minHeight ∧ 0 < ex f env.maxHeight) → c < 0 →
      Ends env ex nested (bisectionZD env nested s).1) := by
  subst ha hb hc
  have hne : nested ≠ [] := by rintro rfl; simp at hd0
  have hm0 := List.mem_of_mem_head? hd0
  have hml := List.mem_of_getLast? hdl
  have hdnf : ∀ d ∈ nested, d.getLast? = some (d.getLastD f0) := by
    intro d hd
    rw [List.getLastD_eq_getLast?, List.getLast?_eq_some_getLast (hdne d hd)]
    rfl
  set outer := f0 :: nested.map (fun d => d.getLastD f0) with hout
  have hmem : ∀ f ∈ outer, ∃ d ∈ nested, f ∈ d := by
    intro f hf
    rcases List.mem_cons.1 hf with rfl | hf
    · exact ⟨d0, hm0, List.mem_of_mem_head? hf0⟩
    · obtain ⟨d, hd, rfl⟩ := List.mem_map.1 hf
      exact ⟨d, hd, List.mem_of_getLast? (hdnf d hd)⟩
  have hoa : Answers env ex outer := fun f hf => by
    obtain ⟨d, hd, hf⟩ := hmem f hf
    exact h f (List.mem_flatten.2 ⟨d, hd, hf⟩)
  have hlast : outer.getLast? = some fl := by
    have e1 : dl.getLastD f0 = fl := by rw [List.getLastD_eq_getLast?, hfl]; rfl
    have e2 : (nested.map fun d => d.getLastD f0) ≠ [] := by simpa using hne
    rw [hout, List.getLast?_cons_of_ne_nil e2, List.getLast?_map, hdl, Option.map_some, e1]
  set s0 : State F K := { s with ghe := some (f0, env.boreholeH), temps := [] } with hs0
  have heq : bisectionZD env nested s = (do
      let r ← search env outer
      match r with
      | none => St.throw .typeError
      | some (key, _) =>
        let outerKey := if key > 0 then key - 1 else key
        St.modify fun s => { s with heights := [] }
        searchSuccessive env nested outerKey : St (State F K) (ℤ × F)) s0 := by
    unfold bisectionZD
    have hd0' := hd0
    have hf0' := hf0
    rw [List.head?_eq_getElem?] at hd0' hf0'
    rw [St.lift_ok ((pyGet_eq_ok le_rfl).2 hd0'), St.bind_ok (setup_ok ((pyGet_eq_ok le_rfl).2 hf0') hB s),
      St.lift_ok (outerDomain_first hd0 hf0 hdne)]
    rfl
  obtain ⟨-, htab⟩ := C32_outcomes env ex outer hoa s0 rfl
  obtain ⟨t1, t2, t3, t4, t5⟩ := htab f0 fl rfl hlast _ _ _ rfl rfl rfl
  have herr : ∀ e, (search env outer s0).1 = .error e → (bisectionZD env nested s).1 = .error e := by
    intro e he
    rcases hr : search env outer s0 with ⟨r, s1⟩
    rw [hr] at he
    dsimp only at he
    subst he
    rw [heq, St.bind_error hr]
  -- after the outer search, the successive one
  have hok : ∀ key g s1, search env outer s0 = (.ok (some (key, g)), s1) →
      0 ≤ key ∧ key < nested.length + 1 ∧ outer[key.toNat]? = some g ∧ ∃ s2 : State F K, s2.heights = [] ∧ s2.tempsNested = [] ∧
        bisectionZD env nested s = searchSuccessive env nested (if key > 0 then key - 1 else key) s2 := by
    intro key g s1 hr
    obtain ⟨k', g', v, e, hk0, hg, -, -, -, -, hk, -⟩ := search_ok hr (by intro q hq; cases hq)
    cases e
    rw [pyGet_eq_ok hk0] at hg
    have hlt : key.toNat < outer.length := by
      by_contra hcon
      rw [List.getElem?_eq_none (by omega)] at hg
      cases hg
    rw [hout, List.length_cons, List.length_map] at hlt
    refine ⟨hk0, by omega, hg, { s1 with heights := [] }, rfl, ?_, ?_⟩
    · show s1.tempsNested = []
      rw [hk]
      exact hs
    · rw [heq, St.bind_ok hr]
      dsimp only
      rw [St.modify_bind]
  have hpos : 0 < nested.length := List.length_pos_iff.2 hne
  refine ⟨fun h1 => herr _ (t1 h1), fun h1 h2 => herr _ (t3 h1 h2), fun h1 h2 => herr _ (t4 h1 h2), ?_, ?_⟩
  · rcases search_total hoa (by simp [hout]) s0 rfl with ⟨key, g, s1, hr⟩ | e | ⟨⟨f, hf, hz⟩, e⟩
    · obtain ⟨k1, k2, -, s2, k3, k4, k5⟩ := hok key g s1 hr
      rw [k5]
      exact (searchSuccessive_total h hdne _ (by split_ifs <;> omega) (by split_ifs <;> omega) s2 k3 k4).1
    · exact .inr (herr _ e)
    · obtain ⟨d, hd, hf⟩ := hmem f hf
      exact .inl (.inr (.inl ⟨⟨d, hd, f, hf, hz⟩, herr _ e⟩))
  · intro hsmall hcneg
    obtain ⟨a0, b0⟩ := hsmall d0 hm0 f0 hf0
    rcases t5 (mul_pos a0 b0) (mul_neg_of_pos_of_neg b0 hcneg) with ⟨key, g, g1, g2, g3⟩ | ⟨k, f, -, -, k3, k4, k5⟩
    · rcases hr : search env outer s0 with ⟨r, s1⟩
      rw [hr] at g3
      dsimp only at g3
      subst g3
      obtain ⟨k1, k2, k6, s2, k3, k4, k5⟩ := hok _ g s1 hr
      rw [k5]
      obtain ⟨i, rfl⟩ : ∃ i, key = i + 1 := by
        rcases Nat.eq_zero_or_pos key with rfl | hp
        · cases g1
          exact absurd g2 (not_le.2 b0)
        · exact ⟨key - 1, by omega⟩
      have g1' : (nested.map fun d => d.getLastD f0)[i]? = some g := g1
      rw [List.getElem?_map] at g1'
      obtain ⟨d, hd, rfl⟩ := Option.map_eq_some_iff.1 g1'
      have hi : (if (((i + 1 : ℕ) : ℤ)) > 0 then (((i + 1 : ℕ) : ℤ)) - 1 else ((i + 1 : ℕ) : ℤ)) = i := by
        rw [if_pos (by omega)]
        omega
      rw [hi]
      exact (searchSuccessive_total h hdne _ (by omega) (by omega) s2 k3 k4).2 d (by simpa using hd)
        ⟨_, hdnf d (List.mem_of_getElem? hd), g2⟩ hsmall
    · obtain ⟨d, hd, hf⟩ := hmem f (List.mem_of_getElem? k3)
      exact .inr (.inl ⟨⟨d, hd, f, hf, .inr k4⟩, herr _ k5⟩)

/-- The cases of C37 on concrete data: a field is found; the first field of the second domain is already more than enough,
so that `ValueError` is raised; the field found is at a limit exactly; sizing fails. -/
example :
    let env : Env ℕ ℚ := exEnv (fun f H => if H = 50 then 12 - (f : ℚ) else 10 - (f : ℚ)) 15
    let raising : Env ℕ ℚ := { env with sizeH := fun f _ => if f = 11 then .error .keyError else .ok 60 }
    (bisectionZD env [[1, 5], [8, 20]] {}).1 = .ok (1, 20) ∧
    (bisectionZD env [[1, 5], [15, 20]] {}).1 = .error .valueError ∧
    (bisectionZD env [[1, 5], [8, 9, 10, 14, 20]] {}).1 = .error .zeroDivisionError ∧
    (bisectionZD env [[1, 5], [8, 9]] {}).1 = .error .valueError ∧
    (bisectionZD env [[1, 5, 10]] {}).1 = .error .zeroDivisionError ∧
    (bisectionZD raising [[1, 5], [8, 9, 11]] {}).1 = .error .keyError := by
  decide +kernel

end Ghedt.Search
