import Verif.Props.SearchRoutines
import Verif.Model.FlowRates

/-!
# Properties of the nested searches and of the flow handling (C36–C38)
-/

set_option linter.unusedSectionVars false

namespace Ghedt.Search
open Utilities
variable {F K : Type} [Field K] [LinearOrder K] [FloorRing K] [IsStrictOrderedRing K]

/-! ## C36 — `Bisection2D` -/

theorem setup_ok {env : Env F K} {domain : List F} {f0 : F} (h0 : pyGet domain 0 = .ok f0)
    (hb : env.build f0 env.boreholeH = .ok ()) (s : State F K) :
    setup env domain s =
      (.ok (), { s with ghe := some (f0, env.boreholeH), temps := [] }) := by
  unfold setup
  rw [St.lift_ok h0, St.bind_ok (initializeGhe_eq_ok.2 ⟨hb, rfl⟩)]
  rfl

theorem outerDomain_ok {nested : List (List F)} {f0 : F} (hne : nested ≠ [])
    (hfirst : ∀ d ∈ nested, d.head? = some f0) :
    outerDomain nested = .ok (f0 :: nested.map fun d => d.getLastD f0) := by
  unfold outerDomain
  obtain ⟨d0, rest, rfl⟩ := List.exists_cons_of_ne_nil hne
  have h0 : pyGet (d0 :: rest) 0 = .ok d0 := by
    rw [pyGet_eq_ok le_rfl]; rfl
  have h1 : pyGet d0 0 = .ok f0 := by
    rw [pyGet_eq_ok le_rfl]
    have := hfirst d0 (by simp)
    rw [List.head?_eq_getElem?] at this
    exact this
  rw [h0, Except.ok_bind, h1, Except.ok_bind, mapM_ok (g := fun d => d.getLastD f0)]
  · rfl
  · intro d hd
    have hdne : d ≠ [] := by
      rintro rfl
      have := hfirst [] hd
      simp at this
    rw [pyGet_neg_one hdne, List.getLastD_eq_getLast?, List.getLast?_eq_some_getLast hdne]
    rfl

/-- C36: whatever the simulation does, if `Bisection2D` returns, it returns a field of one of the
nested domains — the one at position `key - 1` where `key` is what the outer search over the first
field and the largest fields returned — and that field meets the limits at maximum height unless the
inner search took the single-field shortcut. -/
theorem C36_returned_field (env : Env F K) (nested : List (List F)) (s s' : State F K)
    (r : Option (ℤ × F)) (h : bisection2D env nested s = (.ok r, s')) :
    ∃ (outer : List F) (key : ℤ) (g : F) (inner : List F) (k : ℕ) (f : F) (v : K),
      outerDomain nested = .ok outer ∧
      (∃ s0 s1, s0.temps = [] ∧ search env outer s0 = (.ok (some (key, g)), s1)) ∧
      pyGet nested (key - 1) = .ok inner ∧ inner[k]? = some f ∧ r = some ((k : ℤ), f) ∧
      env.sim f env.maxHeight = .ok v ∧ s'.ghe = some (f, env.maxHeight) ∧
      (v ≤ 0 ∨ k = 0 ∧ ∃ a, env.sim f env.minHeight = .ok a ∧ a * v < 0) := by
  unfold bisection2D at h
  rw [St.lift_eq_ok] at h
  obtain ⟨first, -, h⟩ := h
  rw [St.bind_eq_ok] at h
  obtain ⟨u, s0, hset, h⟩ := h
  rw [St.lift_eq_ok] at h
  obtain ⟨outer, ho, h⟩ := h
  rw [St.bind_eq_ok] at h
  obtain ⟨r1, s1, h1, h⟩ := h
  have ht0 : s0.temps = [] := by
    unfold setup at hset
    rw [St.lift_eq_ok] at hset
    obtain ⟨c, -, hset⟩ := hset
    rw [St.bind_eq_ok] at hset
    obtain ⟨u', s2, -, hset⟩ := hset
    simp only [St.modify_apply, Prod.mk.injEq] at hset
    rw [← hset.2]
  cases r1 with
  | none => cases h
  | some p =>
    obtain ⟨key, g⟩ := p
    dsimp only at h
    rw [St.lift_eq_ok] at h
    obtain ⟨inner, hi, h⟩ := h
    rw [St.modify_bind] at h
    obtain ⟨k, f, v, rfl, hk0, hf, hv, -, hg, -, -, -, hc⟩ :=
      search_ok h (by intro q hq; cases hq)
    refine ⟨outer, key, g, inner, k.toNat, f, v, ho, ⟨s0, s1, ht0, h1⟩, hi, (pyGet_eq_ok hk0).1 hf,
      by rw [Int.toNat_of_nonneg hk0], hv, hg, ?_⟩
    rcases hc with hc | ⟨rfl, hc⟩
    · exact .inl hc.1
    · exact .inr ⟨rfl, hc⟩

/-- The result of `Bisection2D` when the set-up and the outer search are known. -/
theorem bisection2D_eq {env : Env F K} {nested : List (List F)} {f0 : F} (hne : nested ≠ [])
    (hfirst : ∀ d ∈ nested, d.head? = some f0) (hB : env.build f0 env.boreholeH = .ok ())
    (s : State F K) :
    bisection2D env nested s =
      (do
        let r ← search env (f0 :: nested.map fun d => d.getLastD f0)
        match r with
        | none => St.throw .typeError
        | some (key, _) =>
          let inner ← St.lift (pyGet nested (key - 1))
          St.modify fun s => { s with temps := [] }
          search env inner : St (State F K) (Option (ℤ × F)))
        { s with ghe := some (f0, env.boreholeH), temps := [] } := by
  unfold bisection2D
  obtain ⟨d0, rest, rfl⟩ := List.exists_cons_of_ne_nil hne
  have h0 : pyGet (d0 :: rest) 0 = .ok d0 := by
    rw [pyGet_eq_ok le_rfl]; rfl
  have h1 : pyGet d0 0 = .ok f0 := by
    rw [pyGet_eq_ok le_rfl]
    have := hfirst d0 (by simp)
    rw [List.head?_eq_getElem?] at this
    exact this
  rw [St.lift_ok h0, St.bind_ok (setup_ok h1 hB s), St.lift_ok (outerDomain_ok hne hfirst)]
  rfl

/-- The outer domain inherits `Answers`. -/
theorem outer_answers {env : Env F K} {ex : F → K → K} {nested : List (List F)} {f0 : F}
    (h : Answers env ex nested.flatten) (hne : nested ≠ [])
    (hfirst : ∀ d ∈ nested, d.head? = some f0) :
    Answers env ex (f0 :: nested.map fun d => d.getLastD f0) := by
  have hf0 : f0 ∈ nested.flatten := by
    obtain ⟨d0, rest, rfl⟩ := List.exists_cons_of_ne_nil hne
    rw [List.mem_flatten]
    exact ⟨d0, by simp, List.mem_of_head? (hfirst d0 (by simp))⟩
  intro f hf
  rcases List.mem_cons.1 hf with rfl | hf
  · exact h _ hf0
  · obtain ⟨d, hd, rfl⟩ := List.mem_map.1 hf
    apply h
    rw [List.mem_flatten]
    refine ⟨d, hd, ?_⟩
    have hdne : d ≠ [] := by
      rintro rfl
      have := hfirst [] hd
      simp at this
    rw [List.getLastD_eq_getLast?, List.getLast?_eq_some_getLast hdne]
    exact List.getLast_mem hdne

theorem nested_answers {env : Env F K} {ex : F → K → K} {nested : List (List F)}
    (h : Answers env ex nested.flatten) {d : List F} (hd : d ∈ nested) : Answers env ex d :=
  fun f hf => h f (List.mem_flatten.2 ⟨d, hd, hf⟩)

/-- C36: suppose all nested domains start with the same field `f0`, which is too small at both
heights, and the largest field of the last nested domain is feasible.  Then the outer search selects
the largest field `g` of some nested domain `d`, with negative excess, and the inner search on `d`
passes its initial checks: the result is a feasible field of `d`.  The only other possible outcome
is `ZeroDivisionError` (an excess that is exactly 0). -/
theorem C36_inner_search (env : Env F K) (ex : F → K → K) (nested : List (List F)) (f0 : F)
    (h : Answers env ex nested.flatten) (hB : env.build f0 env.boreholeH = .ok ())
    (hfirst : ∀ d ∈ nested, d.head? = some f0)
    (dl : List F) (fl : F) (hdl : nested.getLast? = some dl) (hfl : dl.getLast? = some fl)
    (ha : 0 < ex f0 env.minHeight) (hb : 0 < ex f0 env.maxHeight) (hc : ex fl env.maxHeight < 0)
    (s : State F K) :
    (∃ (i : ℕ) (d : List F) (g : F) (k : ℕ) (f : F) (s' : State F K),
      nested[i]? = some d ∧ d.getLast? = some g ∧ ex g env.maxHeight < 0 ∧
      d[k]? = some f ∧ ex f env.maxHeight ≤ 0 ∧
      bisection2D env nested s = (.ok (some ((k : ℤ), f)), s') ∧
      s'.ghe = some (f, env.maxHeight) ∧
      ∃ outer s0 s1, outerDomain nested = .ok outer ∧ s0.temps = [] ∧
        search env outer s0 = (.ok (some ((i : ℤ) + 1, g)), s1)) ∨
    (bisection2D env nested s).1 = .error .zeroDivisionError := by
  have hne : nested ≠ [] := by rintro rfl; simp at hdl
  have hdne : ∀ d ∈ nested, d ≠ [] := by
    rintro d hd rfl
    have := hfirst [] hd
    simp at this
  set outer := f0 :: nested.map (fun d => d.getLastD f0) with hout
  have hoa : Answers env ex outer := outer_answers h hne hfirst
  have hlast : outer.getLast? = some fl := by
    have e1 : dl.getLastD f0 = fl := by rw [List.getLastD_eq_getLast?, hfl]; rfl
    have e2 : (nested.map fun d => d.getLastD f0).getLast? = some fl := by
      rw [List.getLast?_map, hdl, Option.map_some, e1]
    rw [hout, List.getLast?_cons, e2]; rfl
  rw [bisection2D_eq hne hfirst hB s]
  set s0 : State F K := { s with ghe := some (f0, env.boreholeH), temps := [] } with hs0
  obtain ⟨fld, P, hfld, hP1, hP2, hP3, hP4, hr⟩ := bisection_of_answers hoa rfl hlast s0 rfl
    (mul_pos ha hb) (mul_neg_of_pos_of_neg hb hc)
  rcases hr with ⟨-, s1, hr, -⟩ | ⟨hnz, key, xL, xR, s1, hr, -, -, -, -, hsel, htm, hk0, hkn, hk, -⟩
  · right; rw [St.bind_error hr]
  · rw [St.bind_ok hr]
    dsimp only
    obtain ⟨pre, post, v, hd, hv, -, -⟩ := selectKey_eq_ok hsel
    have hmk : (key, v) ∈ s1.temps := by rw [hd]; simp
    obtain ⟨hkk, hvv⟩ := (htm _).1 hmk
    simp only at hkk hvv
    have hf0 : fld 0 = f0 := by
      have := hfld 0 le_rfl (by simp [hout])
      simp [hout] at this
      exact this.symm
    have hfl' : fld ((outer.length : ℤ) - 1) = fl := by
      have := hfld ((outer.length : ℤ) - 1) (by simp [hout]) (by omega)
      rw [List.getLast?_eq_getElem?] at hlast
      rw [show ((outer.length : ℤ) - 1).toNat = outer.length - 1 by omega, hlast] at this
      exact (Option.some.inj this).symm
    have hkpos : 0 < key := by
      rcases hk0.lt_or_eq with h1 | h1
      · exact h1
      · rw [← h1, hf0] at hk; exact absurd hk (not_le.2 hb)
    have hkneg : ex (fld key) env.maxHeight < 0 := by
      rcases hkk with h1 | h1 | h1
      · omega
      · rw [h1, hfl']; exact hc
      · exact lt_of_le_of_ne hk (hnz key h1)
    have hol : outer.length = nested.length + 1 := by simp [hout]
    have hil : (key - 1).toNat < nested.length := by omega
    set d := nested[(key - 1).toNat] with hdd
    have hdm : d ∈ nested := List.getElem_mem hil
    have hgetd : nested[(key - 1).toNat]? = some d := List.getElem?_eq_getElem hil
    have hg : d.getLast? = some (fld key) := by
      have := hfld key hk0 hkn
      rw [hout, show key.toNat = (key - 1).toNat + 1 by omega, List.getElem?_cons_succ,
        List.getElem?_map, hgetd, Option.map_some, List.getLastD_eq_getLast?] at this
      rw [List.getLast?_eq_some_getLast (hdne d hdm)] at this ⊢
      simpa using this
    rw [St.lift_ok ((pyGet_eq_ok (by omega)).2 hgetd), St.modify_bind]
    set s2 : State F K := { s1 with temps := [] } with hs2
    have hda := nested_answers h hdm
    obtain ⟨fld', P', hfld', -, -, -, -, hr'⟩ := bisection_of_answers hda (hfirst d hdm) hg s2 rfl
      (mul_pos ha hb) (mul_neg_of_pos_of_neg hb hkneg)
    rcases hr' with ⟨-, s3, hr', -⟩ | ⟨-, k, xL', xR', s3, hr', -, -, -, hgh, -, -, j0, jn, jk, -⟩
    · right; rw [hr']
    · left
      refine ⟨(key - 1).toNat, d, fld key, k.toNat, fld' k, s3, hgetd, hg, hkneg,
        hfld' k j0 jn, jk, ?_, hgh, outer, s0, s1, outerDomain_ok hne hfirst, rfl, ?_⟩
      · rw [Int.toNat_of_nonneg j0]; exact hr'
      · rw [show (((key - 1).toNat : ℕ) : ℤ) + 1 = key by omega]; exact hr

/-- C36: with a shared first field that takes the single-field shortcut, the index `-1` used for the
inner domain is harmless: the result is key 0, the shared field. -/
theorem C36_shortcut (env : Env F K) (ex : F → K → K) (nested : List (List F)) (f0 : F)
    (h : Answers env ex nested.flatten) (hB : env.build f0 env.boreholeH = .ok ())
    (hne : nested ≠ []) (hfirst : ∀ d ∈ nested, d.head? = some f0)
    (hab : ex f0 env.minHeight * ex f0 env.maxHeight < 0) (s : State F K) :
    ∃ s', bisection2D env nested s = (.ok (some (0, f0)), s') ∧
      s'.ghe = some (f0, env.maxHeight) := by
  rw [bisection2D_eq hne hfirst hB s]
  obtain ⟨s1, h1, -⟩ := C35_shortcut env ex _ (outer_answers h hne hfirst) f0 rfl hab
    { s with ghe := some (f0, env.boreholeH), temps := [] }
  rw [St.bind_ok h1]
  dsimp only
  have hm := List.getLast_mem hne
  rw [show (0 : ℤ) - 1 = -1 by rfl, St.lift_ok (pyGet_neg_one hne), St.modify_bind]
  obtain ⟨s2, h2, h3, -⟩ := C35_shortcut env ex _ (nested_answers h hm) f0 (hfirst _ hm) hab
    { s1 with temps := [] }
  exact ⟨s2, h2, h3⟩

/-- C36: the complete outcome table of the nested search, when the simulations themselves do not raise and all nested
domains start with the same field `f0`.  `a`, `b` are that field's excess at minimum and maximum height, `c` that of the
largest field of the last nested domain at maximum height.  In the last row, a first field that is oversized although a
larger one is undersized, a feasible field may or may not be found. -/
theorem C36_outcomes (env : Env F K) (ex : F → K → K) (nested : List (List F)) (f0 : F)
    (h : Answers env ex nested.flatten) (hB : env.build f0 env.boreholeH = .ok ())
    (hfirst : ∀ d ∈ nested, d.head? = some f0)
    (dl : List F) (fl : F) (hdl : nested.getLast? = some dl) (hfl : dl.getLast? = some fl) (a b c : K)
    (ha : a = ex f0 env.minHeight) (hb : b = ex f0 env.maxHeight) (hc : c = ex fl env.maxHeight) (s : State F K) :
    (a = 0 ∨ b = 0 → (bisection2D env nested s).1 = .error .zeroDivisionError) ∧
    (a * b < 0 → (bisection2D env nested s).1 = .ok (some (0, f0))) ∧
    (0 < a * b → c = 0 → (bisection2D env nested s).1 = .error .zeroDivisionError) ∧
    (0 < a * b → 0 < b * c → (bisection2D env nested s).1 = .error .valueError) ∧
    (0 < a → 0 < b → c < 0 →
      (∃ (d : List F) (k : ℕ) (f : F), d ∈ nested ∧ d[k]? = some f ∧ ex f env.maxHeight ≤ 0 ∧
        (bisection2D env nested s).1 = .ok (some ((k : ℤ), f))) ∨
      (∃ d ∈ nested, ∃ f ∈ d, ex f env.maxHeight = 0) ∧
        (bisection2D env nested s).1 = .error .zeroDivisionError) ∧
    (a < 0 → b < 0 → 0 < c →
      (∃ (d : List F) (k : ℕ) (f : F), d ∈ nested ∧ d[k]? = some f ∧ ex f env.maxHeight ≤ 0 ∧
        (bisection2D env nested s).1 = .ok (some ((k : ℤ), f))) ∨
      (bisection2D env nested s).1 = .error .valueError ∨
      (∃ d ∈ nested, ∃ f ∈ d, ex f env.maxHeight = 0) ∧
        (bisection2D env nested s).1 = .error .zeroDivisionError) := by
  subst ha hb hc
  have hne : nested ≠ [] := by rintro rfl; simp at hdl
  have hdne : ∀ d ∈ nested, d ≠ [] := by
    rintro d hd rfl
    have := hfirst [] hd
    simp at this
  have hml : dl ∈ nested := List.mem_of_getLast? hdl
  set outer := f0 :: nested.map (fun d => d.getLastD f0) with hout
  have hoa : Answers env ex outer := outer_answers h hne hfirst
  have hmem : ∀ f ∈ outer, ∃ d ∈ nested, f ∈ d := by
    intro f hf
    rcases List.mem_cons.1 hf with rfl | hf
    · exact ⟨dl, hml, List.mem_of_head? (hfirst dl hml)⟩
    · obtain ⟨d, hd, rfl⟩ := List.mem_map.1 hf
      refine ⟨d, hd, ?_⟩
      rw [List.getLastD_eq_getLast?, List.getLast?_eq_some_getLast (hdne d hd)]
      exact List.getLast_mem (hdne d hd)
  have hlast : outer.getLast? = some fl := by
    have e1 : dl.getLastD f0 = fl := by rw [List.getLastD_eq_getLast?, hfl]; rfl
    have e2 : (nested.map fun d => d.getLastD f0) ≠ [] := by simpa using hne
    rw [hout, List.getLast?_cons_of_ne_nil e2, List.getLast?_map, hdl, Option.map_some, e1]
  set s0 : State F K := { s with ghe := some (f0, env.boreholeH), temps := [] } with hs0
  have heq := bisection2D_eq hne hfirst hB s
  rw [← hout, ← hs0] at heq
  obtain ⟨-, htab⟩ := C32_outcomes env ex outer hoa s0 rfl
  obtain ⟨t1, t2, t3, t4, t5⟩ := htab f0 fl rfl hlast _ _ _ rfl rfl rfl
  -- an exception of the outer search is passed on
  have herr : ∀ e, (search env outer s0).1 = .error e → (bisection2D env nested s).1 = .error e := by
    intro e he
    rcases hr : search env outer s0 with ⟨r, s1⟩
    rw [hr] at he
    dsimp only at he
    subst he
    rw [heq, St.bind_error hr]
  -- after the outer search, the inner one
  have hok : ∀ key g, (search env outer s0).1 = .ok (some (key, g)) → ∀ d, pyGet nested (key - 1) = .ok d →
      ∃ s1 : State F K, s1.temps = [] ∧ bisection2D env nested s = search env d s1 := by
    intro key g he d hd
    rcases hr : search env outer s0 with ⟨r, s1⟩
    rw [hr] at he
    dsimp only at he
    subst he
    refine ⟨{ s1 with temps := [] }, rfl, ?_⟩
    rw [heq, St.bind_ok hr]
    dsimp only
    rw [St.lift_ok hd, St.modify_bind]
  refine ⟨fun h1 => herr _ (t1 h1), fun h1 => ?_, fun h1 h2 => herr _ (t3 h1 h2), fun h1 h2 => herr _ (t4 h1 h2),
    fun h1 h2 h3 => ?_, fun h1 h2 h3 => ?_⟩
  · obtain ⟨s', e, -⟩ := C36_shortcut env ex nested f0 h hB hne hfirst h1 s
    rw [e]
  · have hab := mul_pos h1 h2
    rcases t5 hab (mul_neg_of_pos_of_neg h2 h3) with ⟨key, g, g1, g2, g3⟩ | ⟨k, f, -, -, k3, k4, k5⟩
    · obtain ⟨i, rfl⟩ : ∃ i, key = i + 1 := by
        rcases Nat.eq_zero_or_pos key with rfl | hpos
        · cases g1
          exact absurd g2 (not_le.2 h2)
        · exact ⟨key - 1, by omega⟩
      have g1' : (nested.map fun d => d.getLastD f0)[i]? = some g := g1
      rw [List.getElem?_map] at g1'
      obtain ⟨d, hd, rfl⟩ := Option.map_eq_some_iff.1 g1'
      have hdm := List.mem_of_getElem? hd
      have hg : d.getLast? = some (d.getLastD f0) := by
        rw [List.getLastD_eq_getLast?, List.getLast?_eq_some_getLast (hdne d hdm)]
        rfl
      obtain ⟨s1, hs1, e⟩ := hok _ _ g3 d (by
        push_cast
        rw [show ((i : ℤ) + 1 - 1) = i by ring, pyGet_eq_ok (by omega)]
        simpa using hd)
      rw [e]
      obtain ⟨-, htab'⟩ := C32_outcomes env ex d (nested_answers h hdm) s1 hs1
      obtain ⟨-, -, u3, -, u5⟩ := htab' f0 _ (hfirst d hdm) hg _ _ _ rfl rfl rfl
      rcases g2.eq_or_lt with g2 | g2
      · exact .inr ⟨⟨d, hdm, _, List.mem_of_getLast? hg, g2⟩, u3 hab g2⟩
      · rcases u5 hab (mul_neg_of_pos_of_neg h2 g2) with ⟨k, f, v1, v2, v3⟩ | ⟨k, f, -, -, v1, v2, v3⟩
        · exact .inl ⟨d, k, f, hdm, v1, v2, v3⟩
        · exact .inr ⟨⟨d, hdm, f, List.mem_of_getElem? v1, v2⟩, v3⟩
    · obtain ⟨d, hd, hf⟩ := hmem f (List.mem_of_getElem? k3)
      exact .inr ⟨⟨d, hd, f, hf, k4⟩, herr _ k5⟩
  · have hab := mul_pos_of_neg_of_neg h1 h2
    rcases t5 hab (mul_neg_of_neg_of_pos h2 h3) with ⟨key, g, g1, g2, g3⟩ | ⟨k, f, -, -, k3, k4, k5⟩
    · rcases Nat.eq_zero_or_pos key with rfl | hpos
      · obtain ⟨s1, hs1, e⟩ := hok _ _ g3 dl (by
          have := pyGet_neg_one hne
          rw [List.getLast?_eq_some_getLast hne] at hdl
          rw [← Option.some.inj hdl]
          exact this)
        rw [e]
        obtain ⟨-, htab'⟩ := C32_outcomes env ex dl (nested_answers h hml) s1 hs1
        obtain ⟨-, -, -, -, u5⟩ := htab' f0 _ (hfirst dl hml) hfl _ _ _ rfl rfl rfl
        rcases u5 hab (mul_neg_of_neg_of_pos h2 h3) with ⟨k, f, v1, v2, v3⟩ | ⟨k, f, -, -, v1, v2, v3⟩
        · exact .inl ⟨dl, k, f, hml, v1, v2, v3⟩
        · exact .inr (.inr ⟨⟨dl, hml, f, List.mem_of_getElem? v1, v2⟩, v3⟩)
      · obtain ⟨i, rfl⟩ : ∃ i, key = i + 1 := ⟨key - 1, by omega⟩
        have g1' : (nested.map fun d => d.getLastD f0)[i]? = some g := g1
        rw [List.getElem?_map] at g1'
        obtain ⟨d, hd, rfl⟩ := Option.map_eq_some_iff.1 g1'
        have hdm := List.mem_of_getElem? hd
        have hg : d.getLast? = some (d.getLastD f0) := by
          rw [List.getLastD_eq_getLast?, List.getLast?_eq_some_getLast (hdne d hdm)]
          rfl
        obtain ⟨s1, hs1, e⟩ := hok _ _ g3 d (by
          push_cast
          rw [show ((i : ℤ) + 1 - 1) = i by ring, pyGet_eq_ok (by omega)]
          simpa using hd)
        rw [e]
        obtain ⟨-, htab'⟩ := C32_outcomes env ex d (nested_answers h hdm) s1 hs1
        obtain ⟨-, -, u3, u4, -⟩ := htab' f0 _ (hfirst d hdm) hg _ _ _ rfl rfl rfl
        rcases g2.eq_or_lt with g2 | g2
        · exact .inr (.inr ⟨⟨d, hdm, _, List.mem_of_getLast? hg, g2⟩, u3 hab g2⟩)
        · exact .inr (.inl (u4 hab (mul_pos_of_neg_of_neg h2 g2)))
    · obtain ⟨d, hd, hf⟩ := hmem f (List.mem_of_getElem? k3)
      exact .inr (.inr ⟨⟨d, hd, f, hf, k4⟩, herr _ k5⟩)

/-- C36 (limitation): if the shared first field is *over*sized at both heights while the outer
search selects the largest field of a nested domain, the inner search always fails with
`ValueError` although a feasible field (the first one) exists. -/
theorem C36_oversized_first_fails (env : Env F K) (ex : F → K → K) (nested : List (List F)) (f0 : F)
    (h : Answers env ex nested.flatten) (hB : env.build f0 env.boreholeH = .ok ())
    (hfirst : ∀ d ∈ nested, d.head? = some f0) (hne : nested ≠ [])
    (ha : ex f0 env.minHeight < 0) (hb : ex f0 env.maxHeight < 0)
    (s : State F K) (key : ℤ) (g : F) (s1 : State F K) (hkey : 0 < key)
    (hg : ex g env.maxHeight ≠ 0)
    (hout : search env (f0 :: nested.map fun d => d.getLastD f0)
      { s with ghe := some (f0, env.boreholeH), temps := [] } = (.ok (some (key, g)), s1)) :
    (bisection2D env nested s).1 = .error .valueError := by
  have hdne : ∀ d ∈ nested, d ≠ [] := by
    rintro d hd rfl
    have := hfirst [] hd
    simp at this
  rw [bisection2D_eq hne hfirst hB s, St.bind_ok hout]
  dsimp only
  obtain ⟨key', g', v, e, hk0, hgm, hv, -, -, -, -, -, hc⟩ :=
    search_ok hout (by intro q hq; cases hq)
  cases e
  have hoa := outer_answers h hne hfirst
  rw [pyGet_eq_ok hk0] at hgm
  have hgo := List.mem_of_getElem? hgm
  have hvg : v = ex g env.maxHeight := by
    have := (hoa g hgo _ (.inr rfl)).2
    rw [hv] at this; exact Except.ok.inj this
  have hneg : ex g env.maxHeight < 0 := by
    rcases hc with hc | hc
    · exact lt_of_le_of_ne (hvg ▸ hc.1) hg
    · omega
  rw [show key.toNat = (key - 1).toNat + 1 by omega, List.getElem?_cons_succ, List.getElem?_map,
    Option.map_eq_some_iff] at hgm
  obtain ⟨d, hd, hdg⟩ := hgm
  have hdm := List.mem_of_getElem? hd
  rw [St.lift_ok ((pyGet_eq_ok (by omega)).2 hd), St.modify_bind]
  have hlast : d.getLast? = some g := by
    rw [List.getLastD_eq_getLast?] at hdg
    rw [List.getLast?_eq_some_getLast (hdne d hdm)] at hdg ⊢
    rw [← hdg]; rfl
  refine ((C32_never_none env ex d (nested_answers h hdm) _ rfl).2.1).2
    ⟨f0, g, hfirst d hdm, hlast, mul_pos_of_neg_of_neg ha hb, mul_pos_of_neg_of_neg hb hneg⟩

/-- C36 on concrete data: three nested domains sharing the field `1`. -/
example :
    (bisection2D (exEnv (fun f H => if H = 50 then 99 else 10 - (f : ℚ)) 15)
      [[1, 2, 4], [1, 3, 9, 11, 13], [1, 8, 20, 25]] {}).1 = .ok (some (3, 11)) := by
  decide +kernel

example :
    (bisection2D (exEnv (fun f H => if f = 1 then 75 - H else (f : ℚ)) 15)
      [[1, 2, 4], [1, 3, 9, 11, 13]] {}).1 = .ok (some (0, 1)) ∧
    (bisection2D (exEnv (fun f _ => if f = 1 then -5 else if f = 4 then -1 else 1) 15)
      [[1, 2, 4], [1, 3, 9]] {}).1 = .error .valueError := by
  decide +kernel

/-! ## C37 — `BisectionZD` -/

/-- What one pass of `search_successive` over nested domain `i` does when it sizes: a fresh search on
that domain selects `f`, the exchanger is sized to height `H`, and the total drilling is
`nbh(f) * H`; `temps` are the temperatures recorded by that search. -/
def Sized (env : Env F K) (nested : List (List F)) (i : ℤ) (total : K) (temps : PyDict ℤ K) : Prop :=
  ∃ d s0 s1 k f H, pyGet nested i = .ok d ∧ s0.temps = [] ∧
    search env d s0 = (.ok (some (k, f)), s1) ∧ env.sizeH f env.maxHeight = .ok H ∧
    total = (env.nbh f : K) * H ∧ temps = s1.temps

/-- The search on nested domain `i` fails with `ValueError`. -/
def SearchFails (env : Env F K) (nested : List (List F)) (i : ℤ) : Prop :=
  ∃ d s0, pyGet nested i = .ok d ∧ s0.temps = [] ∧ (search env d s0).1 = .error .valueError

theorem sizeHeld_eq_ok {env : Env F K} {s s' : State F K} {r : F × K}
    (h : sizeHeld env s = (.ok r, s')) {f : F} {H : K} (hg : s.ghe = some (f, H)) :
    ∃ H', env.sizeH f H = .ok H' ∧ r = (f, H') ∧ s' = { s with ghe := some (f, H') } := by
  unfold sizeHeld at h
  rw [St.get_bind] at h
  simp only [hg] at h
  rw [St.lift_eq_ok] at h
  obtain ⟨H', hH, h⟩ := h
  rw [St.modify_bind, St.pure_apply] at h
  cases h
  exact ⟨H', hH, rfl, rfl⟩

theorem successiveLoop_spec {env : Env F K} {nested : List (List F)} :
    ∀ (rem : ℕ) (i : ℤ) (old : K) (s s' : State F K),
      successiveLoop env nested rem i old s = (.ok (), s') →
      (∀ q ∈ s.heights, q.1 < i) → (∀ q ∈ s.tempsNested, q.1 < i) →
      ∃ ts : List (K × PyDict ℤ K), ts.length ≤ rem ∧
        s'.heights = s.heights ++ ts.mapIdx (fun j t => (i + (j : ℤ), t.1)) ∧
        s'.tempsNested = s.tempsNested ++ ts.mapIdx (fun j t => (i + (j : ℤ), t.2)) ∧
        (∀ (j : ℕ) t, ts[j]? = some t → Sized env nested (i + j) t.1 t.2) ∧
        (∀ j : ℕ, j + 1 < ts.length → ∀ x y, (old :: ts.map Prod.fst)[j]? = some x →
          (old :: ts.map Prod.fst)[j + 1]? = some y → y ≤ x) ∧
        (ts.length = rem ∨ SearchFails env nested (i + ts.length) ∨
          (ts ≠ [] ∧ ∀ x y, (old :: ts.map Prod.fst)[ts.length - 1]? = some x →
            (old :: ts.map Prod.fst)[ts.length]? = some y → x < y)) := by
  intro rem
  induction rem with
  | zero =>
    intro i old s s' h _ _
    simp only [successiveLoop, St.pure_apply, Prod.mk.injEq] at h
    refine ⟨[], by simp, ?_, ?_, by simp, by simp, .inl rfl⟩
    · rw [← h.2]; simp
    · rw [← h.2]; simp
  | succ rem ih =>
    intro i old s s' h hh hn
    unfold successiveLoop at h
    rw [St.lift_eq_ok] at h
    obtain ⟨d, hd, h⟩ := h
    rw [St.modify_bind, St.bind_eq_ok] at h
    obtain ⟨r, s1, hr, h⟩ := h
    set s0 : State F K := { s with temps := [] } with hs0
    unfold St.tryExcept at hr
    rcases hsr : search env d s0 with ⟨res, s2⟩
    cases res with
    | error e =>
      have : (do let r ← search env d; return some r : St (State F K) _) s0 = (.error e, s2) :=
        St.bind_error hsr
      rw [this] at hr
      dsimp only at hr
      split at hr
      · next he =>
        simp only [St.pure_apply, Prod.mk.injEq, Except.ok.injEq] at hr
        obtain ⟨rfl, rfl⟩ := hr
        simp only [St.pure_apply, Prod.mk.injEq] at h
        obtain ⟨-, rfl⟩ := h
        subst he
        -- a failing search does not touch the records
        have hk := search_records hsr
        refine ⟨[], by simp, ?_, ?_, by simp, by simp, .inr (.inl ?_)⟩
        · rw [hk.2]; simp [hs0]
        · rw [hk.1]; simp [hs0]
        · refine ⟨d, s0, by simpa using hd, rfl, by rw [hsr]⟩
      · cases hr
    | ok res =>
      have : (do let r ← search env d; return some r : St (State F K) _) s0 =
          (.ok (some res), s2) := by rw [St.bind_ok hsr]; rfl
      rw [this] at hr
      dsimp only at hr
      simp only [Prod.mk.injEq, Except.ok.injEq] at hr
      obtain ⟨rfl, rfl⟩ := hr
      obtain ⟨key, f, v, rfl, hk0, hf, hv, hm, hg, ht, hk1, hk2, hc⟩ :=
        search_ok hsr (by intro q hq; cases hq)
      dsimp only at h
      rw [St.modify_bind, St.bind_eq_ok] at h
      obtain ⟨⟨f', H⟩, s3, h3, h⟩ := h
      obtain ⟨H', hH, e, rfl⟩ := sizeHeld_eq_ok h3 hg
      cases e
      dsimp only at h
      rw [St.modify_bind] at h
      have hnk : i ∉ PyDict.keys s2.tempsNested := by
        intro hmem
        rw [hk1] at hmem
        obtain ⟨q, hq, hqi⟩ := List.mem_map.1 hmem
        have := hn q hq
        omega
      have hhk : i ∉ PyDict.keys s2.heights := by
        intro hmem
        rw [hk2] at hmem
        obtain ⟨q, hq, hqi⟩ := List.mem_map.1 hmem
        have := hh q hq
        omega
      simp only [PyDict.keys_set_of_not_mem hnk, PyDict.keys_set_of_not_mem hhk] at h
      have hsz : Sized env nested i ((env.nbh f : K) * H) s2.temps :=
        ⟨d, s0, s2, key, f, H, hd, rfl, hsr, hH, rfl, rfl⟩
      split at h
      · next hlt =>
        simp only [St.pure_apply, Prod.mk.injEq, true_and] at h
        refine ⟨[((env.nbh f : K) * H, s2.temps)], by simp, ?_, ?_, ?_, by simp, .inr (.inr ?_)⟩
        · rw [← h, hk2]; simp [hs0]
        · rw [← h, hk1]; simp [hs0]
        · intro j t hj
          cases j with
          | zero => simp at hj; subst hj; simpa using hsz
          | succ j => simp at hj
        · refine ⟨by simp, ?_⟩
          intro x y hx hy
          simp at hx hy
          rw [← hx, ← hy]; exact hlt
      · next hlt =>
        obtain ⟨ts, t1, t2, t3, t4, t5, t6⟩ := ih (i + 1) _ _ s' h
          (by
            intro q hq
            rw [List.mem_append] at hq
            rcases hq with hq | hq
            · rw [hk2] at hq; have := hh q hq; omega
            · simp at hq; rw [hq]; simp)
          (by
            intro q hq
            rw [List.mem_append] at hq
            rcases hq with hq | hq
            · rw [hk1] at hq; have := hn q hq; omega
            · simp at hq; rw [hq]; simp)
        refine ⟨((env.nbh f : K) * H, s2.temps) :: ts, by simpa using t1, ?_, ?_, ?_, ?_, ?_⟩
        · rw [t2]
          simp only [List.mapIdx_cons, hk2, List.append_assoc, List.cons_append, List.nil_append]
          simp [hs0]
          congr 1; funext j t; simp; ring
        · rw [t3]
          simp only [List.mapIdx_cons, hk1, List.append_assoc, List.cons_append, List.nil_append]
          simp [hs0]
          congr 1; funext j t; simp; ring
        · intro j t hj
          cases j with
          | zero => simp at hj; subst hj; simpa using hsz
          | succ j =>
            rw [List.getElem?_cons_succ] at hj
            have := t4 j t hj
            push_cast
            rw [show i + ((j : ℤ) + 1) = i + 1 + j by ring]
            exact this
        · intro j hj x y hx hy
          cases j with
          | zero =>
            simp at hx hy
            rw [← hx, ← hy]; exact not_lt.1 hlt
          | succ j =>
            rw [List.length_cons] at hj
            rw [List.getElem?_cons_succ, List.map_cons] at hx hy
            exact t5 j (by omega) x y hx hy
        · rcases t6 with t6 | t6 | ⟨t6, t6'⟩
          · left; simp [t6]
          · right; left
            simp only [List.length_cons]
            push_cast
            rw [show i + ((ts.length : ℤ) + 1) = i + 1 + ts.length by ring]
            exact t6
          · right; right
            refine ⟨by simp, ?_⟩
            intro x y hx hy
            have hpos : 0 < ts.length := List.length_pos_iff.2 t6
            rw [List.length_cons, List.map_cons] at hx hy
            rw [show ts.length + 1 - 1 = (ts.length - 1) + 1 by omega, List.getElem?_cons_succ] at hx
            rw [List.getElem?_cons_succ] at hy
            exact t6' x y hx hy

theorem find?_mapIdx {β γ : Type} (g : β → γ) : ∀ (ts : List β) (i : ℤ) (m : ℕ) (t : β),
    ts[m]? = some t →
    PyDict.find? (ts.mapIdx fun j t => (i + (j : ℤ), g t)) (i + m) = some (g t) := by
  intro ts
  induction ts with
  | nil => intro i m t h; simp at h
  | cons a ts ih =>
    intro i m t h
    rw [List.mapIdx_cons]
    cases m with
    | zero => simp at h; subst h; simp [PyDict.find?]
    | succ m =>
      rw [List.getElem?_cons_succ] at h
      have := ih (i + 1) m t h
      simp only [PyDict.find?]
      rw [if_neg (by push_cast; omega)]
      rw [show i + ((m + 1 : ℕ) : ℤ) = i + 1 + m by push_cast; ring, ← this]
      congr 1
      congr 1
      funext j t
      simp; ring

/-- C37: if `search_successive` (started at nested domain `k0` with empty records) returns, then it
sized the consecutive nested domains `k0, k0+1, …` — at least one, at most seven — obtaining the
total drillings `totals`; it went on exactly while the total did not increase (the comparison value
before the first domain is 99999) and stopped at an increase, at a failing search, at the end of the
nested list or after seven domains; the domain it settled on has the least total, the earliest one
on ties; the field it returns is the one with the largest non-positive excess recorded in that
domain; and the held exchanger is that field, sized. -/
theorem C37_successive (env : Env F K) (nested : List (List F)) (k0 : ℤ) (hk0 : 0 ≤ k0)
    (s s' : State F K) (hh : s.heights = []) (hn : s.tempsNested = []) (key : ℤ) (f : F)
    (h : searchSuccessive env nested k0 s = (.ok (key, f), s')) :
    ∃ (totals : List K) (m : ℕ) (best : K) (d : List F) (temps : PyDict ℤ K) (v H : K),
      1 ≤ totals.length ∧ totals.length ≤ 7 ∧ k0 + totals.length ≤ nested.length ∧
      (∀ (j : ℕ) t, totals[j]? = some t → ∃ temps, Sized env nested (k0 + j) t temps) ∧
      (∀ j : ℕ, j + 1 < totals.length → ∀ x y, (99999 :: totals)[j]? = some x →
          (99999 :: totals)[j + 1]? = some y → y ≤ x) ∧
      (totals.length = 7 ∨ k0 + totals.length = nested.length ∨
        SearchFails env nested (k0 + totals.length) ∨
        (∀ x y, (99999 :: totals)[totals.length - 1]? = some x →
            (99999 :: totals)[totals.length]? = some y → x < y)) ∧
      totals[m]? = some best ∧ (∀ t ∈ totals, best ≤ t) ∧ (∀ j < m, totals[j]? ≠ some best) ∧
      Sized env nested (k0 + m) best temps ∧
      pyGet nested (k0 + m) = .ok d ∧ 0 ≤ key ∧ pyGet d key = .ok f ∧
      env.sim f env.maxHeight = .ok v ∧ (key, v) ∈ temps ∧ v ≤ 0 ∧
      (∀ q ∈ temps, q.2 ≤ 0 → q.2 ≤ v) ∧
      env.sizeH f env.maxHeight = .ok H ∧ s'.ghe = some (f, H) := by
  unfold searchSuccessive at h
  dsimp only at h
  rw [St.bind_eq_ok] at h
  obtain ⟨u, s1, h1, h⟩ := h
  obtain ⟨ts, t1, t2, t3, t4, t5, t6⟩ := successiveLoop_spec _ _ _ _ _ h1
    (by rw [hh]; simp) (by rw [hn]; simp)
  rw [hh, List.nil_append] at t2
  rw [hn, List.nil_append] at t3
  rw [St.get_bind, St.lift_eq_ok] at h
  obtain ⟨best, hbest, h⟩ := h
  rw [St.lift_eq_ok] at h
  obtain ⟨idx, hidx, h⟩ := h
  rw [St.lift_eq_ok] at h
  obtain ⟨sel, hsel, h⟩ := h
  rw [St.lift_eq_ok] at h
  obtain ⟨temps, htemps, h⟩ := h
  rw [St.modify_bind, St.lift_eq_ok] at h
  obtain ⟨key', hkey, h⟩ := h
  rw [St.lift_eq_ok] at h
  obtain ⟨d, hd, h⟩ := h
  rw [St.lift_eq_ok] at h
  obtain ⟨f', hf, h⟩ := h
  rw [St.bind_eq_ok] at h
  obtain ⟨u2, s2, h2, h⟩ := h
  obtain ⟨hbuild, rfl⟩ := initializeGhe_eq_ok.1 h2
  rw [St.bind_eq_ok] at h
  obtain ⟨r3, s3, h3, h⟩ := h
  obtain ⟨H, hH, -, rfl⟩ := sizeHeld_eq_ok h3 rfl
  simp only [St.pure_apply, Prod.mk.injEq, Except.ok.injEq] at h
  obtain ⟨⟨rfl, rfl⟩, rfl⟩ := h
  obtain ⟨m, rfl, hm1, hm2⟩ := pyIndexOf_eq_ok hidx
  have hvals : PyDict.values s1.heights = ts.map Prod.fst := by
    rw [t2, PyDict.values]
    apply List.ext_getElem?
    intro j
    simp [List.getElem?_mapIdx]
    cases ts[j]? <;> simp
  rw [hvals] at hm1 hm2 hbest
  obtain ⟨hb1, hb2⟩ := pyMin_eq_ok hbest
  rw [pyGet_eq_ok (by omega), Int.toNat_natCast] at hsel
  obtain ⟨t, ht, htb⟩ : ∃ t, ts[m]? = some t ∧ t.1 = best := by
    rw [List.getElem?_map, Option.map_eq_some_iff] at hm1
    exact hm1
  have hsel' : sel = k0 + m := by
    rw [PyDict.keys, t2, List.getElem?_map, List.getElem?_mapIdx, ht] at hsel
    simp at hsel
    exact hsel.symm
  subst hsel'
  have htm : temps = t.2 := by
    unfold PyDict.get at htemps
    rw [t3, find?_mapIdx Prod.snd ts k0 m t ht] at htemps
    exact (Except.ok.inj htemps).symm
  have hrem : (min (nested.length : ℤ) (k0 + 7) - k0).toNat ≤ 7 := by omega
  obtain ⟨pre, post, v, hpre, hv, hmax, -⟩ := selectKey_eq_ok hkey
  have hkm : (key', v) ∈ temps := by rw [hpre]; simp
  have hS := t4 m t ht
  rw [htb, ← htm] at hS
  have hdk : 0 ≤ key' ∧ env.sim f' env.maxHeight = .ok v := by
    obtain ⟨d', s0, s1', k, g, H', hd', hs0, hsr, -, -, htt⟩ := hS
    rw [hd] at hd'; cases hd'
    obtain ⟨_, _, _, -, -, -, -, -, -, hto, -⟩ := search_ok hsr (by rw [hs0]; intro q hq; cases hq)
    rw [htt] at hkm
    obtain ⟨a1, f2, a2, a3⟩ := hto _ hkm
    simp only at a1 a2 a3
    rw [hf] at a2; cases a2
    exact ⟨a1, a3⟩
  have htl : 0 < ts.length := by
    by_contra hc
    rw [List.getElem?_eq_none (by omega)] at ht
    cases ht
  have hlen : (ts.length : ℤ) ≤ (nested.length : ℤ) - k0 := by omega
  refine ⟨ts.map Prod.fst, m, best, d, temps, v, H, by rw [List.length_map]; omega,
    by rw [List.length_map]; omega, by rw [List.length_map]; omega, ?_, ?_, ?_, hm1, hb2, hm2, hS, hd,
    hdk.1, hf, hdk.2, hkm, hv, hmax, hH, rfl⟩
  · intro j x hx
    rw [List.getElem?_map, Option.map_eq_some_iff] at hx
    obtain ⟨y, hy, rfl⟩ := hx
    exact ⟨_, t4 j y hy⟩
  · simpa using t5
  · rw [List.length_map]
    rcases t6 with t6 | t6 | t6
    · by_cases hc : ts.length = 7
      · exact .inl hc
      · right; left; omega
    · exact .inr (.inr (.inl t6))
    · exact .inr (.inr (.inr t6.2))

/-- C37: in the usual case the field returned is the very field that was sized, and `best` is its
total drilling: if the search on the chosen nested domain did not take the single-field shortcut,
the entry with the largest non-positive excess is the one that search selected. -/
theorem C37_same_field (env : Env F K) (d : List F) (s0 s1 : State F K) (k : ℤ) (g : F)
    (hs0 : s0.temps = []) (h : search env d s0 = (.ok (some (k, g)), s1)) (key : ℤ)
    (hkey : selectKey s1.temps = .ok key) :
    key = k ∨ (k = 0 ∧ ∃ a v, env.sim g env.minHeight = .ok a ∧ env.sim g env.maxHeight = .ok v ∧
      a * v < 0) := by
  obtain ⟨k', g', v, e, -, -, hv, -, -, -, -, -, hc⟩ :=
    search_ok h (by rw [hs0]; intro q hq; cases hq)
  cases e
  rcases hc with ⟨-, hc⟩ | ⟨rfl, a, ha, hav⟩
  · rw [hc] at hkey; exact .inl (Except.ok.inj hkey).symm
  · exact .inr ⟨rfl, a, v, ha, hv, hav⟩

/-- C37: `BisectionZD` starts the successive search at the nested domain whose largest field the
outer search selected (at the first one if it selected the leading field), with empty records. -/
theorem C37_start (env : Env F K) (nested : List (List F)) (s s' : State F K)
    (hn : s.tempsNested = []) (r : ℤ × F) (h : bisectionZD env nested s = (.ok r, s')) :
    ∃ outer key g s0 s1 s2, outerDomain nested = .ok outer ∧ s0.temps = [] ∧
      search env outer s0 = (.ok (some (key, g)), s1) ∧ 0 ≤ key ∧
      s2.heights = [] ∧ s2.tempsNested = [] ∧
      searchSuccessive env nested (if key > 0 then key - 1 else 0) s2 = (.ok r, s') := by
  unfold bisectionZD at h
  rw [St.lift_eq_ok] at h
  obtain ⟨first, -, h⟩ := h
  rw [St.bind_eq_ok] at h
  obtain ⟨u, s0, hset, h⟩ := h
  rw [St.lift_eq_ok] at h
  obtain ⟨outer, ho, h⟩ := h
  rw [St.bind_eq_ok] at h
  obtain ⟨r1, s1, h1, h⟩ := h
  have ht0 : s0.temps = [] ∧ s0.tempsNested = [] := by
    unfold setup at hset
    rw [St.lift_eq_ok] at hset
    obtain ⟨c, -, hset⟩ := hset
    rw [St.bind_eq_ok] at hset
    obtain ⟨u', s2, h2, hset⟩ := hset
    obtain ⟨-, rfl⟩ := initializeGhe_eq_ok.1 h2
    simp only [St.modify_apply, Prod.mk.injEq] at hset
    rw [← hset.2]
    exact ⟨rfl, hn⟩
  cases r1 with
  | none => cases h
  | some p =>
    obtain ⟨key, g⟩ := p
    dsimp only at h
    rw [St.modify_bind] at h
    obtain ⟨k', g', v, e, hk0, -⟩ := search_ok h1 (by rw [ht0.1]; intro q hq; cases hq)
    cases e
    have hk := search_records h1
    refine ⟨outer, key, g, s0, s1, { s1 with heights := [] }, ho, ht0.1, h1, hk0, rfl, ?_, ?_⟩
    · show s1.tempsNested = []
      rw [hk.1, ht0.2]
    · rw [← h]
      congr 1
      by_cases hp : key > 0
      · rw [if_pos hp, if_pos hp]
      · rw [if_neg hp, if_neg hp, show key = 0 by omega]

/-- C37: if not even the first nested domain can be sized because its search fails, the call raises
`ValueError` (`min` of an empty sequence) rather than reporting the search's own message. -/
theorem C37_nothing_sized (env : Env F K) (nested : List (List F)) (k0 : ℤ) (hk0 : 0 ≤ k0)
    (d : List F) (hd : nested[k0.toNat]? = some d) (s s1 : State F K) (hh : s.heights = [])
    (hfail : search env d { s with temps := [] } = (.error .valueError, s1)) :
    (searchSuccessive env nested k0 s).1 = .error .valueError := by
  have hl : k0.toNat < nested.length := by
    by_contra hc
    rw [List.getElem?_eq_none (by omega)] at hd; cases hd
  obtain ⟨r, hr⟩ : ∃ r, (min (nested.length : ℤ) (k0 + 7) - k0).toNat = r + 1 :=
    ⟨(min (nested.length : ℤ) (k0 + 7) - k0).toNat - 1, by omega⟩
  have hloop : successiveLoop env nested (r + 1) k0 99999 s = (.ok (), s1) := by
    unfold successiveLoop
    rw [St.lift_ok ((pyGet_eq_ok hk0).2 hd), St.modify_bind]
    have : St.tryExcept (do let r ← search env d; return some r : St (State F K) _) .valueError
        (pure none) { s with temps := [] } = (.ok none, s1) := by
      unfold St.tryExcept
      rw [St.bind_error hfail]
      simp
    rw [St.bind_ok this]
    rfl
  have hs1 : s1.heights = [] := by rw [(search_records hfail).2]; exact hh
  unfold searchSuccessive
  dsimp only
  rw [hr, St.bind_ok hloop, St.get_bind, St.lift_error (e := .valueError)]
  rw [hs1]; rfl

/-- C37 on concrete data: three nested domains of fields `1 … n`; sizing leaves the height
`800/f` (70 for `f = 12`), so the totals are 800, 800, 840: the first is kept on the tie. -/
example :
    let env : Env ℕ ℚ := { exEnv (fun f H => if H = 50 then 99 else 10 - (f : ℚ)) 15 with
      sizeH := fun f _ => .ok (if f = 12 then 70 else 800 / (f : ℚ)) }
    (bisectionZD env [[1, 5, 11], [1, 8, 20], [1, 12, 30]] {}).1 = .ok (2, 11) ∧
    (bisectionZD env [[1, 5, 11], [1, 8, 20], [1, 12, 30]] {}).2.heights =
      [(0, 800), (1, 800), (2, 840)] ∧
    (bisectionZD env [[1, 5, 11], [1, 8, 20], [1, 12, 30]] {}).2.ghe = some (11, 800 / 11) := by
  decide +kernel

/-! ## C38 — flow rates -/

/-- C38: whichever flow convention is used, the mass flow per borehole handed to the g-function is
the one the exchanger derives from the system flow. -/
theorem C38_consistent (flow : String) (V rho : K) (n : ℕ) (hn : 0 < n) (Vsys m : K)
    (h : retrieveFlow flow V rho n = .ok (Vsys, m)) :
    ∃ vb, gheFlow Vsys rho n = .ok (vb, m) := by
  have hn' : (n : K) ≠ 0 := by exact_mod_cast hn.ne'
  unfold retrieveFlow at h
  split at h
  · cases h
    refine ⟨V, ?_⟩
    unfold gheFlow
    rw [pyDiv_ok hn', Except.ok_bind, mul_div_cancel_right₀ _ hn']; rfl
  · split at h
    · rw [pyDiv_ok hn', Except.ok_bind] at h
      cases h
      refine ⟨V / n, ?_⟩
      unfold gheFlow
      rw [pyDiv_ok hn']; rfl
    · cases h

/-- C38: `V` per borehole and `n*V` for the whole system give identical flows. -/
theorem C38_equivalent (V rho : K) (n : ℕ) (hn : 0 < n) :
    retrieveFlow "system" (V * (n : K)) rho n = retrieveFlow "borehole" V rho n := by
  have hn' : (n : K) ≠ 0 := by exact_mod_cast hn.ne'
  simp [retrieveFlow, pyDiv_ok hn', mul_div_cancel_right₀ _ hn']

/-- C38: the borehole convention gives `V` litres per second and borehole, i.e. `V/1000*rho`
kg/s, and `n*V` in total. -/
theorem C38_borehole (V rho : K) (n : ℕ) :
    retrieveFlow "borehole" V rho n = .ok (V * (n : K), V / 1000 * rho) := by
  simp [retrieveFlow]

/-- C38: any other flow string raises `ValueError`; with the system convention an empty field raises
`ZeroDivisionError`. -/
theorem C38_other (flow : String) (V rho : K) (n : ℕ) :
    (retrieveFlow flow V rho n = .error .valueError ↔ flow ≠ "borehole" ∧ flow ≠ "system") ∧
    retrieveFlow "system" V rho 0 = .error .zeroDivisionError := by
  refine ⟨?_, by simp [retrieveFlow]⟩
  unfold retrieveFlow
  by_cases h1 : flow = "borehole"
  · simp [h1]
  · by_cases h2 : flow = "system"
    · simp only [h2]
      by_cases hn : (n : K) = 0
      · simp [hn]
      · simp [pyDiv_ok hn]
    · simp [h1, h2]

example : retrieveFlow "system" (12 : ℚ) 1000 4 = .ok (12, 3) ∧
    retrieveFlow "borehole" (3 : ℚ) 1000 4 = .ok (12, 3) ∧
    gheFlow (12 : ℚ) 1000 4 = .ok (3, 3) ∧
    retrieveFlow "well" (3 : ℚ) 1000 4 = .error .valueError := by decide +kernel

/-- C20/C38: a search whose first field is empty cannot start: `IndexError` with the borehole flow
convention, `ZeroDivisionError` with the system one, before anything thermal is computed. -/
theorem C38_empty_first_field (V rho r_b minH maxH bH : ℝ) (mi : ℤ)
    (thermal : List (ℝ × ℝ) → ℝ → Py Unit) (sim sizeH : List (ℝ × ℝ) → ℝ → Py ℝ)
    (rest : List (List (ℝ × ℝ))) (s : State (List (ℝ × ℝ)) ℝ) :
    (bisection1D ⟨buildConcrete "borehole" V rho r_b thermal, sim, sizeH, List.length, minH, maxH,
      bH, mi⟩ ([] :: rest) s).1 = .error .indexError ∧
    (bisection1D ⟨buildConcrete "system" V rho r_b thermal, sim, sizeH, List.length, minH, maxH,
      bH, mi⟩ ([] :: rest) s).1 = .error .zeroDivisionError := by
  have key : ∀ (flow : String) (e : PyErr), buildConcrete flow V rho r_b thermal [] bH = .error e →
      (bisection1D ⟨buildConcrete flow V rho r_b thermal, sim, sizeH, List.length, minH, maxH,
        bH, mi⟩ ([] :: rest) s).1 = .error e := by
    intro flow e he
    unfold bisection1D setup initializeGhe
    have h0 : pyGet ([] :: rest) 0 = .ok [] := by rw [pyGet_eq_ok le_rfl]; rfl
    rw [St.bind_error (e := e) (s' := s)]
    rw [St.lift_ok h0, St.bind_error (e := e) (s' := s)]
    exact St.lift_error he
  refine ⟨key _ _ ?_, key _ _ ?_⟩
  · unfold buildConcrete
    rw [List.length_nil, C38_borehole, Except.ok_bind]
    simp [boreholeSpacing, pyGet]
  · unfold buildConcrete
    rw [List.length_nil, (C38_other "" V rho 0).2]
    rfl

/-! ### The theorems applied to concrete searches -/

/-- fields are numbers; a field of `f` boreholes exceeds the limits by `10 - f` at the maximum height -/
def exNested : Env ℕ ℚ := exEnv (fun f H => if H = 50 then 99 else 10 - (f : ℚ)) 15

example := C36_inner_search exNested (fun f H => if H = 50 then 99 else 10 - (f : ℚ))
  [[1, 2, 4], [1, 3, 9, 11, 13], [1, 8, 20, 25]] 1 (exEnv_answers _ _ _) rfl (by decide) [1, 8, 20, 25] 25 rfl rfl
  (by decide +kernel) (by decide +kernel) (by decide +kernel) {}
example := C36_shortcut (exEnv (fun f H => if f = 1 then 75 - H else (f : ℚ)) 15)
  (fun f H => if f = 1 then 75 - H else (f : ℚ)) [[1, 2, 4], [1, 3, 9, 11, 13]] 1 (exEnv_answers _ _ _) rfl (by decide)
  (by decide) (by decide +kernel) {}
example := C36_outcomes exNested (fun f H => if H = 50 then 99 else 10 - (f : ℚ))
  [[1, 2, 4], [1, 3, 9, 11, 13], [1, 8, 20, 25]] 1 (exEnv_answers _ _ _) rfl (by decide) [1, 8, 20, 25] 25 rfl rfl
  99 9 (-15) (by decide +kernel) (by decide +kernel) (by decide +kernel) {}
/-- the outer search for an oversized first field answers with the first list -/
def exOversized (f : ℕ) (_ : ℚ) : ℚ := if f = 1 then -5 else if f = 4 then -1 else 1

example : (bisection2D (exEnv exOversized 15) [[1, 2, 4], [1, 3, 9]] {}).1 = .error .valueError := by
  have h : (search (exEnv exOversized 15) [1, 4, 9] { ghe := some (1, 80) }).1 = .ok (some (1, 4)) := by decide +kernel
  exact C36_oversized_first_fails (exEnv exOversized 15) exOversized [[1, 2, 4], [1, 3, 9]] 1 (exEnv_answers _ _ _) rfl
    (by decide) (by decide) (by decide +kernel) (by decide +kernel) {} 1 4 _ (by norm_num) (by decide +kernel)
    (Prod.ext h rfl)
example : ∃ s1, search exNested [1, 6, 9, 12, 17] {} = (.ok (some (3, 12)), s1) ∧ selectKey s1.temps = .ok 3 := by
  have h : (search exNested [1, 6, 9, 12, 17] {}).1 = .ok (some (3, 12)) := by decide +kernel
  have h2 : selectKey (search exNested [1, 6, 9, 12, 17] {}).2.temps = .ok 3 := by decide +kernel
  have e : search exNested [1, 6, 9, 12, 17] {} = (.ok (some (3, 12)), (search exNested [1, 6, 9, 12, 17] {}).2) :=
    Prod.ext h rfl
  have := C37_same_field exNested _ _ _ _ _ rfl e 3 h2
  exact ⟨_, e, h2⟩
example : (searchSuccessive (exEnv (fun _ _ => 7) 15) [[1, 2], [3, 4]] 1 {}).1 = .error .valueError := by
  have h : (search (exEnv (fun _ _ => 7) 15) [3, 4] { ({} : State ℕ ℚ) with temps := [] }).1 = .error .valueError := by
    decide +kernel
  exact C37_nothing_sized _ _ 1 (by norm_num) [3, 4] rfl {} _ rfl (Prod.ext h rfl)
example := C38_consistent "system" (12 : ℚ) 1000 4 (by norm_num) 12 3 (by decide +kernel)
example := C38_equivalent (3 : ℚ) 1000 4 (by norm_num)

end Ghedt.Search
