import Verif.Model.SearchRoutines
import Verif.Props.Utilities
import Verif.Lemmas.PyList

set_option linter.unusedSectionVars false

namespace Ghedt

namespace PyDict
variable {α β : Type} [DecidableEq α]

theorem mem_set {d : PyDict α β} {k : α} {v : β} {p : α × β} (h : p ∈ set d k v) :
    p = (k, v) ∨ p ∈ d := by
  induction d with
  | nil => simp [set] at h; exact .inl h
  | cons q d ih =>
    obtain ⟨k', v'⟩ := q
    unfold set at h
    split at h
    · rcases List.mem_cons.1 h with h | h
      · exact .inl h
      · exact .inr (List.mem_cons_of_mem _ h)
    · rcases List.mem_cons.1 h with h | h
      · exact .inr (h ▸ List.mem_cons_self)
      · rcases ih h with h | h
        · exact .inl h
        · exact .inr (List.mem_cons_of_mem _ h)

theorem mem_set_self (d : PyDict α β) (k : α) (v : β) : (k, v) ∈ set d k v := by
  induction d with
  | nil => simp [set]
  | cons q d ih =>
    obtain ⟨k', v'⟩ := q
    unfold set
    split
    · exact List.mem_cons_self
    · exact List.mem_cons_of_mem _ ih

theorem mem_set_of_ne {d : PyDict α β} {k : α} {v : β} {p : α × β} (h : p ∈ d) (hk : p.1 ≠ k) :
    p ∈ set d k v := by
  induction d with
  | nil => cases h
  | cons q d ih =>
    obtain ⟨k', v'⟩ := q
    unfold set
    rcases List.mem_cons.1 h with h | h
    · subst h
      rw [if_neg hk]; exact List.mem_cons_self
    · split
      · exact List.mem_cons_of_mem _ h
      · exact List.mem_cons_of_mem _ (ih h)

theorem find?_set_self (d : PyDict α β) (k : α) (v : β) : find? (set d k v) k = some v := by
  induction d with
  | nil => simp [set, find?]
  | cons q d ih =>
    obtain ⟨k', v'⟩ := q
    unfold set
    split
    · simp [find?]
    · next h => simp [find?, h, ih]

theorem find?_set_of_ne {d : PyDict α β} {k k' : α} {v : β} (h : k' ≠ k) :
    find? (set d k v) k' = find? d k' := by
  induction d with
  | nil => simp [set, find?, Ne.symm h]
  | cons q d ih =>
    obtain ⟨a, b⟩ := q
    unfold set
    split
    · next e => subst e; simp [find?, Ne.symm h]
    · simp only [find?]
      split
      · rfl
      · exact ih

theorem mem_of_find? {d : PyDict α β} {k : α} {v : β} (h : find? d k = some v) : (k, v) ∈ d := by
  induction d with
  | nil => simp [find?] at h
  | cons q d ih =>
    obtain ⟨a, b⟩ := q
    simp only [find?] at h
    split at h
    · next e => subst e; cases h; exact List.mem_cons_self
    · exact List.mem_cons_of_mem _ (ih h)

theorem find?_isSome_of_mem {d : PyDict α β} {k : α} {v : β} (h : (k, v) ∈ d) :
    ∃ w, find? d k = some w := by
  induction d with
  | nil => cases h
  | cons q d ih =>
    obtain ⟨a, b⟩ := q
    simp only [find?]
    split
    · exact ⟨_, rfl⟩
    · next hne =>
      rcases List.mem_cons.1 h with h | h
      · cases h; exact absurd rfl hne
      · exact ih h

theorem keys_set_of_not_mem {d : PyDict α β} {k : α} {v : β} (h : k ∉ keys d) :
    set d k v = d ++ [(k, v)] := by
  induction d with
  | nil => rfl
  | cons q d ih =>
    obtain ⟨a, b⟩ := q
    simp only [keys, List.map_cons, List.mem_cons, not_or] at h
    unfold set
    rw [if_neg (Ne.symm h.1), ih h.2]; rfl

end PyDict

theorem foldl_max_mem {K : Type} [LinearOrder K] (l : List K) (a : K) :
    l.foldl max a ∈ a :: l ∧ ∀ x ∈ a :: l, x ≤ l.foldl max a := by
  induction l generalizing a with
  | nil => simp
  | cons b l ih =>
    obtain ⟨h1, h2⟩ := ih (max a b)
    simp only [List.foldl_cons]
    refine ⟨?_, ?_⟩
    · rcases List.mem_cons.1 h1 with h | h
      · rw [h]
        rcases max_choice a b with h | h <;> rw [h] <;> simp
      · simp [h]
    · intro x hx
      have hab := h2 (max a b) List.mem_cons_self
      rcases List.mem_cons.1 hx with h | h
      · exact h ▸ (le_max_left a b).trans hab
      · rcases List.mem_cons.1 h with h | h
        · exact h ▸ (le_max_right a b).trans hab
        · exact h2 x (List.mem_cons_of_mem _ h)

theorem foldl_min_mem {K : Type} [LinearOrder K] (l : List K) (a : K) :
    l.foldl min a ∈ a :: l ∧ ∀ x ∈ a :: l, l.foldl min a ≤ x := by
  induction l generalizing a with
  | nil => simp
  | cons b l ih =>
    obtain ⟨h1, h2⟩ := ih (min a b)
    simp only [List.foldl_cons]
    refine ⟨?_, ?_⟩
    · rcases List.mem_cons.1 h1 with h | h
      · rw [h]
        rcases min_choice a b with h | h <;> rw [h] <;> simp
      · simp [h]
    · intro x hx
      have hab := h2 (min a b) List.mem_cons_self
      rcases List.mem_cons.1 hx with h | h
      · exact h ▸ hab.trans (min_le_left a b)
      · rcases List.mem_cons.1 h with h | h
        · exact h ▸ hab.trans (min_le_right a b)
        · exact h2 x (List.mem_cons_of_mem _ h)

theorem pyMax_eq_ok {K : Type} [LinearOrder K] {l : List K} {m : K} (h : pyMax l = .ok m) :
    m ∈ l ∧ ∀ x ∈ l, x ≤ m := by
  cases l with
  | nil => cases h
  | cons a l => cases h; exact foldl_max_mem l a

theorem pyMin_eq_ok {K : Type} [LinearOrder K] {l : List K} {m : K} (h : pyMin l = .ok m) :
    m ∈ l ∧ ∀ x ∈ l, m ≤ x := by
  cases l with
  | nil => cases h
  | cons a l => cases h; exact foldl_min_mem l a

theorem pyMax_ok_of_ne_nil {K : Type} [LinearOrder K] {l : List K} (h : l ≠ []) :
    ∃ m, pyMax l = .ok m := by
  cases l with
  | nil => exact absurd rfl h
  | cons a l => exact ⟨_, rfl⟩

theorem pyMin_ok_of_ne_nil {K : Type} [LinearOrder K] {l : List K} (h : l ≠ []) :
    ∃ m, pyMin l = .ok m := by
  cases l with
  | nil => exact absurd rfl h
  | cons a l => exact ⟨_, rfl⟩

/-- What a successful non-negative lookup says. -/
theorem pyGet_eq_ok {α : Type} {l : List α} {i : ℤ} (h0 : 0 ≤ i) {a : α} :
    pyGet l i = .ok a ↔ l[i.toNat]? = some a := by
  have h1 : ¬ i < 0 := by omega
  simp only [pyGet, h1, if_false]
  cases l[i.toNat]? <;> simp

namespace Search
open Utilities
variable {F K : Type} [Field K] [LinearOrder K] [FloorRing K]

/-! ### `list.index` and the selection -/

theorem pyIndexOf_eq_ok {l : List K} {x : K} {i : ℤ} (h : pyIndexOf l x = .ok i) :
    ∃ j : ℕ, i = j ∧ l[j]? = some x ∧ ∀ j' < j, l[j']? ≠ some x := by
  unfold pyIndexOf at h
  split at h
  · next j hj =>
    cases h
    rw [List.findIdx?_eq_some_iff_getElem] at hj
    obtain ⟨hl, h1, h2⟩ := hj
    refine ⟨j, rfl, ?_, ?_⟩
    · rw [List.getElem?_eq_getElem hl]
      simpa using h1
    · intro j' hj' he
      have := h2 j' hj'
      rw [List.getElem?_eq_getElem (by omega)] at he
      simp at he this
      exact this he
  · cases h

theorem pyIndexOf_of_mem {l : List K} {x : K} (h : x ∈ l) : ∃ i, pyIndexOf l x = .ok i := by
  unfold pyIndexOf
  split
  · exact ⟨_, rfl⟩
  · next hj =>
    rw [List.findIdx?_eq_none_iff] at hj
    have := hj x h
    simp at this

/-- The selection: the key of the first largest non-positive value. -/
theorem selectKey_eq_ok {d : PyDict ℤ K} {k : ℤ} (h : selectKey d = .ok k) :
    ∃ (pre post : PyDict ℤ K) (v : K), d = pre ++ (k, v) :: post ∧ v ≤ 0 ∧
      (∀ q ∈ d, q.2 ≤ 0 → q.2 ≤ v) ∧ ∀ q ∈ pre, q.2 ≠ v := by
  unfold selectKey at h
  simp only [bind_eq_ok] at h
  obtain ⟨m, hm, i, hi, hk⟩ := h
  obtain ⟨hm1, hm2⟩ := pyMax_eq_ok hm
  obtain ⟨j, rfl, hj1, hj2⟩ := pyIndexOf_eq_ok hi
  rw [pyGet_eq_ok (by omega)] at hk
  simp only [PyDict.keys, PyDict.values, Int.toNat_natCast, List.getElem?_map,
    Option.map_eq_some_iff] at hj1 hk
  obtain ⟨q, hq, hqm⟩ := hj1
  obtain ⟨q', hq', hqk⟩ := hk
  rw [hq] at hq'; cases hq'
  have hjl : j < d.length := by
    by_contra hc
    rw [List.getElem?_eq_none (by omega)] at hq; cases hq
  rw [List.mem_filter] at hm1
  refine ⟨d.take j, d.drop (j + 1), m, ?_, by simpa using hm1.2, ?_, ?_⟩
  · have : (k, m) = d[j] := by
      rw [List.getElem?_eq_getElem hjl] at hq
      cases hq
      rw [← hqm, ← hqk]
    rw [this]
    simp
  · intro q hq hq0
    apply hm2
    rw [List.mem_filter]
    exact ⟨List.mem_map_of_mem hq, by simpa using hq0⟩
  · intro q hq hqv
    rw [List.mem_take_iff_getElem] at hq
    obtain ⟨j', hj', rfl⟩ := hq
    apply hj2 j' (by omega)
    rw [PyDict.values, List.getElem?_map, List.getElem?_eq_getElem (by omega)]
    simp [hqv]

theorem selectKey_ok {d : PyDict ℤ K} {q : ℤ × K} (hq : q ∈ d) (h : q.2 ≤ 0) :
    ∃ k, selectKey d = .ok k := by
  have h1 : q.2 ∈ (PyDict.values d).filter fun v => decide (v ≤ 0) := by
    rw [List.mem_filter]
    exact ⟨List.mem_map_of_mem hq, by simpa using h⟩
  obtain ⟨m, hm⟩ := pyMax_ok_of_ne_nil (List.ne_nil_of_mem h1)
  have hm1 := (pyMax_eq_ok hm).1
  rw [List.mem_filter] at hm1
  obtain ⟨i, hi⟩ := pyIndexOf_of_mem hm1.1
  obtain ⟨j, rfl, hj1, -⟩ := pyIndexOf_eq_ok hi
  have hjl : j < d.length := by
    by_contra hc
    rw [List.getElem?_eq_none (by simpa [PyDict.values] using hc)] at hj1; cases hj1
  have hjk : j < (PyDict.keys d).length := by simpa [PyDict.keys] using hjl
  refine ⟨(PyDict.keys d)[j], ?_⟩
  unfold selectKey
  simp only [hm, hi, Except.ok_bind, pyGet_ok hjk]

theorem selectKey_error {d : PyDict ℤ K} (h : ∀ q ∈ d, ¬ q.2 ≤ 0) :
    selectKey d = .error .valueError := by
  have : (PyDict.values d).filter (fun v => decide (v ≤ 0)) = [] := by
    rw [List.filter_eq_nil_iff]
    intro v hv
    obtain ⟨q, hq, rfl⟩ := List.mem_map.1 hv
    simpa using h q hq
  unfold selectKey
  simp only [this, pyMax, Except.error_bind]

/-! ### Building and simulating -/

theorem initializeGhe_eq_ok {env : Env F K} {f : F} {H : K} {s s' : State F K} :
    initializeGhe env f H s = (.ok (), s') ↔
      env.build f H = .ok () ∧ s' = { s with ghe := some (f, H) } := by
  unfold initializeGhe
  rw [St.lift_eq_ok]
  simp only [St.modify_apply, Prod.mk.injEq, true_and]
  constructor
  · rintro ⟨a, h, h2⟩; exact ⟨h, h2.symm⟩
  · rintro ⟨h, h2⟩; exact ⟨(), h, h2.symm⟩

theorem calculateExcess_eq_ok {env : Env F K} {f : F} {H v : K} {s s' : State F K} :
    calculateExcess env f H s = (.ok v, s') ↔
      env.build f H = .ok () ∧ env.sim f H = .ok v ∧
        s' = { s with ghe := some (f, H), log := s.log ++ [(f, H)] } := by
  unfold calculateExcess
  rw [St.bind_eq_ok]
  constructor
  · rintro ⟨a, s1, h1, h2⟩
    obtain ⟨h3, rfl⟩ := initializeGhe_eq_ok.1 h1
    simp only [St.modify_bind, St.lift_apply, Prod.mk.injEq] at h2
    exact ⟨h3, h2.1, h2.2.symm⟩
  · rintro ⟨h1, h2, rfl⟩
    refine ⟨(), _, initializeGhe_eq_ok.2 ⟨h1, rfl⟩, ?_⟩
    simp only [St.modify_bind, St.lift_apply, h2]

/-- Every recorded temperature is the excess of the field with that index at maximum height. -/
def TempsOk (env : Env F K) (domain : List F) (d : PyDict ℤ K) : Prop :=
  ∀ q ∈ d, 0 ≤ q.1 ∧ ∃ f, pyGet domain q.1 = .ok f ∧ env.sim f env.maxHeight = .ok q.2

theorem TempsOk.set {env : Env F K} {domain : List F} {d : PyDict ℤ K} (h : TempsOk env domain d)
    {k : ℤ} {v : K} {f : F} (h0 : 0 ≤ k) (hf : pyGet domain k = .ok f)
    (hv : env.sim f env.maxHeight = .ok v) : TempsOk env domain (PyDict.set d k v) := by
  intro q hq
  rcases PyDict.mem_set hq with rfl | hq
  · exact ⟨h0, f, hf, hv⟩
  · exact h q hq

theorem ceil_half {a b : ℤ} : ⌈((a + b : ℤ) : ℚ) / 2⌉ = (a + b + 1) / 2 := by
  rw [Int.ceil_eq_iff]
  have h : (a + b + 1) / 2 * 2 = a + b ∨ (a + b + 1) / 2 * 2 = a + b + 1 := by omega
  have h' : (((a + b + 1) / 2 : ℤ) : ℚ) * 2 = ((a + b : ℤ) : ℚ) ∨
      (((a + b + 1) / 2 : ℤ) : ℚ) * 2 = ((a + b : ℤ) : ℚ) + 1 := by
    rcases h with h | h
    · left; exact_mod_cast h
    · right; exact_mod_cast h
  rcases h' with h | h
  · constructor <;> linarith
  · constructor <;> linarith

variable [IsStrictOrderedRing K]

/-- Partial correctness of the loop, with no assumption on the simulation. -/
theorem bisect_tempsOk {env : Env F K} {domain : List F} {sg : ℤ} :
    ∀ {rem : ℕ} {i xL xR : ℤ} {s s' : State F K} {r : ℤ × ℤ × ℤ},
      bisect env domain sg rem i xL xR s = (.ok r, s') → 0 ≤ xL → xL ≤ xR →
      TempsOk env domain s.temps →
      TempsOk env domain s'.temps ∧ s'.tempsNested = s.tempsNested ∧ s'.heights = s.heights := by
  intro rem
  induction rem with
  | zero =>
    intro i xL xR s s' r h _ _ ht
    simp only [bisect, St.pure_apply, Prod.mk.injEq] at h
    rw [← h.2]
    exact ⟨ht, rfl, rfl⟩
  | succ rem ih =>
    intro i xL xR s s' r h h0 hlr ht
    unfold bisect at h
    dsimp only at h
    split at h
    · simp only [St.pure_apply, Prod.mk.injEq] at h
      rw [← h.2]; exact ⟨ht, rfl, rfl⟩
    · next hc =>
      rw [ceil_half] at *
      rw [St.lift_eq_ok] at h
      obtain ⟨f, hf, h⟩ := h
      rw [St.bind_eq_ok] at h
      obtain ⟨T, s1, hT, h⟩ := h
      rw [calculateExcess_eq_ok] at hT
      obtain ⟨_, hT, rfl⟩ := hT
      rw [St.modify_bind, St.lift_eq_ok] at h
      obtain ⟨cs, hcs, h⟩ := h
      have hc0 : 0 ≤ (xL + xR + 1) / 2 := by omega
      split at h
      · have := ih h (by omega) (by omega) (ht.set hc0 hf hT)
        exact this
      · have := ih h (by omega) (by omega) (ht.set hc0 hf hT)
        exact this

theorem sign_ok {x : K} (h : x ≠ 0) : sign x = .ok (if 0 < x then 1 else -1) := by
  rcases lt_or_gt_of_ne h with h | h
  · rw [(C28_sign x).2.1 h, if_neg (not_lt.2 h.le)]
  · rw [(C28_sign x).1 h, if_pos h]

/-- Full behaviour of the loop when every field of the domain can be simulated.  `P` is the list of
probed indices. -/
theorem bisect_spec {env : Env F K} {domain : List F} {sg : ℤ} {fld : ℤ → F} {e : ℤ → K} {n : ℤ}
    (hget : ∀ c, 0 ≤ c → c < n → pyGet domain c = .ok (fld c))
    (hb : ∀ c, 0 ≤ c → c < n → env.build (fld c) env.maxHeight = .ok ())
    (hs : ∀ c, 0 ≤ c → c < n → env.sim (fld c) env.maxHeight = .ok (e c)) :
    ∀ (rem : ℕ) (i xL xR : ℤ) (s : State F K), 0 ≤ xL → xL < xR → xR < n →
    ∃ P : List ℤ, (∀ c ∈ P, xL < c ∧ c < xR) ∧ P.Nodup ∧ P.length ≤ rem ∧
      (∀ k : ℕ, xR - xL ≤ 2 ^ k → P.length ≤ k) ∧
      ∃ s' : State F K, s'.temps = P.foldl (fun d c => PyDict.set d c (e c)) s.temps ∧
        s'.log = s.log ++ P.map (fun c => (fld c, env.maxHeight)) ∧
        s'.tempsNested = s.tempsNested ∧ s'.heights = s.heights ∧
        (((∃ c ∈ P, e c = 0) ∧
            bisect env domain sg rem i xL xR s = (.error .zeroDivisionError, s')) ∨
          ((∀ c ∈ P, e c ≠ 0) ∧ ∃ xL' xR', 
            bisect env domain sg rem i xL xR s = (.ok (i + P.length, xL', xR'), s') ∧
            xL ≤ xL' ∧ xL' < xR' ∧ xR' ≤ xR ∧ (∀ c ∈ P, c ≤ xL' ∨ xR' ≤ c) ∧
            (xL' = xL ∨ xL' ∈ P ∧ sign (e xL') = .ok sg) ∧
            (xR' = xR ∨ xR' ∈ P ∧ sign (e xR') ≠ .ok sg) ∧
            (xR' = xL' + 1 ∨ P.length = rem) ∧ (xR - xL ≤ 2 ^ rem → xR' = xL' + 1))) := by
  intro rem
  induction rem with
  | zero =>
    intro i xL xR s h0 hlt hn
    refine ⟨[], by simp, by simp, by simp, by simp, s, rfl, by simp, rfl, rfl, .inr ⟨by simp, ?_⟩⟩
    refine ⟨xL, xR, ?_, le_rfl, hlt, le_rfl, by simp, .inl rfl, .inl rfl, .inr rfl,
      fun h => by simp at h; omega⟩
    simp [bisect]
  | succ rem ih =>
    intro i xL xR s h0 hlt hn
    unfold bisect
    simp only [ceil_half]
    set c := (xL + xR + 1) / 2 with hc
    by_cases hstop : c = xL ∨ c = xR
    · rw [if_pos hstop]
      refine ⟨[], by simp, by simp, by simp, by simp, s, rfl, by simp, rfl, rfl,
        .inr ⟨by simp, ?_⟩⟩
      refine ⟨xL, xR, ?_, le_rfl, hlt, le_rfl, by simp, .inl rfl, .inl rfl, .inl (by omega),
        fun _ => by omega⟩
      simp
    · rw [if_neg hstop]
      have hc1 : xL < c := by omega
      have hc2 : c < xR := by omega
      have hg := hget c (by omega) (by omega)
      have hx : calculateExcess env (fld c) env.maxHeight s = (.ok (e c), { s with
          ghe := some (fld c, env.maxHeight), log := s.log ++ [(fld c, env.maxHeight)] }) :=
        calculateExcess_eq_ok.2 ⟨hb c (by omega) (by omega), hs c (by omega) (by omega), rfl⟩
      rw [St.lift_ok hg, St.bind_ok hx, St.modify_bind]
      by_cases hz : e c = 0
      · rw [St.lift_error ((C28_sign (e c)).2.2.2 hz)]
        refine ⟨[c], by simp [hc1, hc2], by simp, by simp, ?_, { s with
          ghe := some (fld c, env.maxHeight), log := s.log ++ [(fld c, env.maxHeight)],
          temps := PyDict.set s.temps c (e c) }, rfl, rfl, rfl, rfl,
          .inl ⟨⟨c, by simp, hz⟩, rfl⟩⟩
        intro k hk
        cases k with
        | zero => simp at hk; omega
        | succ k => simp
      · rw [St.lift_ok (sign_ok hz)]
        set s1 : State F K := { s with
          ghe := some (fld c, env.maxHeight), log := s.log ++ [(fld c, env.maxHeight)],
          temps := PyDict.set s.temps c (e c) } with hs1
        have hk2 : ∀ k : ℕ, xR - xL ≤ 2 ^ k → ∃ k', k = k' + 1 ∧ c - xL ≤ 2 ^ k' ∧
            xR - c ≤ 2 ^ k' := by
          intro k hk
          cases k with
          | zero => simp at hk; omega
          | succ k =>
            rw [pow_succ] at hk
            exact ⟨k, rfl, by omega, by omega⟩
        by_cases hsg : (if 0 < e c then 1 else -1) = sg
        · simp only [if_pos hsg]
          obtain ⟨P, hP1, hP2, hP3, hP4, s', ht, hl, hn1, hn2, hr⟩ :=
            ih (i + 1) c xR s1 (by omega) hc2 hn
          refine ⟨c :: P, ?_, ?_, ?_, ?_, s', ht, ?_, hn1, hn2, ?_⟩
          · intro x hx
            rcases List.mem_cons.1 hx with rfl | hx
            · exact ⟨hc1, hc2⟩
            · have := hP1 x hx; omega
          · rw [List.nodup_cons]
            exact ⟨fun h => by have := hP1 c h; omega, hP2⟩
          · simp; omega
          · intro k hk
            obtain ⟨k', rfl, -, h2⟩ := hk2 k hk
            have := hP4 k' h2
            simp; omega
          · rw [hl, hs1]; simp
          · rcases hr with ⟨⟨x, hx, hx0⟩, hr⟩ | ⟨hnz, xL', xR', hr, g1, g2, g3, g4, g5, g6, g7, g8⟩
            · exact .inl ⟨⟨x, List.mem_cons_of_mem _ hx, hx0⟩, hr⟩
            · refine .inr ⟨?_, xL', xR', ?_, by omega, g2, g3, ?_, ?_, ?_, ?_,
                fun h => g8 (by obtain ⟨k, hk, h1, h2⟩ := hk2 _ h; cases hk; exact h2)⟩
              · intro x hx
                rcases List.mem_cons.1 hx with rfl | hx
                · exact hz
                · exact hnz x hx
              · rw [hr]; simp; ring
              · intro x hx
                rcases List.mem_cons.1 hx with rfl | hx
                · exact .inl g1
                · exact g4 x hx
              · right
                rcases g5 with g5 | ⟨g5, g5'⟩
                · rw [g5]; exact ⟨by simp, by rw [sign_ok hz, hsg]⟩
                · exact ⟨List.mem_cons_of_mem _ g5, g5'⟩
              · rcases g6 with g6 | ⟨g6, g6'⟩
                · exact .inl g6
                · exact .inr ⟨List.mem_cons_of_mem _ g6, g6'⟩
              · rcases g7 with g7 | g7
                · exact .inl g7
                · right; simp [g7]
        · simp only [if_neg hsg]
          obtain ⟨P, hP1, hP2, hP3, hP4, s', ht, hl, hn1, hn2, hr⟩ :=
            ih (i + 1) xL c s1 (by omega) hc1 (by omega)
          refine ⟨c :: P, ?_, ?_, ?_, ?_, s', ht, ?_, hn1, hn2, ?_⟩
          · intro x hx
            rcases List.mem_cons.1 hx with rfl | hx
            · exact ⟨hc1, hc2⟩
            · have := hP1 x hx; omega
          · rw [List.nodup_cons]
            exact ⟨fun h => by have := hP1 c h; omega, hP2⟩
          · simp; omega
          · intro k hk
            obtain ⟨k', rfl, h2, -⟩ := hk2 k hk
            have := hP4 k' h2
            simp; omega
          · rw [hl, hs1]; simp
          · rcases hr with ⟨⟨x, hx, hx0⟩, hr⟩ | ⟨hnz, xL', xR', hr, g1, g2, g3, g4, g5, g6, g7, g8⟩
            · exact .inl ⟨⟨x, List.mem_cons_of_mem _ hx, hx0⟩, hr⟩
            · refine .inr ⟨?_, xL', xR', ?_, g1, g2, by omega, ?_, ?_, ?_, ?_,
                fun h => g8 (by obtain ⟨k, hk, h1, h2⟩ := hk2 _ h; cases hk; exact h1)⟩
              · intro x hx
                rcases List.mem_cons.1 hx with rfl | hx
                · exact hz
                · exact hnz x hx
              · rw [hr]; simp; ring
              · intro x hx
                rcases List.mem_cons.1 hx with rfl | hx
                · exact .inr g3
                · exact g4 x hx
              · rcases g5 with g5 | ⟨g5, g5'⟩
                · exact .inl g5
                · exact .inr ⟨List.mem_cons_of_mem _ g5, g5'⟩
              · right
                rcases g6 with g6 | ⟨g6, g6'⟩
                · rw [g6]
                  refine ⟨by simp, ?_⟩
                  rw [sign_ok hz]
                  intro h
                  exact hsg (Except.ok.inj h)
                · exact ⟨List.mem_cons_of_mem _ g6, g6'⟩
              · rcases g7 with g7 | g7
                · exact .inl g7
                · right; simp [g7]

/-! ### `search` as a table -/

theorem checkBracket_sign {a b : K} (ha : a ≠ 0) (hb : b ≠ 0) :
    checkBracket (if 0 < a then 1 else -1) (if 0 < b then 1 else -1) = true ↔ a * b < 0 := by
  unfold checkBracket
  rcases lt_or_gt_of_ne ha with ha | ha <;> rcases lt_or_gt_of_ne hb with hb | hb
  · simp [not_lt.2 ha.le, not_lt.2 hb.le, (mul_pos_of_neg_of_neg ha hb).le]
  · simp [not_lt.2 ha.le, hb, mul_neg_of_neg_of_pos ha hb]
  · simp [ha, not_lt.2 hb.le, mul_neg_of_pos_of_neg ha hb]
  · simp [ha, hb, (mul_pos ha hb).le]

/-- The state after the three initial simulations. -/
def afterChecks (env : Env F K) (s : State F K) (n : ℤ) (f0 fl : F) (b c : K) : State F K :=
  { s with
    temps := PyDict.set (PyDict.set s.temps 0 b) (n - 1) c
    ghe := some (fl, env.maxHeight)
    log := s.log ++ [(f0, env.minHeight), (f0, env.maxHeight), (fl, env.maxHeight)] }

theorem search_table {env : Env F K} {domain : List F} {f0 fl : F} {a b c : K}
    (h0 : pyGet domain 0 = .ok f0) (hl : pyGet domain ((domain.length : ℤ) - 1) = .ok fl)
    (hb0 : env.build f0 env.minHeight = .ok ()) (hb1 : env.build f0 env.maxHeight = .ok ())
    (hb2 : env.build fl env.maxHeight = .ok ())
    (ha : env.sim f0 env.minHeight = .ok a) (hb : env.sim f0 env.maxHeight = .ok b)
    (hc : env.sim fl env.maxHeight = .ok c) (s : State F K) :
    search env domain s =
      let s1 := afterChecks env s domain.length f0 fl b c
      if a = 0 ∨ b = 0 then (.error .zeroDivisionError, s1)
      else if a * b < 0 then (.ok (some (0, f0)), { s1 with ghe := some (f0, env.maxHeight) })
      else if c = 0 then (.error .zeroDivisionError, s1)
      else if b * c < 0 then searchBisection env domain 0 ((domain.length : ℤ) - 1) b c s1
      else (.error .valueError, s1) := by
  unfold search
  dsimp only
  rw [St.lift_ok hl, St.lift_ok h0,
    St.bind_ok (calculateExcess_eq_ok.2 ⟨hb0, ha, rfl⟩),
    St.bind_ok (calculateExcess_eq_ok.2 ⟨hb1, hb, rfl⟩),
    St.bind_ok (calculateExcess_eq_ok.2 ⟨hb2, hc, rfl⟩), St.modify_bind, St.modify_bind]
  have hst : State.mk (PyDict.set (PyDict.set s.temps 0 b) ((domain.length : ℤ) - 1) c)
      (some (fl, env.maxHeight)) s.tempsNested s.heights
      (s.log ++ [(f0, env.minHeight)] ++ [(f0, env.maxHeight)] ++ [(fl, env.maxHeight)]) =
      afterChecks env s domain.length f0 fl b c := by
    simp [afterChecks]
  simp only [hst]
  set s1 := afterChecks env s domain.length f0 fl b c
  by_cases ha0 : a = 0
  · rw [St.lift_error ((C28_sign a).2.2.2 ha0), if_pos (.inl ha0)]
  rw [St.lift_ok (sign_ok ha0)]
  by_cases hb0 : b = 0
  · rw [St.lift_error ((C28_sign b).2.2.2 hb0), if_pos (.inr hb0)]
  rw [St.lift_ok (sign_ok hb0), if_neg (c := a = 0 ∨ b = 0) (by tauto)]
  by_cases hab : a * b < 0
  · rw [if_pos ((checkBracket_sign ha0 hb0).2 hab), if_pos hab, St.lift_ok h0,
      St.bind_ok (initializeGhe_eq_ok.2 ⟨hb1, rfl⟩)]
    rfl
  rw [if_neg (fun h => hab ((checkBracket_sign ha0 hb0).1 h)), if_neg hab, St.lift_ok (sign_ok hb0)]
  by_cases hc0 : c = 0
  · rw [St.lift_error ((C28_sign c).2.2.2 hc0), if_pos hc0]
  rw [St.lift_ok (sign_ok hc0), if_neg hc0]
  by_cases hbc : b * c < 0
  · rw [if_pos ((checkBracket_sign hb0 hc0).2 hbc), if_pos hbc]
  rw [if_neg (fun h => hbc ((checkBracket_sign hb0 hc0).1 h)), if_neg hbc]
  rcases lt_or_gt_of_ne hb0 with h1 | h1 <;> rcases lt_or_gt_of_ne hc0 with h2 | h2
  · rw [if_pos ⟨h1, h2⟩]; rfl
  · exact absurd (mul_neg_of_neg_of_pos h1 h2) hbc
  · exact absurd (mul_neg_of_pos_of_neg h1 h2) hbc
  · rw [if_neg (fun h => absurd h.1 (not_lt.2 h1.le)), if_pos ⟨h1, h2⟩]; rfl

/-- Inversion: a returning `search` made its three initial simulations. -/
theorem search_inv {env : Env F K} {domain : List F} {s s' : State F K} {r}
    (h : search env domain s = (.ok r, s')) :
    ∃ f0 fl a b c, pyGet domain 0 = .ok f0 ∧ pyGet domain ((domain.length : ℤ) - 1) = .ok fl ∧
      env.build f0 env.minHeight = .ok () ∧ env.build f0 env.maxHeight = .ok () ∧
      env.build fl env.maxHeight = .ok () ∧
      env.sim f0 env.minHeight = .ok a ∧ env.sim f0 env.maxHeight = .ok b ∧
      env.sim fl env.maxHeight = .ok c := by
  unfold search at h
  rw [St.lift_eq_ok] at h
  obtain ⟨fl, hl, h⟩ := h
  rw [St.lift_eq_ok] at h
  obtain ⟨f0, h0, h⟩ := h
  rw [St.bind_eq_ok] at h
  obtain ⟨a, s1, ha, h⟩ := h
  rw [St.bind_eq_ok] at h
  obtain ⟨b, s2, hb, h⟩ := h
  rw [St.bind_eq_ok] at h
  obtain ⟨c, s3, hc, h⟩ := h
  rw [calculateExcess_eq_ok] at ha hb hc
  exact ⟨f0, fl, a, b, c, h0, hl, ha.1, hb.1, hc.1, ha.2.1, hb.2.1, hc.2.1⟩

theorem find?_of_tempsOk {env : Env F K} {domain : List F} {d : PyDict ℤ K}
    (h : TempsOk env domain d) {k : ℤ} {v : K} (hm : (k, v) ∈ d) : PyDict.find? d k = some v := by
  obtain ⟨w, hw⟩ := PyDict.find?_isSome_of_mem hm
  obtain ⟨-, f, hf, hv⟩ := h _ hm
  obtain ⟨-, f', hf', hv'⟩ := h _ (PyDict.mem_of_find? hw)
  simp only at hf hf' hv hv'
  rw [hf] at hf'; cases hf'
  rw [hv] at hv'; cases hv'
  exact hw

theorem afterChecks_tempsOk {env : Env F K} {domain : List F} {f0 fl : F} {b c : K}
    (h0 : pyGet domain 0 = .ok f0) (hl : pyGet domain ((domain.length : ℤ) - 1) = .ok fl)
    (hb : env.sim f0 env.maxHeight = .ok b) (hc : env.sim fl env.maxHeight = .ok c)
    {s : State F K} (hs : TempsOk env domain s.temps) (hn : domain ≠ []) :
    TempsOk env domain (afterChecks env s domain.length f0 fl b c).temps := by
  have : 0 < domain.length := List.length_pos_iff.2 hn
  exact (hs.set le_rfl h0 hb).set (by omega) hl hc

theorem pyGet_ne_nil {α : Type} {l : List α} {i : ℤ} {a : α} (h : pyGet l i = .ok a) : l ≠ [] := by
  rintro rfl
  unfold pyGet at h
  dsimp only at h
  split at h <;> simp at h

/-- Partial correctness of `search`, no assumption on the simulation. -/
theorem search_ok {env : Env F K} {domain : List F} {s s' : State F K} {r}
    (h : search env domain s = (.ok r, s')) (ht : TempsOk env domain s.temps) :
    ∃ key f v, r = some (key, f) ∧ 0 ≤ key ∧ pyGet domain key = .ok f ∧
      env.sim f env.maxHeight = .ok v ∧ (key, v) ∈ s'.temps ∧
      s'.ghe = some (f, env.maxHeight) ∧ TempsOk env domain s'.temps ∧
      s'.tempsNested = s.tempsNested ∧ s'.heights = s.heights ∧
      ((v ≤ 0 ∧ selectKey s'.temps = .ok key) ∨
        key = 0 ∧ ∃ a, env.sim f env.minHeight = .ok a ∧ a * v < 0) := by
  obtain ⟨f0, fl, a, b, c, h0, hl, hb0, hb1, hb2, ha, hb, hc⟩ := search_inv h
  have hne := pyGet_ne_nil h0
  have hpos : 0 < domain.length := List.length_pos_iff.2 hne
  have ht1 := afterChecks_tempsOk h0 hl hb hc ht hne
  rw [search_table h0 hl hb0 hb1 hb2 ha hb hc s] at h
  dsimp only at h
  set s1 := afterChecks env s domain.length f0 fl b c with hs1
  split at h
  · cases h
  split at h
  · next hab =>
    cases h
    refine ⟨0, f0, b, rfl, le_rfl, h0, hb, ?_, rfl, ht1, rfl, rfl, .inr ⟨rfl, a, ha, hab⟩⟩
    show (0, b) ∈ s1.temps
    by_cases hn : ((domain.length : ℤ) - 1) = 0
    · rw [hn] at hl
      rw [h0] at hl; cases hl
      rw [hb] at hc; cases hc
      rw [hs1]; unfold afterChecks
      simp only [hn]
      exact PyDict.mem_set_self _ _ _
    · exact PyDict.mem_set_of_ne (PyDict.mem_set_self _ _ _) (fun h => hn h.symm)
  split at h
  · cases h
  split at h
  · unfold searchBisection at h
    rw [St.lift_eq_ok] at h
    obtain ⟨sg, -, h⟩ := h
    rw [St.lift_eq_ok] at h
    obtain ⟨-, -, h⟩ := h
    rw [St.bind_eq_ok] at h
    obtain ⟨⟨i, xl, xr⟩, s2, h2, h⟩ := h
    obtain ⟨ht2, hn1, hn2⟩ := bisect_tempsOk h2 le_rfl (by omega) ht1
    dsimp only at h
    rw [St.lift_eq_ok] at h
    obtain ⟨g, -, h⟩ := h
    rw [St.bind_eq_ok] at h
    obtain ⟨x, s3, h3, h⟩ := h
    rw [calculateExcess_eq_ok] at h3
    obtain ⟨-, -, rfl⟩ := h3
    rw [St.get_bind, St.lift_eq_ok] at h
    obtain ⟨key, hk, h⟩ := h
    rw [St.lift_eq_ok] at h
    obtain ⟨f, hf, h⟩ := h
    rw [St.bind_eq_ok] at h
    obtain ⟨u, s4, h4, h⟩ := h
    obtain ⟨-, rfl⟩ := initializeGhe_eq_ok.1 h4
    simp only [St.pure_apply, Prod.mk.injEq, Except.ok.injEq] at h
    obtain ⟨rfl, rfl⟩ := h
    obtain ⟨pre, post, v, hd, hv, -, -⟩ := selectKey_eq_ok hk
    have hm : (key, v) ∈ s2.temps := by
      show (key, v) ∈ s2.temps
      simp only at hd
      rw [hd]; simp
    obtain ⟨hk0, f', hf', hv'⟩ := ht2 _ hm
    simp only at hf' hv' hk0
    rw [hf] at hf'; cases hf'
    exact ⟨key, f, v, rfl, hk0, hf, hv', hm, rfl, ht2, hn1, hn2, .inl ⟨hv, hk⟩⟩
  · cases h

/-! ### `search` does not touch the records of the nested searches -/

/-- A computation that leaves `tempsNested` and `heights` alone, however it ends. -/
def Keeps {α : Type} (x : St (State F K) α) : Prop :=
  ∀ s, (x s).2.tempsNested = s.tempsNested ∧ (x s).2.heights = s.heights

theorem Keeps.bind {α β : Type} {x : St (State F K) α} {f : α → St (State F K) β} (hx : Keeps x)
    (hf : ∀ a, Keeps (f a)) : Keeps (x >>= f) := by
  intro s
  rcases h : x s with ⟨r, s'⟩
  have hxs := hx s
  rw [h] at hxs
  cases r with
  | error e => rw [St.bind_error h]; exact hxs
  | ok a =>
    rw [St.bind_ok h]
    have := hf a s'
    exact ⟨this.1.trans hxs.1, this.2.trans hxs.2⟩

theorem Keeps.lift {α : Type} (x : Py α) : Keeps (St.lift x : St (State F K) α) :=
  fun _ => ⟨rfl, rfl⟩
theorem Keeps.pure {α : Type} (a : α) : Keeps (Pure.pure a : St (State F K) α) :=
  fun _ => ⟨rfl, rfl⟩
theorem Keeps.throw {α : Type} (e : PyErr) : Keeps (St.throw e : St (State F K) α) :=
  fun _ => ⟨rfl, rfl⟩
theorem Keeps.get : Keeps (St.get : St (State F K) (State F K)) := fun _ => ⟨rfl, rfl⟩
theorem Keeps.initializeGhe (env : Env F K) (f : F) (H : K) : Keeps (initializeGhe env f H) :=
  Keeps.bind (Keeps.lift _) fun _ _ => ⟨rfl, rfl⟩
theorem Keeps.calculateExcess (env : Env F K) (f : F) (H : K) :
    Keeps (calculateExcess env f H) :=
  Keeps.bind (Keeps.initializeGhe _ _ _) fun _ =>
    Keeps.bind (fun _ => ⟨rfl, rfl⟩) fun _ => Keeps.lift _

theorem Keeps.bisect (env : Env F K) (domain : List F) (sg : ℤ) :
    ∀ (rem : ℕ) (i xL xR : ℤ), Keeps (bisect env domain sg rem i xL xR) := by
  intro rem
  induction rem with
  | zero => intro i xL xR; exact Keeps.pure _
  | succ rem ih =>
    intro i xL xR
    unfold Search.bisect
    dsimp only
    split
    · exact Keeps.pure _
    · refine Keeps.bind (Keeps.lift _) fun f => Keeps.bind (Keeps.calculateExcess _ _ _) fun T =>
        Keeps.bind (fun _ => ⟨rfl, rfl⟩) fun _ => Keeps.bind (Keeps.lift _) fun cs => ?_
      split
      · exact ih _ _ _
      · exact ih _ _ _

theorem Keeps.search (env : Env F K) (domain : List F) : Keeps (search env domain) := by
  unfold Search.search
  refine Keeps.bind (Keeps.lift _) fun _ => Keeps.bind (Keeps.lift _) fun _ =>
    Keeps.bind (Keeps.calculateExcess _ _ _) fun _ =>
    Keeps.bind (Keeps.calculateExcess _ _ _) fun _ =>
    Keeps.bind (Keeps.calculateExcess _ _ _) fun _ =>
    Keeps.bind (fun _ => ⟨rfl, rfl⟩) fun _ => Keeps.bind (fun _ => ⟨rfl, rfl⟩) fun _ =>
    Keeps.bind (Keeps.lift _) fun _ => Keeps.bind (Keeps.lift _) fun _ => ?_
  split
  · exact Keeps.bind (Keeps.lift _) fun _ => Keeps.bind (Keeps.initializeGhe _ _ _) fun _ =>
      Keeps.pure _
  · refine Keeps.bind (Keeps.lift _) fun _ => Keeps.bind (Keeps.lift _) fun _ => ?_
    split
    · unfold searchBisection
      refine Keeps.bind (Keeps.lift _) fun _ => Keeps.bind (Keeps.lift _) fun _ =>
        Keeps.bind (Keeps.bisect _ _ _ _ _ _ _) fun r => ?_
      refine Keeps.bind (Keeps.lift _) fun _ => Keeps.bind (Keeps.calculateExcess _ _ _) fun _ =>
        Keeps.bind Keeps.get fun _ => Keeps.bind (Keeps.lift _) fun _ =>
        Keeps.bind (Keeps.lift _) fun _ => Keeps.bind (Keeps.initializeGhe _ _ _) fun _ =>
        Keeps.pure _
    · split
      · exact Keeps.throw _
      · split
        · exact Keeps.throw _
        · exact Keeps.pure _

theorem search_records {env : Env F K} {domain : List F} {s s' : State F K}
    {r : Except PyErr (Option (ℤ × F))} (h : search env domain s = (r, s')) :
    s'.tempsNested = s.tempsNested ∧ s'.heights = s.heights := by
  have := Keeps.search env domain s
  rw [h] at this
  exact this

/-! ### The bisection branch in full -/

/-- Every field can be built and simulated at the two heights; `ex` is the excess. -/
def Answers (env : Env F K) (ex : F → K → K) (domain : List F) : Prop :=
  ∀ f ∈ domain, ∀ H, H = env.minHeight ∨ H = env.maxHeight →
    env.build f H = .ok () ∧ env.sim f H = .ok (ex f H)

theorem length_le_of_inside {P : List ℤ} {a b : ℤ} (hP : ∀ c ∈ P, a < c ∧ c < b) (hn : P.Nodup) :
    P.length ≤ (b - a - 1).toNat := by
  have h : P ⊆ pyRange (a + 1) b := by
    intro c hc
    have := hP c hc
    rw [mem_pyRange]; omega
  have := (List.subperm_of_subset hn h).length_le
  rw [length_pyRange] at this
  omega

theorem mem_foldl_set {e : ℤ → K} : ∀ (P : List ℤ) (d : PyDict ℤ K) (q : ℤ × K),
    q ∈ P.foldl (fun d c => PyDict.set d c (e c)) d → q ∈ d ∨ (q.1 ∈ P ∧ q.2 = e q.1) := by
  intro P
  induction P with
  | nil => intro d q h; exact .inl h
  | cons c P ih =>
    intro d q h
    rcases ih _ q h with h | ⟨h, h2⟩
    · rcases PyDict.mem_set h with rfl | h
      · exact .inr ⟨by simp, rfl⟩
      · exact .inl h
    · exact .inr ⟨List.mem_cons_of_mem _ h, h2⟩

theorem foldl_set_keep {e : ℤ → K} : ∀ (P : List ℤ) (d : PyDict ℤ K) (q : ℤ × K),
    q ∈ d → (q.1 ∈ P → q.2 = e q.1) → q ∈ P.foldl (fun d c => PyDict.set d c (e c)) d := by
  intro P
  induction P with
  | nil => intro d q h _; exact h
  | cons c P ih =>
    intro d q h hq
    refine ih _ q ?_ (fun h => hq (List.mem_cons_of_mem _ h))
    by_cases hc : q.1 = c
    · have : q = (c, e c) := by
        rw [← hc, ← hq (by simp [hc])]
      rw [this]; exact PyDict.mem_set_self _ _ _
    · exact PyDict.mem_set_of_ne h hc

theorem foldl_set_mem {e : ℤ → K} : ∀ (P : List ℤ) (d : PyDict ℤ K) (c : ℤ), c ∈ P →
    (c, e c) ∈ P.foldl (fun d c => PyDict.set d c (e c)) d := by
  intro P
  induction P with
  | nil => intro d c h; cases h
  | cons c P ih =>
    intro d x h
    rw [List.foldl_cons]
    rcases List.mem_cons.1 h with rfl | h
    · exact foldl_set_keep P _ _ (PyDict.mem_set_self _ _ _) (fun _ => rfl)
    · exact ih _ x h

theorem searchBisection_spec {env : Env F K} {domain : List F} {fld : ℤ → F} {e : ℤ → K} {n : ℤ}
    (hn : 1 ≤ n)
    (hget : ∀ c, 0 ≤ c → c < n → pyGet domain c = .ok (fld c))
    (hb : ∀ c, 0 ≤ c → c < n → env.build (fld c) env.maxHeight = .ok ())
    (hs : ∀ c, 0 ≤ c → c < n → env.sim (fld c) env.maxHeight = .ok (e c))
    (hbc : e 0 * e (n - 1) < 0) (s : State F K)
    (ht : s.temps = PyDict.set (PyDict.set [] 0 (e 0)) (n - 1) (e (n - 1))) :
    ∃ P : List ℤ, (∀ c ∈ P, 0 < c ∧ c < n - 1) ∧ P.Nodup ∧ P.length ≤ env.maxIter.toNat ∧
      (∀ k : ℕ, n - 1 ≤ 2 ^ k → P.length ≤ k) ∧
      (((∃ c ∈ P, e c = 0) ∧ ∃ s', 
          searchBisection env domain 0 (n - 1) (e 0) (e (n - 1)) s =
            (.error .zeroDivisionError, s') ∧
          s'.log = s.log ++ P.map (fun c => (fld c, env.maxHeight)) ∧
          s'.tempsNested = s.tempsNested ∧ s'.heights = s.heights) ∨
        ((∀ c ∈ P, e c ≠ 0) ∧ ∃ key xL xR s',
          searchBisection env domain 0 (n - 1) (e 0) (e (n - 1)) s =
            (.ok (some (key, fld key)), s') ∧
          s'.log = s.log ++ P.map (fun c => (fld c, env.maxHeight)) ++
            [(fld P.length, env.maxHeight)] ∧
          s'.tempsNested = s.tempsNested ∧ s'.heights = s.heights ∧
          s'.ghe = some (fld key, env.maxHeight) ∧
          selectKey s'.temps = .ok key ∧
          (∀ q, q ∈ s'.temps ↔ (q.1 = 0 ∨ q.1 = n - 1 ∨ q.1 ∈ P) ∧ q.2 = e q.1) ∧
          0 ≤ key ∧ key < n ∧ e key ≤ 0 ∧
          0 ≤ xL ∧ xL < xR ∧ xR ≤ n - 1 ∧ (∀ c ∈ P, c ≤ xL ∨ xR ≤ c) ∧
          (xL = 0 ∨ xL ∈ P ∧ 0 < e 0 * e xL) ∧ (xR = n - 1 ∨ xR ∈ P ∧ e 0 * e xR < 0) ∧
          (xR = xL + 1 ∨ P.length = env.maxIter.toNat) ∧
          (n - 1 ≤ 2 ^ env.maxIter.toNat → xR = xL + 1))) := by
  have h00 : e 0 ≠ 0 := by intro h; rw [h, zero_mul] at hbc; exact lt_irrefl _ hbc
  have hl0 : e (n - 1) ≠ 0 := by intro h; rw [h, mul_zero] at hbc; exact lt_irrefl _ hbc
  have hn2 : 2 ≤ n := by
    by_contra hlt
    obtain rfl : n = 1 := by omega
    simp only [sub_self] at hbc
    exact absurd hbc (not_lt.2 (mul_self_nonneg _))
  unfold searchBisection
  obtain ⟨P, hP1, hP2, hP3, hP4, s2, ht2, hl2, g1, g2, hr⟩ :=
    bisect_spec (sg := if 0 < e 0 then 1 else -1) hget hb hs env.maxIter.toNat 0 0 (n - 1) s le_rfl
      (by omega) (by omega)
  refine ⟨P, hP1, hP2, hP3, by simpa using hP4, ?_⟩
  rw [St.lift_ok (sign_ok h00), St.lift_ok (sign_ok hl0)]
  rcases hr with ⟨hz, hr⟩ | ⟨hnz, xL, xR, hr, a1, a2, a3, a4, a5, a6, a7, a8⟩
  · exact .inl ⟨hz, s2, by rw [St.bind_error hr], hl2, g1, g2⟩
  · right
    refine ⟨hnz, ?_⟩
    have hlen := length_le_of_inside hP1 hP2
    have hi1 : (0 : ℤ) ≤ (P.length : ℤ) := by omega
    have hi2 : (P.length : ℤ) < n := by omega
    have hx : calculateExcess env (fld P.length) env.maxHeight s2 = (.ok (e P.length), { s2 with
        ghe := some (fld P.length, env.maxHeight),
        log := s2.log ++ [(fld P.length, env.maxHeight)] }) :=
      calculateExcess_eq_ok.2 ⟨hb _ hi1 hi2, hs _ hi1 hi2, rfl⟩
    have htemps : ∀ q, q ∈ s2.temps ↔ (q.1 = 0 ∨ q.1 = n - 1 ∨ q.1 ∈ P) ∧ q.2 = e q.1 := by
      intro q
      rw [ht2, ht]
      constructor
      · intro h
        rcases mem_foldl_set P _ q h with h | h
        · rcases PyDict.mem_set h with rfl | h
          · exact ⟨.inr (.inl rfl), rfl⟩
          · rcases PyDict.mem_set h with rfl | h
            · exact ⟨.inl rfl, rfl⟩
            · cases h
        · exact ⟨.inr (.inr h.1), h.2⟩
      · rintro ⟨h, h2⟩
        obtain ⟨k, v⟩ := q
        simp only at h h2
        subst h2
        rcases h with rfl | rfl | h
        · refine foldl_set_keep P _ _ ?_ (fun _ => rfl)
          exact PyDict.mem_set_of_ne (PyDict.mem_set_self _ _ _) (by simp; omega)
        · exact foldl_set_keep P _ _ (PyDict.mem_set_self _ _ _) (fun _ => rfl)
        · exact foldl_set_mem P _ _ h
    obtain ⟨key, hkey⟩ : ∃ key, selectKey s2.temps = .ok key := by
      rcases lt_or_gt_of_ne h00 with h | h
      · exact selectKey_ok ((htemps (0, e 0)).2 ⟨.inl rfl, rfl⟩) h.le
      · have : e (n - 1) < 0 := by
          by_contra hc
          exact absurd hbc (not_lt.2 (mul_nonneg h.le (not_lt.1 hc)))
        exact selectKey_ok ((htemps (n - 1, e (n - 1))).2 ⟨.inr (.inl rfl), rfl⟩) this.le
    obtain ⟨pre, post, v, hd, hv, -, -⟩ := selectKey_eq_ok hkey
    have hmem : (key, v) ∈ s2.temps := by rw [hd]; simp
    obtain ⟨hk, hkv⟩ := (htemps _).1 hmem
    simp only at hk hkv
    have hk0 : 0 ≤ key ∧ key < n := by
      rcases hk with rfl | rfl | hk
      · omega
      · omega
      · have := hP1 _ hk; omega
    have hsgn : ∀ x, e x ≠ 0 → (sign (e x) = .ok (if 0 < e 0 then 1 else -1) ↔ 0 < e 0 * e x) := by
      intro x hx0
      rw [sign_ok hx0]
      rcases lt_or_gt_of_ne h00 with h | h <;> rcases lt_or_gt_of_ne hx0 with h' | h'
      · simp [not_lt.2 h.le, not_lt.2 h'.le, mul_pos_of_neg_of_neg h h']
      · simp [not_lt.2 h.le, h', (mul_neg_of_neg_of_pos h h').le]
      · simp [h, not_lt.2 h'.le, (mul_neg_of_pos_of_neg h h').le]
      · simp [h, h']
    refine ⟨key, xL, xR, { s2 with
        ghe := some (fld key, env.maxHeight),
        log := s2.log ++ [(fld P.length, env.maxHeight)] }, ?_, ?_, g1, g2, rfl, hkey, htemps,
        hk0.1, hk0.2, hkv ▸ hv, a1, a2, a3, a4, ?_, ?_, a7, by simpa using a8⟩
    · rw [St.bind_ok hr]
      dsimp only
      rw [zero_add, St.lift_ok (hget _ hi1 hi2), St.bind_ok hx, St.get_bind, St.lift_ok hkey,
        St.lift_ok (hget _ hk0.1 hk0.2),
        St.bind_ok (initializeGhe_eq_ok.2 ⟨hb _ hk0.1 hk0.2, rfl⟩)]
      rfl
    · show s2.log ++ _ = _
      rw [hl2]
    · rcases a5 with a5 | ⟨a5, a5'⟩
      · exact .inl a5
      · exact .inr ⟨a5, (hsgn xL (hnz _ a5)).1 a5'⟩
    · rcases a6 with a6 | ⟨a6, a6'⟩
      · exact .inl a6
      · right
        refine ⟨a6, ?_⟩
        have h1 : ¬ 0 < e 0 * e xR := fun h => a6' ((hsgn xR (hnz _ a6)).2 h)
        exact lt_of_le_of_ne (not_lt.1 h1) (mul_ne_zero h00 (hnz _ a6))

end Search
end Ghedt
