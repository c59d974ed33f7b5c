import Verif.Lemmas.SearchRoutines

/-!
# Properties of `search_routines.py` (C30–C38)

`env.sim f H` is the excess temperature of field `f` at height `H` (`cost(*simulate())` of the
exchanger built for it), an arbitrary function that may raise.  `Answers env ex domain` says that
none of the simulations the search may ask for raises, and names the excess `ex f H`.
-/

set_option linter.unusedSectionVars false

namespace Ghedt.Search
open Utilities
variable {F K : Type} [Field K] [LinearOrder K] [FloorRing K] [IsStrictOrderedRing K]

/-- A small concrete environment for the examples: a field is a number of boreholes, the excess at
height `H` is given by a table. -/
def exEnv (ex : ℕ → ℚ → ℚ) (maxIter : ℤ) : Env ℕ ℚ where
  build _ _ := .ok ()
  sim f H := .ok (ex f H)
  sizeH _ H := .ok H
  nbh f := f
  minHeight := 50
  maxHeight := 100
  boreholeH := 80
  maxIter := maxIter

theorem exEnv_answers (ex : ℕ → ℚ → ℚ) (m : ℤ) (domain : List ℕ) :
    Answers (exEnv ex m) ex domain := fun _ _ _ _ => ⟨rfl, rfl⟩

/-! ## C30, C33 — what a returning search returns -/

/-- C30: whatever the simulation does, if `search()` returns, it returns a field of the domain
together with its index, and that field meets the temperature limits at maximum height — unless the
search took the single-field shortcut (key 0, and the first field's excess changes sign between
minimum and maximum height). -/
theorem C30_feasible (env : Env F K) (domain : List F) (s s' : State F K) (hs : s.temps = [])
    (r : Option (ℤ × F)) (h : search env domain s = (.ok r, s')) :
    ∃ (key : ℕ) (f : F) (v : K), r = some ((key : ℤ), f) ∧ domain[key]? = some f ∧
      env.sim f env.maxHeight = .ok v ∧
      (v ≤ 0 ∨ key = 0 ∧ ∃ a, env.sim f env.minHeight = .ok a ∧ a * v < 0) := by
  obtain ⟨key, f, v, rfl, h0, hf, hv, -, -, -, -, -, hc⟩ :=
    search_ok h (by rw [hs]; intro q hq; cases hq)
  rw [pyGet_eq_ok h0] at hf
  refine ⟨key.toNat, f, v, ?_, hf, hv, ?_⟩
  · rw [Int.toNat_of_nonneg h0]
  · rcases hc with hc | ⟨rfl, hc⟩
    · exact .inl hc.1
    · exact .inr ⟨rfl, hc⟩

/-- C30, the non-monotone case on a concrete domain: excesses 3, 1, -2, 4, -1 at maximum height. -/
example : (search (exEnv (fun f H => if H = 50 then 9 else
      if f = 1 then 3 else if f = 2 then 1 else if f = 3 then -2 else if f = 4 then 4 else -1) 15)
    [1, 2, 3, 4, 5] {}).1 = .ok (some (4, 5)) := by decide +kernel

/-- C33: after `search()` returns, whatever exchanger was held before, the held exchanger is the
selected field at maximum height, and the recorded temperature of the selected key is that field's
excess. -/
theorem C33_configured (env : Env F K) (domain : List F) (s s' : State F K) (hs : s.temps = [])
    (r : Option (ℤ × F)) (h : search env domain s = (.ok r, s')) :
    ∃ key f v, r = some (key, f) ∧ s'.ghe = some (f, env.maxHeight) ∧
      PyDict.find? s'.temps key = some v ∧ env.sim f env.maxHeight = .ok v := by
  obtain ⟨key, f, v, rfl, h0, hf, hv, hm, hg, ht, -⟩ :=
    search_ok h (by rw [hs]; intro q hq; cases hq)
  exact ⟨key, f, v, rfl, hg, find?_of_tempsOk ht hm, hv⟩

/-- C33: every temperature recorded by the search is the excess at maximum height of the field with
that index. -/
theorem C33_recorded (env : Env F K) (domain : List F) (s s' : State F K) (hs : s.temps = [])
    (r : Option (ℤ × F)) (h : search env domain s = (.ok r, s')) :
    ∀ q ∈ s'.temps, 0 ≤ q.1 ∧ ∃ f, domain[q.1.toNat]? = some f ∧
      env.sim f env.maxHeight = .ok q.2 := by
  obtain ⟨key, f, v, -, -, -, -, -, -, ht, -⟩ :=
    search_ok h (by rw [hs]; intro q hq; cases hq)
  intro q hq
  obtain ⟨h0, f, hf, hv⟩ := ht q hq
  exact ⟨h0, f, (pyGet_eq_ok h0).1 hf, hv⟩

example : (search (exEnv (fun f H => if H = 50 then 9 else 3 - (f : ℚ)) 15) [1, 2, 4, 5]
    { ghe := some (17, 3) }).2.ghe = some (4, 100) ∧
    (search (exEnv (fun f H => if H = 50 then 9 else 3 - (f : ℚ)) 15) [1, 2, 4, 5] {}).2.temps =
      [(0, 2), (3, -2), (2, -1), (1, 1)] := by decide +kernel

/-! ### Total description used by the remaining properties -/

/-- With `Answers`, the four ingredients of `search_table`. -/
theorem table_of_answers {env : Env F K} {ex : F → K → K} {domain : List F}
    (h : Answers env ex domain) {f0 fl : F} (h0 : domain.head? = some f0)
    (hl : domain.getLast? = some fl) (s : State F K) :
    search env domain s =
      let a := ex f0 env.minHeight
      let b := ex f0 env.maxHeight
      let c := ex fl env.maxHeight
      let s1 := afterChecks env s domain.length f0 fl b c
      if a = 0 ∨ b = 0 then (.error .zeroDivisionError, s1)
      else if a * b < 0 then (.ok (some (0, f0)), { s1 with ghe := some (f0, env.maxHeight) })
      else if c = 0 then (.error .zeroDivisionError, s1)
      else if b * c < 0 then searchBisection env domain 0 ((domain.length : ℤ) - 1) b c s1
      else (.error .valueError, s1) := by
  have m0 : f0 ∈ domain := List.mem_of_head? h0
  have ml : fl ∈ domain := List.mem_of_getLast? hl
  have hpos : 0 < domain.length := List.length_pos_of_mem m0
  refine search_table ?_ ?_ (h f0 m0 _ (.inl rfl)).1 (h f0 m0 _ (.inr rfl)).1
    (h fl ml _ (.inr rfl)).1 (h f0 m0 _ (.inl rfl)).2 (h f0 m0 _ (.inr rfl)).2
    (h fl ml _ (.inr rfl)).2 s
  · rw [pyGet_eq_ok le_rfl]
    rw [List.head?_eq_getElem?] at h0; exact h0
  · rw [pyGet_eq_ok (by omega)]
    rw [List.getLast?_eq_getElem?] at hl
    rw [← hl]; congr 1; omega

/-- With `Answers`, the bisection branch. -/
theorem bisection_of_answers {env : Env F K} {ex : F → K → K} {domain : List F}
    (h : Answers env ex domain) {f0 fl : F} (h0 : domain.head? = some f0)
    (hl : domain.getLast? = some fl) (s : State F K) (hs : s.temps = [])
    (hab : 0 < ex f0 env.minHeight * ex f0 env.maxHeight)
    (hbc : ex f0 env.maxHeight * ex fl env.maxHeight < 0) :
    ∃ (fld : ℤ → F) (P : List ℤ),
      (∀ c : ℤ, 0 ≤ c → c < domain.length → domain[c.toNat]? = some (fld c)) ∧
      (∀ c ∈ P, 0 < c ∧ c < (domain.length : ℤ) - 1) ∧ P.Nodup ∧
      P.length ≤ env.maxIter.toNat ∧ (∀ k : ℕ, (domain.length : ℤ) - 1 ≤ 2 ^ k → P.length ≤ k) ∧
      (((∃ c ∈ P, ex (fld c) env.maxHeight = 0) ∧ ∃ s',
          search env domain s = (.error .zeroDivisionError, s') ∧
          s'.log = s.log ++ [(f0, env.minHeight), (f0, env.maxHeight), (fl, env.maxHeight)] ++
            P.map (fun c => (fld c, env.maxHeight)) ∧
          s'.tempsNested = s.tempsNested ∧ s'.heights = s.heights) ∨
        ((∀ c ∈ P, ex (fld c) env.maxHeight ≠ 0) ∧ ∃ key xL xR s',
          search env domain s = (.ok (some (key, fld key)), s') ∧
          s'.log = s.log ++ [(f0, env.minHeight), (f0, env.maxHeight), (fl, env.maxHeight)] ++
            P.map (fun c => (fld c, env.maxHeight)) ++ [(fld P.length, env.maxHeight)] ∧
          s'.tempsNested = s.tempsNested ∧ s'.heights = s.heights ∧
          s'.ghe = some (fld key, env.maxHeight) ∧
          selectKey s'.temps = .ok key ∧
          (∀ q, q ∈ s'.temps ↔ (q.1 = 0 ∨ q.1 = (domain.length : ℤ) - 1 ∨ q.1 ∈ P) ∧
            q.2 = ex (fld q.1) env.maxHeight) ∧
          0 ≤ key ∧ key < domain.length ∧ ex (fld key) env.maxHeight ≤ 0 ∧
          0 ≤ xL ∧ xL < xR ∧ xR ≤ (domain.length : ℤ) - 1 ∧ (∀ c ∈ P, c ≤ xL ∨ xR ≤ c) ∧
          (xL = 0 ∨ xL ∈ P ∧ 0 < ex f0 env.maxHeight * ex (fld xL) env.maxHeight) ∧
          (xR = (domain.length : ℤ) - 1 ∨
            xR ∈ P ∧ ex f0 env.maxHeight * ex (fld xR) env.maxHeight < 0) ∧
          (xR = xL + 1 ∨ P.length = env.maxIter.toNat) ∧
          ((domain.length : ℤ) - 1 ≤ 2 ^ env.maxIter.toNat → xR = xL + 1))) := by
  have m0 : f0 ∈ domain := List.mem_of_head? h0
  have hpos : 0 < domain.length := List.length_pos_of_mem m0
  set fld : ℤ → F := fun c => (domain[c.toNat]?).getD f0 with hfld
  have hfl : ∀ c : ℤ, 0 ≤ c → c < domain.length → domain[c.toNat]? = some (fld c) := by
    intro c hc0 hc1
    have : c.toNat < domain.length := by omega
    simp [hfld, this]
  have hmem : ∀ c : ℤ, 0 ≤ c → c < domain.length → fld c ∈ domain := fun c a b =>
    List.mem_of_getElem? (hfl c a b)
  have e0 : fld 0 = f0 := by
    have := hfl 0 le_rfl (by omega)
    rw [List.head?_eq_getElem?] at h0
    rw [Int.toNat_zero, h0] at this
    exact (Option.some.inj this).symm
  have el : fld ((domain.length : ℤ) - 1) = fl := by
    have := hfl ((domain.length : ℤ) - 1) (by omega) (by omega)
    rw [List.getLast?_eq_getElem?] at hl
    rw [show ((domain.length : ℤ) - 1).toNat = domain.length - 1 by omega, hl] at this
    exact (Option.some.inj this).symm
  have htab := table_of_answers h h0 hl s
  dsimp only at htab
  have ha0 : ex f0 env.minHeight ≠ 0 := by rintro h; rw [h, zero_mul] at hab; exact lt_irrefl _ hab
  have hb0 : ex f0 env.maxHeight ≠ 0 := by rintro h; rw [h, mul_zero] at hab; exact lt_irrefl _ hab
  have hc0 : ex fl env.maxHeight ≠ 0 := by rintro h; rw [h, mul_zero] at hbc; exact lt_irrefl _ hbc
  rw [if_neg (by tauto), if_neg (not_lt.2 hab.le), if_neg hc0, if_pos hbc] at htab
  obtain ⟨P, hP1, hP2, hP3, hP4, hr⟩ := searchBisection_spec (env := env) (domain := domain)
    (fld := fld) (e := fun c => ex (fld c) env.maxHeight) (n := domain.length) (by omega)
    (fun c a b => (pyGet_eq_ok a).2 (hfl c a b))
    (fun c a b => (h _ (hmem c a b) _ (.inr rfl)).1)
    (fun c a b => (h _ (hmem c a b) _ (.inr rfl)).2)
    (by simp only [e0, el]; exact hbc)
    (afterChecks env s domain.length f0 fl (ex f0 env.maxHeight) (ex fl env.maxHeight))
    (by simp only [e0, el, afterChecks, hs])
  simp only [e0, el] at hr
  rw [← htab] at hr
  exact ⟨fld, P, hfl, hP1, hP2, hP3, hP4, hr⟩

/-! ## C31 — the smallest feasible field -/

/-- C31: if the excess at maximum height strictly decreases along the domain, is never zero and
changes sign, the first field is too small at minimum height too, and `max_iter` is large enough for
the domain, then `search()` returns the smallest feasible field: it is feasible and every earlier
field of the domain is not. -/
theorem C31_smallest (env : Env F K) (ex : F → K → K) (domain : List F) (h : Answers env ex domain)
    (hdec : (domain.map fun f => ex f env.maxHeight).Pairwise (· > ·))
    (hnz : ∀ f ∈ domain, ex f env.maxHeight ≠ 0)
    (f0 fl : F) (h0 : domain.head? = some f0) (hl : domain.getLast? = some fl)
    (hmin : 0 < ex f0 env.minHeight) (hpos : 0 < ex f0 env.maxHeight)
    (hneg : ex fl env.maxHeight < 0)
    (hlen : domain.length ≤ 2 ^ env.maxIter.toNat + 1) (s : State F K) (hs : s.temps = []) :
    ∃ (key : ℕ) (f : F) (s' : State F K), search env domain s = (.ok (some ((key : ℤ), f)), s') ∧
      domain[key]? = some f ∧ ex f env.maxHeight ≤ 0 ∧
      ∀ k < key, ∀ g, domain[k]? = some g → 0 < ex g env.maxHeight := by
  obtain ⟨fld, P, hfld, hP1, hP2, hP3, hP4, hr⟩ := bisection_of_answers h h0 hl s hs
    (mul_pos hmin hpos) (mul_neg_of_pos_of_neg hpos hneg)
  have hmono : ∀ i j : ℤ, 0 ≤ i → i < j → j < domain.length →
      ex (fld j) env.maxHeight < ex (fld i) env.maxHeight := by
    intro i j hi hij hj
    rw [List.pairwise_iff_getElem] at hdec
    have hil : i.toNat < domain.length := by omega
    have hjl : j.toNat < domain.length := by omega
    have := hdec i.toNat j.toNat (by simpa using hil) (by simpa using hjl) (by omega)
    have e1 := hfld i hi (by omega)
    have e2 := hfld j (by omega) hj
    rw [List.getElem?_eq_getElem hil] at e1
    rw [List.getElem?_eq_getElem hjl] at e2
    simp only [List.getElem_map, Option.some.inj e1, Option.some.inj e2] at this
    exact this
  have hmem : ∀ c : ℤ, 0 ≤ c → c < domain.length → fld c ∈ domain := fun c a b =>
    List.mem_of_getElem? (hfld c a b)
  rcases hr with ⟨⟨c, hc, hc0⟩, -⟩ | ⟨-, key, xL, xR, s', hsr, -, -, -, -, hsel, htm, hk0, hkn, hk,
    a1, a2, a3, a4, a5, a6, -, a8⟩
  · have := hP1 c hc
    exact absurd hc0 (hnz _ (hmem c (by omega) (by omega)))
  · have e0 : fld 0 = f0 := by
      have := hfld 0 le_rfl (by have := List.length_pos_of_mem (List.mem_of_head? h0); omega)
      rw [List.head?_eq_getElem?] at h0
      rw [Int.toNat_zero, h0] at this
      exact (Option.some.inj this).symm
    have el : fld ((domain.length : ℤ) - 1) = fl := by
      have := hfld ((domain.length : ℤ) - 1) (by omega) (by omega)
      rw [List.getLast?_eq_getElem?] at hl
      rw [show ((domain.length : ℤ) - 1).toNat = domain.length - 1 by omega, hl] at this
      exact (Option.some.inj this).symm
    have hL : 0 < ex (fld xL) env.maxHeight := by
      rcases a5 with rfl | ⟨-, a5⟩
      · rw [e0]; exact hpos
      · exact (mul_pos_iff_of_pos_left hpos).1 a5
    have hR : ex (fld xR) env.maxHeight < 0 := by
      rcases a6 with rfl | ⟨-, a6⟩
      · rw [el]; exact hneg
      · by_contra hc
        exact absurd a6 (not_lt.2 (mul_nonneg hpos.le (not_lt.1 hc)))
    have hadj : xR = xL + 1 := by
      refine a8 ?_
      have : ((domain.length : ℕ) : ℤ) ≤ ((2 ^ env.maxIter.toNat + 1 : ℕ) : ℤ) := by
        exact_mod_cast hlen
      push_cast at this
      linarith
    obtain ⟨pre, post, v, hd, hv, hmax, -⟩ := selectKey_eq_ok hsel
    have hmk : (key, v) ∈ s'.temps := by rw [hd]; simp
    obtain ⟨hkk, hvv⟩ := (htm _).1 hmk
    simp only at hkk hvv
    subst hvv
    have hmR : (xR, ex (fld xR) env.maxHeight) ∈ s'.temps := by
      rw [htm]
      refine ⟨?_, rfl⟩
      rcases a6 with a6 | ⟨a6, -⟩
      · exact .inr (.inl a6)
      · exact .inr (.inr a6)
    have hge : xR ≤ key := by
      by_contra hlt
      have : key ≤ xL := by omega
      rcases this.lt_or_eq with h1 | h1
      · have := hmono key xL hk0 h1 (by omega)
        linarith
      · rw [h1] at hv; linarith
    have hle : key ≤ xR := by
      by_contra hgt
      have h1 := hmono xR key (by omega) (by omega) hkn
      have h2 := hmax _ hmR hR.le
      simp only at h2
      linarith
    have hkey : key = xR := le_antisymm hle hge
    refine ⟨key.toNat, fld key, s', ?_, hfld key hk0 hkn, hk, ?_⟩
    · rw [Int.toNat_of_nonneg hk0]; exact hsr
    · intro k hkk g hg
      have hkl : (k : ℤ) ≤ xL := by omega
      have e1 := hfld (k : ℤ) (by omega) (by omega)
      rw [Int.toNat_natCast, hg] at e1
      cases e1
      rcases hkl.lt_or_eq with h1 | h1
      · exact hL.trans (hmono _ _ (by omega) h1 (by omega))
      · rw [h1]; exact hL

/-- C31 on a concrete domain: excesses `9, 4, 1, -2, -7` at maximum height, index 3 is found. -/
example : (search (exEnv (fun f H => if H = 50 then 20 else 10 - (f : ℚ)) 15)
    [1, 6, 9, 12, 17] {}).1 = .ok (some (3, 12)) := by decide +kernel

/-- C31, ties: if the excess is only non-increasing, the smallest feasible field can be missed
(excesses `1, -1, -1`: index 1 is feasible but index 2 is returned, because it was recorded
first). -/
theorem C31_ties_miss_smallest :
    (search (exEnv (fun f H => if H = 50 then 2 else if f = 1 then 1 else -1) 15)
      [1, 2, 3] {}).1 = .ok (some (2, 3)) := by decide +kernel

/-- C31, too few iterations: with `max_iter = 1` and nine fields the result is feasible but not the
smallest. -/
theorem C31_few_iterations :
    (search (exEnv (fun f H => if H = 50 then 20 else 3 - 2 * (f : ℚ)) 1)
      [1, 2, 3, 4, 5, 6, 7, 8, 9] {}).1 = .ok (some (4, 5)) := by decide +kernel

/-! ## C32 — all outcomes -/

/-- C32: the complete outcome table of `search()`, when the simulations themselves do not raise.
`a`, `b` are the first field's excess at minimum and maximum height, `c` the last field's at
maximum height. -/
theorem C32_outcomes (env : Env F K) (ex : F → K → K) (domain : List F)
    (h : Answers env ex domain) (s : State F K) (hs : s.temps = []) :
    (domain = [] → (search env domain s).1 = .error .indexError) ∧
    ∀ f0 fl, domain.head? = some f0 → domain.getLast? = some fl →
      ∀ a b c, a = ex f0 env.minHeight → b = ex f0 env.maxHeight → c = ex fl env.maxHeight →
        (a = 0 ∨ b = 0 → (search env domain s).1 = .error .zeroDivisionError) ∧
        (a * b < 0 → (search env domain s).1 = .ok (some (0, f0))) ∧
        (0 < a * b → c = 0 → (search env domain s).1 = .error .zeroDivisionError) ∧
        (0 < a * b → 0 < b * c → (search env domain s).1 = .error .valueError) ∧
        (0 < a * b → b * c < 0 →
          (∃ (key : ℕ) (f : F), domain[key]? = some f ∧ ex f env.maxHeight ≤ 0 ∧
            (search env domain s).1 = .ok (some ((key : ℤ), f))) ∨
          (∃ (k : ℕ) (f : F), 0 < k ∧ k < domain.length - 1 ∧ domain[k]? = some f ∧
            ex f env.maxHeight = 0 ∧ (search env domain s).1 = .error .zeroDivisionError)) := by
  refine ⟨?_, ?_⟩
  · rintro rfl
    unfold search
    rw [St.lift_error (e := .indexError) (by simp [pyGet])]
  · rintro f0 fl h0 hl a b c rfl rfl rfl
    have htab := table_of_answers h h0 hl s
    dsimp only at htab
    refine ⟨?_, ?_, ?_, ?_, ?_⟩
    · intro h1
      rw [htab, if_pos h1]
    · intro h1
      have h2 : ¬ (ex f0 env.minHeight = 0 ∨ ex f0 env.maxHeight = 0) := by
        rintro (h | h) <;> simp [h] at h1
      rw [htab, if_neg h2, if_pos h1]
    · intro h1 h3
      have h2 : ¬ (ex f0 env.minHeight = 0 ∨ ex f0 env.maxHeight = 0) := by
        rintro (h | h) <;> simp [h] at h1
      rw [htab, if_neg h2, if_neg (not_lt.2 h1.le), if_pos h3]
    · intro h1 h3
      have h2 : ¬ (ex f0 env.minHeight = 0 ∨ ex f0 env.maxHeight = 0) := by
        rintro (h | h) <;> simp [h] at h1
      have h4 : ¬ ex fl env.maxHeight = 0 := by rintro h; simp [h] at h3
      rw [htab, if_neg h2, if_neg (not_lt.2 h1.le), if_neg h4, if_neg (not_lt.2 h3.le)]
    · intro h1 h3
      obtain ⟨fld, P, hfld, hP1, hP2, hP3, hP4, hr⟩ := bisection_of_answers h h0 hl s hs h1 h3
      rcases hr with ⟨⟨c, hc, hc0⟩, s', hr, -⟩ | ⟨-, key, xL, xR, s', hr, -, -, -, -, -, -, hk0, hkn,
        hk, -⟩
      · right
        have := hP1 c hc
        refine ⟨c.toNat, fld c, by omega, by omega, hfld c (by omega) (by omega), hc0, by rw [hr]⟩
      · left
        refine ⟨key.toNat, fld key, hfld key hk0 hkn, hk, ?_⟩
        rw [hr, Int.toNat_of_nonneg hk0]

/-- C32: when the simulations do not raise, `search()` never returns `(None, None)` and raises
nothing but `IndexError` (empty domain), `ValueError` (the two ends do not bracket) and
`ZeroDivisionError` (an excess that is exactly 0). -/
theorem C32_never_none (env : Env F K) (ex : F → K → K) (domain : List F)
    (h : Answers env ex domain) (s : State F K) (hs : s.temps = []) :
    (search env domain s).1 ≠ .ok none ∧
    ((search env domain s).1 = .error .valueError ↔
      ∃ f0 fl, domain.head? = some f0 ∧ domain.getLast? = some fl ∧
        0 < ex f0 env.minHeight * ex f0 env.maxHeight ∧
        0 < ex f0 env.maxHeight * ex fl env.maxHeight) ∧
    ((search env domain s).1 = .error .indexError ↔ domain = []) := by
  obtain ⟨t0, t⟩ := C32_outcomes env ex domain h s hs
  cases hd : domain with
  | nil => 
    have := t0 hd
    rw [hd] at this
    rw [this]
    simp
  | cons f0 rest =>
    rw [← hd]
    have h0 : domain.head? = some f0 := by rw [hd]; rfl
    obtain ⟨fl, hl⟩ : ∃ fl, domain.getLast? = some fl := by
      rw [hd]; exact ⟨_, List.getLast?_eq_some_getLast (by simp)⟩
    have hne : domain ≠ [] := by rw [hd]; simp
    obtain ⟨t1, t2, t3, t4, t5⟩ := t f0 fl h0 hl _ _ _ rfl rfl rfl
    have key : (ex f0 env.minHeight * ex f0 env.maxHeight < 0 ∨
        0 < ex f0 env.minHeight * ex f0 env.maxHeight) ∨
        (ex f0 env.minHeight = 0 ∨ ex f0 env.maxHeight = 0) := by
      rcases lt_trichotomy (ex f0 env.minHeight * ex f0 env.maxHeight) 0 with h | h | h
      · exact .inl (.inl h)
      · exact .inr (mul_eq_zero.1 h)
      · exact .inl (.inr h)
    have uniq : (∃ f0 fl, domain.head? = some f0 ∧ domain.getLast? = some fl ∧
        0 < ex f0 env.minHeight * ex f0 env.maxHeight ∧
        0 < ex f0 env.maxHeight * ex fl env.maxHeight) ↔
        0 < ex f0 env.minHeight * ex f0 env.maxHeight ∧
        0 < ex f0 env.maxHeight * ex fl env.maxHeight := by
      constructor
      · rintro ⟨g0, gl, e0, el, hh⟩
        rw [h0] at e0; rw [hl] at el
        cases e0; cases el
        exact hh
      · intro hh; exact ⟨f0, fl, h0, hl, hh⟩
    rw [uniq]
    rcases key with (k | k) | k
    · rw [t2 k]
      refine ⟨by simp, ⟨by simp, fun hh => absurd k (not_lt.2 hh.1.le)⟩, by simp [hne]⟩
    · rcases lt_trichotomy (ex f0 env.maxHeight * ex fl env.maxHeight) 0 with h' | h' | h'
      · rcases t5 k h' with ⟨key, f, -, -, e⟩ | ⟨key, f, -, -, -, -, e⟩
        · rw [e]
          exact ⟨by simp, ⟨by simp, fun hh => absurd h' (not_lt.2 hh.2.le)⟩, by simp [hne]⟩
        · rw [e]
          exact ⟨by simp, ⟨by simp, fun hh => absurd h' (not_lt.2 hh.2.le)⟩, by simp [hne]⟩
      · have hc : ex fl env.maxHeight = 0 := by
          rcases mul_eq_zero.1 h' with h' | h'
          · rw [h', mul_zero] at k; exact absurd k (lt_irrefl _)
          · exact h'
        rw [t3 k hc]
        exact ⟨by simp, ⟨by simp, fun hh => absurd h' hh.2.ne'⟩, by simp [hne]⟩
      · rw [t4 k h']
        exact ⟨by simp, ⟨fun _ => ⟨k, h'⟩, fun _ => rfl⟩, by simp [hne]⟩
    · rw [t1 k]
      refine ⟨by simp, ⟨by simp, fun hh => ?_⟩, by simp [hne]⟩
      have := hh.1
      rcases k with k | k <;> simp [k] at this

/-- The rows of the table on concrete domains. -/
example :
    (search (exEnv (fun _ _ => 1) 15) [] {}).1 = .error .indexError ∧
    (search (exEnv (fun _ H => if H = 50 then 1 else 0) 15) [1, 2] {}).1 =
      .error .zeroDivisionError ∧
    (search (exEnv (fun _ H => if H = 50 then 1 else -1) 15) [1, 2] {}).1 = .ok (some (0, 1)) ∧
    (search (exEnv (fun _ _ => -3) 15) [1, 2] {}).1 = .error .valueError ∧
    (search (exEnv (fun _ _ => 3) 15) [1, 2] {}).1 = .error .valueError ∧
    (search (exEnv (fun f _ => 2 - (f : ℚ)) 15) [1, 2, 3] {}).1 = .error .zeroDivisionError := by
  decide +kernel

/-! ## C34 — the number of simulations -/

/-- C34: in every outcome, `search()` appends to the record of simulations at most the three end
simulations, one simulation for each probed index, and one more.  The probed indices are strictly
between the ends, none is probed twice, there are at most `max_iter` of them, and at most `k` when
the domain has at most `2^k + 1` fields. -/
theorem C34_simulations (env : Env F K) (ex : F → K → K) (domain : List F)
    (h : Answers env ex domain) (s : State F K) (hs : s.temps = []) :
    ∃ (probes : List ℕ) (ends extra : List (F × K)) (mid : List (F × K)),
      (search env domain s).2.log = s.log ++ ends ++ mid ++ extra ∧
      ends.length ≤ 3 ∧ extra.length ≤ 1 ∧
      List.Forall₂ (fun k q => domain[k]? = some q.1 ∧ q.2 = env.maxHeight) probes mid ∧
      (∀ k ∈ probes, 0 < k ∧ k + 1 < domain.length) ∧ probes.Nodup ∧
      probes.length ≤ env.maxIter.toNat ∧
      ∀ k : ℕ, domain.length ≤ 2 ^ k + 1 → probes.length ≤ k := by
  cases hd : domain with
  | nil =>
    refine ⟨[], [], [], [], ?_, by simp, by simp, by simp, by simp, by simp, by simp, by simp⟩
    unfold search
    rw [St.lift_error (e := .indexError) (by simp [pyGet])]
    simp
  | cons g0 rest =>
    rw [← hd]
    have h0 : domain.head? = some g0 := by rw [hd]; rfl
    obtain ⟨fl, hl⟩ : ∃ fl, domain.getLast? = some fl := by
      rw [hd]; exact ⟨_, List.getLast?_eq_some_getLast (by simp)⟩
    have htab := table_of_answers h h0 hl s
    dsimp only at htab
    have short : ∀ r s', search env domain s = (r, s') →
        s'.log = s.log ++ [(g0, env.minHeight), (g0, env.maxHeight), (fl, env.maxHeight)] →
        _ := fun r s' hr hlog =>
      show ∃ (probes : List ℕ) (ends extra : List (F × K)) (mid : List (F × K)),
        (search env domain s).2.log = s.log ++ ends ++ mid ++ extra ∧
        ends.length ≤ 3 ∧ extra.length ≤ 1 ∧
        List.Forall₂ (fun k q => domain[k]? = some q.1 ∧ q.2 = env.maxHeight) probes mid ∧
        (∀ k ∈ probes, 0 < k ∧ k + 1 < domain.length) ∧ probes.Nodup ∧
        probes.length ≤ env.maxIter.toNat ∧
        ∀ k : ℕ, domain.length ≤ 2 ^ k + 1 → probes.length ≤ k from
        ⟨[], [(g0, env.minHeight), (g0, env.maxHeight), (fl, env.maxHeight)], [], [],
          by rw [hr, hlog]; simp, by simp, by simp, by simp, by simp, by simp, by simp, by simp⟩
    by_cases c1 : ex g0 env.minHeight = 0 ∨ ex g0 env.maxHeight = 0
    · rw [if_pos c1] at htab; exact short _ _ htab rfl
    rw [if_neg c1] at htab
    by_cases c2 : ex g0 env.minHeight * ex g0 env.maxHeight < 0
    · rw [if_pos c2] at htab; exact short _ _ htab rfl
    rw [if_neg c2] at htab
    by_cases c3 : ex fl env.maxHeight = 0
    · rw [if_pos c3] at htab; exact short _ _ htab rfl
    rw [if_neg c3] at htab
    by_cases c4 : ex g0 env.maxHeight * ex fl env.maxHeight < 0
    · have hab : 0 < ex g0 env.minHeight * ex g0 env.maxHeight :=
        lt_of_le_of_ne (not_lt.1 c2) (fun e => c1 (mul_eq_zero.1 e.symm))
      obtain ⟨fld, P, hfld, hP1, hP2, hP3, hP4, hr⟩ := bisection_of_answers h h0 hl s hs hab c4
      have hF : List.Forall₂ (fun (k : ℕ) (q : F × K) => domain[k]? = some q.1 ∧
          q.2 = env.maxHeight) (P.map Int.toNat) (P.map fun c => (fld c, env.maxHeight)) := by
        rw [List.forall₂_map_left_iff, List.forall₂_map_right_iff, List.forall₂_same]
        intro c hc
        have := hP1 c hc
        exact ⟨hfld c (by omega) (by omega), rfl⟩
      have hI : ∀ k ∈ P.map Int.toNat, 0 < k ∧ k + 1 < domain.length := by
        intro k hk
        obtain ⟨c, hc, rfl⟩ := List.mem_map.1 hk
        have := hP1 c hc
        omega
      have hN : (P.map Int.toNat).Nodup := by
        refine List.Nodup.map_on ?_ hP2
        intro x hx y hy hxy
        have := hP1 x hx
        have := hP1 y hy
        omega
      have hK : ∀ k : ℕ, domain.length ≤ 2 ^ k + 1 → (P.map Int.toNat).length ≤ k := by
        intro k hk
        rw [List.length_map]
        apply hP4
        have : ((domain.length : ℕ) : ℤ) ≤ ((2 ^ k + 1 : ℕ) : ℤ) := by exact_mod_cast hk
        push_cast at this
        linarith
      rcases hr with ⟨-, s', hr, hlog, -⟩ | ⟨-, key, xL, xR, s', hr, hlog, -⟩
      · exact ⟨P.map Int.toNat, _, [], _, by rw [hr, List.append_nil]; exact hlog, by simp,
          by simp, hF, hI, hN, by simpa using hP3, hK⟩
      · exact ⟨P.map Int.toNat, _, _, _, by rw [hr]; exact hlog, by simp, by simp, hF, hI, hN,
          by simpa using hP3, hK⟩
    · rw [if_neg c4] at htab; exact short _ _ htab rfl

/-- C34, the bound in one line. -/
theorem C34_count (env : Env F K) (ex : F → K → K) (domain : List F)
    (h : Answers env ex domain) (s : State F K) (hs : s.temps = []) :
    (search env domain s).2.log.length ≤ s.log.length + env.maxIter.toNat + 4 := by
  obtain ⟨P, ends, extra, mid, hlog, h1, h2, h3, -, -, h4, -⟩ := C34_simulations env ex domain h s hs
  have := h3.length_eq
  rw [hlog]
  simp only [List.length_append]
  omega

example : (search (exEnv (fun f H => if H = 50 then 9 else 3 - (f : ℚ)) 15) [1, 2, 4, 5, 6]
    {}).2.log = [(1, 50), (1, 100), (6, 100), (4, 100), (2, 100), (4, 100)] := by decide +kernel

/-! ## C35 — the single-field shortcut -/

/-- C35: if the first field's excess has opposite signs at minimum and maximum height, `search()`
returns key 0 and leaves the first field at maximum height, after exactly three simulations,
whatever the other fields do; the design so returned meets the limits iff the excess at maximum
height is negative. -/
theorem C35_shortcut (env : Env F K) (ex : F → K → K) (domain : List F) (h : Answers env ex domain)
    (f0 : F) (h0 : domain.head? = some f0)
    (hab : ex f0 env.minHeight * ex f0 env.maxHeight < 0) (s : State F K) :
    ∃ s', search env domain s = (.ok (some (0, f0)), s') ∧ s'.ghe = some (f0, env.maxHeight) ∧
      s'.log.length = s.log.length + 3 ∧
      (ex f0 env.maxHeight ≤ 0 ↔ 0 < ex f0 env.minHeight) := by
  obtain ⟨fl, hl⟩ : ∃ fl, domain.getLast? = some fl := by
    cases domain with
    | nil => simp at h0
    | cons x l => exact ⟨_, List.getLast?_eq_some_getLast (by simp)⟩
  have htab := table_of_answers h h0 hl s
  dsimp only at htab
  have h2 : ¬ (ex f0 env.minHeight = 0 ∨ ex f0 env.maxHeight = 0) := by
    rintro (h | h) <;> simp [h] at hab
  rw [if_neg h2, if_pos hab] at htab
  refine ⟨_, htab, rfl, ?_, ?_⟩
  · simp [afterChecks]
  · rcases mul_neg_iff.1 hab with ⟨h3, h4⟩ | ⟨h3, h4⟩
    · exact ⟨fun _ => h3, fun _ => h4.le⟩
    · exact ⟨fun h => absurd h4 (not_lt.2 h), fun h => absurd h3 (not_lt.2 h.le)⟩

/-- C35 (violation): a domain whose second field is feasible, but whose first field's excess
*increases* with height, is answered with the infeasible first field. -/
theorem C35_infeasible_returned :
    let env := exEnv (fun f H => if f = 1 then H - 75 else -1) 15
    (search env [1, 2] {}).1 = .ok (some (0, 1)) ∧ (search env [1, 2] {}).2.ghe = some (1, 100) ∧
      env.sim 1 100 = .ok 25 ∧ env.sim 2 100 = .ok (-1) := by decide +kernel

/-! ### The theorems applied to a concrete search -/

example : ∃ s', search (exEnv (fun f H => if H = 50 then 9 else 3 - (f : ℚ)) 15) [1, 2, 4, 5] {} =
    (.ok (some (2, 4)), s') ∧ s'.temps ≠ [] ∧ ∀ q ∈ s'.temps, 0 ≤ q.1 ∧ ∃ f : ℕ, [1, 2, 4, 5][q.1.toNat]? = some f := by
  have h : (search (exEnv (fun f H => if H = 50 then 9 else 3 - (f : ℚ)) 15) [1, 2, 4, 5] {}).1 = .ok (some (2, 4)) := by
    decide +kernel
  refine ⟨_, Prod.ext h rfl, by decide +kernel, fun q hq => ?_⟩
  obtain ⟨h1, f, h2, -⟩ := C33_recorded (exEnv (fun f H => if H = 50 then 9 else 3 - (f : ℚ)) 15) [1, 2, 4, 5] {} _ rfl _
    (Prod.ext h rfl) q hq
  exact ⟨h1, f, h2⟩
example := C32_never_none (exEnv (fun f H => if H = 50 then 9 else 3 - (f : ℚ)) 15)
  (fun f H => if H = 50 then 9 else 3 - (f : ℚ)) [1, 2, 4, 5] (exEnv_answers _ _ _) {} rfl
example := C34_simulations (exEnv (fun f H => if H = 50 then 9 else 3 - (f : ℚ)) 15)
  (fun f H => if H = 50 then 9 else 3 - (f : ℚ)) [1, 2, 4, 5] (exEnv_answers _ _ _) {} rfl
example := C34_count (exEnv (fun f H => if H = 50 then 9 else 3 - (f : ℚ)) 15)
  (fun f H => if H = 50 then 9 else 3 - (f : ℚ)) [1, 2, 4, 5] (exEnv_answers _ _ _) {} rfl

end Ghedt.Search
