import Verif.Model.Utilities
import Verif.Lemmas.PyList
import Mathlib.Tactic.Ring
import Mathlib.Tactic.Linarith
import Mathlib.Tactic.FieldSimp

set_option linter.unusedSectionVars false

namespace Ghedt.Utilities

variable {K : Type} [Field K] [LinearOrder K] [IsStrictOrderedRing K]

/-! ### folds over indices -/

/-- a `for i in range(len(l))` loop that only reads `l[i]` -/
theorem foldlM_index {α σ : Type} (l : List α) (g : σ → α → Py σ) (s : σ) :
    (pyRange 0 (l.length : ℤ)).foldlM (fun s (i : ℤ) => do let a ← pyGet l i; g s a) s =
      l.foldlM g s := by
  have key : ∀ (m k : List α) (s : σ), l = m ++ k →
      (pyRange (m.length : ℤ) (l.length : ℤ)).foldlM
        (fun s (i : ℤ) => do let a ← pyGet l i; g s a) s = k.foldlM g s := by
    intro m k
    induction k generalizing m with
    | nil =>
      intro s h
      subst h
      rw [pyRange_empty (by simp)]
      rfl
    | cons a k ih =>
      intro s h
      have hlt : m.length < l.length := by rw [h]; simp
      have hget : l[m.length] = a := by subst h; simp
      rw [pyRange_cons (by exact_mod_cast hlt), List.foldlM_cons, pyGet_ok hlt, Except.ok_bind,
        hget, List.foldlM_cons]
      cases hg : g s a with
      | error e => rfl
      | ok s' =>
        rw [Except.ok_bind, Except.ok_bind]
        have := ih (m ++ [a]) s' (by rw [h]; simp)
        rw [← this]
        simp
  simpa using key [] l s rfl

/-! ### the shoelace sum -/

/-- twice the signed area swept by an open chain -/
def chain : List (K × K) → K
  | [] => 0
  | [_] => 0
  | a :: b :: l => a.1 * b.2 - b.1 * a.2 + chain (b :: l)

theorem chain_append (l m : List (K × K)) (x : K × K) :
    chain (l ++ x :: m) = chain (l ++ [x]) + chain (x :: m) := by
  induction l with
  | nil => simp [chain]
  | cons a l ih =>
    cases l with
    | nil => simp [chain]
    | cons b l =>
      simp only [List.cons_append, chain] at ih ⊢
      rw [ih]; ring

theorem chain_snoc (l : List (K × K)) (x y : K × K) :
    chain (l ++ [x, y]) = chain (l ++ [x]) + (x.1 * y.2 - y.1 * x.2) := by
  rw [chain_append l [y] x]; simp [chain]

theorem chain_reverse (l : List (K × K)) : chain l.reverse = - chain l := by
  induction l with
  | nil => simp [chain]
  | cons a l ih =>
    cases l with
    | nil => simp [chain]
    | cons b l =>
      rw [List.reverse_cons, List.reverse_cons, List.append_assoc]
      simp only [List.singleton_append]
      rw [chain_snoc, ← List.reverse_cons, ih]
      simp only [chain]; ring

theorem chain_translate (t : K × K) (a : K × K) (l : List (K × K)) (b : K × K)
    (h : (a :: l).getLast? = some b) :
    chain ((a :: l).map fun p => (p.1 + t.1, p.2 + t.2)) =
      chain (a :: l) + (t.1 * (b.2 - a.2) - t.2 * (b.1 - a.1)) := by
  induction l generalizing a with
  | nil =>
    simp only [List.getLast?_singleton, Option.some.injEq] at h
    subst h; simp [chain]
  | cons c l ih =>
    rw [List.getLast?_cons_cons] at h
    have := ih c h
    simp only [List.map_cons, chain] at this ⊢
    rw [this]; ring

theorem chain_scale (k : K) (l : List (K × K)) :
    chain (l.map fun p => (k * p.1, k * p.2)) = k ^ 2 * chain l := by
  induction l with
  | nil => simp [chain]
  | cons a l ih =>
    cases l with
    | nil => simp [chain]
    | cons b l =>
      simp only [List.map_cons, chain] at ih ⊢
      rw [ih]; ring

/-- the closed shoelace sum -/
def closed : List (K × K) → K
  | [] => 0
  | a :: l => chain (a :: l ++ [a])

theorem closed_rotate (a : K × K) (l : List (K × K)) : closed (l ++ [a]) = closed (a :: l) := by
  cases l with
  | nil => rfl
  | cons b l =>
    simp only [List.cons_append, closed, List.append_assoc, List.nil_append, chain]
    have := chain_snoc (b :: l) a b
    simp only [List.cons_append] at this
    rw [this]; ring

theorem closed_reverse (l : List (K × K)) : closed l.reverse = - closed l := by
  cases l with
  | nil => simp [closed]
  | cons a l =>
    rw [List.reverse_cons, closed_rotate]
    simp only [closed]
    rw [← chain_reverse]
    simp

theorem polygonalArea_eq (corners : List (K × K)) :
    polygonalArea corners = .ok (|closed corners| / 2) := by
  unfold polygonalArea
  dsimp only
  set n : ℤ := (corners.length : ℤ) with hn
  cases corners with
  | nil => simp [hn, pyRange_empty, closed]
  | cons a l =>
    have hn1 : 1 ≤ n := by rw [hn]; simp
    -- after processing indices below i the sum is the chain of the first i+1 points
    have step : ∀ (i : ℤ) (s : K), 0 ≤ i → i < n →
        s = chain ((a :: l ++ [a]).take (i.toNat + 1)) →
        ∃ s', (do
          let ci ← pyGet (a :: l) i
          let cj ← pyGet (a :: l) ((i + 1) % n)
          return s + ci.1 * cj.2 - cj.1 * ci.2 : Py K) = .ok s' ∧
          s' = chain ((a :: l ++ [a]).take ((i + 1).toNat + 1)) := by
      intro i s h0 hi hs
      obtain ⟨k, rfl⟩ : ∃ k : ℕ, i = k := ⟨i.toNat, by omega⟩
      have hk : k < (a :: l).length := by omega
      have e2 : ∀ m, m < (a :: l).length → (a :: l ++ [a])[m]? = (a :: l)[m]? := fun m hm =>
        List.getElem?_append_left hm
      have hcj : ∃ cj, pyGet (a :: l) (((k : ℤ) + 1) % n) = .ok cj ∧
          (a :: l ++ [a])[k + 1]? = some cj := by
        by_cases hlast : (k : ℤ) + 1 = n
        · refine ⟨a, ?_, ?_⟩
          · rw [hlast, Int.emod_self]; rfl
          · have : k + 1 = (a :: l).length := by omega
            rw [this, List.getElem?_append_right le_rfl]; simp
        · have hk1 : k + 1 < (a :: l).length := by omega
          refine ⟨(a :: l)[k + 1], ?_, ?_⟩
          · rw [Int.emod_eq_of_lt (by omega) (by omega)]
            exact_mod_cast pyGet_ok hk1
          · rw [e2 _ hk1, List.getElem?_eq_getElem hk1]
      obtain ⟨cj, hcj1, hcj2⟩ := hcj
      rw [pyGet_ok hk, Except.ok_bind, hcj1, Except.ok_bind]
      refine ⟨_, rfl, ?_⟩
      have t1 : (a :: l ++ [a]).take (k + 1) = (a :: l ++ [a]).take k ++ [(a :: l)[k]] := by
        rw [List.take_add_one, e2 k hk, List.getElem?_eq_getElem hk]; rfl
      have t2 : (a :: l ++ [a]).take (k + 1 + 1) =
          (a :: l ++ [a]).take k ++ [(a :: l)[k], cj] := by
        rw [List.take_add_one, hcj2, t1]; simp
      have e3 : (k : ℤ).toNat = k := by omega
      have e4 : ((k : ℤ) + 1).toNat = k + 1 := by omega
      rw [e4, t2, chain_snoc, ← t1, hs, e3]
      ring
    obtain ⟨s', h1, h2⟩ := foldlM_pyRange_inv
      (fun i s => s = chain ((a :: l ++ [a]).take (i.toNat + 1))) (by omega : (0 : ℤ) ≤ n) step
      (s := (0 : K)) (by simp [chain])
    rw [h1, Except.ok_bind, h2]
    have : n.toNat + 1 = (a :: l ++ [a]).length := by rw [hn]; simp
    rw [this, List.take_length]
    rfl

/-! ### `compute_mpe` -/

theorem computeMpe_fold {actual predicted : List K} (h : actual.length = predicted.length)
    (h0 : ∀ a ∈ actual, a ≠ 0) (s : K) :
    (pyRange 0 (actual.length : ℤ)).foldlM (fun (s : K) (i : ℤ) => do
      let p ← pyGet predicted i
      let a ← pyGet actual i
      let q ← pyDiv (p - a) a
      return s + q) s =
    .ok (s + ((actual.zip predicted).map fun q => (q.2 - q.1) / q.1).sum) := by
  have e : ∀ i : ℤ, i ∈ pyRange 0 (actual.length : ℤ) → ∀ s : K, (do
      let p ← pyGet predicted i
      let a ← pyGet actual i
      let q ← pyDiv (p - a) a
      return s + q : Py K) = (do
      let z ← pyGet (actual.zip predicted) i
      let q ← pyDiv (z.2 - z.1) z.1
      return s + q) := by
    intro i hi s
    rw [mem_pyRange] at hi
    obtain ⟨k, rfl⟩ : ∃ k : ℕ, i = k := ⟨i.toNat, by omega⟩
    have h1 : k < actual.length := by omega
    have h2 : k < predicted.length := by omega
    have h3 : k < (actual.zip predicted).length := by simp; omega
    rw [pyGet_ok h1, pyGet_ok h2, pyGet_ok h3]
    simp
  have hlen : (actual.zip predicted).length = actual.length := by simp [h]
  have congr : ∀ (l : List ℤ) (f g : K → ℤ → Py K) (s : K), (∀ i ∈ l, ∀ s, f s i = g s i) →
      l.foldlM f s = l.foldlM g s := by
    intro l f g
    induction l with
    | nil => intro s _; rfl
    | cons a l ih =>
      intro s hfg
      rw [List.foldlM_cons, List.foldlM_cons, hfg a List.mem_cons_self]
      cases g s a with
      | error e => rfl
      | ok s' => exact ih s' fun i hi => hfg i (List.mem_cons_of_mem _ hi)
  rw [congr _ _ _ s e]
  have := foldlM_index (actual.zip predicted)
    (fun (s : K) z => do let q ← pyDiv (z.2 - z.1) z.1; return s + q) s
  rw [hlen] at this
  rw [this]
  have hz : ∀ z ∈ actual.zip predicted, z.1 ≠ 0 := fun z hz => h0 _ (List.of_mem_zip hz).1
  clear this congr e hlen
  generalize actual.zip predicted = l at hz
  induction l generalizing s with
  | nil => simp
  | cons z l ih =>
    rw [List.foldlM_cons, pyDiv_ok (hz z List.mem_cons_self), Except.ok_bind, Except.pure_eq,
      Except.ok_bind, ih _ fun q hq => hz q (List.mem_cons_of_mem _ hq)]
    simp [add_assoc]

theorem computeMpe_fold_zero {actual predicted : List K} (h : actual.length = predicted.length)
    (h0 : ∃ a ∈ actual, a = 0) :
    (pyRange 0 (actual.length : ℤ)).foldlM (fun (s : K) (i : ℤ) => do
      let p ← pyGet predicted i
      let a ← pyGet actual i
      let q ← pyDiv (p - a) a
      return s + q) 0 = .error .zeroDivisionError := by
  have key : ∀ (l : List ℤ) (s : K), (∀ i ∈ l, ∃ k : ℕ, i = k ∧ k < actual.length) →
      (∃ i ∈ l, pyGet actual i = .ok 0) →
      l.foldlM (fun (s : K) (i : ℤ) => do
        let p ← pyGet predicted i
        let a ← pyGet actual i
        let q ← pyDiv (p - a) a
        return s + q) s = .error .zeroDivisionError := by
    intro l
    induction l with
    | nil => rintro s _ ⟨i, hi, _⟩; cases hi
    | cons i l ih =>
      rintro s hall ⟨j, hj, hz⟩
      rw [List.foldlM_cons]
      obtain ⟨k, rfl, hk⟩ := hall i List.mem_cons_self
      have hk' : k < predicted.length := by omega
      rw [pyGet_ok hk', Except.ok_bind, pyGet_ok hk, Except.ok_bind]
      by_cases ha : actual[k] = 0
      · rw [ha]; simp [pyDiv]
      · rw [pyDiv_ok ha, Except.ok_bind, Except.pure_eq, Except.ok_bind]
        refine ih _ (fun i hi => hall i (List.mem_cons_of_mem _ hi)) ?_
        rw [List.mem_cons] at hj
        rcases hj with rfl | hj
        · rw [pyGet_ok hk] at hz; exact absurd (Except.ok.inj hz) ha
        · exact ⟨j, hj, hz⟩
  refine key _ 0 ?_ ?_
  · intro i hi
    rw [mem_pyRange] at hi
    exact ⟨i.toNat, by omega, by omega⟩
  · obtain ⟨a, ha, rfl⟩ := h0
    obtain ⟨k, hk, he⟩ := List.getElem_of_mem ha
    exact ⟨k, by rw [mem_pyRange]; omega, by rw [pyGet_ok hk, he]⟩

end Ghedt.Utilities
