import Verif.Model.GroundHeatExchangers
import Verif.Lemmas.SearchRoutines
import Verif.Lemmas.Nan
import Verif.Lemmas.ZonedNested
import Mathlib.Algebra.BigOperators.Fin
import Mathlib.Algebra.BigOperators.Intervals

set_option linter.unusedSectionVars false

namespace Ghedt.GHE
open Utilities
variable {K : Type} [Field K] [LinearOrder K]

/-- value of a computation that succeeds, 0 otherwise -/
def okVal (x : Py K) : K :=
  match x with
  | .ok v => v
  | .error _ => 0

theorem eq_ok_okVal {x : Py K} {v : K} (h : x = .ok v) : x = .ok (okVal x) := by rw [h]; rfl

/-- `(0 :: l)[k]`, 0 outside -/
def at0 (l : List K) (k : ℕ) : K := (0 :: l).getD k 0

theorem at0_getElem? {l : List K} {k : ℕ} (h : k ≤ l.length) : (0 :: l)[k]? = some (at0 l k) := by
  unfold at0
  rw [List.getD_eq_getElem?_getD, List.getElem?_eq_getElem (by simp; omega)]
  rfl

@[simp] theorem at0_zero (l : List K) : at0 l 0 = 0 := rfl

theorem at0_succ (l : List K) (k : ℕ) : at0 l (k + 1) = l.getD k 0 := by simp [at0]

/-- the temperature rise of the borehole wall at step `i` -/
def rise (th : Thermal K) (G : K → K) (Q t : List K) (i : ℕ) : K :=
  ∑ j ∈ Finset.range i,
    (at0 (Q.map (· / th.nbh)) (j + 1) - at0 (Q.map (· / th.nbh)) j) / th.H / th.twoPiK *
      G (at0 t i - at0 t j)

/-- the exiting fluid temperature at step `i` -/
def temp (th : Thermal K) (G : K → K) (Q t : List K) (i : ℕ) : K :=
  th.Tg + rise th G Q t i + at0 (Q.map (· / th.nbh)) i / th.H * th.Rb -
    at0 (Q.map (· / th.nbh)) i / (2 * th.mdot * th.cp)

theorem take_eq_map_range {l : List K} {i : ℕ} (h : i ≤ l.length) :
    l.take i = (List.range i).map fun j => l.getD j 0 := by
  apply List.ext_getElem?
  intro k
  by_cases hk : k < i
  · rw [List.getElem?_take_of_lt hk, List.getElem?_map, List.getElem?_range hk,
      List.getElem?_eq_getElem (by omega)]
    simp [List.getD_eq_getElem?_getD, List.getElem?_eq_getElem (show k < l.length by omega)]
  · rw [List.getElem?_eq_none (by simp; omega), List.getElem?_eq_none (by simp; omega)]

theorem sum_map_range (f : ℕ → K) (i : ℕ) :
    ((List.range i).map f).sum = ∑ j ∈ Finset.range i, f j := by
  induction i with
  | zero => rfl
  | succ n ih => rw [List.range_succ, List.map_append, List.sum_append, ih,
      Finset.sum_range_succ]; simp

/-- some earlier time is later than the time of step `i`; its logarithm is `nan` -/
def Late (t : List K) (i : ℕ) : Prop := ∃ j < i, at0 t i < at0 t j

instance (t : List K) (i : ℕ) : Decidable (Late t i) := by unfold Late; infer_instance

/-- the results of step `i`: `nan` if some earlier time is later -/
def riseN (th : Thermal K) (G : K → K) (Q t : List K) (i : ℕ) : Num K :=
  if Late t i then none else some (rise th G Q t i)

def tempN (th : Thermal K) (G : K → K) (Q t : List K) (i : ℕ) : Num K :=
  if Late t i then none else some (temp th G Q t i)

theorem dotBy_some (f : List K → List K → K) (w g : List K) : Num.dotBy f w (g.map some) = some (f w g) := by
  unfold Num.dotBy
  rw [filterMap_map_some, if_neg (by simp)]

theorem dotBy_none (f : List K → List K → K) {w : List K} {g : List (Num K)} (h : none ∈ g) :
    Num.dotBy f w g = none := by
  unfold Num.dotBy
  rw [if_pos (List.any_eq_true.2 ⟨none, h, rfl⟩)]

theorem answer_neg {th : Thermal K} {Δ : K} (h : Δ < 0) : th.answer Δ = .ok none := if_pos h

theorem answer_ok {th : Thermal K} {Δ v : K} (h : ¬ Δ < 0) (hv : th.g Δ = .ok v) : th.answer Δ = .ok (some v) := by
  unfold Thermal.answer
  rw [if_neg h, hv]
  rfl

variable [IsStrictOrderedRing K]

/-- one round of the simulation loop -/
theorem step_ok {th : Thermal K} {Q t : List K} {i : ℕ} (h1 : 1 ≤ i) (h2 : i ≤ Q.length)
    (h3 : i ≤ t.length) (G : K → K)
    (hg : ∀ j < i, at0 t j ≤ at0 t i → th.g (at0 t i - at0 t j) = .ok (G (at0 t i - at0 t j))) :
    (do
      let ti ← pyGet (0 :: t) (i : ℤ)
      let gv ← ((0 :: t).take (i : ℤ).toNat).mapM fun τ => th.answer (ti - τ)
      let w := ((List.zipWith (· - ·) (0 :: Q.map (· / th.nbh)).tail
        (0 :: Q.map (· / th.nbh))).take (i : ℤ).toNat).map fun q => q / th.H / th.twoPiK
      if w.length ≠ gv.length then throw .valueError
      let delta := Num.dot w gv
      let Tb := delta.map (th.Tg + ·)
      let q ← pyGet (0 :: Q.map (· / th.nbh)) (i : ℤ)
      let Tbulk := Tb.map (· + q / th.H * th.Rb)
      return (Tbulk.map (· - q / (2 * th.mdot * th.cp)), delta) : Py (Num K × Num K)) =
    .ok (tempN th G Q t i, riseN th G Q t i) := by
  have e1 : pyGet (0 :: t) (i : ℤ) = .ok (at0 t i) := by
    rw [pyGet_eq_ok (by omega)]; exact at0_getElem? (by omega)
  have e2 : pyGet (0 :: Q.map (· / th.nbh)) (i : ℤ) = .ok (at0 (Q.map (· / th.nbh)) i) := by
    rw [pyGet_eq_ok (by omega)]; exact at0_getElem? (by simp; omega)
  have e3 : ((0 :: t).take i).mapM (fun τ => th.answer (at0 t i - τ)) =
      .ok ((List.range i).map fun j => if at0 t i < at0 t j then none else some (G (at0 t i - at0 t j))) := by
    rw [take_eq_map_range (by simp; omega),
      mapM_ok (g := fun τ => if at0 t i < τ then none else some (G (at0 t i - τ)))]
    · rw [List.map_map]; rfl
    · intro τ hτ
      rw [List.mem_map] at hτ
      obtain ⟨j, hj, rfl⟩ := hτ
      have hj' := List.mem_range.1 hj
      change th.answer (at0 t i - at0 t j) =
        .ok (if at0 t i < at0 t j then none else some (G (at0 t i - at0 t j)))
      by_cases hlt : at0 t i < at0 t j
      · rw [if_pos hlt, answer_neg (by linarith)]
      · rw [if_neg hlt]
        exact answer_ok (by linarith [not_lt.1 hlt]) (hg j hj' (not_lt.1 hlt))
  have e4 : (List.zipWith (· - ·) (0 :: Q.map (· / th.nbh)).tail
        (0 :: Q.map (· / th.nbh))).take i = (List.range i).map fun j =>
          at0 (Q.map (· / th.nbh)) (j + 1) - at0 (Q.map (· / th.nbh)) j := by
    apply List.ext_getElem?
    intro k
    by_cases hk : k < i
    · rw [List.getElem?_take_of_lt hk, List.getElem?_map, List.getElem?_range hk,
        List.getElem?_zipWith, List.tail_cons]
      have a1 := at0_getElem? (l := Q.map (· / th.nbh)) (k := k + 1) (by simp; omega)
      have a2 := at0_getElem? (l := Q.map (· / th.nbh)) (k := k) (by simp; omega)
      rw [List.getElem?_cons_succ] at a1
      rw [a1, a2]; rfl
    · rw [List.getElem?_eq_none (by simp; omega), List.getElem?_eq_none (by simp; omega)]
  rw [e1, Except.ok_bind, Int.toNat_natCast, e3, Except.ok_bind, e4]
  dsimp only
  rw [if_neg (by simp), e2]
  simp only [Except.ok_bind, Except.pure_eq, Except.ok.injEq, Prod.mk.injEq]
  have e5 : Num.dot (((List.range i).map fun j =>
      at0 (Q.map (· / th.nbh)) (j + 1) - at0 (Q.map (· / th.nbh)) j).map fun q =>
        q / th.H / th.twoPiK)
      ((List.range i).map fun j => if at0 t i < at0 t j then none else some (G (at0 t i - at0 t j))) =
      riseN th G Q t i := by
    unfold riseN
    by_cases hlate : Late t i
    · rw [if_pos hlate]
      obtain ⟨j, hj, hlt⟩ := hlate
      exact dotBy_none _ (List.mem_map.2 ⟨j, List.mem_range.2 hj, if_pos hlt⟩)
    · rw [if_neg hlate]
      have : ((List.range i).map fun j => if at0 t i < at0 t j then none else some (G (at0 t i - at0 t j))) =
          ((List.range i).map fun j => G (at0 t i - at0 t j)).map some := by
        rw [List.map_map]
        apply List.map_congr_left
        intro j hj
        exact if_neg fun hlt => hlate ⟨j, List.mem_range.1 hj, hlt⟩
      rw [this, Num.dot, dotBy_some, List.map_map, List.zipWith_map, List.zipWith_self]
      exact congrArg some (sum_map_range _ i)
  rw [e5]
  refine ⟨?_, rfl⟩
  unfold riseN tempN
  by_cases hlate : Late t i
  · rw [if_pos hlate, if_pos hlate]; rfl
  · rw [if_neg hlate, if_neg hlate]; rfl

/-- the response function of an exchanger, 0 where it raises -/
def resp (th : Thermal K) (Δ : K) : K := okVal (th.g Δ)

/-- the g-function answers at every time difference a run of `n` steps over `t` asks for -/
def Responds (th : Thermal K) (t : List K) (n : ℕ) : Prop :=
  ∀ i ≤ n, ∀ j < i, at0 t j ≤ at0 t i → ∃ v, th.g (at0 t i - at0 t j) = .ok v

theorem Responds.eq {th : Thermal K} {t : List K} {n : ℕ} (h : Responds th t n) {i j : ℕ}
    (hi : i ≤ n) (hj : j < i) (hle : at0 t j ≤ at0 t i) :
    th.g (at0 t i - at0 t j) = .ok (resp th (at0 t i - at0 t j)) := by
  obtain ⟨v, hv⟩ := h i hi j hj hle
  exact eq_ok_okVal hv

theorem simulateDetailed_ok {th : Thermal K} {Q t : List K} (h1 : Q.length ≤ t.length)
    (hg : Responds th t Q.length) :
    simulateDetailed th Q t =
      .ok ((List.range Q.length).map (fun k => tempN th (resp th) Q t (k + 1)),
        (List.range Q.length).map (fun k => riseN th (resp th) Q t (k + 1))) := by
  unfold simulateDetailed
  dsimp only
  rw [mapM_ok (g := fun i : ℤ => (tempN th (resp th) Q t i.toNat, riseN th (resp th) Q t i.toNat))]
  · simp only [Except.ok_bind, Except.pure_eq, Except.ok.injEq, Prod.mk.injEq, pyRange,
      List.map_map]
    rw [show ((Q.length : ℤ) + 1 - 1).toNat = Q.length by omega]
    constructor <;> apply List.map_congr_left <;> intro k _ <;>
      simp [show ((1 : ℤ) + k).toNat = k + 1 by omega]
  · intro i hi
    rw [mem_pyRange] at hi
    obtain ⟨m, rfl⟩ : ∃ m : ℕ, i = m := ⟨i.toNat, by omega⟩
    exact step_ok (by omega) (by omega) (by omega) _ fun j hj => hg.eq (by omega) hj

/-- times in order: no `nan` -/
theorem tempN_some {th : Thermal K} {G : K → K} {Q t : List K} {i : ℕ} (h : ∀ j < i, at0 t j ≤ at0 t i) :
    tempN th G Q t i = some (temp th G Q t i) :=
  if_neg fun ⟨j, hj, hlt⟩ => absurd (h j hj) (not_le.2 hlt)

theorem riseN_some {th : Thermal K} {G : K → K} {Q t : List K} {i : ℕ} (h : ∀ j < i, at0 t j ≤ at0 t i) :
    riseN th G Q t i = some (rise th G Q t i) :=
  if_neg fun ⟨j, hj, hlt⟩ => absurd (h j hj) (not_le.2 hlt)

theorem simulateDetailed_ordered {th : Thermal K} {Q t : List K} (h1 : Q.length ≤ t.length)
    (ho : ∀ i ≤ Q.length, ∀ j < i, at0 t j ≤ at0 t i)
    (hg : Responds th t Q.length) :
    simulateDetailed th Q t =
      .ok ((List.range Q.length).map (fun k => some (temp th (resp th) Q t (k + 1))),
        (List.range Q.length).map (fun k => some (rise th (resp th) Q t (k + 1)))) := by
  rw [simulateDetailed_ok h1 hg]
  congr 2 <;> apply List.map_congr_left <;> intro k hk
  · exact tempN_some (ho _ (List.mem_range.1 hk))
  · exact riseN_some (ho _ (List.mem_range.1 hk))

theorem simulateDetailed_inv {th : Thermal K} {Q t : List K} {r : List (Num K) × List (Num K)}
    (h : simulateDetailed th Q t = .ok r) :
    Q.length ≤ t.length ∧ Responds th t Q.length := by
  unfold simulateDetailed at h
  dsimp only at h
  rw [bind_eq_ok] at h
  obtain ⟨out, hm, -⟩ := h
  have hf := mapM_eq_ok hm
  have key : ∀ i : ℕ, 1 ≤ i → i ≤ Q.length → i ≤ t.length ∧
      ∀ j < i, at0 t j ≤ at0 t i → ∃ v, th.g (at0 t i - at0 t j) = .ok v := by
    intro i h1 h2
    have hmem : (i : ℤ) ∈ pyRange 1 ((Q.length : ℤ) + 1) := by rw [mem_pyRange]; omega
    obtain ⟨k, hk, hk'⟩ := List.mem_iff_getElem.1 hmem
    have := List.forall₂_iff_get.1 hf
    have hk2 : k < out.length := by rw [← this.1]; exact hk
    have hb := this.2 k hk hk2
    simp only [List.get_eq_getElem, hk'] at hb
    rw [bind_eq_ok] at hb
    obtain ⟨ti, hti, hb⟩ := hb
    rw [pyGet_eq_ok (by omega)] at hti
    have hlt := (List.getElem?_eq_some_iff.1 hti).1
    simp only [Int.toNat_natCast, List.length_cons] at hlt
    have hti' : ti = at0 t i := by
      rw [Int.toNat_natCast, at0_getElem? (by omega)] at hti
      exact (Option.some.inj hti).symm
    rw [bind_eq_ok] at hb
    obtain ⟨gv, hgv, -⟩ := hb
    refine ⟨by omega, ?_⟩
    intro j hj hle
    have hf2 := List.forall₂_iff_get.1 (mapM_eq_ok hgv)
    have hjl : j < ((0 :: t).take (i : ℤ).toNat).length := by simp; omega
    have := hf2.2 j hjl (by rw [← hf2.1]; exact hjl)
    have e : ((0 :: t).take (i : ℤ).toNat).get ⟨j, hjl⟩ = at0 t j := by
      have h1 := at0_getElem? (l := t) (k := j) (by omega)
      rw [List.get_eq_getElem, List.getElem_take]
      exact (List.getElem?_eq_some_iff.1 h1).2
    rw [e] at this
    have this' : ∃ x, th.answer (at0 t i - at0 t j) = .ok x := ⟨_, by rw [← hti']; exact this⟩
    unfold Thermal.answer at this'
    rw [if_neg (by linarith)] at this'
    obtain ⟨x, hx⟩ := this'
    rw [bind_eq_ok] at hx
    obtain ⟨v, hv, -⟩ := hx
    exact ⟨v, hv⟩
  refine ⟨?_, ?_⟩
  · rcases Nat.eq_zero_or_pos Q.length with h0 | h0
    · omega
    · exact (key Q.length h0 le_rfl).1
  · intro i hi j hj
    exact (key i (by omega) hi).2 j hj

theorem simulateDetailed_eq_ok {th : Thermal K} {Q t : List K} {T d : List (Num K)} :
    simulateDetailed th Q t = .ok (T, d) ↔
      (Q.length ≤ t.length ∧ Responds th t Q.length) ∧
      T = (List.range Q.length).map (fun k => tempN th (resp th) Q t (k + 1)) ∧
      d = (List.range Q.length).map (fun k => riseN th (resp th) Q t (k + 1)) := by
  constructor
  · intro h
    have hi := simulateDetailed_inv h
    rw [simulateDetailed_ok hi.1 hi.2] at h
    cases h
    exact ⟨hi, rfl, rfl⟩
  · rintro ⟨⟨h1, h2⟩, rfl, rfl⟩
    exact simulateDetailed_ok h1 h2

/-- too few time values: `IndexError` -/
theorem simulateDetailed_short {th : Thermal K} {Q t : List K} (h1 : t.length < Q.length)
    (hg : Responds th t t.length) : simulateDetailed th Q t = .error .indexError := by
  unfold simulateDetailed
  dsimp only
  have hsplit : pyRange 1 ((Q.length : ℤ) + 1) = pyRange 1 ((t.length : ℤ) + 1) ++
      ((t.length : ℤ) + 1) :: pyRange ((t.length : ℤ) + 1 + 1) ((Q.length : ℤ) + 1) := by
    rw [← pyRange_cons (by omega)]
    exact (Domains.pyRange_append (by omega) (by omega)).symm
  rw [hsplit, List.mapM_append,
    mapM_ok (g := fun i : ℤ => (tempN th (resp th) Q t i.toNat, riseN th (resp th) Q t i.toNat)),
    Except.ok_bind, List.mapM_cons, pyGet_oob _ (by simp)]
  · rfl
  · intro i hi
    rw [mem_pyRange] at hi
    obtain ⟨m, rfl⟩ : ∃ m : ℕ, i = m := ⟨i.toNat, by omega⟩
    exact step_ok (by omega) (by omega) (by omega) _ fun j hj => hg.eq (by omega) hj

end Ghedt.GHE
