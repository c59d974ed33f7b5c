import Verif.Model.Export
import Verif.Lemmas.PyList

/-!
# Exported g-function samples (C78)
-/

set_option linter.unusedSectionVars false

namespace Ghedt.Export

variable {α : Type}

/-- the sampled indices: from `start` in steps of `step`, then the last 27 -/
def indices (start nSts : ℤ) (n : ℕ) : List ℕ :=
  (List.range (((n : ℤ) - 27 - start + ((n : ℤ) - 27) / nSts - 1) / (((n : ℤ) - 27) / nSts)).toNat).map
    (fun k : ℕ => (start + (k : ℤ) * (((n : ℤ) - 27) / nSts)).toNat) ++ List.range' (n - 27) 27

theorem sample_ok (start nSts : ℤ) (h0 : 0 ≤ start) (hn : 1 ≤ nSts) (x : List α)
    (hx : nSts + 27 ≤ x.length) (d : α) :
    sample start nSts x = .ok ((indices start nSts x.length).map fun i => x.getD i d) ∧
    ∀ i ∈ indices start nSts x.length, i < x.length := by
  set n := x.length with hnn
  set step := ((n : ℤ) - 27) / nSts with hstep
  have hs : 1 ≤ step := by
    rw [hstep]; exact (Int.le_ediv_iff_mul_le (by omega)).2 (by omega)
  have hidx : ∀ k : ℕ, k < (((n : ℤ) - 27 - start + step - 1) / step).toNat →
      start + (k : ℤ) * step < (n : ℤ) - 27 := by
    intro k hk
    have hk' : (k : ℤ) + 1 ≤ ((n : ℤ) - 27 - start + step - 1) / step := by omega
    have := (Int.le_ediv_iff_mul_le (by omega)).1 hk'
    have e : ((k : ℤ) + 1) * step = (k : ℤ) * step + step := by ring
    omega
  have hpos : ∀ k : ℕ, 0 ≤ start + (k : ℤ) * step := by
    intro k
    have : 0 ≤ (k : ℤ) * step := by positivity
    omega
  have hlt : ∀ i ∈ indices start nSts n, i < n := by
    intro i hi
    unfold indices at hi
    rw [← hstep] at hi
    rcases List.mem_append.1 hi with h | h
    · obtain ⟨k, hk, rfl⟩ := List.mem_map.1 h
      have h1 := hidx k (List.mem_range.1 hk)
      have h2 := hpos k
      omega
    · rw [List.mem_range'_1] at h; omega
  refine ⟨?_, hlt⟩
  unfold sample
  simp only [← hnn]
  rw [← hstep]
  unfold pyRangeStep
  rw [if_neg (by omega), if_pos (by omega), Except.ok_bind]
  have hm : ((List.range (((n : ℤ) - 27 - start + step - 1) / step).toNat).map fun k : ℕ =>
      start + (k : ℤ) * step).mapM (fun i : ℤ => pyGet x i) =
      .ok (((List.range (((n : ℤ) - 27 - start + step - 1) / step).toNat).map fun k : ℕ =>
        start + (k : ℤ) * step).map fun i : ℤ => x.getD i.toNat d) := by
    apply mapM_ok
    intro i hi
    obtain ⟨k, hk, rfl⟩ := List.mem_map.1 hi
    have h1 := hidx k (List.mem_range.1 hk)
    have h2 := hpos k
    rw [pyGet_nonneg _ h2 (by omega)]
    rw [List.getD_eq_getElem?_getD, List.getElem?_eq_getElem (by omega)]; rfl
  rw [hm, Except.ok_bind, Except.pure_eq]
  congr 1
  unfold indices
  rw [← hstep, List.map_append, List.map_map, List.map_map]
  congr 1
  unfold pySlice pyClamp
  have h1 : ¬ ((n : ℤ) - 27 < 0) := by omega
  have h2 : ¬ ((n : ℤ) < 0) := by omega
  simp only [← hnn, if_neg h1, if_neg h2]
  have e1 : min ((n : ℤ)).toNat n = n := by omega
  have e2 : min ((n : ℤ) - 27).toNat n = n - 27 := by omega
  rw [e1, e2, hnn, List.take_length]
  apply List.ext_getElem
  · simp; omega
  · intro i h3 h4
    simp only [List.length_drop] at h3
    rw [List.getElem_drop, List.getElem_map, List.getElem_range', List.getD_eq_getElem?_getD,
      List.getElem?_eq_getElem (by omega)]
    simp

theorem pairs_ok {x y : List α} (h : x.length = y.length) :
    (pyRange 0 x.length).mapM (fun i : ℤ => do
      let a ← pyGet x i
      let b ← pyGet y i
      return (a, b) : ℤ → Py (α × α)) = .ok (x.zip y) := by
  cases x with
  | nil => rfl
  | cons x0 xs =>
    rw [mapM_ok (g := fun i : ℤ => ((x0 :: xs).getD i.toNat x0, y.getD i.toNat x0))]
    · congr 1
      apply List.ext_getElem
      · simp [← h]
      · intro i h1 h2
        simp only [List.length_map, length_pyRange] at h1
        simp only [List.getElem_map, List.getElem_zip]
        have e : (pyRange 0 ((x0 :: xs).length : ℤ))[i]'(by simpa using h1) = (i : ℤ) := by
          have := getElem?_pyRange (a := 0) (b := ((x0 :: xs).length : ℤ)) (k := i) (by omega)
          rw [List.getElem?_eq_getElem (by simpa using h1)] at this
          simpa using this
        rw [e]
        have hi : i < (x0 :: xs).length := by omega
        have hi' : i < y.length := by omega
        simp only [Int.toNat_natCast, List.getD_eq_getElem?_getD, List.getElem?_eq_getElem hi,
          List.getElem?_eq_getElem hi', Option.getD_some]
    · intro i hi
      rw [mem_pyRange] at hi
      rw [pyGet_nonneg _ hi.1 (by omega), Except.ok_bind, pyGet_nonneg _ hi.1 (by omega),
        Except.ok_bind]
      have h1 : i.toNat < (x0 :: xs).length := by omega
      have h2 : i.toNat < y.length := by omega
      simp only [List.getD_eq_getElem?_getD, List.getElem?_eq_getElem h1,
          List.getElem?_eq_getElem h2, Option.getD_some]
      rfl

theorem indices_pairwise (start nSts : ℤ) (h0 : 0 ≤ start) (hn : 1 ≤ nSts) (n : ℕ)
    (hx : nSts + 27 ≤ n) : (indices start nSts n).Pairwise (· < ·) := by
  unfold indices
  set step := ((n : ℤ) - 27) / nSts with hstep
  have hs : 1 ≤ step := by
    rw [hstep]; exact (Int.le_ediv_iff_mul_le (by omega)).2 (by omega)
  rw [List.pairwise_append]
  refine ⟨?_, List.pairwise_lt_range' .., ?_⟩
  · rw [List.pairwise_map]
    refine List.Pairwise.imp ?_ List.pairwise_lt_range
    intro a b hab
    have h1 : (a : ℤ) * step < (b : ℤ) * step := by
      apply Int.mul_lt_mul_of_pos_right (by exact_mod_cast hab) (by omega)
    have h2 : 0 ≤ (a : ℤ) * step := by positivity
    omega
  · intro a ha b hb
    obtain ⟨k, hk, rfl⟩ := List.mem_map.1 ha
    rw [List.mem_range'_1] at hb
    have hk' : (k : ℤ) + 1 ≤ ((n : ℤ) - 27 - start + step - 1) / step := by
      have := List.mem_range.1 hk; omega
    have := (Int.le_ediv_iff_mul_le (by omega)).1 hk'
    have e : ((k : ℤ) + 1) * step = (k : ℤ) * step + step := by ring
    have h2 : 0 ≤ (k : ℤ) * step := by positivity
    omega

theorem sample_error (start nSts : ℤ) (x : List α) (h1 : 27 ≤ x.length)
    (h2 : (x.length : ℤ) < nSts + 27) : sample start nSts x = .error .valueError := by
  unfold sample
  simp only
  have : ((x.length : ℤ) - 27) / nSts = 0 := Int.ediv_eq_zero_of_lt (by omega) (by omega)
  unfold pyRangeStep
  rw [this, if_pos rfl]
  rfl

theorem count_bounds (start n T : ℤ) (h0 : 0 ≤ start) (hn : start + 1 ≤ n) (hT : n ≤ T) :
    n - start ≤ (T - start + T / n - 1) / (T / n) ∧
    (T - start + T / n - 1) / (T / n) ≤ 2 * n - start - 1 := by
  have hnp : 0 < n := by omega
  set s := T / n with hs
  have hs1 : 1 ≤ s := by rw [hs]; exact (Int.le_ediv_iff_mul_le hnp).2 (by omega)
  have e1 : n * s ≤ T := by rw [hs]; exact Int.mul_ediv_self_le (by omega)
  have e2 : T < n * s + n := by
    have := Int.lt_mul_ediv_self_add (x := T) hnp
    rw [← hs] at this; exact this
  constructor
  · refine (Int.le_ediv_iff_mul_le (by omega)).2 ?_
    have : start * 1 ≤ start * s := Int.mul_le_mul_of_nonneg_left hs1 h0
    have e : (n - start) * s = n * s - start * s := by ring
    omega
  · have : (T - start + s - 1) / s < 2 * n - start := by
      refine (Int.ediv_lt_iff_lt_mul (by omega)).2 ?_
      have h1 : (n - start - 1) * 1 ≤ (n - start - 1) * s :=
        Int.mul_le_mul_of_nonneg_left hs1 (by omega)
      have e : (2 * n - start) * s = n * s + s + (n - start - 1) * s := by ring
      omega
    omega

/-- sampling both columns, for either output format -/
theorem sample_pairs (start nSts : ℤ) (h0 : 0 ≤ start) (hn : start + 1 ≤ nSts) (x y : List α)
    (hxy : x.length = y.length) (h : nSts + 27 ≤ x.length) :
    ∃ (pairs : List (α × α)) (idx : List ℕ), (do
        let lntts ← sample start nSts x
        let g ← sample start nSts y
        (pyRange 0 lntts.length).mapM fun i : ℤ => do
          let a ← pyGet lntts i
          let b ← pyGet g i
          return (a, b) : Py (List (α × α))) = .ok pairs ∧
      pairs.length = idx.length ∧
      (∀ (j i : ℕ), idx[j]? = some i → ∃ p, pairs[j]? = some p ∧ x[i]? = some p.1 ∧
        y[i]? = some p.2) ∧
      idx.Pairwise (· < ·) ∧ idx.head? = some start.toNat ∧
      (∃ pre, idx = pre ++ List.range' (x.length - 27) 27) ∧
      nSts - start + 27 ≤ idx.length ∧ idx.length ≤ 2 * nSts - start + 26 := by
  cases x with
  | nil => simp at h; omega
  | cons x0 xs =>
    obtain ⟨b1, b2⟩ := count_bounds start nSts (((x0 :: xs).length : ℤ) - 27) h0 hn (by omega)
    generalize hx : x0 :: xs = x at *
    obtain ⟨s1, s2⟩ := sample_ok start nSts h0 (by omega) x h x0
    obtain ⟨s3, -⟩ := sample_ok start nSts h0 (by omega) y (by omega) x0
    rw [← hxy] at s3
    refine ⟨((indices start nSts x.length).map fun i => x.getD i x0).zip
      ((indices start nSts x.length).map fun i => y.getD i x0), indices start nSts x.length,
      ?_, ?_, ?_, indices_pairwise start nSts h0 (by omega) _ h, ?_, ⟨_, rfl⟩, ?_⟩
    · rw [s1, Except.ok_bind, s3, Except.ok_bind]
      exact pairs_ok (by simp)
    · simp
    · intro j i hj
      have hi := s2 i (List.mem_of_getElem? hj)
      refine ⟨(x.getD i x0, y.getD i x0), ?_, ?_, ?_⟩
      · rw [List.getElem?_zip_eq_some]
        simp [hj]
      · simp [List.getD_eq_getElem?_getD, List.getElem?_eq_getElem hi]
      · have : i < y.length := by omega
        simp [List.getD_eq_getElem?_getD, List.getElem?_eq_getElem this]
    · unfold indices
      rw [List.head?_append_of_ne_nil]
      · rw [List.head?_map, List.head?_range, if_neg (by omega)]
        simp
      · rw [Ne, List.map_eq_nil_iff, List.range_eq_nil]
        omega
    · unfold indices
      simp only [List.length_append, List.length_map, List.length_range, List.length_range']
      omega

/-- C78: with 27 to 56 g-values the export raises `ValueError`; with at least 57 it writes the pairs
(time, g-value) at a strictly increasing sequence of indices: index 1 first, the last 27 indices
last, between 56 and 85 of them. -/
theorem C78_export (x y : List α) (hxy : x.length = y.length) :
    (27 ≤ x.length → x.length < 57 → exportPairs x y = .error .valueError) ∧
    (57 ≤ x.length → ∃ (pairs : List (α × α)) (idx : List ℕ), exportPairs x y = .ok pairs ∧
      pairs.length = idx.length ∧
      (∀ (j i : ℕ), idx[j]? = some i → ∃ p, pairs[j]? = some p ∧ x[i]? = some p.1 ∧
        y[i]? = some p.2) ∧
      idx.Pairwise (· < ·) ∧ idx.head? = some 1 ∧
      (∃ pre, idx = pre ++ List.range' (x.length - 27) 27) ∧ 56 ≤ idx.length ∧ idx.length ≤ 85) := by
  constructor
  · intro h1 h2
    unfold exportPairs
    rw [sample_error 1 30 x h1 (by omega)]
    rfl
  · intro h
    obtain ⟨p, i, h1, h2, h3, h4, h5, h6, h7, h8⟩ :=
      sample_pairs 1 30 (by norm_num) (by norm_num) x y hxy (by omega)
    exact ⟨p, i, h1, h2, h3, h4, h5, h6, by omega, by omega⟩

/-- C78: the same for printing an exchanger (`__repr__`): `ValueError` for 27 to 76 g-values, else a
strictly increasing selection from index 0 to the last 27, between 77 and 126 pairs. -/
theorem C78_repr (x y : List α) (hxy : x.length = y.length) :
    (27 ≤ x.length → x.length < 77 → reprPairs x y = .error .valueError) ∧
    (77 ≤ x.length → ∃ (pairs : List (α × α)) (idx : List ℕ), reprPairs x y = .ok pairs ∧
      pairs.length = idx.length ∧
      (∀ (j i : ℕ), idx[j]? = some i → ∃ p, pairs[j]? = some p ∧ x[i]? = some p.1 ∧
        y[i]? = some p.2) ∧
      idx.Pairwise (· < ·) ∧ idx.head? = some 0 ∧
      (∃ pre, idx = pre ++ List.range' (x.length - 27) 27) ∧ 77 ≤ idx.length ∧ idx.length ≤ 126) := by
  constructor
  · intro h1 h2
    unfold reprPairs
    rw [sample_error 0 50 x h1 (by omega)]
    rfl
  · intro h
    obtain ⟨p, i, h1, h2, h3, h4, h5, h6, h7, h8⟩ :=
      sample_pairs 0 50 (by norm_num) (by norm_num) x y hxy (by omega)
    exact ⟨p, i, h1, h2, h3, h4, h5, h6, by omega, by omega⟩

example : sample 1 30 (List.range 90) = .ok ((List.range' 1 31 2) ++ List.range' 63 27) ∧
    sample 1 30 (List.range 56) = .error .valueError ∧
    (exportPairs (List.range 600) (List.range 600)).isOk = true := by decide +kernel

end Ghedt.Export
