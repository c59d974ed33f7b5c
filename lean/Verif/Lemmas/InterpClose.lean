import Verif.Lemmas.RadialSim

/-!
# Linear interpolation of two sets of data over the same points
-/

namespace Ghedt

variable {K : Type} [Field K] [LinearOrder K] [IsStrictOrderedRing K]

theorem interpNodes_close {δ : K} (l : List (K × K × K)) : ∀ v d, (∀ p ∈ l, |p.2.1 - p.2.2| ≤ δ) →
    interpNodes (l.map fun p => (p.1, p.2.1)) v = .ok d →
    ∃ d', interpNodes (l.map fun p => (p.1, p.2.2)) v = .ok d' ∧ |d - d'| ≤ δ := by
  induction l with
  | nil => intro v d _ h; cases h
  | cons p rest ih =>
    intro v d hl h
    cases rest with
    | nil =>
      simp only [List.map_cons, List.map_nil] at h ⊢
      unfold interpNodes at h ⊢
      split_ifs at h ⊢ with h1
      cases h
      exact ⟨_, rfl, hl p (by simp)⟩
    | cons q rest =>
      simp only [List.map_cons] at h ih ⊢
      unfold interpNodes at h ⊢
      dsimp only at h ⊢
      split_ifs at h ⊢ with h1 h2
      · cases h
        refine ⟨_, rfl, ?_⟩
        have hp := hl p (by simp)
        have hq := hl q (by simp)
        have hpos : 0 < q.1 - p.1 := by linarith
        set c := (v - p.1) / (q.1 - p.1) with hc
        have c0 : 0 ≤ c := div_nonneg (by linarith) hpos.le
        have c1 : c ≤ 1 := (div_le_one hpos).2 (by linarith)
        have e : (q.2.1 - p.2.1) / (q.1 - p.1) * (v - p.1) + p.2.1 -
            ((q.2.2 - p.2.2) / (q.1 - p.1) * (v - p.1) + p.2.2) =
            (1 - c) * (p.2.1 - p.2.2) + c * (q.2.1 - q.2.2) := by
          rw [hc]
          field_simp
          ring
        rw [e]
        refine (abs_add_le _ _).trans ?_
        rw [abs_mul, abs_mul, abs_of_nonneg c0, abs_of_nonneg (show 0 ≤ 1 - c by linarith)]
        have t1 := mul_le_mul_of_nonneg_left hp (show 0 ≤ 1 - c by linarith)
        have t2 := mul_le_mul_of_nonneg_left hq c0
        linarith
      · exact ih v d (fun a ha => hl a (List.mem_cons_of_mem _ ha)) h

theorem interp1d_range_eq {x y : ℕ → K} {N : ℕ} (hx : ∀ k, k + 1 < N → x k ≤ x (k + 1)) (v : K) :
    interp1d ((List.range N).map x) ((List.range N).map y) v = interpNodes ((List.range N).map fun k => (x k, y k)) v := by
  have hxm : ∀ i j, i ≤ j → j < N → x i ≤ x j := by
    intro i j hij
    induction j, hij using Nat.le_induction with
    | base => intro _; exact le_rfl
    | succ j _ ih => intro hj; exact (ih (by omega)).trans (hx j hj)
  unfold interp1d
  rw [if_neg (by simp), List.zip_map', List.Pairwise.insertionSort_eq]
  rw [List.pairwise_map]
  refine List.Pairwise.imp_of_mem ?_ List.pairwise_lt_range
  intro a b _ hb hab
  exact hxm a b hab.le (List.mem_range.1 hb)

/-- values interpolated from data that are close are close -/
theorem interp1d_close {x y y' : ℕ → K} {N : ℕ} {δ : K} (hx : ∀ k, k + 1 < N → x k ≤ x (k + 1))
    (hy : ∀ k < N, |y k - y' k| ≤ δ) {v d : K}
    (h : interp1d ((List.range N).map x) ((List.range N).map y) v = .ok d) :
    ∃ d', interp1d ((List.range N).map x) ((List.range N).map y') v = .ok d' ∧ |d - d'| ≤ δ := by
  rw [interp1d_range_eq hx] at h ⊢
  have := interpNodes_close (δ := δ) ((List.range N).map fun k => (x k, y k, y' k)) v d (by
    intro p hp
    obtain ⟨k, hk, rfl⟩ := List.mem_map.1 hp
    exact hy k (List.mem_range.1 hk)) (by rw [List.map_map]; exact h)
  rw [List.map_map] at this
  exact this

/-- whether there is a value depends on the points only -/
theorem interp1d_exists {x : ℕ → K} (y' : ℕ → K) {N : ℕ} (hx : ∀ k, k + 1 < N → x k < x (k + 1)) (hN : 0 < N) {v : K}
    (h1 : x 0 ≤ v) (h2 : v ≤ x (N - 1)) : ∃ d, interp1d ((List.range N).map x) ((List.range N).map y') v = .ok d := by
  obtain ⟨d, -, e, -, -⟩ := interp1d_mono (y := fun k => (k : K)) hx (fun k _ => by push_cast; linarith) hN h1 le_rfl h2
  obtain ⟨d', e', -⟩ := interp1d_close (y' := y') (δ := ∑ k ∈ Finset.range N, |(k : K) - y' k|) (fun k hk => (hx k hk).le)
    (fun k hk => Finset.single_le_sum (f := fun k : ℕ => |(k : K) - y' k|) (fun _ _ => abs_nonneg _) (Finset.mem_range.2 hk)) e
  exact ⟨d', e'⟩

end Ghedt
