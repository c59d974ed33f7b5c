import Verif.Model.Domains
import Verif.Lemmas.PyList
import Mathlib.Tactic.FieldSimp
import Mathlib.Tactic.Ring
import Mathlib.Tactic.Linarith

set_option linter.unusedSectionVars false

namespace Ghedt.FeatureRecognition

variable {K : Type} [Field K] [LinearOrder K] [IsStrictOrderedRing K]

theorem zipIdx_index_unique {α : Type} {l : List α} {k : ℕ} {a b : α} {i : ℕ}
    (ha : (a, i) ∈ l.zipIdx k) (hb : (b, i) ∈ l.zipIdx k) : a = b := by
  rw [List.mk_mem_zipIdx_iff_le_and_getElem?_sub] at ha hb
  have := ha.2.symm.trans hb.2
  exact Option.some.inj this

theorem contains_filter_idx {α : Type} {l : List α} (P : α × ℕ → Bool) {q : α × ℕ}
    (hq : q ∈ l.zipIdx) :
    ((l.zipIdx.filter P).map (·.2)).contains q.2 = P q := by
  rw [Bool.eq_iff_iff, List.contains_iff_mem, List.mem_map]
  constructor
  · rintro ⟨⟨a, i⟩, hm, hi⟩
    obtain ⟨b, j⟩ := q
    simp only at hi
    subst hi
    rw [List.mem_filter] at hm
    rw [zipIdx_index_unique hq hm.1]
    exact hm.2
  · intro h
    exact ⟨q, List.mem_filter.2 ⟨hq, h⟩, rfl⟩

theorem filter_zipIdx_fst {α : Type} (l : List α) (R : α → Bool) :
    (l.zipIdx.filter fun q => R q.1).map (·.1) = l.filter R := by
  have := List.filter_map (f := fun q : α × ℕ => q.1) (p := R) (l := l.zipIdx)
  rw [List.zipIdx_map_fst] at this
  rw [this]
  rfl

/-- which classification values survive -/
def keeps (removeInside keepContour : Bool) (d : K) : Bool :=
  if removeInside then (if keepContour then decide (d ≤ 0) else decide (d < 0))
  else (if keepContour then decide (0 ≤ d) else decide (0 < d))

theorem scale_scale (l : List (K × K)) :
    scaleCoordinates (scaleCoordinates l 10000) (1 / 10000) = l := by
  unfold scaleCoordinates
  rw [List.map_map]
  conv_rhs => rw [← List.map_id l]
  apply List.map_congr_left
  rintro ⟨x, y⟩ _
  simp

theorem removeCutout_eq (polyTest : List (K × K) → K × K → K) (coords boundary : List (K × K))
    (ri kc : Bool) : removeCutout polyTest coords boundary ri kc =
      coords.filter fun p => keeps ri kc
        (polyTest (scaleCoordinates boundary 10000) (p.1 * 10000, p.2 * 10000)) := by
  unfold removeCutout
  dsimp only
  have key : ∀ R : K × K → Bool,
      scaleCoordinates ((scaleCoordinates coords 10000).filter R) (1 / 10000) =
        coords.filter fun p => R (p.1 * 10000, p.2 * 10000) := by
    intro R
    have h : (scaleCoordinates coords 10000).filter R =
        scaleCoordinates (coords.filter fun p => R (p.1 * 10000, p.2 * 10000)) 10000 := by
      unfold scaleCoordinates
      rw [List.filter_map]
      rfl
    rw [h, scale_scale]
  rw [← key fun p => keeps ri kc (polyTest (scaleCoordinates boundary 10000) p)]
  congr 1
  rw [← filter_zipIdx_fst (scaleCoordinates coords 10000)
    fun p => keeps ri kc (polyTest (scaleCoordinates boundary 10000) p)]
  congr 1
  apply List.filter_congr
  intro q hq
  rw [contains_filter_idx _ hq, contains_filter_idx _ hq, contains_filter_idx _ hq]
  generalize polyTest (scaleCoordinates boundary 10000) q.1 = d
  unfold keeps
  rcases lt_trichotomy d 0 with h | h | h
  · have h1 := h.le; have h2 := h.not_gt; have h3 := h.not_ge; have h4 := h.ne
    cases ri <;> cases kc <;> simp [h, h1, h2, h3, h4]
  · subst h; cases ri <;> cases kc <;> simp
  · have h1 := h.le; have h2 := h.not_gt; have h3 := h.not_ge; have h4 := h.ne'
    cases ri <;> cases kc <;> simp [h, h1, h2, h3, h4]

end Ghedt.FeatureRecognition

namespace Ghedt.Domains

theorem set_append {α β : Type} [DecidableEq α] (d : PyDict α β) (k : α) (v : β)
    (h : ∀ q ∈ d, q.1 ≠ k) : PyDict.set d k v = d ++ [(k, v)] := by
  induction d with
  | nil => rfl
  | cons q d ih =>
    obtain ⟨k', v'⟩ := q
    rw [PyDict.set, if_neg (h (k', v') List.mem_cons_self),
      ih fun q hq => h q (List.mem_cons_of_mem _ hq)]
    rfl

theorem numbers_eq {α : Type} (domain : List (List α)) :
    domain.zipIdx.foldl (fun (d : PyDict ℕ ℕ) q => PyDict.set d q.2 q.1.length) [] =
      domain.zipIdx.map fun q => (q.2, q.1.length) := by
  have key : ∀ (l : List (List α)) (k : ℕ) (d : PyDict ℕ ℕ), (∀ q ∈ d, q.1 < k) →
      (l.zipIdx k).foldl (fun (d : PyDict ℕ ℕ) q => PyDict.set d q.2 q.1.length) d =
        d ++ (l.zipIdx k).map fun q => (q.2, q.1.length) := by
    intro l
    induction l with
    | nil => intro k d _; simp
    | cons a l ih =>
      intro k d hd
      rw [List.zipIdx_cons, List.foldl_cons, set_append _ _ _ fun q hq => (hd q hq).ne, ih]
      · simp
      · intro q hq
        rw [List.mem_append, List.mem_singleton] at hq
        rcases hq with hq | rfl
        · exact (hd q hq).trans (Nat.lt_succ_self _)
        · exact Nat.lt_succ_self _
  simpa using key domain 0 [] (by simp)

theorem find_numbers {α : Type} (domain : List (List α)) (size : ℕ) :
    firstOfSize (domain.zipIdx.map fun q => (q.2, q.1.length)) domain size =
      .ok (match domain.find? (fun f => decide (f.length = size)) with
        | some f => [f]
        | none => []) := by
  have key : ∀ (l : List (List α)) (k : ℕ),
      (List.find? (fun q : ℕ × ℕ => decide (q.2 = size))
        ((l.zipIdx k).map fun q => (q.2, q.1.length)) = none ∧
        l.find? (fun f => decide (f.length = size)) = none) ∨
      ∃ i f, List.find? (fun q : ℕ × ℕ => decide (q.2 = size))
        ((l.zipIdx k).map fun q => (q.2, q.1.length)) = some (k + i, f.length) ∧ l[i]? = some f ∧
        l.find? (fun f => decide (f.length = size)) = some f := by
    intro l
    induction l with
    | nil => intro k; left; exact ⟨rfl, rfl⟩
    | cons a l ih =>
      intro k
      rw [List.zipIdx_cons, List.map_cons, List.find?_cons, List.find?_cons]
      by_cases h : a.length = size
      · right
        refine ⟨0, a, ?_, rfl, ?_⟩ <;> simp [h]
      · simp only [h, decide_false]
        rcases ih (k + 1) with h1 | ⟨i, f, h1, h2, h3⟩
        · left; exact h1
        · right
          exact ⟨i + 1, f, by rw [h1, Nat.add_right_comm, Nat.add_assoc], h2, h3⟩
  unfold firstOfSize
  rcases key domain 0 with ⟨h1, h2⟩ | ⟨i, f, h1, h2, h3⟩
  · rw [h1, h2]; rfl
  · rw [h1, h3]
    dsimp only
    obtain ⟨hlt, he⟩ := List.getElem?_eq_some_iff.1 h2
    rw [Nat.zero_add, pyGet_ok hlt, he]
    rfl

/-- what `reorder_domain` computes -/
theorem reorderDomain_eq {α : Type} (domain : List (List α)) :
    ∃ r, reorderDomain domain = .ok r ∧
      r.map List.length = (domain.map List.length).insertionSort (· ≤ ·) ∧
      ∀ f ∈ r, domain.find? (fun g => decide (g.length = f.length)) = some f := by
  have hvals : PyDict.values (domain.zipIdx.map fun q => (q.2, q.1.length)) =
      domain.map List.length := by
    unfold PyDict.values
    rw [List.map_map]
    conv_rhs => rw [← List.zipIdx_map_fst 0 domain, List.map_map]
    rfl
  have hmem : ∀ s ∈ (domain.map List.length).insertionSort (· ≤ ·),
      ∃ f, domain.find? (fun g => decide (g.length = s)) = some f ∧ f.length = s := by
    intro s hs
    rw [List.mem_insertionSort, List.mem_map] at hs
    obtain ⟨g, hg, rfl⟩ := hs
    cases hf : domain.find? (fun g' => decide (g'.length = g.length)) with
    | none =>
      have := List.find?_eq_none.1 hf g hg
      simp at this
    | some f => exact ⟨f, rfl, by simpa using List.find?_some hf⟩
  unfold reorderDomain
  rw [numbers_eq]
  dsimp only
  rw [hvals]
  rw [mapM_ok (g := fun s => match domain.find? (fun f => decide (f.length = s)) with
        | some f => [f]
        | none => []) (fun s _ => find_numbers domain s)]
  refine ⟨_, rfl, ?_, ?_⟩
  · generalize (domain.map List.length).insertionSort (· ≤ ·) = l at hmem
    induction l with
    | nil => rfl
    | cons s l ih =>
      obtain ⟨f, hf, hl⟩ := hmem s List.mem_cons_self
      rw [List.map_cons, List.flatten_cons, List.map_append,
        ih fun s hs => hmem s (List.mem_cons_of_mem _ hs), hf]
      simp [hl]
  · intro f hf
    rw [List.mem_flatten] at hf
    obtain ⟨l, hl, hfl⟩ := hf
    rw [List.mem_map] at hl
    obtain ⟨s, hs, rfl⟩ := hl
    obtain ⟨g, hg, hgl⟩ := hmem s hs
    rw [hg, List.mem_singleton] at hfl
    subst hfl
    rw [hgl]; exact hg

end Ghedt.Domains
