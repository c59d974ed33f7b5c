import Verif.Lemmas.Features
import Verif.Props.Domains
import Mathlib.Data.List.Chain
import Mathlib.Data.List.Nodup
import Mathlib.Data.List.Perm.Subperm

/-!
# Properties of `feature_recognition.py`, `polygonal_land_constraint`, `reorder_domain` and
`verify_excess` (C19–C24)
-/

set_option linter.unusedSectionVars false

namespace Ghedt.FeatureRecognition

variable {K : Type} [Field K] [LinearOrder K] [IsStrictOrderedRing K]

/-! ## C23 — `remove_cutout` -/

/-- What OpenCV is asked about the point `p`: polygon and point scaled by 10000.  Positive: inside;
zero: on the contour; negative: outside. -/
def classify (polyTest : List (K × K) → K × K → K) (poly : List (K × K)) (p : K × K) : K :=
  polyTest (poly.map fun q => (q.1 * 10000, q.2 * 10000)) (p.1 * 10000, p.2 * 10000)

/-- C23: for each combination of options the result is the sublist of the given points (same order,
same coordinates) whose classification is allowed, whatever the classifier answers. -/
theorem C23_removeCutout (polyTest : List (K × K) → K × K → K) (coords boundary : List (K × K)) :
    removeCutout polyTest coords boundary true true =
      coords.filter (fun p => decide (classify polyTest boundary p ≤ 0)) ∧
    removeCutout polyTest coords boundary true false =
      coords.filter (fun p => decide (classify polyTest boundary p < 0)) ∧
    removeCutout polyTest coords boundary false true =
      coords.filter (fun p => decide (0 ≤ classify polyTest boundary p)) ∧
    removeCutout polyTest coords boundary false false =
      coords.filter (fun p => decide (0 < classify polyTest boundary p)) := by
  refine ⟨?_, ?_, ?_, ?_⟩ <;> rw [removeCutout_eq] <;> rfl

/-- C23, partition: strictly-outside and strictly-inside points together are exactly the points off
the contour. -/
theorem C23_removeCutout_partition (polyTest : List (K × K) → K × K → K)
    (coords boundary : List (K × K)) :
    (removeCutout polyTest coords boundary true false ++
      removeCutout polyTest coords boundary false false).Perm
      (coords.filter fun p => decide (classify polyTest boundary p ≠ 0)) := by
  have h1 := (C23_removeCutout polyTest coords boundary).2.1
  have h2 := (C23_removeCutout polyTest coords boundary).2.2.2
  rw [h1, h2]
  clear h1 h2
  induction coords with
  | nil => simp
  | cons p l ih =>
    rcases lt_trichotomy (classify polyTest boundary p) 0 with h | h | h
    · simp only [List.filter_cons, h, h.not_gt, h.ne, ne_eq, not_false_eq_true, decide_true,
        decide_false, if_true, List.cons_append, Bool.false_eq_true, if_false]
      exact ih.cons p
    · simp only [List.filter_cons, h, lt_irrefl, ne_eq, not_true_eq_false,
        decide_false, Bool.false_eq_true, if_false]
      exact ih
    · simp only [List.filter_cons, h, h.not_gt, h.ne', ne_eq, not_false_eq_true, decide_true,
        decide_false, if_true, Bool.false_eq_true, if_false]
      exact List.perm_middle.trans (ih.cons p)

/-- a classifier for the half plane `x < 2` on three points -/
example : removeCutout (fun _ p => (20000 : ℚ) - p.1) [(1, 0), (2, 0), (3, 0)] [] true false =
    [(3, 0)] ∧
    removeCutout (fun _ p => (20000 : ℚ) - p.1) [(1, 0), (2, 0), (3, 0)] [] false true =
    [(1, 0), (2, 0)] := by decide +kernel

/-! ## C24 — `determine_largest_rectangle` -/

/-- C24: the result is a closed rectangle with a corner at the origin whose upper corner is
`(mx, my)`, the least bounds of 0 and the vertex coordinates. -/
theorem C24_largest_rectangle (poly : List (K × K)) :
    ∃ mx my : K, determineLargestRectangle poly =
        [(0, 0), (mx, 0), (mx, my), (0, my), (0, 0)] ∧
      (0 ≤ mx ∧ (∀ p ∈ poly, p.1 ≤ mx) ∧ (mx = 0 ∨ ∃ p ∈ poly, p.1 = mx)) ∧
      (0 ≤ my ∧ (∀ p ∈ poly, p.2 ≤ my) ∧ (my = 0 ∨ ∃ p ∈ poly, p.2 = my)) := by
  have key : ∀ (l : List (K × K)) (m : K × K),
      let r := l.foldl (fun (m : K × K) p =>
        (if p.1 > m.1 then p.1 else m.1, if p.2 > m.2 then p.2 else m.2)) m
      (m.1 ≤ r.1 ∧ (∀ p ∈ l, p.1 ≤ r.1) ∧ (r.1 = m.1 ∨ ∃ p ∈ l, p.1 = r.1)) ∧
      (m.2 ≤ r.2 ∧ (∀ p ∈ l, p.2 ≤ r.2) ∧ (r.2 = m.2 ∨ ∃ p ∈ l, p.2 = r.2)) := by
    intro l
    induction l with
    | nil => intro m; simp
    | cons a l ih =>
      intro m
      have := ih (if a.1 > m.1 then a.1 else m.1, if a.2 > m.2 then a.2 else m.2)
      dsimp only at this ⊢
      rw [List.foldl_cons]
      set r := l.foldl (fun (m : K × K) p =>
        (if p.1 > m.1 then p.1 else m.1, if p.2 > m.2 then p.2 else m.2))
        (if a.1 > m.1 then a.1 else m.1, if a.2 > m.2 then a.2 else m.2)
      obtain ⟨⟨h1, h2, h3⟩, h4, h5, h6⟩ := this
      constructor
      · split at h1
        · rename_i hc
          rw [if_pos hc] at h3
          refine ⟨hc.le.trans h1, List.forall_mem_cons.2 ⟨h1, h2⟩, Or.inr ?_⟩
          rcases h3 with h3 | ⟨p, hp, h3⟩
          · exact ⟨a, List.mem_cons_self, h3.symm⟩
          · exact ⟨p, List.mem_cons_of_mem _ hp, h3⟩
        · rename_i hc
          rw [if_neg hc] at h3
          refine ⟨h1, List.forall_mem_cons.2 ⟨(not_lt.1 hc).trans h1, h2⟩, ?_⟩
          rcases h3 with h3 | ⟨p, hp, h3⟩
          · exact Or.inl h3
          · exact Or.inr ⟨p, List.mem_cons_of_mem _ hp, h3⟩
      · split at h4
        · rename_i hc
          rw [if_pos hc] at h6
          refine ⟨hc.le.trans h4, List.forall_mem_cons.2 ⟨h4, h5⟩, Or.inr ?_⟩
          rcases h6 with h3 | ⟨p, hp, h3⟩
          · exact ⟨a, List.mem_cons_self, h3.symm⟩
          · exact ⟨p, List.mem_cons_of_mem _ hp, h3⟩
        · rename_i hc
          rw [if_neg hc] at h6
          refine ⟨h4, List.forall_mem_cons.2 ⟨(not_lt.1 hc).trans h4, h5⟩, ?_⟩
          rcases h6 with h3 | ⟨p, hp, h3⟩
          · exact Or.inl h3
          · exact Or.inr ⟨p, List.mem_cons_of_mem _ hp, h3⟩
  exact ⟨_, _, rfl, key poly (0, 0)⟩

/-- C24, consequences: vertices with nonnegative coordinates lie in the returned rectangle, any
rectangle `[0,a]×[0,b]` containing them all is at least as large, and a vertex with a negative
coordinate lies outside. -/
theorem C24_largest_rectangle_contains (poly : List (K × K)) :
    ∃ mx my : K, determineLargestRectangle poly =
        [(0, 0), (mx, 0), (mx, my), (0, my), (0, 0)] ∧
      (∀ p ∈ poly, 0 ≤ p.1 → 0 ≤ p.2 → Spec.InLand mx my p) ∧
      (∀ a b : K, 0 ≤ a → 0 ≤ b → (∀ p ∈ poly, p.1 ≤ a ∧ p.2 ≤ b) → mx ≤ a ∧ my ≤ b) ∧
      (∀ p ∈ poly, (p.1 < 0 ∨ p.2 < 0) → ¬ Spec.InLand mx my p) := by
  obtain ⟨mx, my, h, ⟨h0, h1, h2⟩, h3, h4, h5⟩ := C24_largest_rectangle poly
  refine ⟨mx, my, h, ?_, ?_, ?_⟩
  · intro p hp hx hy
    exact ⟨⟨hx, h1 p hp⟩, hy, h4 p hp⟩
  · intro a b ha hb hall
    constructor
    · rcases h2 with rfl | ⟨p, hp, rfl⟩
      · exact ha
      · exact (hall p hp).1
    · rcases h5 with rfl | ⟨p, hp, rfl⟩
      · exact hb
      · exact (hall p hp).2
  · intro p hp hneg hin
    rcases hneg with hneg | hneg
    · exact absurd hin.1.1 (not_le.2 hneg)
    · exact absurd hin.2.1 (not_le.2 hneg)

example : determineLargestRectangle [((-1 : ℚ), 2), (3, 1), (2, -4)] =
    [(0, 0), (3, 0), (3, 2), (0, 2), (0, 0)] := by decide +kernel

end Ghedt.FeatureRecognition

namespace Ghedt.Domains
open FeatureRecognition Spec

/-! ## C21 — `reorder_domain` -/

/-- C21: never raises; the result has the input's sizes in ascending order; each returned field is
the *first* input field of its size. -/
theorem C21_reorder {α : Type} (domain : List (List α)) :
    ∃ r, reorderDomain domain = .ok r ∧ r.length = domain.length ∧
      (r.map List.length).Perm (domain.map List.length) ∧
      r.Pairwise (fun f g => f.length ≤ g.length) ∧
      (∀ f ∈ r, domain.find? (fun g => decide (g.length = f.length)) = some f) := by
  obtain ⟨r, hr, hl, hf⟩ := reorderDomain_eq domain
  have hp : (r.map List.length).Perm (domain.map List.length) := by
    rw [hl]; exact List.perm_insertionSort _ _
  refine ⟨r, hr, by simpa using hp.length_eq, hp, ?_, hf⟩
  have hs := List.pairwise_insertionSort (· ≤ ·) (domain.map List.length)
  rwa [← hl, List.pairwise_map] at hs

/-- C21: if the sizes are pairwise distinct nothing is lost: the result is a permutation. -/
theorem C21_reorder_perm {α : Type} (domain : List (List α))
    (hd : (domain.map List.length).Nodup) :
    ∃ r, reorderDomain domain = .ok r ∧ r.Perm domain := by
  obtain ⟨r, hr, hlen, hp, _, hf⟩ := C21_reorder domain
  refine ⟨r, hr, ?_⟩
  have hnd : r.Nodup := List.Nodup.of_map List.length (hp.nodup_iff.2 hd)
  have hsub : r ⊆ domain := fun f hfr => List.mem_of_find?_eq_some (hf f hfr)
  exact (hnd.subperm hsub).perm_of_length_le hlen.ge

/-- C21: with two different fields of the same size, the first is repeated and the other is lost:
the later field is not in the result. -/
theorem C21_reorder_drops {α : Type} (l1 l2 l3 : List (List α)) (f g : List α)
    (hsize : f.length = g.length) (hne : f ≠ g) (hfirst : ∀ h ∈ l1, h.length ≠ f.length) :
    ∃ r, reorderDomain (l1 ++ f :: l2 ++ g :: l3) = .ok r ∧ f ∈ r ∧ g ∉ r := by
  obtain ⟨r, hr, hlen, hp, _, hf⟩ := C21_reorder (l1 ++ f :: l2 ++ g :: l3)
  have hfind : (l1 ++ f :: l2 ++ g :: l3).find? (fun h => decide (h.length = f.length)) = some f := by
    rw [List.append_assoc, List.find?_append,
      List.find?_eq_none.2 (fun h hh => by simpa using hfirst h hh)]
    simp
  have hmem : f.length ∈ r.map List.length := by
    rw [hp.mem_iff, List.mem_map]
    exact ⟨f, by simp, rfl⟩
  rw [List.mem_map] at hmem
  obtain ⟨f', hf', hl⟩ := hmem
  have h1 := hf f' hf'
  rw [hl, hfind] at h1
  cases h1
  refine ⟨r, hr, hf', fun hg => ?_⟩
  have h2 := hf g hg
  rw [← hsize, hfind] at h2
  cases h2
  exact hne rfl

example : reorderDomain [[1, 2, 3], [4], [5, 6, 7], [(8 : ℕ), 9]] =
    .ok [[4], [8, 9], [1, 2, 3], [1, 2, 3]] := by decide +kernel

/-! ## C22 — `verify_excess` -/

variable {K : Type} [Field K] [LinearOrder K] [IsStrictOrderedRing K]

theorem verifyExcess_flag (l : List K) (b : Bool) :
    l.foldl (fun unimodal d => if d > 0 then false else unimodal) b = true ↔
      b = true ∧ ∀ d ∈ l, d ≤ 0 := by
  induction l generalizing b with
  | nil => simp
  | cons a l ih =>
    rw [List.foldl_cons, ih, List.forall_mem_cons]
    by_cases h : a > 0
    · rw [if_pos h]
      constructor
      · rintro ⟨h', _⟩; cases h'
      · rintro ⟨_, h', _⟩; exact absurd h' (not_le.2 h)
    · rw [if_neg h]
      constructor
      · rintro ⟨a, b⟩; exact ⟨a, not_lt.1 h, b⟩
      · rintro ⟨a, _, b⟩; exact ⟨a, b⟩

/-- C22: the flag is true iff the sequence never increases; there is one difference per adjacent
pair, the `i`-th being `domain[i+1]-domain[i]`, and they add up to last minus first. -/
theorem C22_verifyExcess (domain : List K) :
    ((verifyExcess domain).2 = true ↔ domain.IsChain (fun a b => b ≤ a)) ∧
    (verifyExcess domain).1.length = domain.length - 1 ∧
    (∀ (i : ℕ) (a b : K), domain[i]? = some a → domain[i + 1]? = some b →
      (verifyExcess domain).1[i]? = some (b - a)) ∧
    (∀ a b, domain.head? = some a → domain.getLast? = some b →
      (verifyExcess domain).1.sum = b - a) := by
  unfold verifyExcess
  refine ⟨?_, ?_, ?_, ?_⟩
  · rw [verifyExcess_flag]
    simp only [true_and]
    induction domain with
    | nil => simp
    | cons a l ih =>
      cases l with
      | nil => simp
      | cons b l =>
        rw [List.isChain_cons_cons, ← ih]
        simp only [List.tail_cons, List.zip_cons_cons, List.map_cons, List.forall_mem_cons,
          sub_nonpos]
  · simp
  · intro i a b ha hb
    have hz : (domain.zip domain.tail)[i]? = some (a, b) := by
      rw [List.getElem?_zip_eq_some]
      exact ⟨ha, by rw [List.getElem?_tail]; exact hb⟩
    rw [List.getElem?_map, hz]; rfl
  · intro a b ha hb
    induction domain generalizing a with
    | nil => simp at ha
    | cons c l ih =>
      simp only [List.head?_cons, Option.some.injEq] at ha
      subst ha
      cases l with
      | nil => simp at hb; simp [hb]
      | cons d l =>
        rw [List.getLast?_cons_cons] at hb
        have := ih d rfl hb
        simp only [List.tail_cons, List.zip_cons_cons, List.map_cons, List.sum_cons] at this ⊢
        rw [this]; ring

example : verifyExcess [(5 : ℚ), 3, 3, 1] = ([-2, 0, -2], true) := by decide +kernel
example : verifyExcess [(5 : ℚ), 3, 4] = ([-2, 1], false) := by decide +kernel

/-! ## C19, C20 — `polygonal_land_constraint` -/

variable [FloorRing K]

/-- the property-and-building cut of one field -/
theorem cutout_eq (polyTest : List (K × K) → K × K → K) (prop bld : List (K × K)) (f : List (K × K)) :
    removeCutout polyTest (removeCutout polyTest f prop false true) bld true false =
      f.filter fun p => decide (0 ≤ classify polyTest prop p ∧ classify polyTest bld p < 0) := by
  rw [(C23_removeCutout polyTest _ bld).2.1, (C23_removeCutout polyTest f prop).2.2.1,
    List.filter_filter]
  apply List.filter_congr
  intro p _
  rw [Bool.decide_and, Bool.and_comm]

theorem polygonal_core {polyTest : List (K × K) → K × K → K} {prop bld : List (K × K)}
    {Bmin BX BY X Y : K} (hBmin : 0 < Bmin) (hBX : 0 < BX) (hBY : 0 < BY)
    (hrect : determineLargestRectangle prop = [(0, 0), (X, 0), (X, Y), (0, Y), (0, 0)])
    (hX : 0 < X) (hY : 0 < Y) :
    ∃ full out, biRectangleNested X Y Bmin BX BY = .ok full ∧
      polygonalLandConstraint polyTest prop Bmin BX BY bld = .ok out ∧
      List.Forall₂ (fun D R => reorderDomain (D.filterMap fun f =>
        if (removeCutout polyTest f prop false true).length = 0 then none
        else some (f.filter fun p =>
          decide (0 ≤ classify polyTest prop p ∧ classify polyTest bld p < 0))) = .ok R) full out := by
  obtain ⟨full, hfull, _⟩ : ∃ full, biRectangleNested X Y Bmin BX BY = .ok full ∧ True := by
    by_cases h : Y ≤ X
    · obtain ⟨n, hn, _⟩ := C13_nested hX hY hBmin hBX hBY (Or.inl ⟨h, rfl, rfl, rfl, rfl⟩)
      exact ⟨n, hn, trivial⟩
    · obtain ⟨n, hn, _⟩ := C13_nested hX hY hBmin hBX hBY
        (Or.inr ⟨not_le.1 h, rfl, rfl, rfl, rfl⟩)
      exact ⟨n, hn, trivial⟩
  unfold polygonalLandConstraint
  rw [hrect]
  simp only [List.map_cons, List.map_nil, pyMax, List.foldl_cons, List.foldl_nil]
  have e1 : max (max (max (max 0 X) X) 0) 0 = X := by
    simp [hX.le]
  have e2 : max (max (max (max 0 0) Y) Y) 0 = Y := by
    simp [hY.le]
  rw [Except.ok_bind, Except.ok_bind, e1, e2, hfull, Except.ok_bind]
  have hre : ∀ D : List (List (K × K)), ∃ r, reorderDomain D = .ok r := fun D =>
    let ⟨r, h, _⟩ := C21_reorder D; ⟨r, h⟩
  choose g hg using hre
  refine ⟨full, _, rfl, mapM_ok (g := g) (fun D _ => hg D), ?_⟩
  rw [List.forall₂_map_right_iff, List.forall₂_map_right_iff]
  refine List.forall₂_same.2 fun D _ => ?_
  rw [← hg]
  congr 1
  refine List.filterMap_congr fun f _ => ?_
  rw [cutout_eq]

/-- C19: with a property polygon that reaches into the open positive quadrant and positive spacings
the call never raises; there are as many nested domains as `bi_rectangle_nested` gives for the
bounding rectangle; each field is what remains of one of those fields after removing all boreholes
outside the property or not strictly outside the building; their sizes are those of what remains of
the fields that have a borehole on the property, in increasing order. -/
theorem C19_polygonal {polyTest : List (K × K) → K × K → K} {prop bld : List (K × K)}
    {Bmin BX BY : K} (hBmin : 0 < Bmin) (hBX : 0 < BX) (hBY : 0 < BY)
    (hx : ∃ p ∈ prop, 0 < p.1) (hy : ∃ p ∈ prop, 0 < p.2) :
    ∃ (X Y : K) (full out : List (List (List (K × K)))),
      determineLargestRectangle prop = [(0, 0), (X, 0), (X, Y), (0, Y), (0, 0)] ∧
      biRectangleNested X Y Bmin BX BY = .ok full ∧
      polygonalLandConstraint polyTest prop Bmin BX BY bld = .ok out ∧
      out.length = full.length ∧
      List.Forall₂ (fun D R =>
        (∀ f ∈ R, ∃ g ∈ D, f = g.filter fun p =>
          decide (0 ≤ classify polyTest prop p ∧ classify polyTest bld p < 0)) ∧
        (R.map List.length).Perm ((D.filter fun g => g.any fun p => decide (0 ≤ classify polyTest prop p)).map
          fun g => (g.filter fun p =>
            decide (0 ≤ classify polyTest prop p ∧ classify polyTest bld p < 0)).length) ∧
        R.Pairwise (fun f g => f.length ≤ g.length)) full out ∧
      (∀ R ∈ out, ∀ f ∈ R, ∀ p ∈ f,
        0 ≤ classify polyTest prop p ∧ classify polyTest bld p < 0 ∧ InLand X Y p) := by
  obtain ⟨X, Y, hrect, ⟨hX0, hXall, hXw⟩, hY0, hYall, hYw⟩ := C24_largest_rectangle prop
  obtain ⟨px, hpx, hpx'⟩ := hx
  obtain ⟨py, hpy, hpy'⟩ := hy
  have hX : 0 < X := hpx'.trans_le (hXall _ hpx)
  have hY : 0 < Y := hpy'.trans_le (hYall _ hpy)
  obtain ⟨full, out, hfull, hout, hF⟩ := polygonal_core (polyTest := polyTest) (bld := bld)
    hBmin hBX hBY hrect hX hY
  have hempty : ∀ f, (removeCutout polyTest f prop false true).length = 0 ↔
      (f.any fun p => decide (0 ≤ classify polyTest prop p)) = false := by
    intro f
    rw [(C23_removeCutout polyTest f prop).2.2.1, List.length_eq_zero_iff, List.filter_eq_nil_iff,
      List.any_eq_false]
  have hland : ∀ D ∈ full, DomainInLand X Y D := by
    by_cases h : Y ≤ X
    · obtain ⟨n, hn, _, hall, _⟩ := C13_nested hX hY hBmin hBX hBY (Or.inl ⟨h, rfl, rfl, rfl, rfl⟩)
      rw [hfull] at hn; cases hn
      exact fun D hD => (hall D hD).1
    · obtain ⟨n, hn, _, hall, _⟩ := C13_nested hX hY hBmin hBX hBY
        (Or.inr ⟨not_le.1 h, rfl, rfl, rfl, rfl⟩)
      rw [hfull] at hn; cases hn
      exact fun D hD => (hall D hD).1
  have hF' : List.Forall₂ (fun D R =>
        (∀ f ∈ R, ∃ g ∈ D, f = g.filter fun p =>
          decide (0 ≤ classify polyTest prop p ∧ classify polyTest bld p < 0)) ∧
        (R.map List.length).Perm ((D.filter fun g => g.any fun p => decide (0 ≤ classify polyTest prop p)).map
          fun g => (g.filter fun p =>
            decide (0 ≤ classify polyTest prop p ∧ classify polyTest bld p < 0)).length) ∧
        R.Pairwise (fun f g => f.length ≤ g.length)) full out := by
    refine hF.imp fun D R hDR => ?_
    obtain ⟨r, hr, hlen, hp, hs, hfind⟩ := C21_reorder (D.filterMap fun f =>
        if (removeCutout polyTest f prop false true).length = 0 then none
        else some (f.filter fun p =>
          decide (0 ≤ classify polyTest prop p ∧ classify polyTest bld p < 0)))
    rw [hDR] at hr; cases hr
    refine ⟨?_, ?_, hs⟩
    · intro f hf
      have := List.mem_of_find?_eq_some (hfind f hf)
      rw [List.mem_filterMap] at this
      obtain ⟨g, hg, hgf⟩ := this
      split at hgf
      · cases hgf
      · cases hgf; exact ⟨g, hg, rfl⟩
    · refine hp.trans (List.Perm.of_eq ?_)
      clear hDR hfind hs hp hlen
      induction D with
      | nil => rfl
      | cons g D ih =>
        rw [List.filterMap_cons, List.filter_cons]
        cases hc : g.any fun p => decide (0 ≤ classify polyTest prop p) with
        | false => rw [if_pos ((hempty g).2 hc)]; simpa using ih
        | true =>
          rw [if_neg (fun h => by rw [(hempty g).1 h] at hc; cases hc)]
          simpa using ih
  refine ⟨X, Y, full, out, hrect, hfull, hout, hF.length_eq.symm, hF', ?_⟩
  intro R hR f hf p hp
  obtain ⟨D, hD, hDR⟩ := forall₂_mem_right hF' R hR
  obtain ⟨g, hg, rfl⟩ := hDR.1 f hf
  rw [List.mem_filter, decide_eq_true_eq] at hp
  exact ⟨hp.2.1, hp.2.2, hland D hD g hg p hp.1⟩

/-- C20 (violation): if some field of nested domain `i` has a borehole on the property but every
such borehole is on or inside the building, then nested domain `i` of the result starts with an
*empty* field. -/
theorem C20_polygonal_empty_field {polyTest : List (K × K) → K × K → K} {prop bld : List (K × K)}
    {Bmin BX BY X Y : K} (hBmin : 0 < Bmin) (hBX : 0 < BX) (hBY : 0 < BY)
    (hrect : determineLargestRectangle prop = [(0, 0), (X, 0), (X, Y), (0, Y), (0, 0)])
    (hX : 0 < X) (hY : 0 < Y) {full : List (List (List (K × K)))}
    (hfull : biRectangleNested X Y Bmin BX BY = .ok full) {i : ℕ} {D : List (List (K × K))}
    (hi : full[i]? = some D) {g : List (K × K)} (hg : g ∈ D)
    (hon : ∃ p ∈ g, 0 ≤ classify polyTest prop p)
    (hcov : ∀ p ∈ g, 0 ≤ classify polyTest prop p → 0 ≤ classify polyTest bld p) :
    ∃ out R, polygonalLandConstraint polyTest prop Bmin BX BY bld = .ok out ∧
      out[i]? = some R ∧ R.head? = some [] := by
  obtain ⟨full', out, hfull', hout, hF⟩ := polygonal_core (polyTest := polyTest) (bld := bld)
    hBmin hBX hBY hrect hX hY
  rw [hfull] at hfull'; cases hfull'
  have hlt : i < out.length := by
    rw [← hF.length_eq]; exact (List.getElem?_eq_some_iff.1 hi).1
  have hDR := List.Forall₂.get hF (List.getElem?_eq_some_iff.1 hi).1 hlt
  refine ⟨out, out[i], hout, List.getElem?_eq_getElem hlt, ?_⟩
  simp only [List.get_eq_getElem] at hDR
  rw [(List.getElem?_eq_some_iff.1 hi).2] at hDR
  obtain ⟨r, hr, hlen, hp, hs, hfind⟩ := C21_reorder (D.filterMap fun f =>
        if (removeCutout polyTest f prop false true).length = 0 then none
        else some (f.filter fun p =>
          decide (0 ≤ classify polyTest prop p ∧ classify polyTest bld p < 0)))
  rw [hDR] at hr
  cases hr
  -- size 0 occurs, hence it is first
  have hmem0 : (0 : ℕ) ∈ (out[i]).map List.length := by
    rw [hp.mem_iff, List.mem_map]
    refine ⟨[], ?_, rfl⟩
    rw [List.mem_filterMap]
    refine ⟨g, hg, ?_⟩
    obtain ⟨p, hpg, hp0⟩ := hon
    rw [if_neg]
    · congr 1
      rw [List.filter_eq_nil_iff]
      intro q hq
      simp only [decide_eq_true_eq, not_and, not_lt]
      exact hcov q hq
    · rw [(C23_removeCutout polyTest g prop).2.2.1, List.length_eq_zero_iff,
        List.filter_eq_nil_iff]
      intro h
      exact h p hpg (by simpa using hp0)
  cases hR : out[i] with
  | nil => rw [hR] at hmem0; simp at hmem0
  | cons f fs =>
    rw [hR] at hmem0 hs
    rw [List.head?_cons]
    congr 1
    rw [List.map_cons, List.mem_cons] at hmem0
    rcases hmem0 with h | h
    · exact List.length_eq_zero_iff.1 h.symm
    · rw [List.mem_map] at h
      obtain ⟨f', hf', h⟩ := h
      have := (List.pairwise_cons.1 hs).1 f' hf'
      exact List.length_eq_zero_iff.1 (by omega)

/-- a square property, a building around the origin (a classifier for `x+y < 1`): the one-borehole
field is emptied -/
example : (polygonalLandConstraint
    (fun poly p => if poly.length = 3 then (10000 : ℚ) - p.1 - p.2 else 1)
    [(0, 0), (10, 0), (10, 10), (0, 10)] 5 10 10 [(0, 0), (1, 0), (0, 1)]).map
    (·.map (·.map List.length)) =
    .ok [[0, 1, 3, 5], [0, 1, 3, 5, 8]] := by decide +kernel

/-! ### The theorems applied to concrete cases -/

example := C21_reorder_perm [[1, 2, 3], [4], [(8 : ℕ), 9]] (by decide)
example := C21_reorder_drops [[(4 : ℕ)]] [[8, 9]] [] [1, 2, 3] [5, 6, 7] rfl (by decide) (by decide)
example := C19_polygonal (polyTest := fun poly p => if poly.length = 3 then (10000 : ℚ) - p.1 - p.2 else 1)
  (prop := [(0, 0), (10, 0), (10, 10), (0, 10)]) (bld := [(0, 0), (1, 0), (0, 1)]) (Bmin := 5) (BX := 10) (BY := 10)
  (by norm_num) (by norm_num) (by norm_num) ⟨(10, 0), by simp, by norm_num⟩ ⟨(10, 10), by simp, by norm_num⟩

end Ghedt.Domains
