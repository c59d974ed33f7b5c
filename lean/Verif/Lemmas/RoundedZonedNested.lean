import Verif.Lemmas.RoundedZoned

/-! The nested zoned domains in floating-point arithmetic. -/

set_option linter.unusedSectionVars false

namespace Ghedt.Rounded
open Coordinates Domains Spec

variable {K : Type} [Field K] [LinearOrder K] [IsStrictOrderedRing K] (R : Rounding K)

/-! ### start-up shapes -/

def rStartupFields (N1 N2 : ℤ) (bx bY : K) (t : Bool) : List (List (K × K)) :=
  ((pyRange 1 (N1 + 1)).map fun l : ℤ => maybeTranspose t (rlattice R l 1 bx bY))
  ++ ((pyRange 2 (N2 + 1)).map fun l : ℤ => maybeTranspose t ((lInts N1 l).map (rPt R bx bY)))
  ++ ((pyRange 2 (N2 + 1)).map fun l : ℤ => maybeTranspose t ((lopUInts N1 N2 l).map (rPt R bx bY)))
  ++ ((pyRange 1 (N1 - 1)).map fun l : ℤ => maybeTranspose t ((cInts N1 N2 l).map (rPt R bx bY)))

/-- the start-up shapes as computed -/
def rStartup (X Y : K) (N1 N2 : ℤ) (t : Bool) : List (List (K × K)) :=
  rStartupFields R N1 N2 (R.fl (X / ((N1 - 1 : ℤ) : K))) (R.fl (Y / ((N2 - 1 : ℤ) : K))) t

theorem zonedStartup_ok {X Y : K} {N1 N2 : ℤ} (h1 : 2 ≤ N1) (h2 : 2 ≤ N2) (t : Bool) :
    zonedStartup R X Y N1 N2 t = .ok (rStartup R X Y N1 N2 t) := by
  have p1 : (0 : K) < ((N1 - 1 : ℤ) : K) := by exact_mod_cast (by omega : 0 < N1 - 1)
  have p2 : (0 : K) < ((N2 - 1 : ℤ) : K) := by exact_mod_cast (by omega : 0 < N2 - 1)
  unfold zonedStartup
  rw [div_ok R p1.ne', Except.ok_bind, div_ok R p2.ne', Except.ok_bind]
  unfold rStartup
  generalize R.fl (X / ((N1 - 1 : ℤ) : K)) = bx
  generalize R.fl (Y / ((N2 - 1 : ℤ) : K)) = bY
  rw [mapM_ok (g := fun l : ℤ => maybeTranspose t (rlattice R l 1 bx bY))]
  · rw [Except.ok_bind, mapM_ok (g := fun l : ℤ => maybeTranspose t ((lInts N1 l).map (rPt R bx bY)))]
    · rw [Except.ok_bind,
        mapM_ok (g := fun l : ℤ => maybeTranspose t ((lopUInts N1 N2 l).map (rPt R bx bY)))]
      · rw [Except.ok_bind,
          mapM_ok (g := fun l : ℤ => maybeTranspose t ((cInts N1 N2 l).map (rPt R bx bY)))]
        · rfl
        · intro l hl
          rw [mem_pyRange] at hl
          rw [cShape_ok R (by omega) (by omega) (by omega)]; rfl
      · intro l hl
        rw [mem_pyRange] at hl
        rw [lopU_ok R (by omega) (by omega) (by omega)]; rfl
    · intro l hl
      rw [mem_pyRange] at hl
      rw [lShape_ok R (by omega) (by omega)]; rfl
  · intro l hl
    rw [mem_pyRange] at hl
    rw [rectangle_ok R (by omega) (by omega)]; rfl

theorem near_line (l : ℤ) {bx bY : K} (hx : 0 ≤ bx) (hy : 0 ≤ bY) :
    Near (rlattice R l 1 (R.fl bx) (R.fl bY)) (lattice l 1 bx bY (0, 0)) := by
  unfold Near rlattice lattice
  have key : ∀ {B c : K}, 0 ≤ B → 0 ≤ c → |R.fl (c * R.fl B) - c * B| ≤ tiny * |c * B| := by
    intro B c hB hc
    exact ((((Rel.refl B).fl R hB).const_mul hc).fl R (mul_nonneg hc hB)).near (by norm_num) (mul_nonneg hc hB)
  apply forall₂_flatMap
  intro i hi
  rw [mem_pyRange] at hi
  rw [List.forall₂_map_left_iff, List.forall₂_map_right_iff, List.forall₂_same]
  intro j hj
  rw [mem_pyRange] at hj
  simp only [zero_add]
  exact ⟨key hx (by exact_mod_cast hi.1), key hy (by exact_mod_cast hj.1)⟩

/-- the start-up shapes are the exact ones up to rounding -/
theorem near_startup {X Y : K} (hX : 0 < X) (hY : 0 < Y) {N1 N2 : ℤ} (h1 : 2 ≤ N1) (h2 : 2 ≤ N2) (t : Bool) :
    NearDomain (rStartup R X Y N1 N2 t)
      (startupFields N1 N2 (X / ((N1 - 1 : ℤ) : K)) (Y / ((N2 - 1 : ℤ) : K)) t) := by
  have p1 : (0 : K) < ((N1 - 1 : ℤ) : K) := by exact_mod_cast (by omega : 0 < N1 - 1)
  have p2 : (0 : K) < ((N2 - 1 : ℤ) : K) := by exact_mod_cast (by omega : 0 < N2 - 1)
  have b1 := (div_pos hX p1).le
  have b2 := (div_pos hY p2).le
  have key : ∀ (a b : ℤ) (f g : ℤ → List (K × K)), (∀ l, a ≤ l → l < b → Near (f l) (g l)) →
      List.Forall₂ Near ((pyRange a b).map fun l : ℤ => maybeTranspose t (f l))
        ((pyRange a b).map fun l : ℤ => maybeTranspose t (g l)) := by
    intro a b f g h
    rw [List.forall₂_map_left_iff, List.forall₂_map_right_iff, List.forall₂_same]
    intro l hl
    rw [mem_pyRange] at hl
    exact near_maybeTranspose t (h l hl.1 hl.2)
  unfold NearDomain rStartup rStartupFields startupFields
  refine List.rel_append (List.rel_append (List.rel_append (key _ _ _ _ ?_) (key _ _ _ _ ?_)) (key _ _ _ _ ?_))
    (key _ _ _ _ ?_)
  · intro l _ _
    exact near_line R l b1 b2
  · intro l _ _
    refine near_shape R ?_ b1 b2
    intro q hq
    rw [mem_lInts] at hq
    omega
  · intro l _ _
    refine near_shape R ?_ b1 b2
    intro q hq
    rw [mem_lopUInts] at hq
    omega
  · intro l _ _
    refine near_shape R ?_ b1 b2
    intro q hq
    rw [mem_cInts] at hq
    omega

theorem nodup_startup {X Y : K} (hX : 0 < X) (hY : 0 < Y) {N1 N2 : ℤ} (h1 : 2 ≤ N1) (h2 : 2 ≤ N2)
    (b1 : N1 ≤ 2 ^ 50) (b2 : N2 ≤ 2 ^ 50) (t : Bool) : ∀ f ∈ rStartup R X Y N1 N2 t, f.Nodup := by
  have p1 : (0 : K) < ((N1 - 1 : ℤ) : K) := by exact_mod_cast (by omega : 0 < N1 - 1)
  have p2 : (0 : K) < ((N2 - 1 : ℤ) : K) := by exact_mod_cast (by omega : 0 < N2 - 1)
  have c1 := fl_pos R (div_pos hX p1)
  have c2 := fl_pos R (div_pos hY p2)
  intro f hf
  simp only [rStartup, rStartupFields, List.mem_append, List.mem_map, mem_pyRange] at hf
  rcases hf with ((⟨i, hi, rfl⟩ | ⟨i, hi, rfl⟩) | ⟨i, hi, rfl⟩) | ⟨i, hi, rfl⟩
  · exact nodup_maybeTranspose t (nodup_rlattice R (by omega) (by norm_num) c1 c2)
  · refine nodup_maybeTranspose t (nodup_shape R nodup_lInts ?_ ?_ c1 c2) <;>
    · intro q hq
      rw [mem_lInts] at hq
      omega
  · refine nodup_maybeTranspose t (nodup_shape R (nodup_lopUInts h1) ?_ ?_ c1 c2) <;>
    · intro q hq
      rw [mem_lopUInts] at hq
      omega
  · refine nodup_maybeTranspose t (nodup_shape R (nodup_cInts h1 h2 (by omega)) ?_ ?_ c1 c2) <;>
    · intro q hq
      rw [mem_cInts] at hq
      omega

/-! ### the walk -/

structure WalkInv (X Y L1 L2 : K) (t : Bool) (N1 N2 : ℤ) (len1 len2 : ℤ) (fuel : ℕ)
    (i : ℤ) (s : ZonedState K) : Prop where
  j0 : 0 ≤ s.j
  k0 : 0 ≤ s.k
  jk : s.j + s.k = i
  range : i < len1 + len2 - 1 → s.j < len1 ∧ s.k < len2
  l0 : (s.l = 0 ↔ i = 0)
  walk : ∃ (ws : List (ℤ × ℤ)) (zs : List (List (List (K × K)))),
    (ws.length : ℤ) = i ∧
    (ws ++ [(N1 + s.j, N2 + s.k)]).head? = some (N1, N2) ∧
    (ws ++ [(N1 + s.j, N2 + s.k)]).IsChain UnitStep ∧
    (∀ (k : ℕ) p q, (ws ++ [(N1 + s.j, N2 + s.k)])[k]? = some p → (ws ++ [(N1 + s.j, N2 + s.k)])[k + 1]? = some q →
      AlternatingStep (N1 + len1 - 1) (N2 + len2 - 1) k p q) ∧
    (i = len1 + len2 - 1 → ws.getLast? = some (N1 + len1 - 1, N2 + len2 - 1)) ∧
    List.Forall₂ (fun q z => zonedRectangleDomain R fuel L1 L2 q.1 q.2 t = .ok z) ws zs ∧
    s.out = attach (rStartup R X Y N1 N2 t) zs

theorem zonedNested_alternating {X Y L1 L2 : K} {t : Bool} {N1 N2 M1 M2 : ℤ} (h1 : 3 ≤ N1) (h2 : 3 ≤ N2)
    (hM1 : N1 ≤ M1) (hM2 : N2 ≤ M2) {fuel : ℕ}
    (hz : ∀ n1 n2 : ℤ, N1 ≤ n1 → n1 ≤ M1 → N2 ≤ n2 → n2 ≤ M2 →
      ∃ z, zonedRectangleDomain R fuel L1 L2 n1 n2 t = .ok z) :
    ∃ (ws : List (ℤ × ℤ)) (zs : List (List (List (K × K)))),
      UnitPath (N1, N2) (M1, M2) ws ∧
      (∀ (k : ℕ) p q, ws[k]? = some p → ws[k + 1]? = some q → AlternatingStep M1 M2 k p q) ∧
      List.Forall₂ (fun q z => zonedRectangleDomain R fuel L1 L2 q.1 q.2 t = .ok z) ws zs ∧
      ∃ s, (pyRange 0 (((pyRange N1 (M1 + 1)).length : ℤ) + (pyRange N2 (M2 + 1)).length - 1)).foldlM
        (zonedNestedStep R fuel X Y L1 L2 t N1 N2 (pyRange N1 (M1 + 1)) (pyRange N2 (M2 + 1)))
        ⟨0, 0, 0, []⟩ = .ok s ∧
      s.out = attach (rStartup R X Y N1 N2 t) zs := by
  have hl1 : ((pyRange N1 (M1 + 1)).length : ℤ) = M1 + 1 - N1 := by rw [length_pyRange]; omega
  have hl2 : ((pyRange N2 (M2 + 1)).length : ℤ) = M2 + 1 - N2 := by rw [length_pyRange]; omega
  obtain ⟨s, hs, hP⟩ := foldlM_pyRange_inv
    (f := zonedNestedStep R fuel X Y L1 L2 t N1 N2 (pyRange N1 (M1 + 1)) (pyRange N2 (M2 + 1)))
    (fun i s => WalkInv R X Y L1 L2 t N1 N2 (M1 + 1 - N1) (M2 + 1 - N2) fuel i s)
    (by rw [hl1, hl2]; omega :
      (0 : ℤ) ≤ ((pyRange N1 (M1 + 1)).length : ℤ) + (pyRange N2 (M2 + 1)).length - 1)
    (by
      intro i s hi hi' hP
      rw [hl1, hl2] at hi'
      obtain ⟨hj, hk⟩ := hP.range hi'
      have hj0 := hP.j0
      have hk0 := hP.k0
      have hjk := hP.jk
      obtain ⟨ws, zs, hlen, hhead, hchain, halt, _, hF, hout⟩ := hP.walk
      obtain ⟨z, hz'⟩ := hz (N1 + s.j) (N2 + s.k) (by omega) (by omega) (by omega) (by omega)
      have g1 : pyGet (pyRange N1 (M1 + 1)) s.j = .ok (N1 + s.j) := pyGet_pyRange hj0 (by omega)
      have g2 : pyGet (pyRange N2 (M2 + 1)) s.k = .ok (N2 + s.k) := pyGet_pyRange hk0 (by omega)
      -- the new counters
      obtain ⟨j', k', hjk', hst, hstalt⟩ : ∃ j' k' : ℤ,
          (if i % 2 = 0 then
            if s.j < ((pyRange N1 (M1 + 1)).length : ℤ) - 1 then (s.j + 1, s.k) else (s.j, s.k + 1)
          else
            if s.k < ((pyRange N2 (M2 + 1)).length : ℤ) - 1 then (s.j, s.k + 1)
            else (s.j + 1, s.k)) = (j', k') ∧
          (((j' = s.j + 1 ∧ k' = s.k) ∨ (j' = s.j ∧ k' = s.k + 1)) ∧
            (i + 1 < M1 + 1 - N1 + (M2 + 1 - N2) - 1 →
              j' < M1 + 1 - N1 ∧ k' < M2 + 1 - N2)) ∧
          AlternatingStep (N1 + (M1 + 1 - N1) - 1) (N2 + (M2 + 1 - N2) - 1) i.toNat (N1 + s.j, N2 + s.k)
            (N1 + j', N2 + k') := by
        rw [hl1, hl2]
        unfold AlternatingStep
        split <;> split
        · exact ⟨_, _, rfl, ⟨Or.inl ⟨rfl, rfl⟩, by omega⟩,
            by rw [if_pos (by omega), if_pos (by dsimp only; omega)]; ext <;> dsimp only; omega⟩
        · exact ⟨_, _, rfl, ⟨Or.inr ⟨rfl, rfl⟩, by omega⟩,
            by rw [if_pos (by omega), if_neg (by dsimp only; omega)]; ext <;> dsimp only; omega⟩
        · exact ⟨_, _, rfl, ⟨Or.inr ⟨rfl, rfl⟩, by omega⟩,
            by rw [if_neg (by omega), if_pos (by dsimp only; omega)]; ext <;> dsimp only; omega⟩
        · exact ⟨_, _, rfl, ⟨Or.inl ⟨rfl, rfl⟩, by omega⟩,
            by rw [if_neg (by omega), if_neg (by dsimp only; omega)]; ext <;> dsimp only; omega⟩
      have hstep : UnitStep (N1 + s.j, N2 + s.k) (N1 + j', N2 + k') := by
        rcases hst.1 with ⟨a, b⟩ | ⟨a, b⟩
        · left; simp only; omega
        · right; simp only; omega
      have hchain' : ((ws ++ [(N1 + s.j, N2 + s.k)]) ++ [(N1 + j', N2 + k')]).IsChain UnitStep := by
        rw [List.isChain_append]
        refine ⟨hchain, List.IsChain.singleton _, ?_⟩
        intro x hx y hy
        simp only [List.getLast?_append, List.getLast?_singleton, Option.some_or,
          Option.mem_def, Option.some.injEq, List.head?_cons] at hx hy
        subst hx; subst hy; exact hstep
      have halt' : ∀ (k : ℕ) p q, ((ws ++ [(N1 + s.j, N2 + s.k)]) ++ [(N1 + j', N2 + k')])[k]? = some p →
          ((ws ++ [(N1 + s.j, N2 + s.k)]) ++ [(N1 + j', N2 + k')])[k + 1]? = some q →
          AlternatingStep (N1 + (M1 + 1 - N1) - 1) (N2 + (M2 + 1 - N2) - 1) k p q := by
        intro k p q hp hq
        have hwl : ws.length = i.toNat := by omega
        rcases lt_trichotomy k ws.length with hk' | hk' | hk'
        · rw [List.getElem?_append_left (by simp; omega)] at hp hq
          exact halt k p q hp hq
        · subst hk'
          rw [List.getElem?_append_left (by simp), List.getElem?_append_right le_rfl] at hp
          rw [List.getElem?_append_right (by simp)] at hq
          simp at hp hq
          subst hp hq
          rw [hwl]
          exact hstalt
        · rw [List.getElem?_eq_none (by simp; omega)] at hq
          cases hq
      have hhead' : ((ws ++ [(N1 + s.j, N2 + s.k)]) ++ [(N1 + j', N2 + k')]).head?
          = some (N1, N2) := by
        rw [List.head?_append, hhead]; rfl
      have hF' : List.Forall₂ (fun q z => zonedRectangleDomain R fuel L1 L2 q.1 q.2 t = .ok z)
          (ws ++ [(N1 + s.j, N2 + s.k)]) (zs ++ [z]) :=
        List.rel_append hF (List.Forall₂.cons hz' List.Forall₂.nil)
      have hlast : i + 1 = M1 + 1 - N1 + (M2 + 1 - N2) - 1 →
          (ws ++ [(N1 + s.j, N2 + s.k)]).getLast? =
            some (N1 + (M1 + 1 - N1) - 1, N2 + (M2 + 1 - N2) - 1) := by
        intro h
        simp only [List.getLast?_append, List.getLast?_singleton, Option.some_or,
          Option.some.injEq, Prod.mk.injEq]
        omega
      unfold zonedNestedStep
      by_cases hl : s.l = 0
      · have hi0 : i = 0 := hP.l0.1 hl
        have hws : ws = [] := by
          apply List.eq_nil_of_length_eq_zero; omega
        subst hws
        have hzs : zs = [] := by cases hF; rfl
        subst hzs
        rw [if_pos hl, zonedStartup_ok R (by omega) (by omega)]
        simp only [Except.ok_bind, Except.pure_eq, g1, g2, hz', hjk']
        refine ⟨_, rfl, ⟨by dsimp only; omega, by dsimp only; omega, by dsimp only; omega,
          hst.2, ?_, ⟨_, _, by simp; omega, hhead', hchain', halt', hlast, hF', ?_⟩⟩⟩
        · dsimp only
          simp only [lastOr]
          split_ifs <;> omega
        · simp [hout, attach]
      · have hi0 : i ≠ 0 := fun h => hl (hP.l0.2 h)
        have hzs : zs ≠ [] := by
          intro h
          subst h
          cases hF
          simp at hlen; omega
        rw [if_neg hl]
        simp only [Except.ok_bind, Except.pure_eq, g1, g2, hz', hjk']
        refine ⟨_, rfl, ⟨by dsimp only; omega, by dsimp only; omega, by dsimp only; omega,
          hst.2, ?_, ⟨_, _, by simp; omega, hhead', hchain', halt', hlast, hF', ?_⟩⟩⟩
        · dsimp only
          constructor
          · intro h; exact absurd h hl
          · intro h; omega
        · dsimp only
          rw [attach_append _ hzs, hout]; rfl)
    (s := ⟨0, 0, 0, []⟩)
    ⟨le_rfl, le_rfl, rfl, fun _ => ⟨by dsimp only; omega, by dsimp only; omega⟩, by simp,
      ⟨[], [], rfl, by simp, List.IsChain.singleton _, fun k p q _ hq => by simp at hq,
        fun h => by omega, List.Forall₂.nil, rfl⟩⟩
  obtain ⟨ws, zs, hlen, hhead, hchain, halt, hlast, hF, hout⟩ := hP.walk
  refine ⟨ws, zs, ⟨?_, ?_, ?_⟩, ?_, hF, s, hs, hout⟩
  · cases ws with
    | nil => simp at hlen; omega
    | cons w ws => simpa using hhead
  · rw [hlast (by rw [hl1, hl2])]
    congr 2 <;> omega
  · exact (List.isChain_append.1 hchain).1
  · intro k p q hp hq
    have hk : k + 1 < ws.length := by
      by_contra hc
      rw [List.getElem?_eq_none (by omega)] at hq
      cases hq
    have := halt k p q (by rw [List.getElem?_append_left (by omega)]; exact hp)
      (by rw [List.getElem?_append_left (by omega)]; exact hq)
    rwa [show N1 + (M1 + 1 - N1) - 1 = M1 by ring, show N2 + (M2 + 1 - N2) - 1 = M2 by ring] at this

end Ghedt.Rounded
