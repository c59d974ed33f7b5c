import Verif.Lemmas.Zoned

set_option linter.unusedSectionVars false

namespace Ghedt.Domains
open Coordinates Spec

variable {K : Type} [Field K] [LinearOrder K] [IsStrictOrderedRing K]

/-- sizes of zoned fields -/
theorem length_zoned {n1 n2 : ℤ} {b1 b2 : K} (h1 : 0 < b1) (h2 : 0 < b2) {x y : ℤ} (hx : 1 ≤ x)
    (hy : 1 ≤ y) (hx' : x ≤ n1 - 2) (hy' : y ≤ n2 - 2) {f : List (K × K)}
    (h : zonedRectangle n1 n2 b1 b2 x y = .ok f) :
    (f.length : ℤ) = 2 * n1 + 2 * n2 - 4 + x * y := by
  obtain ⟨o, i, he, _, ho, hi, _⟩ := C05_zonedRectangle_content hx hy hx' hy' h1 h2
  rw [he] at h
  cases h
  rw [List.length_append]; push_cast; omega

theorem inLand_zoned {n1 n2 : ℤ} {b1 b2 : K} (h1 : 0 < b1) (h2 : 0 < b2) {x y : ℤ} (hx : 1 ≤ x)
    (hy : 1 ≤ y) (hx' : x ≤ n1 - 2) (hy' : y ≤ n2 - 2) {f : List (K × K)}
    (h : zonedRectangle n1 n2 b1 b2 x y = .ok f) :
    (∀ p ∈ f, InLand (((n1 - 1 : ℤ) : K) * b1) (((n2 - 1 : ℤ) : K) * b2) p) ∧
    ((((n1 - 1 : ℤ) : K) * b1, ((n2 - 1 : ℤ) : K) * b2) ∈ f) ∧ f.Nodup := by
  obtain ⟨o, i, he, hopen, ho, hi, hob, hib, hnd⟩ := C05_zonedRectangle_content hx hy hx' hy' h1 h2
  obtain ⟨r, hr, _, hm, _⟩ := C02_openRectangle_outline (K := K) (by omega : 2 < n1)
    (by omega : 2 < n2) b1 b2
  rw [hr] at hopen
  cases hopen
  rw [he] at h
  cases h
  refine ⟨?_, ?_, hnd⟩
  · intro p hp
    rw [List.mem_append] at hp
    push_cast
    rcases hp with hp | hp
    · exact hob p hp
    · obtain ⟨⟨a, b⟩, c, d⟩ := hib p hp
      exact ⟨⟨a.le, b.le⟩, c.le, d.le⟩
  · rw [List.mem_append, hm]
    left
    exact ⟨n1 - 1, n2 - 1, by omega, by omega, by omega, rfl⟩

theorem inLand_transpose {X Y : K} {f : List (K × K)} (h : ∀ p ∈ f, InLand X Y p) :
    ∀ p ∈ transposeCoordinates f, InLand Y X p := by
  intro p hp
  simp only [transposeCoordinates, List.mem_map] at hp
  obtain ⟨q, hq, rfl⟩ := hp
  exact ⟨(h q hq).2, (h q hq).1⟩

/-- a unit path that starts in the positive quadrant stays between its ends -/
theorem unitPath_bounds {a b : ℤ × ℤ} {path : List (ℤ × ℤ)} (h : UnitPath a b path) :
    ∀ q ∈ path, a.1 ≤ q.1 ∧ a.2 ≤ q.2 ∧ q.1 ≤ b.1 ∧ q.2 ≤ b.2 := by
  induction path generalizing a with
  | nil => simp
  | cons p path ih =>
    obtain ⟨hh, hl, hc⟩ := h
    have hpa : p = a := by simpa using hh
    subst hpa
    cases path with
    | nil =>
      have : p = b := by simpa using hl
      subst this
      intro q hq
      rw [List.mem_singleton] at hq
      subst hq
      exact ⟨le_rfl, le_rfl, le_rfl, le_rfl⟩
    | cons r path =>
      have hstep : UnitStep p r := by
        cases hc with
        | cons_cons h _ => exact h
      have hc' : (r :: path).IsChain UnitStep := by
        cases hc with
        | cons_cons _ h => exact h
      have := ih (a := r) ⟨rfl, by rw [List.getLast?_cons_cons] at hl; exact hl, hc'⟩
      have hr := this r List.mem_cons_self
      intro q hq
      rw [List.mem_cons] at hq
      rcases hq with rfl | hq
      · rcases hstep with h | h <;> omega
      · have := this q hq
        rcases hstep with h | h <;> omega

/-- along a unit path with positive start, the product strictly increases -/
theorem unitPath_pairwise {a b : ℤ × ℤ} {path : List (ℤ × ℤ)} (h : UnitPath a b path)
    (h1 : 1 ≤ a.1) (h2 : 1 ≤ a.2) : path.Pairwise fun p q => p.1 * p.2 < q.1 * q.2 := by
  induction path generalizing a with
  | nil => exact List.Pairwise.nil
  | cons p path ih =>
    obtain ⟨hh, hl, hc⟩ := h
    have hpa : p = a := by simpa using hh
    subst hpa
    cases path with
    | nil => exact List.pairwise_singleton _ _
    | cons r path =>
      have hstep : UnitStep p r := by
        cases hc with
        | cons_cons h _ => exact h
      have hc' : (r :: path).IsChain UnitStep := by
        cases hc with
        | cons_cons _ h => exact h
      have hup : UnitPath r b (r :: path) :=
        ⟨rfl, by rw [List.getLast?_cons_cons] at hl; exact hl, hc'⟩
      have hb := unitPath_bounds hup
      have hlt : p.1 * p.2 < r.1 * r.2 := by
        rcases hstep with ⟨e1, e2⟩ | ⟨e1, e2⟩ <;> rw [e1, e2] <;> nlinarith
      have hr1 : 1 ≤ r.1 ∧ 1 ≤ r.2 := by rcases hstep with h | h <;> omega
      refine List.Pairwise.cons ?_ (ih hup hr1.1 hr1.2)
      intro q hq
      have := hb q hq
      nlinarith

theorem unitPath_length {a b : ℤ × ℤ} {path : List (ℤ × ℤ)} (h : UnitPath a b path) :
    (path.length : ℤ) = (b.1 - a.1) + (b.2 - a.2) + 1 := by
  induction path generalizing a with
  | nil => simp [UnitPath] at h
  | cons p path ih =>
    obtain ⟨hh, hl, hc⟩ := h
    have hpa : p = a := by simpa using hh
    subst hpa
    cases path with
    | nil =>
      have : p = b := by simpa using hl
      subst this
      simp
    | cons r path =>
      have hstep : UnitStep p r := by
        cases hc with
        | cons_cons h _ => exact h
      have hc' : (r :: path).IsChain UnitStep := by
        cases hc with
        | cons_cons _ h => exact h
      have := ih (a := r) ⟨rfl, by rw [List.getLast?_cons_cons] at hl; exact hl, hc'⟩
      rw [List.length_cons]
      push_cast
      rcases hstep with h | h <;> omega

theorem forall₂_mem_right {α β : Type} {R : α → β → Prop} {l : List α} {m : List β}
    (h : List.Forall₂ R l m) : ∀ b ∈ m, ∃ a ∈ l, R a b := by
  induction h with
  | nil => simp
  | cons hab _ ih =>
    intro b hb
    rw [List.mem_cons] at hb
    rcases hb with rfl | hb
    · exact ⟨_, List.mem_cons_self, hab⟩
    · obtain ⟨a, ha, hR⟩ := ih b hb
      exact ⟨a, List.mem_cons_of_mem _ ha, hR⟩

theorem forall₂_pairwise {α β : Type} {R : α → β → Prop} {S : α → α → Prop} {T : β → β → Prop}
    {l : List α} {m : List β} (h : List.Forall₂ R l m) (hS : l.Pairwise S)
    (hT : ∀ a b c d, a ∈ l → b ∈ l → R a c → R b d → S a b → T c d) : m.Pairwise T := by
  induction h with
  | nil => exact List.Pairwise.nil
  | cons hab htl ih =>
    rw [List.pairwise_cons] at hS
    refine List.Pairwise.cons ?_ (ih hS.2 fun a b c d ha hb =>
      hT a b c d (List.mem_cons_of_mem _ ha) (List.mem_cons_of_mem _ hb))
    intro d hd
    obtain ⟨b, hb, hR⟩ := forall₂_mem_right htl d hd
    exact hT _ b _ d List.mem_cons_self (List.mem_cons_of_mem _ hb) hab hR (hS.1 b hb)

/-! ### start-up shapes -/

def startupFields (N1 N2 : ℤ) (bx bY : K) (t : Bool) : List (List (K × K)) :=
  ((pyRange 1 (N1 + 1)).map fun l : ℤ => maybeTranspose t (lattice l 1 bx bY (0, 0)))
  ++ ((pyRange 2 (N2 + 1)).map fun l : ℤ => maybeTranspose t ((lInts N1 l).map (toPt bx bY)))
  ++ ((pyRange 2 (N2 + 1)).map fun l : ℤ => maybeTranspose t ((lopUInts N1 N2 l).map (toPt bx bY)))
  ++ ((pyRange 1 (N1 - 1)).map fun l : ℤ => maybeTranspose t ((cInts N1 N2 l).map (toPt bx bY)))

theorem zonedStartup_ok {X Y : K} {N1 N2 : ℤ} (h1 : 2 ≤ N1) (h2 : 2 ≤ N2) (t : Bool) :
    zonedStartup X Y N1 N2 t =
      .ok (startupFields N1 N2 (X / ((N1 - 1 : ℤ) : K)) (Y / ((N2 - 1 : ℤ) : K)) t) := by
  have p1 : (0 : K) < ((N1 - 1 : ℤ) : K) := by exact_mod_cast (by omega : 0 < N1 - 1)
  have p2 : (0 : K) < ((N2 - 1 : ℤ) : K) := by exact_mod_cast (by omega : 0 < N2 - 1)
  unfold zonedStartup
  rw [pyDiv_ok p1.ne', Except.ok_bind, pyDiv_ok p2.ne', Except.ok_bind]
  set bx := X / ((N1 - 1 : ℤ) : K)
  set bY := Y / ((N2 - 1 : ℤ) : K)
  rw [mapM_ok (g := fun l : ℤ => maybeTranspose t (lattice l 1 bx bY (0, 0)))]
  · rw [Except.ok_bind, mapM_ok (g := fun l : ℤ => maybeTranspose t ((lInts N1 l).map (toPt bx bY)))]
    · rw [Except.ok_bind,
        mapM_ok (g := fun l : ℤ => maybeTranspose t ((lopUInts N1 N2 l).map (toPt bx bY)))]
      · rw [Except.ok_bind,
          mapM_ok (g := fun l : ℤ => maybeTranspose t ((cInts N1 N2 l).map (toPt bx bY)))]
        · rfl
        · intro l hl
          rw [mem_pyRange] at hl
          rw [cShape_def, if_pos (by omega)]; rfl
      · intro l hl
        rw [mem_pyRange] at hl
        rw [lopU_def, if_pos (by omega)]; rfl
    · intro l hl
      rw [mem_pyRange] at hl
      rw [lShape_def, if_pos (by omega)]; rfl
  · intro l hl
    rw [mem_pyRange] at hl
    rw [rectangle_ok (by omega) (by omega)]; rfl

theorem length_toNat_lat (l : ℤ) (bx bY : K) (t : Bool) :
    (maybeTranspose t (lattice l 1 bx bY (0, 0))).length = l.toNat := by
  rw [length_maybeTranspose, length_lattice]; simp

/-- sizes of the start-up shapes strictly increase and stay below the outline size plus one -/
theorem sizes_startup {N1 N2 : ℤ} (h1 : 2 ≤ N1) (h2 : 2 ≤ N2) (bx bY : K) (t : Bool) :
    SizesStrictlyIncrease (startupFields N1 N2 bx bY t) ∧
    (∀ f ∈ startupFields N1 N2 bx bY t, (f.length : ℤ) ≤ 2 * N1 + 2 * N2 - 4) ∧
    (startupFields N1 N2 bx bY t).head? = some [(0, 0)] := by
  have lL : ∀ l, (maybeTranspose t ((lInts N1 l).map (toPt bx bY))).length
      = N1.toNat + (l - 1).toNat := by
    intro l; rw [length_maybeTranspose, List.length_map, length_lInts]
  have lU : ∀ l, (maybeTranspose t ((lopUInts N1 N2 l).map (toPt bx bY))).length
      = N1.toNat + (N2 - 1).toNat + (l - 1).toNat := by
    intro l; rw [length_maybeTranspose, List.length_map, length_lopUInts]
  have lC : ∀ l, (maybeTranspose t ((cInts N1 N2 l).map (toPt bx bY))).length
      = N1.toNat + (N2 - 1).toNat + (N2 - 1).toNat + l.toNat := by
    intro l; rw [length_maybeTranspose, List.length_map, length_cInts]
  refine ⟨?_, ?_, ?_⟩
  · unfold SizesStrictlyIncrease startupFields
    have mono : ∀ (a b : ℤ) (g : ℤ → List (K × K)),
        (∀ i j, a ≤ i → i < j → j < b → (g i).length < (g j).length) →
        ((pyRange a b).map g).Pairwise fun f g => f.length < g.length := by
      intro a b g hg
      rw [List.pairwise_map]
      refine List.Pairwise.imp_of_mem ?_ (pyRange_pairwise _ _)
      intro i j hi hj hij
      rw [mem_pyRange] at hi hj
      exact hg i j hi.1 hij hj.2
    rw [List.pairwise_append, List.pairwise_append, List.pairwise_append]
    refine ⟨⟨⟨mono _ _ _ ?_, mono _ _ _ ?_, ?_⟩, mono _ _ _ ?_, ?_⟩, mono _ _ _ ?_, ?_⟩
    · intro i j hi hij hj; rw [length_toNat_lat, length_toNat_lat]; omega
    · intro i j hi hij hj; rw [lL, lL]; omega
    · intro a ha b hb
      simp only [List.mem_map, mem_pyRange] at ha hb
      obtain ⟨i, hi, rfl⟩ := ha
      obtain ⟨j, hj, rfl⟩ := hb
      rw [length_toNat_lat, lL]; omega
    · intro i j hi hij hj; rw [lU, lU]; omega
    · intro a ha b hb
      simp only [List.mem_append, List.mem_map, mem_pyRange] at ha hb
      obtain ⟨j, hj, rfl⟩ := hb
      rcases ha with ⟨i, hi, rfl⟩ | ⟨i, hi, rfl⟩
      · rw [length_toNat_lat, lU]; omega
      · rw [lL, lU]; omega
    · intro i j hi hij hj; rw [lC, lC]; omega
    · intro a ha b hb
      simp only [List.mem_append, List.mem_map, mem_pyRange] at ha hb
      obtain ⟨j, hj, rfl⟩ := hb
      rcases ha with (⟨i, hi, rfl⟩ | ⟨i, hi, rfl⟩) | ⟨i, hi, rfl⟩
      · rw [length_toNat_lat, lC]; omega
      · rw [lL, lC]; omega
      · rw [lU, lC]; omega
  · intro f hf
    simp only [startupFields, List.mem_append, List.mem_map, mem_pyRange] at hf
    rcases hf with ((⟨i, hi, rfl⟩ | ⟨i, hi, rfl⟩) | ⟨i, hi, rfl⟩) | ⟨i, hi, rfl⟩
    · rw [length_toNat_lat]; omega
    · rw [lL]; omega
    · rw [lU]; omega
    · rw [lC]; omega
  · unfold startupFields
    have hl : lattice 1 1 bx bY (0, 0) = [(0, 0)] := by
      have h : pyRange 0 1 = [0] := by decide
      simp [lattice, h]
    have ht : maybeTranspose t [((0 : K), (0 : K))] = [(0, 0)] := by
      cases t <;> simp [maybeTranspose, transposeCoordinates]
    rw [pyRange_cons (by omega : (1 : ℤ) < N1 + 1)]
    simp [hl, ht]

theorem pyRange_append {a b c : ℤ} (h1 : a ≤ b) (h2 : b ≤ c) :
    pyRange a b ++ pyRange b c = pyRange a c := by
  induction c, h2 using Int.le_induction with
  | base => simp [pyRange_empty le_rfl]
  | succ c hc ih => rw [pyRange_succ hc, ← List.append_assoc, ih, pyRange_succ (h1.trans hc)]

theorem pyRange_map_add (a b c : ℤ) : (pyRange a b).map (fun l : ℤ => l + c) =
    pyRange (a + c) (b + c) := by
  unfold pyRange
  rw [List.map_map, show (b + c - (a + c)) = b - a by ring]
  apply List.map_congr_left
  intro k _
  simp; ring

/-- the start-up shapes have 1, 2, 3, … boreholes, up to the full outline -/
theorem map_length_startup {N1 N2 : ℤ} (h1 : 2 ≤ N1) (h2 : 2 ≤ N2) (bx bY : K) (t : Bool) :
    (startupFields N1 N2 bx bY t).map (fun f => (f.length : ℤ)) =
      pyRange 1 (2 * N1 + 2 * N2 - 3) := by
  have key : ∀ (a b c : ℤ) (g : ℤ → List (K × K)),
      (∀ i, a ≤ i → i < b → ((g i).length : ℤ) = i + c) →
      ((pyRange a b).map g).map (fun f => (f.length : ℤ)) = pyRange (a + c) (b + c) := by
    intro a b c g hg
    rw [List.map_map, ← pyRange_map_add]
    apply List.map_congr_left
    intro i hi
    rw [mem_pyRange] at hi
    exact hg i hi.1 hi.2
  unfold startupFields
  rw [List.map_append, List.map_append, List.map_append, key _ _ 0, key _ _ (N1 - 1),
    key _ _ (N1 + N2 - 2), key _ _ (N1 + 2 * N2 - 2)]
  · rw [show N1 + 1 + 0 = 2 + (N1 - 1) by ring, pyRange_append (by omega) (by omega),
      show N2 + 1 + (N1 - 1) = 2 + (N1 + N2 - 2) by ring, pyRange_append (by omega) (by omega),
      show N2 + 1 + (N1 + N2 - 2) = 1 + (N1 + 2 * N2 - 2) by ring,
      pyRange_append (by omega) (by omega)]
    congr 1; ring
  · intro i hi hi'
    rw [length_maybeTranspose, List.length_map, length_cInts]; omega
  · intro i hi hi'
    rw [length_maybeTranspose, List.length_map, length_lopUInts]; omega
  · intro i hi hi'
    rw [length_maybeTranspose, List.length_map, length_lInts]; omega
  · intro i hi hi'
    rw [length_toNat_lat]; omega

theorem startup_inLand {N1 N2 : ℤ} (h1 : 2 ≤ N1) (h2 : 2 ≤ N2) {bx bY : K} (hx : 0 ≤ bx)
    (hy : 0 ≤ bY) : ∀ f ∈ startupFields N1 N2 bx bY false, ∀ p ∈ f,
      InLand (((N1 - 1 : ℤ) : K) * bx) (((N2 - 1 : ℤ) : K) * bY) p := by
  have key : ∀ q : ℤ × ℤ, 0 ≤ q.1 → q.1 ≤ N1 - 1 → 0 ≤ q.2 → q.2 ≤ N2 - 1 →
      InLand (((N1 - 1 : ℤ) : K) * bx) (((N2 - 1 : ℤ) : K) * bY) (toPt bx bY q) := by
    rintro ⟨a, b⟩ ha ha' hb hb'
    have i1 : (0 : K) ≤ a := by exact_mod_cast ha
    have i2 : (a : K) ≤ ((N1 - 1 : ℤ) : K) := by exact_mod_cast ha'
    have i3 : (0 : K) ≤ b := by exact_mod_cast hb
    have i4 : (b : K) ≤ ((N2 - 1 : ℤ) : K) := by exact_mod_cast hb'
    exact ⟨⟨mul_nonneg i1 hx, mul_le_mul_of_nonneg_right i2 hx⟩, mul_nonneg i3 hy,
      mul_le_mul_of_nonneg_right i4 hy⟩
  intro f hf p hp
  simp only [startupFields, List.mem_append, List.mem_map, mem_pyRange, maybeTranspose,
    Bool.false_eq_true, if_false] at hf
  rcases hf with ((⟨i, hi, rfl⟩ | ⟨i, hi, rfl⟩) | ⟨i, hi, rfl⟩) | ⟨i, hi, rfl⟩
  · rw [mem_lattice] at hp
    obtain ⟨a, b, ha, hb, rfl⟩ := hp
    have := key (a, b) ha.1 (by dsimp only; omega) hb.1 (by dsimp only; omega)
    simpa [toPt] using this
  · rw [List.mem_map] at hp
    obtain ⟨q, hq, rfl⟩ := hp
    rw [mem_lInts] at hq
    exact key q (by omega) (by omega) (by omega) (by omega)
  · rw [List.mem_map] at hp
    obtain ⟨q, hq, rfl⟩ := hp
    rw [mem_lopUInts] at hq
    exact key q (by omega) (by omega) (by omega) (by omega)
  · rw [List.mem_map] at hp
    obtain ⟨q, hq, rfl⟩ := hp
    rw [mem_cInts] at hq
    exact key q (by omega) (by omega) (by omega) (by omega)

/-! ### the walk of `bi_rectangle_zoned_nested` -/

/-- prepend the start-up shapes to the first nested domain -/
def attach {α : Type} (s : List α) : List (List α) → List (List α)
  | [] => []
  | z :: zs => (s ++ z) :: zs

theorem attach_append {α : Type} (s : List α) {l : List (List α)} (h : l ≠ []) (m : List (List α)) :
    attach s (l ++ m) = attach s l ++ m := by
  cases l with
  | nil => exact absurd rfl h
  | cons a l => rfl

structure WalkInv (X Y L1 L2 : K) (t : Bool) (N1 N2 : ℤ) (len1 len2 : ℤ) (fuel : ℕ)
    (i : ℤ) (s : ZonedState K) : Prop where
  j0 : 0 ≤ s.j
  k0 : 0 ≤ s.k
  jk : s.j + s.k = i
  range : i < len1 + len2 - 1 → s.j < len1 ∧ s.k < len2
  l0 : (s.l = 0 ↔ i = 0)
  walk : ∃ (ws : List (ℤ × ℤ)) (zs : List (List (List (K × K)))),
    (ws.length : ℤ) = i ∧
    (ws ++ [(N1 + s.j, N2 + s.k)]).head? = some (N1, N2) ∧
    (ws ++ [(N1 + s.j, N2 + s.k)]).IsChain UnitStep ∧
    (∀ (k : ℕ) p q, (ws ++ [(N1 + s.j, N2 + s.k)])[k]? = some p → (ws ++ [(N1 + s.j, N2 + s.k)])[k + 1]? = some q →
      AlternatingStep (N1 + len1 - 1) (N2 + len2 - 1) k p q) ∧
    (i = len1 + len2 - 1 → ws.getLast? = some (N1 + len1 - 1, N2 + len2 - 1)) ∧
    List.Forall₂ (fun q z => zonedRectangleDomain fuel L1 L2 q.1 q.2 t = .ok z) ws zs ∧
    s.out = attach (startupFields N1 N2 (X / ((N1 - 1 : ℤ) : K)) (Y / ((N2 - 1 : ℤ) : K)) t) zs

theorem pyGet_pyRange {a b : ℤ} {j : ℤ} (h0 : 0 ≤ j) (h : j < b - a) :
    pyGet (pyRange a b) j = .ok (a + j) := by
  rw [pyGet_nonneg _ h0 (by rw [length_pyRange]; omega)]
  congr 1
  have := getElem?_pyRange (a := a) (b := b) (k := j.toNat) (by omega)
  rw [List.getElem?_eq_getElem (by rw [length_pyRange]; omega)] at this
  simp only [Option.some.injEq] at this
  rw [this]; omega

theorem zonedNested_alternating {X Y L1 L2 : K} {t : Bool} {N1 N2 M1 M2 : ℤ} (h1 : 3 ≤ N1) (h2 : 3 ≤ N2)
    (hM1 : N1 ≤ M1) (hM2 : N2 ≤ M2) {fuel : ℕ}
    (hz : ∀ n1 n2 : ℤ, N1 ≤ n1 → n1 ≤ M1 → N2 ≤ n2 → n2 ≤ M2 →
      ∃ z, zonedRectangleDomain fuel L1 L2 n1 n2 t = .ok z) :
    ∃ (ws : List (ℤ × ℤ)) (zs : List (List (List (K × K)))),
      UnitPath (N1, N2) (M1, M2) ws ∧
      (∀ (k : ℕ) p q, ws[k]? = some p → ws[k + 1]? = some q → AlternatingStep M1 M2 k p q) ∧
      List.Forall₂ (fun q z => zonedRectangleDomain fuel L1 L2 q.1 q.2 t = .ok z) ws zs ∧
      ∃ s, (pyRange 0 (((pyRange N1 (M1 + 1)).length : ℤ) + (pyRange N2 (M2 + 1)).length - 1)).foldlM
        (zonedNestedStep fuel X Y L1 L2 t N1 N2 (pyRange N1 (M1 + 1)) (pyRange N2 (M2 + 1)))
        ⟨0, 0, 0, []⟩ = .ok s ∧
      s.out = attach (startupFields N1 N2 (X / ((N1 - 1 : ℤ) : K)) (Y / ((N2 - 1 : ℤ) : K)) t) zs := by
  have hl1 : ((pyRange N1 (M1 + 1)).length : ℤ) = M1 + 1 - N1 := by rw [length_pyRange]; omega
  have hl2 : ((pyRange N2 (M2 + 1)).length : ℤ) = M2 + 1 - N2 := by rw [length_pyRange]; omega
  obtain ⟨s, hs, hP⟩ := foldlM_pyRange_inv
    (f := zonedNestedStep fuel X Y L1 L2 t N1 N2 (pyRange N1 (M1 + 1)) (pyRange N2 (M2 + 1)))
    (fun i s => WalkInv X Y L1 L2 t N1 N2 (M1 + 1 - N1) (M2 + 1 - N2) fuel i s)
    (by rw [hl1, hl2]; omega :
      (0 : ℤ) ≤ ((pyRange N1 (M1 + 1)).length : ℤ) + (pyRange N2 (M2 + 1)).length - 1)
    (by
      intro i s hi hi' hP
      rw [hl1, hl2] at hi'
      obtain ⟨hj, hk⟩ := hP.range hi'
      have hj0 := hP.j0
      have hk0 := hP.k0
      have hjk := hP.jk
      obtain ⟨ws, zs, hlen, hhead, hchain, halt, _, hF, hout⟩ := hP.walk
      obtain ⟨z, hz'⟩ := hz (N1 + s.j) (N2 + s.k) (by omega) (by omega) (by omega) (by omega)
      have g1 : pyGet (pyRange N1 (M1 + 1)) s.j = .ok (N1 + s.j) := pyGet_pyRange hj0 (by omega)
      have g2 : pyGet (pyRange N2 (M2 + 1)) s.k = .ok (N2 + s.k) := pyGet_pyRange hk0 (by omega)
      -- the new counters
      obtain ⟨j', k', hjk', hst, hstalt⟩ : ∃ j' k' : ℤ,
          (if i % 2 = 0 then
            if s.j < ((pyRange N1 (M1 + 1)).length : ℤ) - 1 then (s.j + 1, s.k) else (s.j, s.k + 1)
          else
            if s.k < ((pyRange N2 (M2 + 1)).length : ℤ) - 1 then (s.j, s.k + 1)
            else (s.j + 1, s.k)) = (j', k') ∧
          (((j' = s.j + 1 ∧ k' = s.k) ∨ (j' = s.j ∧ k' = s.k + 1)) ∧
            (i + 1 < M1 + 1 - N1 + (M2 + 1 - N2) - 1 →
              j' < M1 + 1 - N1 ∧ k' < M2 + 1 - N2)) ∧
          AlternatingStep (N1 + (M1 + 1 - N1) - 1) (N2 + (M2 + 1 - N2) - 1) i.toNat (N1 + s.j, N2 + s.k)
            (N1 + j', N2 + k') := by
        rw [hl1, hl2]
        unfold AlternatingStep
        split <;> split
        · exact ⟨_, _, rfl, ⟨Or.inl ⟨rfl, rfl⟩, by omega⟩,
            by rw [if_pos (by omega), if_pos (by dsimp only; omega)]; ext <;> dsimp only; omega⟩
        · exact ⟨_, _, rfl, ⟨Or.inr ⟨rfl, rfl⟩, by omega⟩,
            by rw [if_pos (by omega), if_neg (by dsimp only; omega)]; ext <;> dsimp only; omega⟩
        · exact ⟨_, _, rfl, ⟨Or.inr ⟨rfl, rfl⟩, by omega⟩,
            by rw [if_neg (by omega), if_pos (by dsimp only; omega)]; ext <;> dsimp only; omega⟩
        · exact ⟨_, _, rfl, ⟨Or.inl ⟨rfl, rfl⟩, by omega⟩,
            by rw [if_neg (by omega), if_neg (by dsimp only; omega)]; ext <;> dsimp only; omega⟩
      have hstep : UnitStep (N1 + s.j, N2 + s.k) (N1 + j', N2 + k') := by
        rcases hst.1 with ⟨a, b⟩ | ⟨a, b⟩
        · left; simp only; omega
        · right; simp only; omega
      have hchain' : ((ws ++ [(N1 + s.j, N2 + s.k)]) ++ [(N1 + j', N2 + k')]).IsChain UnitStep := by
        rw [List.isChain_append]
        refine ⟨hchain, List.IsChain.singleton _, ?_⟩
        intro x hx y hy
        simp only [List.getLast?_append, List.getLast?_singleton, Option.some_or,
          Option.mem_def, Option.some.injEq, List.head?_cons] at hx hy
        subst hx; subst hy; exact hstep
      have halt' : ∀ (k : ℕ) p q, ((ws ++ [(N1 + s.j, N2 + s.k)]) ++ [(N1 + j', N2 + k')])[k]? = some p →
          ((ws ++ [(N1 + s.j, N2 + s.k)]) ++ [(N1 + j', N2 + k')])[k + 1]? = some q →
          AlternatingStep (N1 + (M1 + 1 - N1) - 1) (N2 + (M2 + 1 - N2) - 1) k p q := by
        intro k p q hp hq
        have hwl : ws.length = i.toNat := by omega
        rcases lt_trichotomy k ws.length with hk' | hk' | hk'
        · rw [List.getElem?_append_left (by simp; omega)] at hp hq
          exact halt k p q hp hq
        · subst hk'
          rw [List.getElem?_append_left (by simp), List.getElem?_append_right le_rfl] at hp
          rw [List.getElem?_append_right (by simp)] at hq
          simp at hp hq
          subst hp hq
          rw [hwl]
          exact hstalt
        · rw [List.getElem?_eq_none (by simp; omega)] at hq
          cases hq
      have hhead' : ((ws ++ [(N1 + s.j, N2 + s.k)]) ++ [(N1 + j', N2 + k')]).head?
          = some (N1, N2) := by
        rw [List.head?_append, hhead]; rfl
      have hF' : List.Forall₂ (fun q z => zonedRectangleDomain fuel L1 L2 q.1 q.2 t = .ok z)
          (ws ++ [(N1 + s.j, N2 + s.k)]) (zs ++ [z]) :=
        List.rel_append hF (List.Forall₂.cons hz' List.Forall₂.nil)
      have hlast : i + 1 = M1 + 1 - N1 + (M2 + 1 - N2) - 1 →
          (ws ++ [(N1 + s.j, N2 + s.k)]).getLast? =
            some (N1 + (M1 + 1 - N1) - 1, N2 + (M2 + 1 - N2) - 1) := by
        intro h
        simp only [List.getLast?_append, List.getLast?_singleton, Option.some_or,
          Option.some.injEq, Prod.mk.injEq]
        omega
      unfold zonedNestedStep
      by_cases hl : s.l = 0
      · have hi0 : i = 0 := hP.l0.1 hl
        have hws : ws = [] := by
          apply List.eq_nil_of_length_eq_zero; omega
        subst hws
        have hzs : zs = [] := by cases hF; rfl
        subst hzs
        rw [if_pos hl, zonedStartup_ok (by omega) (by omega)]
        simp only [Except.ok_bind, Except.pure_eq, g1, g2, hz', hjk']
        refine ⟨_, rfl, ⟨by dsimp only; omega, by dsimp only; omega, by dsimp only; omega,
          hst.2, ?_, ⟨_, _, by simp; omega, hhead', hchain', halt', hlast, hF', ?_⟩⟩⟩
        · dsimp only
          simp only [lastOr]
          split_ifs <;> omega
        · simp [hout, attach]
      · have hi0 : i ≠ 0 := fun h => hl (hP.l0.2 h)
        have hzs : zs ≠ [] := by
          intro h
          subst h
          cases hF
          simp at hlen; omega
        rw [if_neg hl]
        simp only [Except.ok_bind, Except.pure_eq, g1, g2, hz', hjk']
        refine ⟨_, rfl, ⟨by dsimp only; omega, by dsimp only; omega, by dsimp only; omega,
          hst.2, ?_, ⟨_, _, by simp; omega, hhead', hchain', halt', hlast, hF', ?_⟩⟩⟩
        · dsimp only
          constructor
          · intro h; exact absurd h hl
          · intro h; omega
        · dsimp only
          rw [attach_append _ hzs, hout]; rfl)
    (s := ⟨0, 0, 0, []⟩)
    ⟨le_rfl, le_rfl, rfl, fun _ => ⟨by dsimp only; omega, by dsimp only; omega⟩, by simp,
      ⟨[], [], rfl, by simp, List.IsChain.singleton _, fun k p q _ hq => by simp at hq,
        fun h => by omega, List.Forall₂.nil, rfl⟩⟩
  obtain ⟨ws, zs, hlen, hhead, hchain, halt, hlast, hF, hout⟩ := hP.walk
  refine ⟨ws, zs, ⟨?_, ?_, ?_⟩, ?_, hF, s, hs, hout⟩
  · cases ws with
    | nil => simp at hlen; omega
    | cons w ws => simpa using hhead
  · rw [hlast (by rw [hl1, hl2])]
    congr 2 <;> omega
  · exact (List.isChain_append.1 hchain).1
  · intro k p q hp hq
    have hk : k + 1 < ws.length := by
      by_contra hc
      rw [List.getElem?_eq_none (by omega)] at hq
      cases hq
    have := halt k p q (by rw [List.getElem?_append_left (by omega)]; exact hp)
      (by rw [List.getElem?_append_left (by omega)]; exact hq)
    rwa [show N1 + (M1 + 1 - N1) - 1 = M1 by ring, show N2 + (M2 + 1 - N2) - 1 = M2 by ring] at this

end Ghedt.Domains
