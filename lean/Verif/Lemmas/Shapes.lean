import Verif.Lemmas.Coordinates

set_option linter.unusedSectionVars false

namespace Ghedt.Coordinates

variable {K : Type} [Field K]

/-- integer point to coordinates -/
def toPt (Bx By : K) (q : ℤ × ℤ) : K × K := ((q.1 : K) * Bx, (q.2 : K) * By)

def openInts (Nx Ny : ℤ) : List (ℤ × ℤ) :=
  ((pyRange 0 Nx).map fun i : ℤ => (i, (0 : ℤ)))
  ++ ((pyRange 1 (Ny - 1)).flatMap fun j : ℤ => [((0 : ℤ), j), (Nx - 1, j)])
  ++ ((pyRange 0 Nx).map fun i : ℤ => (i, Ny - 1))

def lInts (Nx Ny : ℤ) : List (ℤ × ℤ) :=
  ((pyRange 0 Nx).map fun i : ℤ => (i, (0 : ℤ)))
  ++ ((pyRange 1 Ny).map fun j : ℤ => ((0 : ℤ), j))

def lopUInts (Nx Ny1 Ny2 : ℤ) : List (ℤ × ℤ) :=
  lInts Nx Ny1 ++ ((pyRange 1 Ny2).map fun j : ℤ => (Nx - 1, j))

def cInts (Nx1 Ny Nx2 : ℤ) : List (ℤ × ℤ) :=
  lopUInts Nx1 Ny Ny ++ ((pyRange 1 (Nx2 + 1)).map fun i : ℤ => (i, Ny - 1))

theorem nodup_openInts {Nx Ny : ℤ} (hx : 2 < Nx) (hy : 2 < Ny) : (openInts Nx Ny).Nodup := by
  unfold openInts
  have e1 : ∀ c : ℤ, ((pyRange 0 Nx).map fun i : ℤ => (i, c)).Nodup := fun c =>
    List.Nodup.map (fun a b h => by simpa using h) (nodup_pyRange _ _)
  have e2 : ((pyRange 1 (Ny - 1)).flatMap fun j : ℤ => [((0 : ℤ), j), (Nx - 1, j)]).Nodup := by
    rw [List.nodup_flatMap]
    constructor
    · intro j _; simp; omega
    · refine List.Pairwise.imp ?_ (nodup_pyRange _ _)
      intro a b hab
      simp [Function.onFun, List.disjoint_left]; omega
  rw [List.nodup_append, List.nodup_append]
  refine ⟨⟨e1 _, e2, ?_⟩, e1 _, ?_⟩
  · rintro a ha b hb rfl
    simp only [List.mem_map, mem_pyRange, List.mem_flatMap, List.mem_cons, List.not_mem_nil,
      or_false] at ha hb
    obtain ⟨i, hi, rfl⟩ := ha
    obtain ⟨j, hj, h | h⟩ := hb <;> simp at h <;> omega
  · rintro a ha b hb rfl
    simp only [List.mem_map, mem_pyRange, List.mem_flatMap, List.mem_cons, List.not_mem_nil,
      or_false, List.mem_append] at ha hb
    obtain ⟨i, hi, rfl⟩ := hb
    obtain ⟨k, hk, h⟩ | ⟨j, hj, h | h⟩ := ha <;> simp at h <;> omega

theorem nodup_lInts {Nx Ny : ℤ} : (lInts Nx Ny).Nodup := by
  unfold lInts
  rw [List.nodup_append]
  refine ⟨List.Nodup.map (fun a b h => by simpa using h) (nodup_pyRange _ _),
    List.Nodup.map (fun a b h => by simpa using h) (nodup_pyRange _ _), ?_⟩
  rintro a ha b hb rfl
  simp only [List.mem_map, mem_pyRange] at ha hb
  obtain ⟨i, hi, rfl⟩ := ha
  obtain ⟨j, hj, h⟩ := hb
  simp at h; omega

theorem mem_lInts {Nx Ny : ℤ} {q : ℤ × ℤ} :
    q ∈ lInts Nx Ny ↔ (q.2 = 0 ∧ 0 ≤ q.1 ∧ q.1 < Nx) ∨ (q.1 = 0 ∧ 1 ≤ q.2 ∧ q.2 < Ny) := by
  obtain ⟨a, b⟩ := q
  simp [lInts]
  constructor <;> rintro (h | h) <;> omega

theorem mem_lopUInts {Nx Ny Ny2 : ℤ} {q : ℤ × ℤ} :
    q ∈ lopUInts Nx Ny Ny2 ↔ (q.2 = 0 ∧ 0 ≤ q.1 ∧ q.1 < Nx) ∨ (q.1 = 0 ∧ 1 ≤ q.2 ∧ q.2 < Ny) ∨
      (q.1 = Nx - 1 ∧ 1 ≤ q.2 ∧ q.2 < Ny2) := by
  unfold lopUInts
  rw [List.mem_append, mem_lInts, or_assoc]
  obtain ⟨a, b⟩ := q
  have : (a, b) ∈ (pyRange 1 Ny2).map (fun j : ℤ => (Nx - 1, j)) ↔
      (a = Nx - 1 ∧ 1 ≤ b ∧ b < Ny2) := by
    simp; constructor
    · rintro h; omega
    · intro h; omega
  rw [this]

theorem nodup_lopUInts {Nx Ny Ny2 : ℤ} (hx : 2 ≤ Nx) : (lopUInts Nx Ny Ny2).Nodup := by
  unfold lopUInts
  rw [List.nodup_append]
  refine ⟨nodup_lInts, List.Nodup.map (fun a b h => by simpa using h) (nodup_pyRange _ _), ?_⟩
  rintro a ha b hb rfl
  rw [mem_lInts] at ha
  simp only [List.mem_map, mem_pyRange] at hb
  obtain ⟨j, hj, rfl⟩ := hb
  simp at ha; omega

theorem mem_cInts {Nx1 Ny Nx2 : ℤ} {q : ℤ × ℤ} :
    q ∈ cInts Nx1 Ny Nx2 ↔ (q.2 = 0 ∧ 0 ≤ q.1 ∧ q.1 < Nx1) ∨ (q.1 = 0 ∧ 1 ≤ q.2 ∧ q.2 < Ny) ∨
      (q.1 = Nx1 - 1 ∧ 1 ≤ q.2 ∧ q.2 < Ny) ∨ (q.2 = Ny - 1 ∧ 1 ≤ q.1 ∧ q.1 ≤ Nx2) := by
  unfold cInts
  rw [List.mem_append, mem_lopUInts, or_assoc, or_assoc]
  obtain ⟨a, b⟩ := q
  have : (a, b) ∈ (pyRange 1 (Nx2 + 1)).map (fun i : ℤ => (i, Ny - 1)) ↔
      (b = Ny - 1 ∧ 1 ≤ a ∧ a ≤ Nx2) := by
    simp; constructor
    · rintro h; omega
    · intro h; omega
  rw [this]

theorem nodup_cInts {Nx1 Ny Nx2 : ℤ} (hx : 2 ≤ Nx1) (hy : 2 ≤ Ny) (h2 : Nx2 ≤ Nx1 - 2) :
    (cInts Nx1 Ny Nx2).Nodup := by
  unfold cInts
  rw [List.nodup_append]
  refine ⟨nodup_lopUInts hx,
    List.Nodup.map (fun a b h => by simpa using h) (nodup_pyRange _ _), ?_⟩
  rintro a ha b hb rfl
  rw [mem_lopUInts] at ha
  simp only [List.mem_map, mem_pyRange] at hb
  obtain ⟨j, hj, rfl⟩ := hb
  simp at ha; omega

theorem mem_openInts {Nx Ny : ℤ} (hx : 2 < Nx) (hy : 2 < Ny) {q : ℤ × ℤ} :
    q ∈ openInts Nx Ny ↔ (0 ≤ q.1 ∧ q.1 < Nx) ∧ (0 ≤ q.2 ∧ q.2 < Ny) ∧
      (q.1 = 0 ∨ q.1 = Nx - 1 ∨ q.2 = 0 ∨ q.2 = Ny - 1) := by
  obtain ⟨a, b⟩ := q
  simp only [openInts, List.mem_append, List.mem_map, mem_pyRange, List.mem_flatMap,
    List.mem_cons, List.not_mem_nil, or_false, Prod.mk.injEq]
  constructor
  · rintro ((⟨i, h⟩ | ⟨j, hj, h | h⟩) | ⟨i, h⟩) <;> omega
  · intro h
    by_cases h0 : b = 0
    · exact Or.inl (Or.inl ⟨a, by omega⟩)
    · by_cases h1 : b = Ny - 1
      · exact Or.inr ⟨a, by omega⟩
      · refine Or.inl (Or.inr ⟨b, by omega, by omega⟩)

theorem length_openInts {Nx Ny : ℤ} (hx : 2 < Nx) (hy : 2 < Ny) :
    ((openInts Nx Ny).length : ℤ) = Ny * 2 + (Nx - 2) * 2 := by
  unfold openInts
  rw [List.length_append, List.length_append, length_flatMap_const _ _ 2 (by simp)]
  simp; omega

theorem length_lInts (Nx Ny : ℤ) : (lInts Nx Ny).length = Nx.toNat + (Ny - 1).toNat := by
  simp [lInts]

theorem length_lopUInts (Nx Ny Ny2 : ℤ) :
    (lopUInts Nx Ny Ny2).length = Nx.toNat + (Ny - 1).toNat + (Ny2 - 1).toNat := by
  simp [lopUInts, length_lInts]

theorem length_cInts (Nx1 Ny Nx2 : ℤ) :
    (cInts Nx1 Ny Nx2).length =
      Nx1.toNat + (Ny - 1).toNat + (Ny - 1).toNat + Nx2.toNat := by
  simp [cInts, length_lopUInts]

/-! model functions in terms of integer lists -/
variable [LinearOrder K]

theorem map_openInts (Nx Ny : ℤ) (Bx By : K) : (openInts Nx Ny).map (toPt Bx By) =
      ((pyRange 0 Nx).map fun i : ℤ => ((i : K) * Bx, (0 : K)))
      ++ ((pyRange 1 (Ny - 1)).flatMap fun j : ℤ =>
            [((0 : K), (j : K) * By), (((Nx - 1 : ℤ) : K) * Bx, (j : K) * By)])
      ++ ((pyRange 0 Nx).map fun i : ℤ => ((i : K) * Bx, ((Ny - 1 : ℤ) : K) * By)) := by
  unfold openInts
  simp only [List.map_append, List.map_map, List.map_flatMap]
  congr 1
  · congr 1
    · apply List.map_congr_left; intro i _; simp [toPt]
    · congr 1; funext j; simp [toPt]

theorem map_lInts (Nx Ny : ℤ) (Bx By : K) : (lInts Nx Ny).map (toPt Bx By) =
      ((pyRange 0 Nx).map fun i : ℤ => ((i : K) * Bx, (0 : K)))
      ++ ((pyRange 1 Ny).map fun j : ℤ => ((0 : K), (j : K) * By)) := by
  unfold lInts
  simp only [List.map_append, List.map_map]
  congr 1
  · apply List.map_congr_left; intro i _; simp [toPt]
  · apply List.map_congr_left; intro i _; simp [toPt]

theorem map_lopUInts (Nx Ny Ny2 : ℤ) (Bx By : K) : (lopUInts Nx Ny Ny2).map (toPt Bx By) =
      ((pyRange 0 Nx).map fun i : ℤ => ((i : K) * Bx, (0 : K)))
      ++ ((pyRange 1 Ny).map fun j : ℤ => ((0 : K), (j : K) * By))
      ++ ((pyRange 1 Ny2).map fun j : ℤ => (((Nx - 1 : ℤ) : K) * Bx, (j : K) * By)) := by
  unfold lopUInts
  rw [List.map_append, map_lInts, List.map_map]
  rfl

theorem map_cInts (Nx Ny Nx2 : ℤ) (Bx By : K) : (cInts Nx Ny Nx2).map (toPt Bx By) =
      ((pyRange 0 Nx).map fun i : ℤ => ((i : K) * Bx, (0 : K)))
      ++ ((pyRange 1 Ny).map fun j : ℤ => ((0 : K), (j : K) * By))
      ++ ((pyRange 1 Ny).map fun j : ℤ => (((Nx - 1 : ℤ) : K) * Bx, (j : K) * By))
      ++ ((pyRange 1 (Nx2 + 1)).map fun i : ℤ => ((i : K) * Bx, ((Ny - 1 : ℤ) : K) * By)) := by
  unfold cInts
  rw [List.map_append, map_lopUInts, List.map_map]
  rfl

theorem openRectangle_hollow {Nx Ny : ℤ} (hx : 2 < Nx) (hy : 2 < Ny) (Bx By : K) :
    openRectangle Nx Ny Bx By = .ok ((openInts Nx Ny).map (toPt Bx By)) := by
  have hl : (((openInts Nx Ny).map (toPt Bx By)).length : ℤ) = Ny * 2 + (Nx - 2) * 2 := by
    rw [List.length_map, length_openInts hx hy]
  rw [map_openInts] at hl ⊢
  unfold openRectangle
  rw [if_pos ⟨hx, hy⟩]
  dsimp only
  rw [pyAssert_true hl]
  rfl

theorem openRectangle_full {Nx Ny : ℤ} (h : ¬ (2 < Nx ∧ 2 < Ny)) (Bx By : K) :
    openRectangle Nx Ny Bx By = rectangle Nx Ny Bx By := by
  unfold openRectangle
  rw [if_neg h, rectangle_def]
  split
  · rename_i h'
    simp [length_lattice, h']
  · rfl

theorem lShape_def (Nx Ny : ℤ) (Bx By : K) : lShape Nx Ny Bx By =
    if ((Nx.toNat + (Ny - 1).toNat : ℕ) : ℤ) = Nx + Ny - 1
    then .ok ((lInts Nx Ny).map (toPt Bx By)) else .error .assertionError := by
  rw [← length_lInts, ← List.length_map (toPt Bx By), map_lInts]
  unfold lShape pyAssert
  dsimp only
  split <;> rfl

theorem lopU_def (Nx Ny Ny2 : ℤ) (Bx By : K) : lopU Nx Ny Bx By Ny2 =
    if ((Nx.toNat + (Ny - 1).toNat + (Ny2 - 1).toNat : ℕ) : ℤ) = Nx + Ny - 1 + Ny2 - 1
    then .ok ((lopUInts Nx Ny Ny2).map (toPt Bx By)) else .error .assertionError := by
  rw [← length_lopUInts, ← List.length_map (toPt Bx By), map_lopUInts]
  unfold lopU pyAssert
  dsimp only
  split <;> rfl

theorem cShape_def (Nx1 Ny Nx2 : ℤ) (Bx By : K) : cShape Nx1 Ny Bx By Nx2 =
    if ((Nx1.toNat + (Ny - 1).toNat + (Ny - 1).toNat + Nx2.toNat : ℕ) : ℤ)
        = Nx1 + (Ny * 2) - 1 + Nx2 - 1
    then .ok ((cInts Nx1 Ny Nx2).map (toPt Bx By)) else .error .assertionError := by
  rw [← length_cInts, ← List.length_map (toPt Bx By), map_cInts]
  unfold cShape pyAssert
  dsimp only
  split <;> rfl

theorem toPt_injective [IsStrictOrderedRing K] {Bx By : K} (hx : 0 < Bx) (hy : 0 < By) :
    Function.Injective (toPt Bx By) := by
  rintro ⟨a, b⟩ ⟨c, d⟩ h
  simp only [toPt, Prod.mk.injEq] at h
  rw [mul_cast_inj hx h.1, mul_cast_inj hy h.2]

end Ghedt.Coordinates
