import Verif.Model.Coordinates
import Verif.Spec.Field

set_option linter.unusedSectionVars false

namespace Ghedt.Coordinates

variable {K : Type} [Field K] [LinearOrder K]

theorem length_flatMap_const {α β : Type} (l : List α) (f : α → List β) (n : ℕ)
    (h : ∀ a ∈ l, (f a).length = n) : (l.flatMap f).length = l.length * n := by
  induction l with
  | nil => simp
  | cons a l ih =>
    simp only [List.flatMap_cons, List.length_append, List.length_cons]
    rw [ih (fun b hb => h b (List.mem_cons_of_mem _ hb)), h a (List.mem_cons_self)]
    ring

/-- The raw lattice list of `rectangle`. -/
def lattice (Nx Ny : ℤ) (Bx By : K) (o : K × K) : List (K × K) :=
  (pyRange 0 Nx).flatMap fun i : ℤ =>
    (pyRange 0 Ny).map fun j : ℤ => (o.1 + (i : K) * Bx, o.2 + (j : K) * By)

theorem length_lattice (Nx Ny : ℤ) (Bx By : K) (o : K × K) :
    (lattice Nx Ny Bx By o).length = Nx.toNat * Ny.toNat := by
  unfold lattice
  rw [length_flatMap_const _ _ Ny.toNat]
  · simp
  · intro a _; simp

theorem rectangle_def (Nx Ny : ℤ) (Bx By : K) (o : K × K) :
    rectangle Nx Ny Bx By o =
      if ((Nx.toNat * Ny.toNat : ℕ) : ℤ) = Nx * Ny then .ok (lattice Nx Ny Bx By o)
      else .error .assertionError := by
  have h := length_lattice Nx Ny Bx By o
  unfold lattice at h
  unfold rectangle
  simp only [h, lattice]
  unfold pyAssert
  split <;> rfl

theorem rectangle_ok {Nx Ny : ℤ} (hx : 0 ≤ Nx) (hy : 0 ≤ Ny) (Bx By : K) (o : K × K) :
    rectangle Nx Ny Bx By o = .ok (lattice Nx Ny Bx By o) := by
  rw [rectangle_def, if_pos]
  push_cast [Int.toNat_of_nonneg hx, Int.toNat_of_nonneg hy]; rfl

theorem mem_lattice {Nx Ny : ℤ} {Bx By : K} {o p : K × K} :
    p ∈ lattice Nx Ny Bx By o ↔ Spec.OnLattice Nx Ny Bx By o p := by
  unfold lattice Spec.OnLattice
  simp only [List.mem_flatMap, List.mem_map, mem_pyRange]
  constructor
  · rintro ⟨i, hi, j, hj, rfl⟩; exact ⟨i, j, hi, hj, rfl⟩
  · rintro ⟨i, j, hi, hj, rfl⟩; exact ⟨i, hi, j, hj, rfl⟩

section ordered
variable [IsStrictOrderedRing K]

theorem mul_cast_inj {B : K} (hB : 0 < B) {i j : ℤ} (h : (i : K) * B = j * B) : i = j := by
  have := mul_right_cancel₀ hB.ne' h
  exact_mod_cast this

theorem nodup_lattice {Nx Ny : ℤ} {Bx By : K} (hBx : 0 < Bx) (hBy : 0 < By) (o : K × K) :
    (lattice Nx Ny Bx By o).Nodup := by
  unfold lattice
  rw [List.nodup_flatMap]
  constructor
  · intro i _
    refine List.Nodup.map ?_ (nodup_pyRange _ _)
    intro a b h
    simp only [Prod.mk.injEq, add_right_inj, true_and] at h
    exact mul_cast_inj hBy h
  · refine List.Pairwise.imp ?_ (nodup_pyRange 0 Nx)
    intro a b hab
    simp only [Function.onFun, List.disjoint_left, List.mem_map, not_exists, not_and]
    rintro p ⟨j, _, rfl⟩ k _ h
    simp only [Prod.mk.injEq, add_right_inj] at h
    exact hab (mul_cast_inj hBx h.1.symm)

end ordered
end Ghedt.Coordinates
