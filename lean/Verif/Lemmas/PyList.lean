import Verif.Py

namespace Ghedt

theorem mapM_ok {α β : Type} {l : List α} {f : α → Py β} {g : α → β}
    (h : ∀ x ∈ l, f x = .ok (g x)) : l.mapM f = .ok (l.map g) := by
  induction l with
  | nil => rfl
  | cons a l ih =>
    rw [List.mapM_cons, h a List.mem_cons_self, ih fun x hx => h x (List.mem_cons_of_mem _ hx)]
    rfl

theorem mapM_eq_ok {α β : Type} {l : List α} {f : α → Py β} {r : List β}
    (h : l.mapM f = .ok r) : List.Forall₂ (fun a b => f a = .ok b) l r := by
  induction l generalizing r with
  | nil => cases h; exact List.Forall₂.nil
  | cons a l ih =>
    rw [List.mapM_cons] at h
    simp only [bind_eq_ok] at h
    obtain ⟨b, hb, r', hr', h3⟩ := h
    cases h3
    exact List.Forall₂.cons hb (ih hr')

theorem foldlM_pyRange_inv {σ : Type} {f : σ → ℤ → Py σ} (P : ℤ → σ → Prop) {a b : ℤ}
    (hab : a ≤ b) (step : ∀ n s, a ≤ n → n < b → P n s → ∃ s', f s n = .ok s' ∧ P (n + 1) s')
    {s : σ} (h0 : P a s) : ∃ s', (pyRange a b).foldlM f s = .ok s' ∧ P b s' := by
  obtain ⟨n, hn⟩ : ∃ n : ℕ, b - a = n := ⟨(b - a).toNat, by omega⟩
  induction n generalizing a s with
  | zero =>
    have : a = b := by omega
    subst this
    rw [pyRange_empty le_rfl]
    exact ⟨s, rfl, h0⟩
  | succ n ih =>
    rw [pyRange_cons (by omega), List.foldlM_cons]
    obtain ⟨s1, h1, h2⟩ := step a s le_rfl (by omega) h0
    rw [h1]
    exact ih (by omega) (fun m t hm hm' => step m t (by omega) hm') h2 (by omega)

end Ghedt
