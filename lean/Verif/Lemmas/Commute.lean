import Verif.Model.Equivalence

/-!
# Methods that commute with a change of the object

`Commutes I f g m m'`: on the changed object `f s` the method `m'` does what `m` does on `s`; the object is then the changed
one, and the value the changed one, `g`.  All this for objects with the property `I`, which they keep.
-/

namespace Ghedt
open Ghedt.GHE

/-- `m'` on `f s` is `m` on `s`. -/
def Commutes {σ τ α β : Type} (I : σ → Prop) (f : σ → τ) (g : α → β) (m : St σ α) (m' : St τ β) : Prop :=
  ∀ s, I s → m' (f s) = ((m s).1.map g, f (m s).2) ∧ I (m s).2

namespace Commutes
variable {σ τ α β γ δ : Type} {I : σ → Prop} {f : σ → τ}

theorem bind {g : α → β} {h : γ → δ} {m : St σ α} {m' : St τ β} {k : α → St σ γ} {k' : β → St τ δ}
    (hm : Commutes I f g m m') (hk : ∀ a, Commutes I f h (k a) (k' (g a))) :
    Commutes I f h (m >>= k) (m' >>= k') := by
  intro s hs
  obtain ⟨h1, h2⟩ := hm s hs
  rcases hms : m s with ⟨r, s'⟩
  rw [hms] at h1 h2
  cases r with
  | error e => rw [St.bind_error hms, St.bind_error h1]; exact ⟨rfl, h2⟩
  | ok a => rw [St.bind_ok hms, St.bind_ok h1]; exact hk a s' h2

/-- a computation that does not touch the object: its value may be used -/
theorem bind_lift {g : α → β} {h : γ → δ} {x : Py α} {y : Py β} {k : α → St σ γ} {k' : β → St τ δ} (hx : y = x.map g)
    (hk : ∀ a, x = .ok a → Commutes I f h (k a) (k' (g a))) : Commutes I f h (St.lift x >>= k) (St.lift y >>= k') := by
  intro s hs
  subst hx
  cases x with
  | error e => exact ⟨rfl, hs⟩
  | ok a => exact hk a rfl s hs

theorem bind_get {h : γ → δ} {k : σ → St σ γ} {k' : τ → St τ δ} (hk : ∀ s, I s → Commutes I f h (k s) (k' (f s))) :
    Commutes I f h (St.get >>= k) (St.get >>= k') := fun s hs => hk s hs s hs

theorem pure {g : α → β} (a : α) {b : β} (h : b = g a) : Commutes I f g (pure a : St σ α) (pure b : St τ β) := by
  intro s hs; subst h; exact ⟨rfl, hs⟩

theorem lift {g : α → β} {x : Py α} {y : Py β} (h : y = x.map g) : Commutes I f g (St.lift x) (St.lift y) := by
  intro s hs; subst h; exact ⟨rfl, hs⟩

theorem map_id' (x : Py α) : x = x.map id := by cases x <;> rfl

/-- the same computation, on values the change does not reach -/
theorem same (x : Py α) : Commutes I f id (St.lift x) (St.lift x) := lift (map_id' x)

theorem throw {g : α → β} (e : PyErr) : Commutes I f g (St.throw e : St σ α) (St.throw e : St τ β) :=
  fun _ hs => ⟨rfl, hs⟩

theorem get : Commutes I f f (St.get : St σ σ) (St.get : St τ τ) := fun _ hs => ⟨rfl, hs⟩

theorem modify {k : σ → σ} {k' : τ → τ} (h : ∀ s, I s → k' (f s) = f (k s)) (hI : ∀ s, I s → I (k s)) :
    Commutes I f id (St.modify k) (St.modify k') := by
  intro s hs
  refine ⟨?_, hI s hs⟩
  show (Except.ok (), k' (f s)) = (Except.ok (), f (k s))
  rw [h s hs]

theorem tryExcept {g : α → β} {x : St σ α} {x' : St τ β} {h : St σ α} {h' : St τ β} (e : PyErr)
    (hx : Commutes I f g x x') (hh : Commutes I f g h h') :
    Commutes I f g (St.tryExcept x e h) (St.tryExcept x' e h') := by
  intro s hs
  obtain ⟨h1, h2⟩ := hx s hs
  unfold St.tryExcept
  rw [h1]
  revert h2
  rcases x s with ⟨r, s'⟩
  intro h2
  cases r with
  | ok a => exact ⟨rfl, h2⟩
  | error e' =>
    show (if e' = e then h' (f s') else (Except.error e', f s')) =
      ((if e' = e then h s' else (Except.error e', s')).1.map g, f (if e' = e then h s' else (Except.error e', s')).2) ∧ _
    by_cases he : e' = e
    · simp only [if_pos he]; exact hh s' h2
    · simp only [if_neg he]; exact ⟨rfl, h2⟩

theorem ite {g : α → β} {c : Prop} [Decidable c] {x y : St σ α} {x' y' : St τ β} (hx : Commutes I f g x x')
    (hy : Commutes I f g y y') : Commutes I f g (if c then x else y) (if c then x' else y') := by
  by_cases hc : c
  · simp only [if_pos hc]; exact hx
  · simp only [if_neg hc]; exact hy

/-- a root finder cannot tell the difference -/
theorem run {K : Type} [Field K] [LinearOrder K] {obj : K → St σ K} {obj' : K → St τ K}
    (h : ∀ x, Commutes I f id (obj x) (obj' x)) (F : Finder K) : Commutes I f id (F.run obj) (F.run obj') := by
  induction F with
  | done x => exact pure x rfl
  | fail e => exact throw e
  | ask x next ih => exact bind (h x) fun v => ih v

theorem solveRoot {K : Type} [Field K] [LinearOrder K] [FloorRing K] (brent : K → K → Finder K) (x : K)
    {obj : K → St σ K} {obj' : K → St τ K} (h : ∀ x, Commutes I f id (obj x) (obj' x)) (lower upper : Option K) :
    Commutes I f id (GHE.solveRoot brent x obj lower upper) (GHE.solveRoot brent x obj' lower upper) := by
  unfold GHE.solveRoot
  refine bind (h _) fun a => bind (h _) fun b => bind (same _) fun c => bind (same _) fun d => ?_
  exact ite (run h _) (ite (pure _ rfl) (ite (pure _ rfl) (pure _ rfl)))

theorem solveRootNp (brent : ℝ → ℝ → Finder ℝ) (x : ℝ) {obj : ℝ → St σ ℝ} {obj' : ℝ → St τ ℝ}
    (h : ∀ x, Commutes I f id (obj x) (obj' x)) (lower upper : ℝ) :
    Commutes I f id (Bhe.solveRootNp brent x obj lower upper) (Bhe.solveRootNp brent x obj' lower upper) := by
  unfold Bhe.solveRootNp
  refine bind (h _) fun a => bind (h _) fun b => bind (same _) fun c => bind (same _) fun d => ?_
  exact ite (run h _) (ite (pure _ rfl) (ite (pure _ rfl) (pure _ rfl)))

end Commutes
end Ghedt
