import Verif.Py

/-!
# Python methods that mutate an object

`St σ α` is a computation that reads and writes an object of type `σ` and returns or raises.  As in
Python, the changes made before an exception stay: the state is returned in both cases.
-/

namespace Ghedt

/-- A method on an object with state `σ`. -/
def St (σ α : Type) : Type := σ → Except PyErr α × σ

namespace St
variable {σ α β : Type}

def pure' (a : α) : St σ α := fun s => (.ok a, s)

def bind' (x : St σ α) (f : α → St σ β) : St σ β := fun s =>
  match x s with
  | (.ok a, s') => f a s'
  | (.error e, s') => (.error e, s')

instance : Monad (St σ) where
  pure := pure'
  bind := bind'

/-- A computation that does not touch the object. -/
def lift (x : Py α) : St σ α := fun s => (x, s)
/-- The current state. -/
def get : St σ σ := fun s => (.ok s, s)
/-- Assignment to attributes. -/
def modify (f : σ → σ) : St σ Unit := fun s => (.ok (), f s)
/-- `raise e`. -/
def throw (e : PyErr) : St σ α := fun s => (.error e, s)
/-- `try: x  except E: h`, catching only the error `e`. -/
def tryExcept (x : St σ α) (e : PyErr) (h : St σ α) : St σ α := fun s =>
  match x s with
  | (.ok a, s') => (.ok a, s')
  | (.error e', s') => if e' = e then h s' else (.error e', s')

@[simp] theorem pure_apply (a : α) (s : σ) : (pure a : St σ α) s = (.ok a, s) := rfl
@[simp] theorem lift_apply (x : Py α) (s : σ) : (lift x : St σ α) s = (x, s) := rfl
@[simp] theorem get_apply (s : σ) : (get : St σ σ) s = (.ok s, s) := rfl
@[simp] theorem modify_apply (f : σ → σ) (s : σ) : modify f s = (.ok (), f s) := rfl
@[simp] theorem throw_apply (e : PyErr) (s : σ) : (throw e : St σ α) s = (.error e, s) := rfl

theorem bind_ok {x : St σ α} {f : α → St σ β} {s s' : σ} {a : α} (h : x s = (.ok a, s')) :
    (x >>= f) s = f a s' := by
  show bind' x f s = _
  unfold bind'; rw [h]

theorem bind_error {x : St σ α} {f : α → St σ β} {s s' : σ} {e : PyErr}
    (h : x s = (.error e, s')) : (x >>= f) s = (.error e, s') := by
  show bind' x f s = _
  unfold bind'; rw [h]

theorem bind_eq_ok {x : St σ α} {f : α → St σ β} {s s'' : σ} {b : β} :
    (x >>= f) s = (.ok b, s'') ↔ ∃ a s', x s = (.ok a, s') ∧ f a s' = (.ok b, s'') := by
  constructor
  · intro h
    rcases hx : x s with ⟨r, s'⟩
    cases r with
    | error e => rw [bind_error hx] at h; cases h
    | ok a => rw [bind_ok hx] at h; exact ⟨a, s', rfl, h⟩
  · rintro ⟨a, s', h1, h2⟩
    rw [bind_ok h1, h2]

theorem bind_eq_error {x : St σ α} {f : α → St σ β} {s s'' : σ} {e : PyErr} :
    (x >>= f) s = (.error e, s'') ↔
      x s = (.error e, s'') ∨ ∃ a s', x s = (.ok a, s') ∧ f a s' = (.error e, s'') := by
  constructor
  · intro h
    rcases hx : x s with ⟨r, s'⟩
    cases r with
    | error e' => rw [bind_error hx] at h; cases h; left; rfl
    | ok a => rw [bind_ok hx] at h; right; exact ⟨a, s', rfl, h⟩
  · rintro (h | ⟨a, s', h1, h2⟩)
    · exact bind_error h
    · rw [bind_ok h1, h2]

theorem lift_ok {x : Py α} {f : α → St σ β} {s : σ} {a : α} (h : x = .ok a) :
    (lift x >>= f) s = f a s := bind_ok (by rw [lift_apply, h])

theorem lift_error {x : Py α} {f : α → St σ β} {s : σ} {e : PyErr} (h : x = .error e) :
    (lift x >>= f) s = (.error e, s) := bind_error (by rw [lift_apply, h])

theorem lift_eq_ok {x : Py α} {f : α → St σ β} {s s'' : σ} {b : β} :
    (lift x >>= f) s = (.ok b, s'') ↔ ∃ a, x = .ok a ∧ f a s = (.ok b, s'') := by
  rw [bind_eq_ok]
  constructor
  · rintro ⟨a, s', h1, h2⟩
    rw [lift_apply] at h1
    cases h1
    exact ⟨a, rfl, h2⟩
  · rintro ⟨a, rfl, h2⟩
    exact ⟨a, s, rfl, h2⟩

@[simp] theorem modify_bind (g : σ → σ) (f : Unit → St σ β) (s : σ) :
    (modify g >>= f) s = f () (g s) := bind_ok (modify_apply g s)

@[simp] theorem get_bind (f : σ → St σ β) (s : σ) :
    (get >>= f) s = f s s := bind_ok (get_apply s)

@[simp] theorem pure_bind' (a : α) (f : α → St σ β) (s : σ) :
    ((pure a : St σ α) >>= f) s = f a s := bind_ok (pure_apply a s)

end St
end Ghedt
