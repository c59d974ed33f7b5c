import Mathlib.Data.Real.Basic
import Mathlib.Algebra.BigOperators.Group.Finset.Basic

/-!
# Specification vocabulary for the short-time response of a borehole

Nothing here refers to the model.
-/

namespace Ghedt.Spec

/-- One implicit time step of heat conduction along a chain of `n` cells: `C i` is the heat capacity of
cell `i` divided by the time step, `E i` the conductance between cells `i` and `i + 1`, `q` the heat fed into
cell `0`.  `T` are the temperatures before, `x` after the step.  The last cell is kept at its
temperature. -/
def HeatStep (n : ℕ) (E C : ℕ → ℝ) (q : ℝ) (T x : ℕ → ℝ) : Prop :=
  (∀ i, i + 1 < n → C i * (x i - T i) =
    (if i = 0 then q else E (i - 1) * (x (i - 1) - x i)) - E i * (x i - x (i + 1))) ∧
  x (n - 1) = T (n - 1)

/-- The temperatures after `0, 1, 2, …` steps, from a uniform temperature `init`. -/
def HeatHistory (n : ℕ) (E C : ℕ → ℝ) (q init : ℝ) (T : ℕ → ℕ → ℝ) : Prop :=
  (∀ i, i < n → T 0 i = init) ∧ ∀ k, HeatStep n E C q (T k) (T (k + 1))

/-- `x` solves the tridiagonal system with lower diagonal `dl`, diagonal `d`, upper diagonal `du` and
right hand side `b`. -/
def TriSolves (dl d du b x : List ℝ) : Prop :=
  x.length = b.length ∧ ∀ i < b.length,
    (if 0 < i then dl.getD (i - 1) 0 * x.getD (i - 1) 0 else 0) + d.getD i 0 * x.getD i 0 +
      (if i + 1 < b.length then du.getD i 0 * x.getD (i + 1) 0 else 0) = b.getD i 0

/-- A tridiagonal solver that returns the solution whenever there is exactly one. -/
def ExactSolver (solve : List ℝ → List ℝ → List ℝ → List ℝ → List ℝ) : Prop :=
  ∀ dl d du b : List ℝ, d.length = b.length → dl.length + 1 = b.length → du.length + 1 = b.length →
    (∃! x, TriSolves dl d du b x) → TriSolves dl d du b (solve dl d du b)

/-- A tridiagonal solver that returns as many numbers as there are equations whenever there is exactly one solution. -/
def SizedSolver (solve : List ℝ → List ℝ → List ℝ → List ℝ → List ℝ) : Prop :=
  ∀ dl d du b : List ℝ, d.length = b.length → dl.length + 1 = b.length → du.length + 1 = b.length →
    (∃! x, TriSolves dl d du b x) → (solve dl d du b).length = b.length

/-- `x` solves the tridiagonal system up to a relative error `ε`: in every equation the two sides differ by at most `ε`
times the sum of the magnitudes of its terms.  An equation that merely names a value (`1 · x i = b i`) holds exactly. -/
def TriNear (ε : ℝ) (dl d du b x : List ℝ) : Prop :=
  x.length = b.length ∧ ∀ i < b.length,
    |(if 0 < i then dl.getD (i - 1) 0 * x.getD (i - 1) 0 else 0) + d.getD i 0 * x.getD i 0 +
      (if i + 1 < b.length then du.getD i 0 * x.getD (i + 1) 0 else 0) - b.getD i 0| ≤
    ε * ((if 0 < i then |dl.getD (i - 1) 0 * x.getD (i - 1) 0| else 0) + |d.getD i 0 * x.getD i 0| +
      (if i + 1 < b.length then |du.getD i 0 * x.getD (i + 1) 0| else 0) + |b.getD i 0|) ∧
    ((0 < i → dl.getD (i - 1) 0 = 0) → d.getD i 0 = 1 → (i + 1 < b.length → du.getD i 0 = 0) →
      x.getD i 0 = b.getD i 0)

/-- A tridiagonal solver with relative error `ε`: whenever there is exactly one solution, what it returns satisfies the
equations up to `ε`.  (A solver that computes with rounding errors is one, `ε` being a small multiple of the unit
roundoff; the rounding of the coefficients it is given is included, for `solve` is any function of the exact ones.) -/
def NearSolver (ε : ℝ) (solve : List ℝ → List ℝ → List ℝ → List ℝ → List ℝ) : Prop :=
  ∀ dl d du b : List ℝ, d.length = b.length → dl.length + 1 = b.length → du.length + 1 = b.length →
    (∃! x, TriSolves dl d du b x) → TriNear ε dl d du b (solve dl d du b)

end Ghedt.Spec
