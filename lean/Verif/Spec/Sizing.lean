import Verif.Model.WholeGhe

/-!
# What sizing is supposed to find

Said of an exchanger object `s0` and its simulations at the heights between the bounds.
-/

namespace Ghedt.Spec
open Ghedt.GHE Ghedt.Whole

noncomputable section

/-- Simulating the object at the height `H` gives the highest temperature `u` and the lowest temperature `w`. -/
def Gives (env : Env) (method : String) (s0 : State) (H u w : ℝ) : Prop :=
  (Whole.simulate env method (s0.at H)).1 = .ok (u, w)

/-- The temperatures at the height `H` are within the limits; within them with something to spare. -/
def WithinAt (env : Env) (method : String) (s0 : State) (H : ℝ) : Prop :=
  ∃ u w, Gives env method s0 H u w ∧ u ≤ env.maxEFT ∧ env.minEFT ≤ w

def InsideAt (env : Env) (method : String) (s0 : State) (H : ℝ) : Prop :=
  ∃ u w, Gives env method s0 H u w ∧ u < env.maxEFT ∧ env.minEFT < w

/-- The object can be simulated at all heights between the bounds. -/
def Simulates (env : Env) (method : String) (s0 : State) : Prop :=
  ∀ H, env.minHeight ≤ H → H ≤ env.maxHeight → ∃ u w, Gives env method s0 H u w

/-- Deeper is better: if the limits are kept at one height, they are kept with something to spare at every greater one. -/
def Improves (env : Env) (method : String) (s0 : State) : Prop :=
  ∀ H H', env.minHeight ≤ H → H < H' → H' ≤ env.maxHeight → WithinAt env method s0 H → InsideAt env method s0 H'

/-- The root finder returns a number when the function is `e`. -/
def Returns (e : ℝ → ℝ) : Finder ℝ → Prop
  | .done _ => True
  | .fail _ => False
  | .ask x next => Returns e (next (e x))

/-- The last point a root finder evaluates `e` at; `d` if it evaluates none. -/
def lastAsked (e : ℝ → ℝ) (d : ℝ) : Finder ℝ → ℝ
  | .done _ => d
  | .fail _ => d
  | .ask x next => lastAsked e x (next (e x))

/-- A root finder that, on functions positive at `lo` and negative at `hi`, stops only when it has found points no more than
`δ` apart with a change of sign between them, and the last point it has evaluated is one of them or between them.  (So do
bisection and Brent's method, which keep such a bracket and evaluate nothing after the last bracket.) -/
def Narrows (δ lo hi : ℝ) (F : Finder ℝ) : Prop :=
  ∀ e : ℝ → ℝ, 0 < e lo → e hi < 0 → Returns e F → ∃ l r, lo ≤ l ∧ l ≤ r ∧ r ≤ hi ∧ r - l ≤ δ ∧ 0 ≤ e l ∧ e r ≤ 0 ∧
    l ≤ lastAsked e hi F ∧ lastAsked e hi F ≤ r

end

end Ghedt.Spec
