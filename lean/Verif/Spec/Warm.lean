import Verif.Spec.Ground

/-!
# A warmer ground

The same problem, exchanger or search object with the undisturbed ground temperature, the limits and the stored fluid
temperatures raised by `c` degrees; everything else is the same.
-/

namespace Ghedt.Warm
open Ghedt.GHE Ghedt.Bhe Ghedt.Whole Ghedt.WholeSearch

noncomputable section

/-- Both limits raised by `c`. -/
def env (c : ℝ) (e : Whole.Env) : Whole.Env := { e with maxEFT := e.maxEFT + c, minEFT := e.minEFT + c }

def temps (c : ℝ) (l : List (Num ℝ)) : List (Num ℝ) := l.map (Option.map (· + c))

/-- The ground and the stored fluid temperatures raised by `c`. -/
def state (c : ℝ) (s : Whole.State) : Whole.State :=
  { s with bhe := Ground.exchanger (· + c) s.bhe, bheEq := Ground.tube (· + c) s.bheEq, HPEFT := temps c s.HPEFT }

def held (c : ℝ) (h : Held) : Held := ⟨env c h.env, state c h.state⟩

def search (c : ℝ) (s : WholeSearch.State) : WholeSearch.State := { s with held := s.held.map (held c) }

def problem (c : ℝ) (p : Problem) : Problem :=
  { p with media := Ground.media (· + c) p.media, maxEFT := p.maxEFT + c, minEFT := p.minEFT + c }

end

end Ghedt.Warm
