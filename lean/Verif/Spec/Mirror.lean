import Verif.Spec.Ground

/-!
# Heating and cooling exchanged

The same problem, exchanger or search object with heat rejected where it was extracted and the other way round, and with all
temperatures mirrored about half of `a`: what was `x` degrees is `a - x` degrees.  Everything else is the same.
-/

namespace Ghedt.Mirror
open Ghedt.GHE Ghedt.Bhe Ghedt.Whole Ghedt.WholeSearch

noncomputable section

/-- Loads of the other sign. -/
def loads (l : List ℝ) : List ℝ := l.map fun q => -q

/-- Loads of the other sign, rejection and extraction exchanged, the mirrored limits. -/
def env (a : ℝ) (e : Whole.Env) : Whole.Env :=
  { e with rejection := e.extraction, extraction := e.rejection, load := loads e.load, hourly := loads e.hourly,
           maxEFT := a - e.minEFT, minEFT := a - e.maxEFT }

/-- Mirrored temperatures. -/
def temps (a : ℝ) (l : List (Num ℝ)) : List (Num ℝ) := l.map (Option.map (a - ·))

/-- Changes of temperature of the other sign. -/
def changes (l : List (Num ℝ)) : List (Num ℝ) := l.map (Option.map fun x => -x)

def state (a : ℝ) (s : Whole.State) : Whole.State :=
  { s with bhe := Ground.exchanger (a - ·) s.bhe, bheEq := Ground.tube (a - ·) s.bheEq, HPEFT := temps a s.HPEFT,
           dTb := changes s.dTb }

def held (a : ℝ) (h : Held) : Held := ⟨env a h.env, state a h.state⟩

def search (a : ℝ) (s : WholeSearch.State) : WholeSearch.State := { s with held := s.held.map (held a) }

def problem (a : ℝ) (p : Problem) : Problem :=
  { p with media := Ground.media (a - ·) p.media, hourly := loads p.hourly, maxEFT := a - p.minEFT, minEFT := a - p.maxEFT }

end

end Ghedt.Mirror
