import Verif.Model.WholeSearch

/-!
# Another ground temperature

The same media or exchanger with another undisturbed ground temperature; everything else is the same.
-/

namespace Ghedt.Ground
open Ghedt.Bhe Ghedt.WholeSearch

noncomputable section

/-- The undisturbed ground temperature changed by `φ`. -/
def soil (φ : ℝ → ℝ) (s : Soil) : Soil := { s with ugt := φ s.ugt }

def tube (φ : ℝ → ℝ) (t : UTube) : UTube := { t with soil := soil φ t.soil }

def coax (φ : ℝ → ℝ) (t : Coax) : Coax := { t with soil := soil φ t.soil }

def exchanger (φ : ℝ → ℝ) : Exchanger → Exchanger
  | .single t => .single (tube φ t)
  | .multiple t => .multiple (tube φ t)
  | .coaxial t => .coaxial (coax φ t)
  | .other => .other

def media (φ : ℝ → ℝ) (m : Media) : Media := { m with soil := soil φ m.soil }

end

end Ghedt.Ground
