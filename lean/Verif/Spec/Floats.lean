import Verif.Spec.Hybrid
import Verif.Model.Rounding

/-!
# Specification vocabulary for the hybrid load in floating-point arithmetic

`R` is a way of rounding (`Model/Rounding`); nothing else refers to the model.
-/

namespace Ghedt.Spec
variable {K : Type} [Field K] [LinearOrder K]

/-- One side of a month as it can appear in a program: the peak, its negative and half its duration are numbers that the
rounding leaves alone, the duration is at most 49 h, the day is a day of a month (or 0). -/
structure FloatSide (R : Rounding K) (s : Side K) : Prop where
  peak : R.fl s.peak = s.peak
  neg : R.fl (-s.peak) = -s.peak
  half : R.fl (s.duration / 2) = s.duration / 2
  dur : |s.duration| ≤ 49
  day0 : 0 ≤ s.day
  day1 : s.day ≤ 31

/-- The size of the energies of a month: both totals and the energies of both peaks, without signs. -/
def turnover (c h : Side K) : K := |c.total| + |h.total| + |c.peak * c.duration| + |h.peak * h.duration|

/-- `Summed R l s`: `s` is a value that a program can get for the sum of the products of the pairs in `l`, adding them up in
some order, with each product rounded or fused with an addition. -/
inductive Summed (R : Rounding K) : List (K × K) → K → Prop
  | nil : Summed R [] 0
  | product (a b : K) : Summed R [(a, b)] (R.fl (a * b))
  | fused (a b : K) {l : List (K × K)} {s : K} : Summed R l s → Summed R ((a, b) :: l) (R.fl (a * b + s))
  | sum {l l' l'' : List (K × K)} {s s' : K} : Summed R l s → Summed R l' s' → l''.Perm (l ++ l') →
      Summed R l'' (R.fl (s + s'))

/-- A field of boreholes, in SI units. -/
structure Plant (K : Type) where
  boreholes : K
  height : K
  /-- `2 π` times the conductivity of the ground -/
  twoPiK : K
  ground : K
  resistance : K
  /-- mass flow rate of each borehole -/
  flow : K
  cp : K

/-- Everything one divides by is positive. -/
structure Plant.Sound (p : Plant K) : Prop where
  boreholes : 0 < p.boreholes
  height : 0 < p.height
  twoPiK : 0 < p.twoPiK
  flow : 0 < p.flow
  cp : 0 < p.cp

/-- Temperature of the fluid that leaves the field at step `i`, for loads `Q 1, Q 2, …` (in watts, on the whole field; `Q 0` is
0): superposition of the responses `G i j` at step `i` to the change of the load after step `j`. -/
def Plant.exit (p : Plant K) (G : ℕ → ℕ → K) (Q : ℕ → K) (i : ℕ) : K :=
  p.ground + (∑ j ∈ Finset.range i, (Q (j + 1) - Q j) / (p.boreholes * p.height * p.twoPiK) * G i j) +
    Q i / (p.boreholes * p.height) * p.resistance - Q i / (p.boreholes * (2 * p.flow * p.cp))

/-- The size of what is added up in `Plant.exit`: the same with absolute values. -/
def Plant.size (p : Plant K) (G : ℕ → ℕ → K) (Q : ℕ → K) (i : ℕ) : K :=
  |p.ground| + (∑ j ∈ Finset.range i, (|Q (j + 1)| + |Q j|) / (p.boreholes * p.height * p.twoPiK) * |G i j|) +
    |Q i| / (p.boreholes * p.height) * |p.resistance| + |Q i| / (p.boreholes * (2 * p.flow * p.cp))

end Ghedt.Spec
