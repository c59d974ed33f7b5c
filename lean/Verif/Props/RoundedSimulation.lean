import Verif.Model.RoundedSimulation
import Verif.Lemmas.RoundedMonths
import Verif.Lemmas.RoundedBasic
import Verif.Props.GroundHeatExchangers

/-!
# C123 — the hours of an hourly simulation in double precision
-/

namespace Ghedt.Rounded
open GHE

variable {K : Type} [Field K] [LinearOrder K] [IsStrictOrderedRing K] [FloorRing K]

/-- C123: without rounding the model is that of the other claims. -/
theorem C123_exact (env : GheEnv K) (method : String) :
    simulationInput Rounding.exact env method = GHE.simulationInput env method := rfl

theorem ceil_months {n : ℤ} (h1 : 1 ≤ n) (hn : n ≤ 10 ^ 12) : ⌈double ((n : K) / 12)⌉ = ⌈(n : K) / 12⌉ := by
  have pn : (0 : K) < (n : K) := by exact_mod_cast (by omega : 0 < n)
  have hx : (0 : K) < (n : K) / 12 := by positivity
  obtain ⟨c1, c2⟩ := ceil_twelve (K := K) n
  set c := ⌈(n : K) / 12⌉ with hc
  rw [Int.ceil_eq_iff]
  constructor
  · have he := (abs_le.1 ((Rounding.double (K := K)).err ((n : K) / 12))).1
    rw [abs_of_pos hx] at he
    have hd : (Rounding.double (K := K)).fl ((n : K) / 12) = double ((n : K) / 12) := rfl
    rw [hd] at he
    have hnK : (n : K) ≤ 10 ^ 12 := by exact_mod_cast hn
    have hcn : (12 * (c - 1) + 1 : K) ≤ n := by exact_mod_cast (by omega : 12 * (c - 1) + 1 ≤ n)
    have : (1 : K) / 2 ^ 53 * ((n : K) / 12) < 1 / 12 := by
      have : (1 : K) / 2 ^ 53 * ((n : K) / 12) ≤ 1 / 2 ^ 53 * (10 ^ 12 / 12) :=
        mul_le_mul_of_nonneg_left (by linarith) (by norm_num)
      refine this.trans_lt (by norm_num)
    linarith
  · exact fl_le_int Rounding.double (by rw [abs_le]; omega) (Int.le_ceil _)

/-- C123: in double precision too, a simulation of the hourly loads over `n` months covers the hours `1, 2, …, 730 n`, and
the year of loads (numbers in double precision) is repeated as often as `n` months have started years: what
`simulate(method='hourly')` asks for is exactly what exact arithmetic gives. -/
theorem C123_hourly (env : GheEnv K) {n : ℤ} (hmonths : n = env.endMonth - env.startMonth + 1) (h1 : 1 ≤ n)
    (hn : n ≤ 10 ^ 12) (hd : ∀ q ∈ env.hourly, double q = q) :
    simulationInput Rounding.double env "hourly" = GHE.simulationInput env "hourly" ∧
    ∃ Q, simulationInput Rounding.double env "hourly" = .ok (Q, (pyRange 1 (730 * n + 1)).map fun i : ℤ => (i : K)) ∧
      Q = (List.replicate ⌈(n : K) / 12⌉.toNat (env.hourly.map fun q => -q)).flatten := by
  have hfl : ∀ x : K, (Rounding.double (K := K)).fl x = double x := fun _ => rfl
  have hneg : ∀ q ∈ env.hourly, mul Rounding.double (-1) q = -q := by
    intro q hq
    unfold mul
    rw [hfl, neg_one_mul, double_neg, hd q hq]
  have hlist : ∀ k : ℕ, ((List.replicate k env.hourly).flatten).map (fun q => mul Rounding.double (-1) q) =
      ((List.replicate k (env.hourly.map fun q => -q)).flatten) := by
    intro k
    rw [List.map_flatten, List.map_replicate]
    congr 2
    exact List.map_congr_left hneg
  have hhours : trunc (mul Rounding.double (Rounding.double.fl ((n : K) / 12)) 8760) = 730 * n := by
    unfold mul trunc
    rw [hfl, hfl, double_months h1 hn, if_pos (by exact_mod_cast (by omega : 0 ≤ 730 * n)), Int.floor_intCast]
  have hyears : ⌈(Rounding.double (K := K)).fl (((730 * n : ℤ) : K) / 8760)⌉ = ⌈(n : K) / 12⌉ := by
    rw [hfl, show ((730 * n : ℤ) : K) / 8760 = (n : K) / 12 by push_cast; ring, ceil_months h1 hn]
  have hrun : simulationInput Rounding.double env "hourly" =
      .ok ((List.replicate ⌈(n : K) / 12⌉.toNat (env.hourly.map fun q => -q)).flatten,
        (pyRange 1 (730 * n + 1)).map fun i : ℤ => (i : K)) := by
    unfold simulationInput
    rw [if_neg (by decide), if_pos rfl]
    dsimp only
    rw [← hmonths, hhours, hyears, hlist]
  refine ⟨?_, _, hrun, rfl⟩
  rw [hrun, hourly_input env hmonths, List.map_flatten, List.map_replicate]
  simp only [neg_one_mul]

/-- eighteen months of the example of `Props/GroundHeatExchangers` -/
example : (18 : ℤ) = (exEnvGhe 18).endMonth - (exEnvGhe 18).startMonth + 1 ∧ (exEnvGhe 18).hourly ≠ [] ∧
    ∀ q ∈ (exEnvGhe 18).hourly, double q = q := by
  decide +kernel

/-- C123: of the hybrid loads, the same times, and each load in W within one part in `2^53` of the exact one. -/
theorem C123_hybrid (R : Rounding K) (env : GheEnv K) :
    ∃ Q Q' t, simulationInput R env "hybrid" = .ok (Q, t) ∧ GHE.simulationInput env "hybrid" = .ok (Q', t) ∧
      List.Forall₂ (fun q q' => |q - q'| ≤ 1 / 2 ^ 53 * |q'|) Q Q' := by
  refine ⟨_, _, _, rfl, rfl, ?_⟩
  rw [List.forall₂_map_left_iff, List.forall₂_map_right_iff, List.forall₂_same]
  intro q _
  exact R.err _

end Ghedt.Rounded
