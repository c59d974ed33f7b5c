import Verif.Lemmas.RoundedGhe
import Verif.Props.RoundedSimulation
import Verif.Props.RoundedFindings

/-!
# C127 — temperatures and decisions in floating-point arithmetic
-/

set_option linter.unusedSectionVars false

namespace Ghedt.Rounded
open GHE Spec
variable {K : Type} [Field K] [LinearOrder K] [IsStrictOrderedRing K]

/-- C127: without rounding the model is that of the other claims. -/
theorem C127_exact [FloorRing K] (env : GheEnv K) (method : String) (H : K) (th : Thermal K) (Q t : List K)
    (a b c d : K) :
    cost Rounding.exact a b c d = GHE.cost a b c d ∧
    simulateDetailed Rounding.exact (fun w v => (List.zipWith (· * ·) w v).sum) th Q t = GHE.simulateDetailed th Q t ∧
    simulate Rounding.exact (fun w v => (List.zipWith (· * ·) w v).sum) env method = GHE.simulate env method ∧
    localObjective Rounding.exact (fun w v => (List.zipWith (· * ·) w v).sum) env method H =
      GHE.localObjective env method H := ⟨rfl, rfl, rfl, rfl⟩

theorem fl_nonpos_iff (R : Rounding K) (x : K) : R.fl x ≤ 0 ↔ x ≤ 0 := by
  constructor
  · intro h
    by_contra hx
    exact absurd (fl_pos R (not_le.1 hx)) (not_lt.2 h)
  · intro h
    have := R.mono h
    rwa [fl_zero] at this

theorem fl_neg_iff (R : Rounding K) (x : K) : R.fl x < 0 ↔ x < 0 := by
  constructor
  · intro h
    by_contra hx
    exact absurd (fl_nonneg R (not_lt.1 hx)) (not_le.2 h)
  · intro h
    have h1 := R.err x
    have h2 := (abs_le.1 h1).2
    rw [abs_of_neg h] at h2
    have h3 : (1 / 2 ^ 53 : K) * -x < 1 * -x := mul_lt_mul_of_pos_right (by norm_num) (by linarith)
    linarith

/-- C127: rounding does not change what the excess says about the computed temperatures: it is at most 0 iff both limits hold,
negative iff both hold with room to spare, and so its sign is that of the excess in exact arithmetic. -/
theorem C127_sign (R : Rounding K) (maxA minA hi lo : K) :
    (cost R maxA minA hi lo ≤ 0 ↔ hi ≤ maxA ∧ minA ≤ lo) ∧
    (cost R maxA minA hi lo < 0 ↔ hi < maxA ∧ minA < lo) ∧
    (cost R maxA minA hi lo = 0 ↔ GHE.cost maxA minA hi lo = 0) ∧
    (0 < cost R maxA minA hi lo ↔ 0 < GHE.cost maxA minA hi lo) := by
  have h1 : cost R maxA minA hi lo ≤ 0 ↔ hi ≤ maxA ∧ minA ≤ lo := by
    unfold cost sub
    rw [max_le_iff, fl_nonpos_iff, fl_nonpos_iff, sub_nonpos, sub_nonpos]
  have h2 : cost R maxA minA hi lo < 0 ↔ hi < maxA ∧ minA < lo := by
    unfold cost sub
    rw [max_lt_iff, fl_neg_iff, fl_neg_iff, sub_neg, sub_neg]
  have h3 : GHE.cost maxA minA hi lo < 0 ↔ hi < maxA ∧ minA < lo := by
    unfold GHE.cost
    rw [max_lt_iff, sub_neg, sub_neg]
  have h4 := (C39_cost maxA minA hi lo).1
  refine ⟨h1, h2, ?_, ?_⟩
  · rw [le_antisymm_iff, le_antisymm_iff, ← not_lt (a := cost R maxA minA hi lo), ← not_lt (a := GHE.cost maxA minA hi lo),
      h1, h2, h3, h4]
  · rw [← not_le, ← not_le, h1, h4]

theorem exit_congr (p : Plant K) {G G' : ℕ → ℕ → K} {Q : ℕ → K} {i : ℕ} (h : ∀ j < i, G i j = G' i j) :
    p.exit G Q i = p.exit G' Q i ∧ p.size G Q i = p.size G' Q i := by
  have e1 : ∑ j ∈ Finset.range i, (Q (j + 1) - Q j) / (p.boreholes * p.height * p.twoPiK) * G i j =
      ∑ j ∈ Finset.range i, (Q (j + 1) - Q j) / (p.boreholes * p.height * p.twoPiK) * G' i j :=
    Finset.sum_congr rfl fun j hj => by rw [h j (Finset.mem_range.1 hj)]
  have e2 : ∑ j ∈ Finset.range i, (|Q (j + 1)| + |Q j|) / (p.boreholes * p.height * p.twoPiK) * |G i j| =
      ∑ j ∈ Finset.range i, (|Q (j + 1)| + |Q j|) / (p.boreholes * p.height * p.twoPiK) * |G' i j| :=
    Finset.sum_congr rfl fun j hj => by rw [h j (Finset.mem_range.1 hj)]
  unfold Plant.exit Plant.size
  rw [e1, e2]
  exact ⟨rfl, rfl⟩

/-- C127: the temperatures `_simulate_detailed` computes.  `Q' 1, …, Q' n` are the loads it is given, `Q 1, …, Q n` the loads
before the rounding to watts, `t 1, …, t n` the times, `G i j` what the g-function answers for the difference of `t i` and
`t j` as computed.  In whatever order `numpy` adds up its dot products, temperature `i` is within `(i + 8) / 2^52` of the
superposition in exact arithmetic, relative to the size of what is added up, or `nan` if an earlier time is later. -/
theorem C127_temperatures (R : Rounding K) (dot : List K → List K → K)
    (hdot : ∀ w v : List K, w.length = v.length → Summed R (w.zip v) (dot w v)) (p : Plant K) (hp : p.Sound)
    (g : K → Py K) (G : ℕ → ℕ → K) (n : ℕ) (hn : n + 8 ≤ 2 ^ 52) (Q' Q t : ℕ → K) (hQ0 : Q 0 = 0) (ht0 : t 0 = 0)
    (hQ : ∀ j, 1 ≤ j → j ≤ n → |Q' j - Q j| ≤ 1 / 2 ^ 53 * |Q j|)
    (hG : ∀ i ≤ n, ∀ j < i, t j ≤ t i → g (R.fl (t i - t j)) = .ok (G i j)) :
    ∃ T d, simulateDetailed R dot (thermalOf p g) ((List.range n).map fun k => Q' (k + 1))
        ((List.range n).map fun k => t (k + 1)) = .ok (T, d) ∧ T.length = n ∧
      ∀ i, 1 ≤ i → i ≤ n → ((∃ j < i, t i < t j) → T[i - 1]? = some none) ∧
        ((∀ j < i, t j ≤ t i) → ∃ x, T[i - 1]? = some (some x) ∧
          |x - p.exit G Q i| ≤ ((i + 8 : ℕ) : K) / 2 ^ 52 * p.size G Q i) := by
  set LQ := (List.range n).map fun k => Q' (k + 1) with hLQ
  set Lt := (List.range n).map fun k => t (k + 1) with hLt
  have lenQ : LQ.length = n := by simp [hLQ]
  have at_t : ∀ i ≤ n, at0 Lt i = t i := fun i hi => at0_map_range ht0 hi
  have at_q : ∀ i, 1 ≤ i → i ≤ n → at0 LQ i = Q' i := by
    intro i h1 hi
    obtain ⟨k, rfl⟩ : ∃ k, i = k + 1 := ⟨i - 1, by omega⟩
    rw [at0_succ, List.getD_eq_getElem?_getD, hLQ, List.getElem?_map, List.getElem?_range (by omega)]
    rfl
  have hlag : ∀ i ≤ n, ∀ j < i, sub R (at0 Lt i) (at0 Lt j) = R.fl (t i - t j) := by
    intro i hi j hj
    rw [at_t i hi, at_t j (by omega)]
    rfl
  have hg : ∀ i ≤ n, ∀ j < i, ¬ sub R (at0 Lt i) (at0 Lt j) < 0 →
      g (sub R (at0 Lt i) (at0 Lt j)) = .ok (okVal (g (sub R (at0 Lt i) (at0 Lt j)))) := by
    intro i hi j hj hlt
    rw [hlag i hi j hj] at hlt ⊢
    rw [fl_neg_iff, sub_neg, not_lt] at hlt
    exact eq_ok_okVal (hG i hi j hj hlt)
  refine ⟨_, _, rsimulate_ok R dot (th := thermalOf p g) (Q := LQ) (t := Lt) (by simp [hLQ, hLt]) (fun x => okVal (g x))
    (by rw [lenQ]; exact hg), by simp [hLQ], fun i h1 hi => ?_⟩
  rw [List.getElem?_map, List.getElem?_range (by rw [lenQ]; omega), Option.map_some, show i - 1 + 1 = i by omega]
  have hlate : RLate R Lt i ↔ ∃ j < i, t i < t j := by
    unfold RLate
    constructor
    · rintro ⟨j, hj, hlt⟩
      rw [hlag i hi j hj, fl_neg_iff, sub_neg] at hlt
      exact ⟨j, hj, hlt⟩
    · rintro ⟨j, hj, hlt⟩
      exact ⟨j, hj, by rw [hlag i hi j hj, fl_neg_iff, sub_neg]; exact hlt⟩
  refine ⟨fun hl => by unfold rTempN; rw [if_pos (hlate.2 hl)], fun ho => ?_⟩
  refine ⟨rTemp R dot (thermalOf p g) (fun x => okVal (g x)) LQ Lt i, ?_, ?_⟩
  · unfold rTempN
    rw [if_neg]
    rintro hl
    obtain ⟨j, hj, hlt⟩ := hlate.1 hl
    exact absurd (ho j hj) (not_le.2 hlt)
  · have hoff := rTemp_off R hdot hp g (fun x => okVal (g x)) (Q := Q) (Q' := LQ) (t := Lt) (i := i) (by
      intro j hj
      rcases Nat.eq_zero_or_pos j with rfl | h0
      · simp [hQ0]
      · rw [at_q j h0 (by omega)]
        exact hQ j h0 (by omega))
    have hc := exit_congr p (G := fun i j => okVal (g (sub R (at0 Lt i) (at0 Lt j)))) (G' := G) (Q := Q) (i := i) (by
      intro j hj
      show okVal (g (sub R (at0 Lt i) (at0 Lt j))) = _
      rw [hlag i hi j hj, hG i hi j hj (ho j hj)]
      rfl)
    have h2 := hoff.1
    rw [hc.1, hc.2] at h2
    have h3 := hoff.nonneg
    rw [hc.2] at h3
    exact h2.trans (mul_le_mul_of_nonneg_right (grow_le (by omega)) h3)

/-- C127: what the excess computed for an exchanger of height `H` says about the superposition in exact arithmetic: if it is
at most 0, the limits hold up to the error; if the limits hold with the error to spare, it is at most 0.  This is about the
steps that no earlier time is later than; the others are `nan` and do not count. -/
theorem C127_decision [FloorRing K] (R : Rounding K) (dot : List K → List K → K)
    (hdot : ∀ w v : List K, w.length = v.length → Summed R (w.zip v) (dot w v)) (p : Plant K) (hp : p.Sound)
    (g : K → Py K) (G : ℕ → ℕ → K) (n : ℕ) (h0 : 1 ≤ n) (hn : n + 8 ≤ 2 ^ 52) (Q' Q t : ℕ → K) (hQ0 : Q 0 = 0)
    (ht0 : t 0 = 0) (hQ : ∀ j, 1 ≤ j → j ≤ n → |Q' j - Q j| ≤ 1 / 2 ^ 53 * |Q j|)
    (ht1 : 0 ≤ t 1) (hG : ∀ i ≤ n, ∀ j < i, t j ≤ t i → g (R.fl (t i - t j)) = .ok (G i j)) (env : GheEnv K)
    (method : String) (s : GheState K)
    (hin : simulationInput R env method =
      .ok ((List.range n).map (fun k => Q' (k + 1)), (List.range n).map fun k => t (k + 1)))
    (hth : env.thermal p.height = .ok (thermalOf p g)) :
    ∃ e s', localObjective R dot env method p.height s = (.ok e, s') ∧ s'.H = p.height ∧ s'.HPEFT.length = n ∧
      (e ≤ 0 → ∀ i, 1 ≤ i → i ≤ n → (∀ j < i, t j ≤ t i) →
        env.minEFT - ((i + 8 : ℕ) : K) / 2 ^ 52 * p.size G Q i ≤ p.exit G Q i ∧
        p.exit G Q i ≤ env.maxEFT + ((i + 8 : ℕ) : K) / 2 ^ 52 * p.size G Q i) ∧
      ((∀ i, 1 ≤ i → i ≤ n → (∀ j < i, t j ≤ t i) →
        env.minEFT + ((i + 8 : ℕ) : K) / 2 ^ 52 * p.size G Q i ≤ p.exit G Q i ∧
        p.exit G Q i ≤ env.maxEFT - ((i + 8 : ℕ) : K) / 2 ^ 52 * p.size G Q i) → e ≤ 0) := by
  obtain ⟨T, d, hrun, hlen, hT⟩ := C127_temperatures R dot hdot p hp g G n hn Q' Q t hQ0 ht0 hQ hG
  obtain ⟨x1, hx1, -⟩ := (hT 1 le_rfl h0).2 (fun j hj => by
    obtain rfl : j = 0 := by omega
    rw [ht0]; exact ht1)
  have hhead : T.head? = some (some x1) := by rw [List.head?_eq_getElem?]; exact hx1
  obtain ⟨⟨a, ha⟩, b, hb⟩ := extremes_ok hhead
  obtain ⟨m1, m2⟩ := maxNumber_eq_ok ha
  obtain ⟨m3, m4⟩ := minNumber_eq_ok hb
  have key : ∀ z : K, some z ∈ T → ∃ i, 1 ≤ i ∧ i ≤ n ∧ (∀ j < i, t j ≤ t i) ∧
      |z - p.exit G Q i| ≤ ((i + 8 : ℕ) : K) / 2 ^ 52 * p.size G Q i := by
    intro z hz
    obtain ⟨k, hk⟩ := List.mem_iff_getElem?.1 hz
    have hkn : k < n := by
      have := (List.getElem?_eq_some_iff.1 hk).1
      omega
    have hTk := hT (k + 1) (by omega) (by omega)
    rw [Nat.add_sub_cancel, hk] at hTk
    have ho : ∀ j < k + 1, t j ≤ t (k + 1) := by
      intro j hj
      by_contra hlt
      have := hTk.1 ⟨j, hj, not_le.1 hlt⟩
      cases this
    obtain ⟨x, hx, hb⟩ := hTk.2 ho
    obtain rfl := Option.some.inj (Option.some.inj hx)
    exact ⟨k + 1, by omega, by omega, ho, hb⟩
  have hsim : simulate R dot env method { s with H := p.height } =
      (.ok (a, b), { s with H := p.height, HPEFT := T, dTb := d }) := by
    unfold simulate
    rw [St.get_bind, St.lift_ok (div_ok R hp.height.ne'), St.lift_ok hth, St.lift_ok hin]
    dsimp only
    rw [St.lift_ok hrun]
    dsimp only
    rw [St.modify_bind, St.lift_ok ha, St.lift_ok hb]
    rfl
  refine ⟨cost R env.maxEFT env.minEFT a b, { s with H := p.height, HPEFT := T, dTb := d }, ?_, rfl, hlen, ?_, ?_⟩
  · unfold localObjective
    rw [St.modify_bind, St.bind_ok hsim]
    rfl
  · intro he i h1 hi ho
    obtain ⟨c1, c2⟩ := (C127_sign R _ _ _ _).1.1 he
    obtain ⟨x, hx, hb⟩ := (hT i h1 hi).2 ho
    have hmem : some x ∈ T := List.mem_of_getElem? hx
    have h5 := m2 x hmem
    have h6 := m4 x hmem
    have h7 := abs_le.1 hb
    exact ⟨by linarith, by linarith⟩
  · intro hall
    refine (C127_sign R _ _ _ _).1.2 ⟨?_, ?_⟩
    · obtain ⟨i, h1, hi, ho, hb⟩ := key a m1
      have h7 := abs_le.1 hb
      have h8 := (hall i h1 hi ho).2
      linarith
    · obtain ⟨i, h1, hi, ho, hb⟩ := key b m3
      have h7 := abs_le.1 hb
      have h8 := (hall i h1 hi ho).1
      linarith

/-- C127: with the hybrid loads: `q 1, …, q n` in kW that end at the hours `t 1, …, t n`. -/
theorem C127_hybrid [FloorRing K] (R : Rounding K) (dot : List K → List K → K)
    (hdot : ∀ w v : List K, w.length = v.length → Summed R (w.zip v) (dot w v)) (p : Plant K) (hp : p.Sound)
    (g : K → Py K) (G : ℕ → ℕ → K) (n : ℕ) (h0 : 1 ≤ n) (hn : n + 8 ≤ 2 ^ 52) (q t : ℕ → K) (hq0 : q 0 = 0)
    (ht0 : t 0 = 0) (ht1 : 0 ≤ t 1) (hG : ∀ i ≤ n, ∀ j < i, t j ≤ t i → g (R.fl (t i - t j)) = .ok (G i j))
    (env : GheEnv K) (s : GheState K)
    (l0 l1 t0 t1 : K) (hload : env.load = l0 :: l1 :: (List.range n).map fun k => q (k + 1))
    (hhour : env.hour = t0 :: t1 :: (List.range n).map fun k => t (k + 1))
    (hth : env.thermal p.height = .ok (thermalOf p g)) :
    ∃ e s', localObjective R dot env "hybrid" p.height s = (.ok e, s') ∧
      (e ≤ 0 → ∀ i, 1 ≤ i → i ≤ n → (∀ j < i, t j ≤ t i) →
        env.minEFT - ((i + 8 : ℕ) : K) / 2 ^ 52 * p.size G (fun j => q j * 1000) i ≤ p.exit G (fun j => q j * 1000) i ∧
        p.exit G (fun j => q j * 1000) i ≤ env.maxEFT + ((i + 8 : ℕ) : K) / 2 ^ 52 * p.size G (fun j => q j * 1000) i) ∧
      ((∀ i, 1 ≤ i → i ≤ n → (∀ j < i, t j ≤ t i) →
        env.minEFT + ((i + 8 : ℕ) : K) / 2 ^ 52 * p.size G (fun j => q j * 1000) i ≤ p.exit G (fun j => q j * 1000) i ∧
        p.exit G (fun j => q j * 1000) i ≤ env.maxEFT - ((i + 8 : ℕ) : K) / 2 ^ 52 * p.size G (fun j => q j * 1000) i) →
        e ≤ 0) := by
  obtain ⟨e, s', h1, -, -, h2⟩ := C127_decision R dot hdot p hp g G n h0 hn (fun j => mul R (q j) 1000)
    (fun j => q j * 1000) t (by simp [hq0]) ht0 (fun j _ _ => R.err _) ht1 hG env "hybrid" s (by
      unfold simulationInput
      rw [if_pos rfl, hload, hhour]
      simp [Function.comp_def]) hth
  exact ⟨e, s', h1, h2⟩

theorem getElem?_flatten_replicate' (l : List K) (n k : ℕ) (hk : k < n * l.length) :
    (List.replicate n l).flatten[k]? = l[k % l.length]? := by
  induction n generalizing k with
  | zero => omega
  | succ n ih =>
    rw [List.replicate_succ, List.flatten_cons]
    by_cases h : k < l.length
    · rw [List.getElem?_append_left h, Nat.mod_eq_of_lt h]
    · rw [List.getElem?_append_right (by omega), ih (k - l.length) (by rw [Nat.succ_mul] at hk; omega),
        ← Nat.mod_eq_sub_mod (by omega)]

/-- C127: in double precision, with the hourly loads over `y` years of 8760 hours, `Q k` being minus the load of hour `k` of the
year: the differences of the times are then exact, so `G m` is what the g-function answers for `m` hours. -/
theorem C127_hourly [FloorRing K] (dot : List K → List K → K)
    (hdot : ∀ w v : List K, w.length = v.length → Summed Rounding.double (w.zip v) (dot w v)) (p : Plant K) (hp : p.Sound)
    (g : K → Py K) (G : ℕ → K) (y : ℕ) (h0 : 1 ≤ y) (hy : y ≤ 10 ^ 9)
    (hG : ∀ m : ℕ, 1 ≤ m → m ≤ 8760 * y → g (m : K) = .ok (G m)) (env : GheEnv K) (s : GheState K)
    (hmonths : env.endMonth - env.startMonth + 1 = 12 * y) (hlen : env.hourly.length = 8760)
    (hd : ∀ q ∈ env.hourly, double q = q) (Q : ℕ → K) (hQ0 : Q 0 = 0)
    (hQ : ∀ k, env.hourly[k % 8760]? = some (-Q (k + 1))) (hth : env.thermal p.height = .ok (thermalOf p g)) :
    ∃ e s', localObjective Rounding.double dot env "hourly" p.height s = (.ok e, s') ∧
      (e ≤ 0 → ∀ i, 1 ≤ i → i ≤ 8760 * y →
        env.minEFT - ((i + 8 : ℕ) : K) / 2 ^ 52 * p.size (fun i j => G (i - j)) Q i ≤ p.exit (fun i j => G (i - j)) Q i ∧
        p.exit (fun i j => G (i - j)) Q i ≤ env.maxEFT + ((i + 8 : ℕ) : K) / 2 ^ 52 * p.size (fun i j => G (i - j)) Q i) ∧
      ((∀ i, 1 ≤ i → i ≤ 8760 * y →
        env.minEFT + ((i + 8 : ℕ) : K) / 2 ^ 52 * p.size (fun i j => G (i - j)) Q i ≤ p.exit (fun i j => G (i - j)) Q i ∧
        p.exit (fun i j => G (i - j)) Q i ≤ env.maxEFT - ((i + 8 : ℕ) : K) / 2 ^ 52 * p.size (fun i j => G (i - j)) Q i) →
        e ≤ 0) := by
  obtain ⟨-, L, hin, hL⟩ := C123_hourly env (n := 12 * y) hmonths.symm (by omega) (by omega) hd
  have hceil : ⌈(((12 * y : ℤ)) : K) / 12⌉.toNat = y := by
    push_cast
    rw [mul_div_cancel_left₀ _ (by norm_num)]
    simp
  rw [hceil] at hL
  have hLlen : L.length = 8760 * y := by
    rw [hL, length_flatten_replicate, List.length_map, hlen, mul_comm]
  have hLk : ∀ k < 8760 * y, L[k]? = some (Q (k + 1)) := by
    intro k hk
    rw [hL, getElem?_flatten_replicate' _ _ _ (by rw [List.length_map, hlen]; omega), List.length_map, hlen,
      List.getElem?_map, hQ k]
    simp
  have hLe : L = (List.range (8760 * y)).map fun k => Q (k + 1) := by
    apply List.ext_getElem?
    intro k
    by_cases hk : k < 8760 * y
    · rw [hLk k hk, List.getElem?_map, List.getElem?_range hk]
      rfl
    · rw [List.getElem?_eq_none (by omega), List.getElem?_eq_none (by simp; omega)]
  have hte : ((pyRange 1 (730 * (12 * (y : ℤ)) + 1)).map fun i : ℤ => (i : K)) =
      (List.range (8760 * y)).map fun k => ((k + 1 : ℕ) : K) := by
    unfold pyRange
    rw [List.map_map, show (730 * (12 * (y : ℤ)) + 1 - 1).toNat = 8760 * y by omega]
    apply List.map_congr_left
    intro k _
    simp [add_comm]
  rw [hLe, hte] at hin
  obtain ⟨e, s', h1, -, -, h2⟩ := C127_decision Rounding.double dot hdot p hp g (fun i j => G (i - j)) (8760 * y) (by omega)
    (by omega) Q Q (fun i => (i : K)) hQ0 (by simp) (fun j _ _ => by
      rw [sub_self, abs_zero]
      positivity) (by simp) (fun i hi j hj _ => by
      have e : ((i : K) - (j : K)) = (((i - j : ℕ) : ℤ) : K) := by
        rw [Int.cast_natCast, Nat.cast_sub hj.le]
      rw [e, Rounding.double.int _ (by rw [abs_le]; omega), Int.cast_natCast]
      exact hG (i - j) (by omega) (by omega)) env "hourly" s hin hth
  refine ⟨e, s', h1, fun he i h1 hi => h2.1 he i h1 hi fun j hj => by exact_mod_cast hj.le,
    fun hall => h2.2 fun i h1 hi _ => hall i h1 hi⟩

/-! ### examples -/

/-- adding up from the left -/
def dotFromLeft (R : Rounding K) (w v : List K) : K := (w.zip v).foldl (fun s p => R.fl (s + R.fl (p.1 * p.2))) 0

theorem dotFromLeft_summed (R : Rounding K) (w v : List K) : Summed R (w.zip v) (dotFromLeft R w v) := by
  unfold dotFromLeft
  generalize w.zip v = l
  induction l using List.reverseRecOn with
  | nil => exact .nil
  | append_singleton l p ih =>
    rw [List.foldl_append]
    exact .sum ih (.product p.1 p.2) (List.Perm.refl _)

/-- with a fused multiplication and addition, from the right -/
example (R : Rounding K) (w v : List K) : Summed R (w.zip v) ((w.zip v).foldr (fun p s => R.fl (p.1 * p.2 + s)) 0) := by
  generalize w.zip v = l
  induction l with
  | nil => exact .nil
  | cons p l ih => exact .fused p.1 p.2 ih

/-- two sums, of the even and of the odd places, as a vector unit adds -/
example (R : Rounding K) (a b c d : K) : Summed R [(a, a), (b, b), (c, c), (d, d)]
    (R.fl (R.fl (R.fl (a * a) + R.fl (c * c)) + R.fl (R.fl (b * b) + R.fl (d * d)))) :=
  .sum (.sum (.product a a) (.product c c) (List.Perm.refl _)) (.sum (.product b b) (.product d d) (List.Perm.refl _))
    (by
      show [(a, a), (b, b), (c, c), (d, d)].Perm [(a, a), (c, c), (b, b), (d, d)]
      exact List.Perm.cons _ (List.Perm.swap _ _ _))

/-- the plant of the example: one hundred metres, 10 boreholes -/
def exPlant : Plant ℚ := ⟨10, 100, 12, 10, 1 / 10, 1 / 5, 4000⟩

theorem exPlant_sound : exPlant.Sound := by constructor <;> decide +kernel

def exGheEnv (limit : ℚ) : GheEnv ℚ :=
  { bSpacing := 5, thermal := fun H => .ok (thermalOf { exPlant with height := H } fun x => .ok (x / 10)),
    load := [0, 0, 7, 11, 7], hour := [0, 0, 1, 5 / 2, 7], hourly := [], startMonth := 1, endMonth := 12,
    maxEFT := limit, minEFT := 5, minHeight := 50, maxHeight := 150 }

/-- the loads of the example in kW, and its times -/
def exLoads (j : ℕ) : ℚ := [0, 7, 11, 7].getD j 0
def exTimes (j : ℕ) : ℚ := [0, 1, 5 / 2, 7].getD j 0

example : ∃ e s', localObjective dbl (dotFromLeft dbl) (exGheEnv 12) "hybrid" 100 { H := 0 } = (.ok e, s') ∧
    (e ≤ 0 → ∀ i, 1 ≤ i → i ≤ 3 → (∀ j < i, exTimes j ≤ exTimes i) →
      5 - ((i + 8 : ℕ) : ℚ) / 2 ^ 52 * exPlant.size (fun i j => dbl.fl (exTimes i - exTimes j) / 10) (fun j => exLoads j * 1000) i ≤
        exPlant.exit (fun i j => dbl.fl (exTimes i - exTimes j) / 10) (fun j => exLoads j * 1000) i ∧
      exPlant.exit (fun i j => dbl.fl (exTimes i - exTimes j) / 10) (fun j => exLoads j * 1000) i ≤
        12 + ((i + 8 : ℕ) : ℚ) / 2 ^ 52 * exPlant.size (fun i j => dbl.fl (exTimes i - exTimes j) / 10) (fun j => exLoads j * 1000) i) := by
  obtain ⟨e, s', h1, h2, -⟩ := C127_hybrid dbl (dotFromLeft dbl) (fun w v _ => dotFromLeft_summed dbl w v) exPlant exPlant_sound
    (fun x => .ok (x / 10)) (fun i j => dbl.fl (exTimes i - exTimes j) / 10) 3 (by norm_num) (by norm_num) exLoads exTimes
    (by decide +kernel) (by decide +kernel) (by decide +kernel) (fun _ _ _ _ _ => rfl) (exGheEnv 12) { H := 0 } 0 0 0 0 (by decide +kernel)
    (by decide +kernel) rfl
  exact ⟨e, s', h1, h2⟩

/-- the error is below 1e-12 K there, and the temperatures are within the limits by much more -/
example : (localObjective dbl (dotFromLeft dbl) (exGheEnv 12) "hybrid" 100 { H := 0 }).1.toOption.any (· ≤ 0) = true ∧
    (localObjective dbl (dotFromLeft dbl) (exGheEnv 10) "hybrid" 100 { H := 0 }).1.toOption.any (0 < ·) = true ∧
    ∀ i ∈ [1, 2, 3], ((i + 8 : ℕ) : ℚ) / 2 ^ 52 *
      exPlant.size (fun i j => dbl.fl (exTimes i - exTimes j) / 10) (fun j => exLoads j * 1000) i < 1 / 10 ^ 12 := by
  decide +kernel

end Ghedt.Rounded
