import Verif.Lemmas.Radial
import Verif.Lemmas.HeatError

namespace Ghedt

variable {K : Type} [Field K] [LinearOrder K] [IsStrictOrderedRing K]

/-- linear interpolation of increasing data is increasing -/
theorem interpNodes_mono (pts : List (K × K)) :
    ∀ (p : K × K) (v v' : K), (p :: pts).IsChain (fun a b => a.1 ≤ b.1 ∧ a.2 < b.2) →
      p.1 ≤ v → v ≤ v' → v' ≤ ((p :: pts).getLast (by simp)).1 →
      ∃ d d', interpNodes (p :: pts) v = .ok d ∧ interpNodes (p :: pts) v' = .ok d' ∧ d ≤ d' := by
  induction pts with
  | nil =>
    intro p v v' _ h1 h2 h3
    simp only [List.getLast_singleton] at h3
    have e : v = p.1 := le_antisymm (h2.trans h3) h1
    have e' : v' = p.1 := le_antisymm h3 (h1.trans h2)
    refine ⟨p.2, p.2, ?_, ?_, le_rfl⟩ <;> unfold interpNodes
    · rw [if_pos e]
    · rw [if_pos e']
  | cons q rest ih =>
    intro p v v' hc h1 h2 h3
    have hc0 := hc
    rw [List.isChain_cons_cons] at hc
    obtain ⟨⟨hx, hy⟩, hc'⟩ := hc
    rw [List.getLast_cons (by simp)] at h3
    unfold interpNodes
    rw [if_neg (not_lt.mpr h1), if_neg (not_lt.mpr (h1.trans h2))]
    by_cases hv' : v' < q.1
    · have hv : v < q.1 := h2.trans_lt hv'
      rw [if_pos hv, if_pos hv']
      have hpos : 0 < q.1 - p.1 := by linarith
      have hs : 0 < (q.2 - p.2) / (q.1 - p.1) := div_pos (by linarith) hpos
      refine ⟨_, _, rfl, rfl, ?_⟩
      have := mul_le_mul_of_nonneg_left (show v - p.1 ≤ v' - p.1 by linarith) hs.le
      linarith
    · rw [if_neg hv']
      by_cases hv : v < q.1
      · rw [if_pos hv]
        obtain ⟨d', e1, e2, -, -⟩ := interpNodes_between rest q v' hc' (not_lt.mp hv') h3
        refine ⟨_, d', rfl, e1, le_trans ?_ e2⟩
        have hpos : 0 < q.1 - p.1 := by linarith
        have hs : 0 < (q.2 - p.2) / (q.1 - p.1) := div_pos (by linarith) hpos
        have h3 : (q.2 - p.2) / (q.1 - p.1) * (v - p.1) ≤ (q.2 - p.2) / (q.1 - p.1) * (q.1 - p.1) :=
          mul_le_mul_of_nonneg_left (by linarith) hs.le
        rw [div_mul_cancel₀ _ hpos.ne'] at h3
        linarith
      · rw [if_neg hv]
        exact ih q v v' hc' (not_lt.mp hv) h2 h3

/-- `interp1d` on data that are increasing in both coordinates -/
theorem interp1d_mono {x y : ℕ → K} {N : ℕ} (hx : ∀ k, k + 1 < N → x k < x (k + 1))
    (hy : ∀ k, k + 1 < N → y k < y (k + 1)) {v v' : K} (hN : 0 < N) (h1 : x 0 ≤ v) (h2 : v ≤ v')
    (h3 : v' ≤ x (N - 1)) :
    ∃ d d', interp1d ((List.range N).map x) ((List.range N).map y) v = .ok d ∧
      interp1d ((List.range N).map x) ((List.range N).map y) v' = .ok d' ∧ d ≤ d' := by
  have hxm : ∀ i j, i ≤ j → j < N → x i ≤ x j := by
    intro i j hij
    induction j with
    | zero => intro _; rw [Nat.le_zero.1 hij]
    | succ j ih =>
      intro hj
      rcases Nat.lt_or_ge j i with h | h
      · obtain rfl : i = j + 1 := by omega
        exact le_rfl
      · exact (ih h (by omega)).trans (hx j hj).le
  have hi : ∀ w, interp1d ((List.range N).map x) ((List.range N).map y) w
      = interpNodes (((List.range N).map fun k => (x k, y k)).insertionSort (fun a b => a.1 ≤ b.1)) w := by
    intro w
    unfold interp1d
    rw [if_neg (by simp), List.zip_map']
  rw [hi, hi, List.Pairwise.insertionSort_eq]
  · obtain ⟨n, rfl⟩ : ∃ n, N = n + 1 := ⟨N - 1, by omega⟩
    have hch : ((List.range (n + 1)).map fun k => (x k, y k)).IsChain
        (fun a b : K × K => a.1 ≤ b.1 ∧ a.2 < b.2) := by
      rw [List.isChain_iff_getElem]
      intro i hi
      simp only [List.length_map, List.length_range] at hi
      simp only [List.getElem_map, List.getElem_range]
      exact ⟨(hx i hi).le, hy i hi⟩
    have hlast : ∀ h, (((List.range (n + 1)).map fun k => (x k, y k)).getLast h).1 = x n := by
      intro h
      rw [List.getLast_eq_getElem]
      simp
    rw [List.range_succ_eq_map, List.map_cons] at hch hlast ⊢
    refine interpNodes_mono _ _ v v' hch h1 h2 ?_
    rw [hlast]
    exact h3
  · rw [List.pairwise_map]
    refine List.Pairwise.imp_of_mem ?_ List.pairwise_lt_range
    intro a b _ hb hab
    exact hxm a b hab.le (List.mem_range.1 hb)

end Ghedt

namespace Ghedt.Radial
open Real Ghedt.Spec Ghedt.GL

noncomputable section

theorem setTemps_get {cells : List Cell} {b : List ℝ} (h : b.length = cells.length) {i : ℕ}
    (hi : i < cells.length) :
    (setTemps cells b).getD i Cell.zero = { cells.getD i Cell.zero with temp := b.getD i 0 } := by
  unfold setTemps
  rw [getD_zipWith _ hi (by omega) Cell.zero 0]

theorem setTemps_length {cells : List Cell} {b : List ℝ} (h : b.length = cells.length) :
    (setTemps cells b).length = cells.length := by
  unfold setTemps; rw [List.length_zipWith]; omega

theorem setTemps_setTemps {cells : List Cell} {a b : List ℝ} (ha : a.length = cells.length)
    (hb : b.length = cells.length) : setTemps (setTemps cells a) b = setTemps cells b := by
  apply List.ext_getElem
  · rw [setTemps_length (by rw [setTemps_length ha]; exact hb), setTemps_length ha, setTemps_length hb]
  · intro i h1 h2
    simp [setTemps]

theorem setTemps_cond {cells : List Cell} {b : List ℝ} (h : b.length = cells.length) {i : ℕ}
    (hi : i + 1 < cells.length) : condOf (setTemps cells b) i = condOf cells i := by
  unfold condOf
  rw [setTemps_get h (by omega), setTemps_get h hi]
  rfl

theorem setTemps_cap {cells : List Cell} {b : List ℝ} (h : b.length = cells.length) {i : ℕ} (dt : ℝ)
    (hi : i < cells.length) : capOf dt (setTemps cells b) i = capOf dt cells i := by
  unfold capOf
  rw [setTemps_get h hi]
  rfl

theorem setTemps_temp {cells : List Cell} {b : List ℝ} (h : b.length = cells.length) {i : ℕ}
    (hi : i < cells.length) : tempOf (setTemps cells b) i = b.getD i 0 := by
  unfold tempOf
  rw [setTemps_get h hi]

theorem setTemps_grid {cells : List Cell} {b : List ℝ} (h : b.length = cells.length) (hg : Grid cells) :
    Grid (setTemps cells b) := by
  refine ⟨by rw [setTemps_length h]; exact hg.1, ?_⟩
  intro i c hc
  have hi : i < cells.length := by
    rw [← setTemps_length h]
    by_contra hcon
    rw [List.getElem?_eq_none (by omega)] at hc
    cases hc
  have e := setTemps_get h hi
  rw [List.getD_eq_getElem?_getD, hc, Option.getD_some] at e
  obtain ⟨p, q⟩ := hg.get hi
  rw [e]
  exact ⟨⟨p.inner, p.center, p.outer, p.k, p.rhoCp, p.volume⟩, q⟩

theorem HeatStep.congr_coeff {n : ℕ} {E C E' C' : ℕ → ℝ} {q : ℝ} {T x : ℕ → ℝ}
    (h : HeatStep n E C q T x) (hE : ∀ i, i + 1 < n → E' i = E i) (hC : ∀ i, i + 1 < n → C' i = C i) :
    HeatStep n E' C' q T x := by
  refine ⟨fun i hi => ?_, h.2⟩
  rw [hE i hi, hC i hi, h.1 i hi]
  split_ifs with h0
  · rfl
  · rw [hE (i - 1) (by omega)]

/-- time of sample `k` -/
def sampleTime (k : ℕ) : ℝ := 1 / 10 ^ 12 + 120 * k

/-- loop state after `k` steps -/
def stateAt (r : Radial) (Rb : ℝ) (cells : List Cell) (H : ℕ → ℕ → ℝ) (k : ℕ) : Sim where
  time := 1 / 10 ^ 12 - 120 + 120 * k
  cells := setTemps cells ((List.range cells.length).map (H k))
  g := (List.range k).map fun j => r.c0 * ((H (j + 1) 0 - r.initTemp) - Rb)
  lntts := (List.range k).map fun j => log (sampleTime j / r.ts)

variable {solve : Solver} {r : Radial} {cells : List Cell} {H : ℕ → ℕ → ℝ}

theorem getD_map_range (f : ℕ → ℝ) {n i : ℕ} (hi : i < n) : ((List.range n).map f).getD i 0 = f i := by
  rw [List.getD_eq_getElem?_getD, List.getElem?_map, List.getElem?_range hi]
  rfl

/-- the temperatures `H` are those the solver computes, step after step -/
def Follows (solve : Solver) (cells : List Cell) (H : ℕ → ℕ → ℝ) : Prop :=
  ∀ k, ∃ sys, assemble (setTemps cells ((List.range cells.length).map (H k))) 1 120 = .ok sys ∧
    solve sys.dl sys.d sys.du sys.b = (List.range cells.length).map (H (k + 1))

/-- an exact solver computes the heat conduction -/
theorem follows_exact (hsol : ExactSolver solve) (hg : Grid cells) {init : ℝ}
    (hH : HeatHistory cells.length (condOf cells) (capOf 120 cells) 1 init H) : Follows solve cells H := by
  intro k
  have hl : ((List.range cells.length).map (H k)).length = cells.length := by simp
  have hl' : ((List.range cells.length).map (H (k + 1))).length = cells.length := by simp
  have hn := hg.1
  have hp := hg.pos (show (0 : ℝ) < 120 by norm_num)
  have hg' := setTemps_grid hl hg
  obtain ⟨sys, hs, l1, l2, l3, l4, -⟩ := assemble_eq hg' 1 (dt := 120)
  have hex := hsol sys.dl sys.d sys.du sys.b (by omega) (by omega) (by omega)
    (assemble_unique hg' 1 (by norm_num) hs)
  rw [assemble_solves hg' 1 (by norm_num) hs, setTemps_length hl] at hex
  obtain ⟨e1, e2⟩ := hex
  have e3 := HeatStep.congr_coeff e2 (E' := condOf cells) (C' := capOf 120 cells)
    (fun i hi => (setTemps_cond hl hi).symm) (fun i hi => (setTemps_cap hl 120 (by omega)).symm)
  have e4 := e3.congr (T' := H k) (by omega) (x' := fun i => (solve sys.dl sys.d sys.du sys.b).getD i 0)
    (fun i hi => by rw [setTemps_temp hl hi, getD_map_range _ hi]) (fun _ _ => rfl)
  have e5 := e4.unique hp (hH.2 k)
  refine ⟨sys, hs, ?_⟩
  apply List.ext_getElem
  · rw [e1, hl']
  · intro i h1 h2
    have := e5 i (by omega)
    simp only [List.getD_eq_getElem?_getD, List.getElem?_eq_getElem h1, Option.getD_some] at this
    rw [this]; simp

/-- the temperatures a solver computes -/
def computed (solve : Solver) (cells : List Cell) (init : ℝ) : ℕ → ℕ → ℝ
  | 0 => fun _ => init
  | k + 1 => fun i => match assemble (setTemps cells ((List.range cells.length).map (computed solve cells init k))) 1 120 with
    | .ok sys => (solve sys.dl sys.d sys.du sys.b).getD i 0
    | .error _ => 0

theorem computed_follows (hsol : SizedSolver solve) (hg : Grid cells) (init : ℝ) :
    Follows solve cells (computed solve cells init) := by
  intro k
  have hl : ((List.range cells.length).map (computed solve cells init k)).length = cells.length := by simp
  have hg' := setTemps_grid hl hg
  obtain ⟨sys, hs, l1, l2, l3, l4, -⟩ := assemble_eq hg' 1 (dt := 120)
  have hex := hsol sys.dl sys.d sys.du sys.b (by omega) (by omega) (by omega)
    (assemble_unique hg' 1 (by norm_num) hs)
  refine ⟨sys, hs, ?_⟩
  rw [l4, setTemps_length hl] at hex
  apply List.ext_getElem
  · rw [hex]; simp
  · intro i h1 h2
    rw [List.getElem_map, List.getElem_range]
    unfold computed
    simp only [hs]
    rw [List.getD_eq_getElem?_getD, List.getElem?_eq_getElem h1, Option.getD_some]

/-- one equation, multiplied by the capacity -/
theorem near_row {C E F a x y T q ε : ℝ} (hC : 0 < C) (hE : 0 < E) (hF : 0 ≤ F) (hε : 0 ≤ ε)
    (h : |F / C * a + (-F / C - E / C - 1) * x + E / C * y - (-T - q / C)| ≤
      ε * (|F / C * a| + |(-F / C - E / C - 1) * x| + |E / C * y| + |-T - q / C|)) :
    |q + F * (a - x) - E * (x - y) - C * (x - T)| ≤
      ε * (|q| + F * (|a| + |x|) + E * (|x| + |y|) + C * (|x| + |T|)) := by
  have h3 := mul_le_mul_of_nonneg_left h hC.le
  have e : C * |F / C * a + (-F / C - E / C - 1) * x + E / C * y - (-T - q / C)| =
      |q + F * (a - x) - E * (x - y) - C * (x - T)| := by
    rw [← abs_of_pos hC, ← abs_mul, abs_of_pos hC]
    congr 1
    field_simp
    ring
  rw [e, mul_left_comm] at h3
  refine h3.trans (mul_le_mul_of_nonneg_left ?_ hε)
  have t1 : |F / C * a| = F / C * |a| := by rw [abs_mul, abs_of_nonneg (by positivity)]
  have t2 : |(-F / C - E / C - 1) * x| = (F / C + E / C + 1) * |x| := by
    rw [abs_mul, show -F / C - E / C - 1 = -(F / C + E / C + 1) by ring, abs_neg, abs_of_nonneg (by positivity)]
  have t3 : |E / C * y| = E / C * |y| := by rw [abs_mul, abs_of_nonneg (by positivity)]
  have t4 : |-T - q / C| ≤ |T| + |q| / C := by
    have := abs_sub (-T) (q / C)
    rwa [abs_neg, abs_div, abs_of_pos hC] at this
  rw [t1, t2, t3]
  refine (mul_le_mul_of_nonneg_left (add_le_add_right t4 _) hC.le).trans (le_of_eq ?_)
  field_simp
  ring

/-- a solver with relative error computes the heat conduction up to that error -/
theorem follows_near {ε : ℝ} (hε : 0 ≤ ε) (hsol : NearSolver ε solve) (hg : Grid cells) (hf : Follows solve cells H) (k : ℕ) :
    NearStep cells.length (condOf cells) (capOf 120 cells) 1 ε (H k) (H (k + 1)) := by
  have hl : ((List.range cells.length).map (H k)).length = cells.length := by simp
  have hn := hg.1
  have hp := hg.pos (show (0 : ℝ) < 120 by norm_num)
  have hg' := setTemps_grid hl hg
  obtain ⟨sys, hs, hsv⟩ := hf k
  obtain ⟨sys', e, l1, l2, l3, l4, r1, r2, r3, r4, r5, r6, r7⟩ := assemble_eq hg' 1 (dt := 120)
  rw [hs] at e
  cases e
  obtain ⟨x1, x2⟩ := hsol sys.dl sys.d sys.du sys.b (by omega) (by omega) (by omega)
    (assemble_unique hg' 1 (by norm_num) hs)
  rw [hsv] at x2
  rw [l4] at x2
  rw [setTemps_length hl] at *
  have gx : ∀ i < cells.length, ((List.range cells.length).map (H (k + 1))).getD i 0 = H (k + 1) i :=
    fun i hi => getD_map_range _ hi
  have gT : ∀ i < cells.length, ((List.range cells.length).map (H k)).getD i 0 = H k i :=
    fun i hi => getD_map_range _ hi
  constructor
  · intro i hi
    have hC := hp.2 i hi
    have hE := hp.1 i hi
    have := (x2 i (by omega)).1
    rw [if_pos hi, if_pos hi, r5 i hi, r6 i hi, r7 i hi, gx i (by omega), gx (i + 1) hi, setTemps_temp hl (by omega),
      gT i (by omega), setTemps_cap hl 120 (by omega), setTemps_cond hl hi] at this
    rcases i with _ | i
    · simp only [lt_irrefl, if_false, if_true] at this ⊢
      have := near_row (a := 0) (q := 1) (F := 0) hC hE le_rfl hε (by simpa using this)
      simpa using this
    · have e1 : 0 < i + 1 := by omega
      have e2 : ¬ i + 1 = 0 := by omega
      have e3 : i + 1 - 1 = i := by omega
      simp only [if_pos e1, if_neg e2, e3] at this ⊢
      rw [r4 i hi, gx i (by omega), setTemps_cap hl 120 (by omega), setTemps_cond hl (by omega), zero_div, sub_zero] at this
      have := near_row (q := 0) hC hE (hp.1 i (by omega)).le hε (by simpa using this)
      simpa using this
  · have := (x2 (cells.length - 1) (by omega)).2
      (fun _ => by rw [show cells.length - 1 - 1 = cells.length - 2 by omega]; exact r1) r2 (fun h => absurd h (by omega))
    rw [gx _ (by omega), r3, setTemps_temp hl (by omega), getD_map_range _ (by omega)] at this
    exact this

theorem simStep_eq (hts : 0 < r.ts) (Rb : ℝ) (hg : Grid cells) (hF : Follows solve cells H) (k : ℕ) :
    simStep solve r Rb false (stateAt r Rb cells H k) = .ok (stateAt r Rb cells H (k + 1)) := by
  have hl : ((List.range cells.length).map (H k)).length = cells.length := by simp
  have hl' : ((List.range cells.length).map (H (k + 1))).length = cells.length := by simp
  have hn := hg.1
  obtain ⟨sys, hs, e6⟩ := hF k
  unfold simStep
  dsimp only [stateAt]
  rw [hs, Except.ok_bind, e6, setTemps_setTemps hl hl', if_neg (by simp)]
  have hlen := setTemps_length hl'
  rw [show (0 : ℤ) = ((0 : ℕ) : ℤ) from rfl, getD_ok (by omega) Cell.zero,
    Except.ok_bind, setTemps_get hl' (by omega), getD_map_range _ (by omega), pyDiv_ok hts.ne', Except.ok_bind]
  have ht : (1 / 10 ^ 12 - 120 + 120 * (k : ℝ)) + 120 = sampleTime k := by unfold sampleTime; ring
  rw [ht]
  unfold pyLog
  rw [if_pos (div_pos (by unfold sampleTime; positivity) hts), Except.ok_bind, Except.pure_eq]
  refine congrArg Except.ok ?_
  congr 1
  · unfold sampleTime; push_cast; ring
  · rw [List.range_succ, List.map_append]; simp
  · rw [List.range_succ, List.map_append]; simp

/-- number of time steps: the least that reaches the final time -/
theorem steps_exist (final : ℝ) : ∃ N : ℕ, 1 ≤ N ∧ final ≤ sampleTime N ∧
    ∀ k, 1 ≤ k → k < N → sampleTime k < final := by
  classical
  have hex : ∃ N : ℕ, 1 ≤ N ∧ final ≤ sampleTime N := by
    obtain ⟨N, hN⟩ := exists_nat_ge final
    refine ⟨N + 1, by omega, ?_⟩
    unfold sampleTime
    push_cast
    have : (0 : ℝ) ≤ N := by positivity
    have : (0 : ℝ) < 1 / 10 ^ 12 := by positivity
    linarith
  refine ⟨Nat.find hex, (Nat.find_spec hex).1, (Nat.find_spec hex).2, ?_⟩
  intro k h1 h2
  have := Nat.find_min hex h2
  push Not at this
  exact this h1

theorem simLoop_eq {Rb final : ℝ} (hts : 0 < r.ts) (hg : Grid cells) (hF : Follows solve cells H) {N : ℕ}
    (h1 : final ≤ sampleTime N) (h2 : ∀ k, 1 ≤ k → k < N → sampleTime k < final) :
    ∀ fuel k, k < N → N ≤ k + fuel →
      simLoop solve r Rb final false fuel (stateAt r Rb cells H k) = .ok (stateAt r Rb cells H N) := by
  intro fuel
  induction fuel with
  | zero => intros; omega
  | succ fuel ih =>
    intro k hk hf
    unfold simLoop
    rw [simStep_eq hts Rb hg hF k, Except.ok_bind]
    have ht : (stateAt r Rb cells H (k + 1)).time = sampleTime (k + 1) - 120 := by
      unfold stateAt sampleTime; push_cast; ring
    rw [ht]
    rcases Nat.lt_or_ge (k + 1) N with hlt | hge
    · rw [if_neg (by have := h2 (k + 1) (by omega) hlt; intro h; linarith)]
      exact ih (k + 1) hlt (by omega)
    · obtain rfl : N = k + 1 := by omega
      rw [if_pos (by linarith)]
      rfl

/-- the grid of a tube, as `calc_sts_g_functions` builds it -/
def gridOf (u : Tube) : List Cell :=
  (List.range 535).map (gridCell u 20 (u.Rp / 2) (u.Rf / 2) (u.Rb - u.Rf / 2))

theorem gridOf_length (u : Tube) : (gridOf u).length = 535 := by simp [gridOf]

theorem gridOf_grid {u : Tube} (hu : u.Sound) : Grid (gridOf u) := by
  refine ⟨by rw [gridOf_length]; norm_num, ?_⟩
  intro i c hc
  unfold gridOf at hc
  rw [List.getElem?_map] at hc
  obtain ⟨j, hj, rfl⟩ := Option.map_eq_some_iff.1 hc
  obtain rfl : j = i := by
    have := List.getElem?_eq_some_iff.1 hj
    obtain ⟨h, e⟩ := this
    rw [List.getElem_range] at e
    exact e.symm
  exact gridCell_phys hu (by linarith [hu.Rp]) (by linarith [hu.Rf]) (by linarith [hu.Rb]) j

theorem gridCell_temp (u : Tube) (T Rp Rf Rtg : ℝ) (j : ℕ) : (gridCell u T Rp Rf Rtg j).temp = T := by
  unfold gridCell
  dsimp only
  split_ifs <;> rfl

theorem gridOf_temps (u : Tube) {b : List ℝ} (hb : b.length = 535) (h : ∀ i < 535, b.getD i 0 = 20) :
    setTemps (gridOf u) b = gridOf u := by
  have hl : b.length = (gridOf u).length := by rw [gridOf_length, hb]
  apply List.ext_getElem
  · exact setTemps_length hl
  · intro i h1 h2
    rw [gridOf_length] at h2
    have := h i h2
    rw [List.getD_eq_getElem?_getD, List.getElem?_eq_getElem (by omega), Option.getD_some] at this
    simp only [setTemps, List.getElem_zipWith, this]
    have e : ((gridOf u)[i]'(by rw [gridOf_length]; exact h2)).temp = 20 := by
      simp only [gridOf, List.getElem_map]
      exact gridCell_temp _ _ _ _ _ _
    rw [← e]

theorem calcSts_eq {u : Tube} (hu : u.Sound) (final : Option ℝ) (hF : Follows solve (gridOf u) H)
    (hF0 : ∀ i < 535, H 0 i = 20) {N : ℕ}
    (h0 : 1 ≤ N) (h1 : final.getD (radialOf u 20).calcTime ≤ sampleTime N)
    (h2 : ∀ k, 1 ≤ k → k < N → sampleTime k < final.getD (radialOf u 20).calcTime) {fuel : ℕ} (hf : N ≤ fuel) :
    calcSts solve u final false fuel = .ok (radialOf u 20,
      (List.range N).map (fun j => log (sampleTime j / (radialOf u 20).ts)),
      (List.range N).map (fun j => 2 * π * u.kSoil * ((H (j + 1) 0 - 20) - u.Rb))) := by
  unfold calcSts
  dsimp only
  rw [mkRadial_eq hu, Except.ok_bind,
    fill_eq hu (by linarith [hu.Rp]) (by linarith [hu.Rf]) (by linarith [hu.Rb])
      (by rw [List.length_replicate]; rfl), Except.ok_bind]
  change (simLoop solve (radialOf u 20) u.Rb _ false fuel ⟨_, gridOf u, [], []⟩ >>= _) = _
  have hs : (⟨1 / 10 ^ 12 - 120, gridOf u, [], []⟩ : Sim) = stateAt (radialOf u 20) u.Rb (gridOf u) H 0 := by
    have e : setTemps (gridOf u) ((List.range (gridOf u).length).map (H 0)) = gridOf u := by
      rw [gridOf_length]
      refine gridOf_temps u (by rw [List.length_map, List.length_range]) fun i hi => ?_
      rw [getD_map_range _ hi]
      exact hF0 i hi
    unfold stateAt
    rw [e, List.range_zero, List.map_nil, List.map_nil, Nat.cast_zero, mul_zero, add_zero]
  rw [hs, simLoop_eq (ts_pos hu 20) (gridOf_grid hu) hF h1 h2
    fuel 0 (by omega) (by omega), Except.ok_bind]
  rfl

end

end Ghedt.Radial
