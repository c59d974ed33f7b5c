import Verif.Lemmas.WholeMake
import Verif.Props.WholeSearch
import Mathlib.Analysis.Complex.ExponentialBounds

/-!
# Making an exchanger, simulating it, and finding a field (C95, C96)

C93 says what `find_design` returns if it returns.  Here: for which inputs it does.
-/

set_option linter.unusedSectionVars false

namespace Ghedt.WholeSearch
open Real Ghedt.GHE Ghedt.Bhe Ghedt.Radial Ghedt.Whole Ghedt.Search Ghedt.Utilities Ghedt.Spec

noncomputable section

variable {p : Problem} {f : Field} {H : ℝ} {bhe : Exchanger} {s : UTube}

/-! ## C95 — making an exchanger -/

/-- C95: for usable input an exchanger is made, without an exception.  It has the field, height, media, radius
and burial depth given, the flow rate that falls to each borehole, the limits given, and a hybrid load as long as
its list of hours, which ends with the last hour of the last month. -/
theorem C95_made (h : Usable p f H bhe s) :
    ∃ x, fresh p f H = .ok x ∧ x.env.db.locations = f ∧ x.state.bhe = bhe ∧ x.state.bheEq = s ∧
      Whole.borehole bhe = { p.borehole with H := H } ∧ mediaOf bhe = p.media ∧
      flowOf bhe = (if p.flow = "borehole" then p.V else p.V / f.length) / 1000 * p.media.fluid.rho ∧
      boreholeSpacing p.borehole.rb f = .ok x.env.bSpacing ∧ x.env.maxEFT = p.maxEFT ∧ x.env.minEFT = p.minEFT ∧
      x.env.minHeight = p.minHeight ∧ x.env.maxHeight = p.maxHeight ∧ x.env.hourly = p.hourly ∧
      x.env.load.length = x.env.hour.length ∧ x.env.hour.getLast? = some (hoursOf p.endMonth.toNat : ℝ) := by
  obtain ⟨B, c, sts, cl, hl, hy, hB, hc, hcl, h1, h2, h3, h4, h5, hf⟩ := fresh_ok h
  obtain ⟨-, hfl, -⟩ := makeExchanger_data h.exchanger h.known
  obtain ⟨m1, m2⟩ := h.months
  obtain ⟨a, ha⟩ : ∃ a : ℕ, p.startMonth = a := ⟨p.startMonth.toNat, by omega⟩
  obtain ⟨b, hb⟩ : ∃ b : ℕ, p.endMonth = b := ⟨p.endMonth.toNat, by omega⟩
  obtain ⟨f1, f2, f3, hy', h4', h6⟩ := GL.C63_hybrid h2 h3 (start := a) (finish := b) (by omega) (by omega)
  rw [← ha, ← hb, h4] at h4'
  cases h4'
  obtain ⟨l1, -, -, -, l2⟩ := GL.C63_aligned f1 f2 f3 (by omega) (by omega) h6
  refine ⟨_, hf, rfl, rfl, rfl, h.borehole, (fresh_new hf).media, hfl, h5, rfl, rfl, rfl, rfl, rfl, l1, ?_⟩
  rw [hb]
  exact l2

/-- C95: a field without boreholes is refused (`IndexError`), unless the flow rate is given for the whole field
(`ZeroDivisionError`); another kind of flow rate is refused with `ValueError`. -/
theorem C95_refused :
    (p.flow = "borehole" → fresh p [] H = .error .indexError) ∧
    (p.flow = "system" → fresh p [] H = .error .zeroDivisionError) ∧
    (p.flow ≠ "borehole" → p.flow ≠ "system" → fresh p f H = .error .valueError) := by
  unfold fresh retrieveFlow
  refine ⟨fun h => ?_, fun h => ?_, fun h1 h2 => ?_⟩
  · rw [if_pos h]
    rfl
  · rw [if_neg (by rw [h]; decide), if_pos h]
    show ((pyDiv p.V ((0 : ℕ) : ℝ) >>= _) >>= _) = _
    rw [Nat.cast_zero, pyDiv_zero]
    rfl
  · rw [if_neg h1, if_neg h2]
    rfl

/-! ## C96 — simulating it, and the search -/

/-- C96: for usable input and `n ≥ 1` whole years, no longer than the g-function reaches at that height, the hourly
simulation of a new exchanger returns.  Every temperature is the one of the superposition formula, with a response
that at every hour is on the polyline through the short-time samples and the curve computed for the field; the
two numbers returned are the largest and the smallest. -/
theorem C96_hourly (h : Usable p f H bhe s) (hs : Seam s) (n : ℕ) (hn : 1 ≤ n)
    (hmonths : p.endMonth - p.startMonth + 1 = 12 * n)
    (hend : 3600 * (8760 * n) ≤ charTime s * exp (3003 / 1000)) (Q : ℕ → ℝ) (hQ0 : Q 0 = 0)
    (hQ : ∀ k, p.hourly[k % 8760]? = some (-Q (k + 1))) :
    ∃ x hi lo s' rad lt gs c G, fresh p f H = .ok x ∧ Whole.simulate x.env "hourly" x.state = (.ok (hi, lo), s') ∧
      calcSts p.solve (radialTube p.ext s) none false p.fuel = .ok (rad, lt, gs) ∧
      p.gf (massFlow p f) p.media f H p.borehole.rb p.borehole.D = .ok c ∧
      (∀ i : ℕ, 1 ≤ i → i ≤ 8760 * n → OnPolyline ((lt.zip gs).filter (fun q => decide (q.1 ≤ -(85 / 10))) ++
        (eskilsonLogTimes : List ℝ).zip c) (log (3600 * i / charTime s)) (G i)) ∧
      s'.HPEFT = (List.range (8760 * n)).map (fun k => some (exitTemp ⟨f.length, H, p.media.soil.k, p.media.soil.ugt,
        effectiveRb p.ext bhe, massFlow p f, p.media.fluid.cp⟩ G Q (fun i => i) (k + 1))) ∧
      (some hi ∈ s'.HPEFT ∧ ∀ T, some T ∈ s'.HPEFT → T ≤ hi) ∧
      (some lo ∈ s'.HPEFT ∧ ∀ T, some T ∈ s'.HPEFT → lo ≤ T) := by
  obtain ⟨x, hx, -, -, -, -, -, -, -, -, -, -, -, hh, -⟩ := C95_made h
  have hnew : x.env.startMonth = p.startMonth ∧ x.env.endMonth = p.endMonth := by
    obtain ⟨B, c, sts, cl, hl, hy, -, -, -, -, -, -, -, -, hf⟩ := fresh_ok h
    rw [hx] at hf
    cases hf
    exact ⟨rfl, rfl⟩
  have hin := hourly_input (gheEnv x.env fun _ => .error .valueError) (n := 12 * n)
    (show (12 * n : ℤ) = x.env.endMonth - x.env.startMonth + 1 by rw [hnew.1, hnew.2]; exact hmonths.symm)
  have hy : ⌈(((12 * n : ℤ)) : ℝ) / 12⌉.toNat = n := by
    push_cast
    rw [mul_div_cancel_left₀ _ (by norm_num)]
    simp
  rw [hy, show (gheEnv x.env fun _ => .error .valueError).hourly = p.hourly from hh] at hin
  have hl : ((List.replicate n p.hourly).flatten.map (-1 * ·)).length = 8760 * n := by
    rw [List.length_map, length_flatten_replicate, h.year, mul_comm]
  have hl2 : ((pyRange 1 (730 * (12 * (n : ℤ)) + 1)).map fun i : ℤ => (i : ℝ)).length = 8760 * n := by
    rw [List.length_map, length_pyRange]
    omega
  have et : ∀ i ≤ 8760 * n, at0 ((pyRange 1 (730 * (12 * (n : ℤ)) + 1)).map fun i : ℤ => (i : ℝ)) i = (i : ℝ) :=
    fun i hi => at0_hours (by omega)
  have eQ : ∀ i ≤ 8760 * n, at0 ((List.replicate n p.hourly).flatten.map (-1 * ·)) i = Q i := by
    intro i hi
    cases i with
    | zero => rw [hQ0]; rfl
    | succ i =>
      rw [at0_succ, List.getD_eq_getElem?_getD, List.getElem?_map,
        getElem?_flatten_replicate _ _ _ (by rw [h.year]; omega), h.year, hQ i]
      simp
  obtain ⟨hi, lo, s', rad, lt, gs, c, G, h1, h2, h3, h4, h5, h6, h7⟩ := simulate_fresh_ordered h hs hx hin
    (by rw [hl, hl2]) (by
      intro h0
      rw [h0, List.length_nil] at hl
      omega) (by
      rw [List.pairwise_cons, List.pairwise_map]
      constructor
      · intro u hu
        obtain ⟨k, hk, rfl⟩ := List.mem_map.1 hu
        have := (mem_pyRange.1 hk).1
        have : (1 : ℝ) ≤ (k : ℤ) := by exact_mod_cast this
        have : (1 : ℝ) / 10 ^ 12 ≤ 1 := by norm_num
        linarith
      · refine (pyRange_pairwise _ _).imp ?_
        intro a b hab
        have : (a : ℝ) + 1 ≤ b := by exact_mod_cast hab
        have : (1 : ℝ) / 10 ^ 12 ≤ 1 := by norm_num
        linarith) (by
      intro u hu
      obtain ⟨k, hk, rfl⟩ := List.mem_map.1 hu
      have := (mem_pyRange.1 hk).2
      have : (k : ℝ) ≤ 8760 * n := by exact_mod_cast (by omega : k ≤ 8760 * (n : ℤ))
      linarith)
  refine ⟨x, hi, lo, s', rad, lt, gs, c, G, hx, h1, h2, h3, ?_, ?_, h6, h7⟩
  · intro i i0 i1
    have := h4 i (by rw [hl]; exact i1) 0 i0
    rw [et i i1, at0_zero, sub_zero] at this
    exact this
  · rw [h5, hl]
    refine List.map_congr_left fun k hk => ?_
    have hk := List.mem_range.1 hk
    refine congrArg some ?_
    unfold exitTemp wallRise
    rw [eQ _ hk, Finset.sum_congr rfl fun j hj => by
      rw [eQ (j + 1) (by have := Finset.mem_range.1 hj; omega), eQ j (by have := Finset.mem_range.1 hj; omega),
        et (k + 1) hk, et j (by have := Finset.mem_range.1 hj; omega)]]

/-- C96: the same for the hybrid loads of the new exchanger, if its hours are at least 10⁻¹² s apart and the last
month ends no later than the g-function. -/
theorem C96_hybrid (h : Usable p f H bhe s) (hs : Seam s) (x : Held) (hx : fresh p f H = .ok x)
    (hgap : (0 :: x.env.hour.drop 2).Pairwise (fun u v => 1 / 10 ^ 12 ≤ 3600 * (v - u)))
    (hend : 3600 * (hoursOf p.endMonth.toNat : ℝ) ≤ charTime s * exp (3003 / 1000)) (Q t : ℕ → ℝ) (hQ0 : Q 0 = 0)
    (ht0 : t 0 = 0) (hQ : ∀ k, k + 2 < x.env.load.length → x.env.load[k + 2]? = some (Q (k + 1) / 1000))
    (ht : ∀ k, k + 2 < x.env.load.length → x.env.hour[k + 2]? = some (t (k + 1))) :
    ∃ hi lo s' rad lt gs c G, Whole.simulate x.env "hybrid" x.state = (.ok (hi, lo), s') ∧
      calcSts p.solve (radialTube p.ext s) none false p.fuel = .ok (rad, lt, gs) ∧
      p.gf (massFlow p f) p.media f H p.borehole.rb p.borehole.D = .ok c ∧
      (∀ i ≤ x.env.load.length - 2, ∀ j < i, OnPolyline
        ((lt.zip gs).filter (fun q => decide (q.1 ≤ -(85 / 10))) ++ (eskilsonLogTimes : List ℝ).zip c)
        (log (3600 * (t i - t j) / charTime s)) (G (t i - t j))) ∧
      s'.HPEFT = (List.range (x.env.load.length - 2)).map (fun k => some (exitTemp ⟨f.length, H, p.media.soil.k,
        p.media.soil.ugt, effectiveRb p.ext bhe, massFlow p f, p.media.fluid.cp⟩ G Q t (k + 1))) ∧
      (some hi ∈ s'.HPEFT ∧ ∀ T, some T ∈ s'.HPEFT → T ≤ hi) ∧
      (some lo ∈ s'.HPEFT ∧ ∀ T, some T ∈ s'.HPEFT → lo ≤ T) := by
  obtain ⟨B, c, sts, cl, hl, hy, hB, hc, hcl, h1, h2, h3, h4, h5, hf⟩ := fresh_ok h
  rw [hx] at hf
  cases hf
  dsimp only at *
  obtain ⟨m1, m2⟩ := h.months
  obtain ⟨a, ha⟩ : ∃ a : ℕ, p.startMonth = a := ⟨p.startMonth.toNat, by omega⟩
  obtain ⟨b, hb⟩ : ∃ b : ℕ, p.endMonth = b := ⟨p.endMonth.toNat, by omega⟩
  obtain ⟨f1, f2, f3, hy', h4', h6⟩ := GL.C63_hybrid h2 h3 (start := a) (finish := b) (by omega) (by omega)
  rw [← ha, ← hb, h4] at h4'
  cases h4'
  obtain ⟨l1, -, l3, l4, l2⟩ := GL.C63_aligned f1 f2 f3 (by omega) (by omega) h6
  obtain ⟨-, -, e3⟩ := GL.C63_ends f1 f2 f3 (by omega) (by omega) h6
  change hy.load.length = hy.hour.length at l1
  have hlen3 : 2 < hy.hour.length := by
    rw [← e3]
    unfold monthEndPos
    rw [Finset.sum_Ico_succ_top (by omega)]
    omega
  have hlast : (hy.hour.drop 2).getLast? = some (hoursOf b : ℝ) := by
    rw [List.getLast?_drop, if_neg (by omega)]
    exact l2
  have hQl : ((hy.load.drop 2).map (· * 1000)).length = hy.load.length - 2 := by simp
  obtain ⟨hi, lo, s', rad, lt, gs, c', G, k1, k2, k3, k4, k5, k6, k7⟩ := simulate_fresh_ordered h hs hx (method := "hybrid")
    (Ql := (hy.load.drop 2).map (· * 1000)) (tl := hy.hour.drop 2) rfl
    (by rw [hQl, List.length_drop, l1]) (by
      intro h0
      rw [h0, List.length_nil] at hQl
      omega) hgap (by
      intro u hu
      rw [hb, Int.toNat_natCast] at hend
      refine le_trans ?_ hend
      have : u ≤ (hoursOf b : ℝ) := by
        rw [List.pairwise_cons] at hgap
        obtain ⟨ys, hys⟩ := List.getLast?_eq_some_iff.1 hlast
        rw [hys] at hu
        have h2 := hgap.2
        change (hy.hour.drop 2).Pairwise _ at h2
        rw [hys, List.pairwise_append] at h2
        rcases List.mem_append.1 hu with hu | hu
        · have := h2.2.2 u hu _ (List.mem_singleton_self _)
          have : (0 : ℝ) < 1 / 10 ^ 12 := by positivity
          linarith
        · rw [List.mem_singleton.1 hu]
      linarith)
  have eQ : ∀ i ≤ hy.load.length - 2, at0 ((hy.load.drop 2).map (· * 1000)) i = Q i := by
    intro i hi
    cases i with
    | zero => rw [hQ0]; rfl
    | succ i =>
      rw [at0_succ, List.getD_eq_getElem?_getD, List.getElem?_map, List.getElem?_drop, add_comm 2 i]
      rw [show hy.load[i + 2]? = _ from hQ i (by show i + 2 < hy.load.length; omega)]
      simp
  have et : ∀ i ≤ hy.load.length - 2, at0 (hy.hour.drop 2) i = t i := by
    intro i hi
    cases i with
    | zero => rw [ht0]; rfl
    | succ i =>
      rw [at0_succ, List.getD_eq_getElem?_getD, List.getElem?_drop, add_comm 2 i]
      rw [show hy.hour[i + 2]? = _ from ht i (by show i + 2 < hy.load.length; omega)]
      rfl
  rw [hQl] at k4 k5
  refine ⟨hi, lo, s', rad, lt, gs, c', G, k1, k2, k3, ?_, ?_, k6, k7⟩
  · intro i hi j hj
    change i ≤ hy.load.length - 2 at hi
    rw [← et i hi, ← et j (by omega)]
    exact k4 i hi j hj
  · rw [k5]
    refine List.map_congr_left fun k hk => ?_
    have hk := List.mem_range.1 hk
    refine congrArg some ?_
    unfold exitTemp wallRise
    rw [eQ _ hk, Finset.sum_congr rfl fun j hj => by
      rw [eQ (j + 1) (by have := Finset.mem_range.1 hj; omega), eQ j (by have := Finset.mem_range.1 hj; omega),
        et (k + 1) hk, et j (by have := Finset.mem_range.1 hj; omega)]]

/-- The simulated period fits the exchanger with the equivalent tube `s`. -/
def Fits (p : Problem) (f : Field) (H : ℝ) (s : UTube) : Prop :=
  (p.method = "hourly" ∧ ∃ n : ℕ, 1 ≤ n ∧ p.endMonth - p.startMonth + 1 = 12 * n ∧
    3600 * (8760 * n) ≤ charTime s * exp (3003 / 1000)) ∨
  (p.method = "hybrid" ∧ 3600 * (hoursOf p.endMonth.toNat : ℝ) ≤ charTime s * exp (3003 / 1000) ∧
    ∀ x, fresh p f H = .ok x →
      (0 :: x.env.hour.drop 2).Pairwise (fun u v => 1 / 10 ^ 12 ≤ 3600 * (v - u)))

theorem extremes_ok (h : Usable p f H bhe s) (hs : Seam s) (hf : Fits p f H s) : ∃ hi lo, Extremes p f H hi lo := by
  rcases hf with ⟨hm, n, hn, hmonths, hend⟩ | ⟨hm, hend, hgap⟩
  · obtain ⟨x, hi, lo, s', -, -, -, -, -, h1, h2, -⟩ := C96_hourly h hs n hn hmonths hend
      (fun i => if i = 0 then 0 else -(p.hourly.getD ((i - 1) % 8760) 0)) rfl (by
        intro k
        have hk : k % 8760 < p.hourly.length := by rw [h.year]; exact Nat.mod_lt _ (by norm_num)
        simp [List.getD_eq_getElem?_getD, hk])
    exact ⟨hi, lo, x, h1, by rw [hm, h2]⟩
  · obtain ⟨x, hx, -⟩ := C95_made h
    obtain ⟨hi, lo, s', -, -, -, -, -, h2, -⟩ := C96_hybrid h hs x hx (hgap x hx) hend
      (fun i => if i = 0 then 0 else 1000 * (x.env.load.getD (i + 1) 0))
      (fun i => if i = 0 then 0 else x.env.hour.getD (i + 1) 0) rfl rfl (by
        intro k hk
        simp [List.getD_eq_getElem?_getD, hk]) (by
        intro k hk
        obtain ⟨x', hx', -, -, -, -, -, -, -, -, -, -, -, -, hl, -⟩ := C95_made h
        rw [hx] at hx'
        cases hx'
        rw [hl] at hk
        simp [List.getD_eq_getElem?_getD, hk])
    exact ⟨hi, lo, x, hx, by rw [hm, h2]⟩

/-- how far the temperatures are outside the limits; negative inside -/
def excess (p : Problem) (hi lo : ℝ) : ℝ := max (hi - p.maxEFT) (p.minEFT - lo)

/-- C96: for usable candidates, `find_design` of the near-square and rectangle routines raises no exception but the
ones of the search itself, and which of its outcomes occurs is decided by the temperatures of three newly made
exchangers: the first field at minimum (`a`) and maximum (`b`) height and the last field at maximum height (`c`). -/
theorem C96_search (routine : String) (hr : routine = "near-square" ∨ routine = "rectangle") (d : List Field)
    (f0 fl : Field) (h0 : d.head? = some f0) (hl : d.getLast? = some fl)
    (hinit : ∃ bhe s, Usable p f0 p.borehole.H bhe s)
    (hall : ∀ f ∈ d, ∀ H, H = p.minHeight ∨ H = p.maxHeight →
      ∃ bhe s, Usable p f H bhe s ∧ Seam s ∧ Fits p f H s) :
    ∃ hi0 lo0 hi1 lo1 hi2 lo2 a b c, Extremes p f0 p.minHeight hi0 lo0 ∧ a = excess p hi0 lo0 ∧
      Extremes p f0 p.maxHeight hi1 lo1 ∧ b = excess p hi1 lo1 ∧
      Extremes p fl p.maxHeight hi2 lo2 ∧ c = excess p hi2 lo2 ∧
      (a = 0 ∨ b = 0 → (findDesign p routine (.flat d) {}).1 = .error .zeroDivisionError) ∧
      (a * b < 0 → (findDesign p routine (.flat d) {}).1 = .ok (some (0, f0))) ∧
      (0 < a * b → c = 0 → (findDesign p routine (.flat d) {}).1 = .error .zeroDivisionError) ∧
      (0 < a * b → 0 < b * c → (findDesign p routine (.flat d) {}).1 = .error .valueError) ∧
      (0 < a * b → b * c < 0 →
        (∃ (k : ℕ) (f : Field) (hi lo : ℝ), d[k]? = some f ∧ Extremes p f p.maxHeight hi lo ∧ WithinLimits p hi lo ∧
          (findDesign p routine (.flat d) {}).1 = .ok (some ((k : ℤ), f))) ∨
        (∃ (k : ℕ) (f : Field) (hi lo : ℝ), 0 < k ∧ k < d.length - 1 ∧ d[k]? = some f ∧
          Extremes p f p.maxHeight hi lo ∧ excess p hi lo = 0 ∧
          (findDesign p routine (.flat d) {}).1 = .error .zeroDivisionError)) := by
  have hex : ∀ f ∈ d, ∀ H, H = p.minHeight ∨ H = p.maxHeight → ∃ hi lo, Extremes p f H hi lo := by
    intro f hf H hH
    obtain ⟨bhe, s, u1, u2, u3⟩ := hall f hf H hH
    exact extremes_ok u1 u2 u3
  have hsim : ∀ {f H hi lo}, Extremes p f H hi lo → (absEnv p).build f H = .ok () ∧
      (absEnv p).sim f H = .ok (excess p hi lo) := by
    rintro f H hi lo ⟨x, hx, hs⟩
    constructor
    · show (fresh p f H >>= _) = _
      rw [hx]
      rfl
    · show (fresh p f H >>= _) = _
      rw [hx, Except.ok_bind, hs]
      rfl
  choose! HI LO hHL using hex
  have hans : Answers (absEnv p) (fun f H => excess p (HI f H) (LO f H)) d :=
    fun f hf H hH => hsim (hHL f hf H hH)
  have m0 : f0 ∈ d := List.mem_of_mem_head? h0
  have ml : fl ∈ d := List.mem_of_getLast? hl
  obtain ⟨bhe, s, hu⟩ := hinit
  obtain ⟨x0, hx0, -⟩ := C95_made hu
  have hset : ∃ s1, Search.setup (absEnv p) d {} = (.ok (), s1) ∧ s1.temps = [] := by
    obtain ⟨d', rfl⟩ : ∃ d', d = f0 :: d' := by
      cases d with
      | nil => cases h0
      | cons a d' => cases h0; exact ⟨d', rfl⟩
    unfold Search.setup Search.initializeGhe
    have hb : (absEnv p).build f0 (absEnv p).boreholeH = .ok () := by
      show (fresh p f0 p.borehole.H >>= _) = _
      rw [hx0]
      rfl
    rw [show pyGet (f0 :: d') 0 = .ok f0 from rfl, St.lift_ok rfl, hb]
    exact ⟨_, rfl, rfl⟩
  obtain ⟨s1, hs1, ht1⟩ := hset
  have hfd : (findDesign p routine (.flat d) {}).1 = (Search.search (absEnv p) d s1).1 := by
    have hD : Design.findDesign (absEnv p) routine (.flat d) {} = Search.search (absEnv p) d s1 := by
      have : Design.findDesign (absEnv p) routine (.flat d) {} = Search.bisection1D (absEnv p) d {} := by
        rcases hr with rfl | rfl <;> rfl
      rw [this]
      unfold Search.bisection1D
      rw [St.bind_ok hs1]
    have := top_findDesign (p := p) routine (.flat d)
    rw [hD] at this
    rcases this with ⟨e, e1, e2⟩ | ⟨v, w, e1, e2, e3, -⟩
    · rw [e1, e2]
    · rw [e1, e2, e3]
  obtain ⟨-, htab⟩ := C32_outcomes (absEnv p) _ d hans s1 ht1
  obtain ⟨t1, t2, t3, t4, t5⟩ := htab f0 fl h0 hl _ _ _ rfl rfl rfl
  rw [hfd]
  refine ⟨_, _, _, _, _, _, _, _, _, hHL f0 m0 _ (.inl rfl), rfl, hHL f0 m0 _ (.inr rfl), rfl,
    hHL fl ml _ (.inr rfl), rfl, t1, t2, t3, t4, fun hab hbc => ?_⟩
  rcases t5 hab hbc with ⟨k, f, k1, k2, k3⟩ | ⟨k, f, k0, k1, k2, k3, k4⟩
  · exact .inl ⟨k, f, _, _, k1, hHL f (List.mem_of_getElem? k1) _ (.inr rfl), within_iff.1 k2, k3⟩
  · exact .inr ⟨k, f, _, _, k0, k1, k2, hHL f (List.mem_of_getElem? k2) _ (.inr rfl), k3, k4⟩

/-! ## a concrete case -/

theorem polyline_bound {pts : List (ℝ × ℝ)} {v y K : ℝ} (hK : ∀ q ∈ pts, |q.2| ≤ K) (h : OnPolyline pts v y) :
    |y| ≤ K := by
  rcases h with h | ⟨k, a, b, h1, h2, h3, h4, rfl⟩
  · exact hK _ h
  · have ha := abs_le.1 (hK _ (List.mem_of_getElem? h1))
    have hb := abs_le.1 (hK _ (List.mem_of_getElem? h2))
    have hd : 0 < b.1 - a.1 := by linarith
    have e : a.2 + (b.2 - a.2) / (b.1 - a.1) * (v - a.1) =
        (a.2 * (b.1 - v) + b.2 * (v - a.1)) / (b.1 - a.1) := by
      field_simp
      ring
    rw [e, abs_le, le_div_iff₀ hd, div_le_iff₀ hd]
    constructor <;> nlinarith

/-- where the long-time curve is constant, so is the response -/
theorem polyline_const {lt gs c : List ℝ} {g v y : ℝ} (hc : ∀ z ∈ c, z = g) (hv : -(85 / 10) < v)
    (h : OnPolyline ((lt.zip gs).filter (fun q => decide (q.1 ≤ -(85 / 10))) ++ (eskilsonLogTimes : List ℝ).zip c) v y) :
    y = g := by
  have left : ∀ q ∈ (lt.zip gs).filter (fun q : ℝ × ℝ => decide (q.1 ≤ -(85 / 10))), q.1 ≤ -(85 / 10) := by
    intro q hq
    exact of_decide_eq_true (List.mem_filter.1 hq).2
  have right : ∀ q ∈ (eskilsonLogTimes : List ℝ).zip c, q.2 = g := by
    intro q hq
    exact hc _ (List.of_mem_zip (a := q.1) (b := q.2) hq).2
  have head : ∀ q : ℝ × ℝ, ((eskilsonLogTimes : List ℝ).zip c)[0]? = some q → q.1 = -(85 / 10) := by
    intro q hq
    rw [List.getElem?_zip_eq_some] at hq
    have := hq.1
    unfold eskilsonLogTimes at this
    simp only [List.getElem?_cons_zero, Option.some.injEq] at this
    rw [← this]
    norm_num
  generalize (lt.zip gs).filter (fun q : ℝ × ℝ => decide (q.1 ≤ -(85 / 10))) = l at *
  generalize (eskilsonLogTimes : List ℝ).zip c = m at *
  rcases h with h | ⟨k, a, b, h1, h2, h3, h4, rfl⟩
  · rcases List.mem_append.1 h with h | h
    · have := left _ h
      dsimp only at this
      linarith
    · exact right _ h
  · have hb : ¬ k + 1 < l.length := by
      intro hk
      rw [List.getElem?_append_left hk] at h2
      have := left _ (List.mem_of_getElem? h2)
      linarith
    rw [List.getElem?_append_right (by omega)] at h2
    have ha : ¬ k < l.length := by
      intro hk
      rw [show k + 1 - l.length = 0 by omega] at h2
      have := head _ h2
      linarith
    rw [List.getElem?_append_right (by omega)] at h1
    rw [right _ (List.mem_of_getElem? h1), right _ (List.mem_of_getElem? h2)]
    ring

def exNumbers : List ℝ := [3 / 40, 5, 50, 75, 100, 2]

/-- two U-tubes in parallel in a 100 m borehole, 10 kW rejected all year, limits of 5 and 35 degrees; a g-function of
constant value 20 -/
def exProblem : Problem where
  ext := Whole.exExt
  brent := exBrent
  solve := exSolver
  fuel := 10 ^ 9
  spl := GF.lagrangeSpl
  gf _ _ _ _ _ _ := .ok (List.replicate 27 20)
  fmt := Classical.choose (GF.roundTrip_exists exNumbers)
  toFloat := Classical.choose (Classical.choose_spec (GF.roundTrip_exists exNumbers))
  flow := "borehole"
  V := 2000 / 998
  media := ⟨.multiple (exDouble 100).pipe, exWater, (exDouble 100).grout, (exDouble 100).soil⟩
  borehole := ⟨100, 2, 3 / 40⟩
  startMonth := 1
  endMonth := 12
  maxEFT := 35
  minEFT := 5
  minHeight := 50
  maxHeight := 100
  hourly := List.replicate 8760 (-10000)
  method := "hourly"
  maxIter := 15

theorem exProblem_text (x : ℝ) (hx : x ∈ exNumbers) : exProblem.toFloat (exProblem.fmt x) = .ok x :=
  Classical.choose_spec (Classical.choose_spec (GF.roundTrip_exists exNumbers)) x hx

theorem exProblem_flow (f : Field) : massFlow exProblem f = 2 := by
  show (if "borehole" = "borehole" then (2000 / 998 : ℝ) else _) / 1000 * 998 = 2
  rw [if_pos rfl]
  norm_num

theorem exProblem_exchanger (m H : ℝ) (hm : m = 2) : makeExchanger exProblem.ext m exProblem.media
    { exProblem.borehole with H := H } = .ok (.multiple (exDouble H)) := by
  subst hm
  show (mkMultiple Whole.exExt 2 exWater ⟨H, 2, 3 / 40⟩ (exDouble 100).pipe (exDouble 100).grout (exDouble 100).soil
    (some "parallel") >>= _) = _
  unfold mkMultiple mkUTube
  rw [show massFlowRatePipe 2 (some "parallel") = .ok (2 / 2) from rfl, Except.ok_bind]
  have e1 : (1 / (50 / (π * (1 / 100)) * 2 * π * (1 / 100)) : ℝ) = 1 / 100 := exConv (1 / 100) (by norm_num)
  unfold Whole.exExt exDouble
  dsimp only
  rw [e1, exDouble_Rp]
  norm_num

theorem const_separated (v : ℝ) : Separated (List.replicate 8760 v) := by
  refine ClearPeaks.of_all ?_
  intro m m1 m2 pk hpk _ x hx
  have h1 : pk = v := by
    unfold monthLoads at hpk
    exact List.eq_of_mem_replicate (List.mem_of_mem_drop (List.mem_of_mem_take hpk))
  rw [h1, List.eq_of_mem_replicate hx]
  exact .inl le_rfl

theorem exUsable (f : Field) (hf : f ≠ []) (H : ℝ) (hH : H = 50 ∨ H = 75 ∨ H = 100)
    (hB : ∀ B, boreholeSpacing (3 / 40) f = .ok B → B = 3 / 40 ∨ B = 5) :
    ∃ s, Usable exProblem f H (.multiple (exDouble H)) s ∧ charTime s = 100000 * H ^ 2 := by
  have h0 : 0 < H := by rcases hH with rfl | rfl | rfl <;> norm_num
  have h1 : H ≤ 1000 := by rcases hH with rfl | rfl | rfl <;> norm_num
  obtain ⟨s, hs, hsound, hct⟩ := exDouble_ok H h0
  obtain ⟨s', hw, -⟩ := exWorks 0 H h0 h1
  have : s' = s := by
    have h2 := hw.converts
    change computeEquivalent Whole.exExt exBrent (.multiple (exDouble H)) = _ at h2
    rw [hs] at h2
    cases h2
    rfl
  subst this
  refine ⟨s', ⟨.inl rfl, hf, h0, ?_, exProblem_exchanger _ _ (exProblem_flow f), hs, hsound, exSolver_exact.accurate hsound, hw.steps, ?_,
    ⟨_, rfl, by simp [eskilsonLogTimes]⟩, ?_, ?_, ?_, ?_⟩, hct⟩
  · show (0 : ℝ) < 3 / 40; norm_num
  · intro B hBB x hx
    apply exProblem_text
    have hb := hB B hBB
    have hx' : x = B ∨ x = H ∨ x = 3 / 40 ∨ x = 2 := by
      have hx : x ∈ [B, H, (3 / 40 : ℝ), 2] := hx
      simpa using hx
    unfold exNumbers
    simp only [List.mem_cons, List.not_mem_nil, or_false]
    rcases hx' with rfl | rfl | rfl | rfl
    · rcases hb with rfl | rfl <;> simp
    · rcases hH with rfl | rfl | rfl <;> simp
    · simp
    · simp
  · show (List.replicate 8760 (-10000 : ℝ)).length = 8760
    rw [List.length_replicate]
  · show Separated ((List.replicate 8760 (-10000 : ℝ)).map _)
    rw [List.map_replicate]
    exact const_separated _
  · show Separated ((List.replicate 8760 (-10000 : ℝ)).map _)
    rw [List.map_replicate]
    exact const_separated _
  · exact ⟨by show (1 : ℤ) ≤ 1; norm_num, by show (1 : ℤ) ≤ 12; norm_num⟩

theorem exp_bounds : (20341 / 10 ^ 8 : ℝ) < exp (-(85 / 10)) ∧ exp (-(85 / 10)) < 20352 / 10 ^ 8 := by
  have hp := exp_pos (-(85 / 10 : ℝ))
  have hq : exp (-(85 / 10)) ^ 2 * exp 1 ^ 17 = 1 := by
    rw [← exp_nat_mul, ← exp_nat_mul, ← exp_add]
    norm_num
  have h1 := Real.exp_one_gt_d9
  have h2 := Real.exp_one_lt_d9
  have l : (2.7182818283 : ℝ) ^ 17 ≤ exp 1 ^ 17 := pow_le_pow_left₀ (by norm_num) h1.le 17
  have u : exp 1 ^ 17 ≤ (2.7182818286 : ℝ) ^ 17 := pow_le_pow_left₀ (exp_pos 1).le h2.le 17
  generalize exp 1 ^ 17 = E at *
  generalize exp (-(85 / 10 : ℝ)) = y at *
  constructor
  · by_contra hn
    push Not at hn
    have : y ^ 2 ≤ (20341 / 10 ^ 8) ^ 2 := pow_le_pow_left₀ hp.le hn 2
    have : y ^ 2 * E ≤ (20341 / 10 ^ 8) ^ 2 * (2.7182818286 : ℝ) ^ 17 :=
      mul_le_mul this u (by positivity) (by positivity)
    rw [hq] at this
    norm_num at this
  · by_contra hn
    push Not at hn
    have : (20352 / 10 ^ 8 : ℝ) ^ 2 ≤ y ^ 2 := pow_le_pow_left₀ (by norm_num) hn 2
    have : (20352 / 10 ^ 8 : ℝ) ^ 2 * (2.7182818283 : ℝ) ^ 17 ≤ y ^ 2 * E :=
      mul_le_mul this l (by positivity) (by positivity)
    rw [hq] at this
    norm_num at this

theorem exSeam75 (s : UTube) (H : ℝ) (hH : H = 50 ∨ H = 75 ∨ H = 100) (hct : charTime s = 100000 * H ^ 2) : Seam s := by
  obtain ⟨e1, e2⟩ := exp_bounds
  unfold Seam
  rw [hct]
  generalize exp (-(85 / 10 : ℝ)) = y at *
  have key : ∀ (T : ℝ) (K : ℕ), 120 * K + 1 / 10 ^ 12 < T → T < 120 * (K + 1) → ∀ k : ℕ, T ≠ 1 / 10 ^ 12 + 120 * k := by
    intro T K h1 h2 k hk
    rcases Nat.lt_or_ge K k with hlt | hge
    · have : (K : ℝ) + 1 ≤ k := by exact_mod_cast hlt
      have : (0 : ℝ) < 1 / 10 ^ 12 := by positivity
      linarith
    · have : (k : ℝ) ≤ K := by exact_mod_cast hge
      linarith
  rcases hH with rfl | rfl | rfl
  · refine ⟨by norm_num; linarith, key _ 423 ?_ ?_⟩ <;> norm_num <;> linarith
  · refine ⟨by norm_num; linarith, key _ 953 ?_ ?_⟩ <;> norm_num <;> linarith
  · refine ⟨by norm_num; linarith, key _ 1695 ?_ ?_⟩ <;> norm_num <;> linarith

theorem exSeam (s : UTube) (H : ℝ) (hH : H = 50 ∨ H = 100) (hct : charTime s = 100000 * H ^ 2) : Seam s :=
  exSeam75 s H (by tauto) hct

theorem exFits (s : UTube) (H : ℝ) (hH : H = 50 ∨ H = 100) (hct : charTime s = 100000 * H ^ 2) :
    3600 * (8760 * ((1 : ℕ) : ℝ)) ≤ charTime s * exp (3003 / 1000) := by
  have : 1 ≤ exp (3003 / 1000 : ℝ) := one_le_exp (by norm_num)
  rw [hct]
  rcases hH with rfl | rfl <;> norm_num <;> linarith

/-- the extreme temperatures of any field: at most `K / n` away from the ground temperature, and not less than that after
a year -/
theorem exExtremes (H : ℝ) (hH : H = 50 ∨ H = 100) : ∃ K, ∀ f : Field, f ≠ [] →
    (∀ B, boreholeSpacing (3 / 40) f = .ok B → B = 3 / 40 ∨ B = 5) →
    ∃ hi lo, Extremes exProblem f H hi lo ∧ hi ≤ 18 + K / f.length ∧ 18 - K / f.length ≤ lo ∧
      18 + (10000 / H / (4 * π) * 20 + 10000 / H * (51 / 400) - 10000 / 16728) / f.length ≤ hi := by
  have h0 : 0 < H := by rcases hH with rfl | rfl <;> norm_num
  obtain ⟨s, hs, hsound, hct⟩ := exDouble_ok H h0
  -- the short-time curve depends on the borehole only
  obtain ⟨K0, hK0⟩ : ∃ K0, ∀ rad lt gs, calcSts exProblem.solve (radialTube exProblem.ext s) none false
      exProblem.fuel = .ok (rad, lt, gs) → ∀ q ∈ lt.zip gs, |q.2| ≤ K0 := by
    rcases hc : calcSts exProblem.solve (radialTube exProblem.ext s) none false exProblem.fuel with e | ⟨rad, lt, gs⟩
    · exact ⟨0, by intro _ _ _ h; cases h⟩
    · refine ⟨((lt.zip gs).map fun q => |q.2|).sum, ?_⟩
      intro _ _ _ h q hq
      cases h
      exact List.single_le_sum (by
        intro x hx
        obtain ⟨q, -, rfl⟩ := List.mem_map.1 hx
        exact abs_nonneg _) _ (List.mem_map_of_mem hq)
  refine ⟨10000 / H / (4 * π) * max K0 20 + 10000 / H * (51 / 400) + 10000 / 16728, ?_⟩
  intro f hf hB
  obtain ⟨s', hu, hct'⟩ := exUsable f hf H (by tauto) hB
  have : s' = s := by
    have h2 := hu.converts
    change computeEquivalent Whole.exExt exBrent (.multiple (exDouble H)) = _ at h2
    rw [hs] at h2
    cases h2
    rfl
  subst this
  obtain ⟨x, hi, lo, s1, rad, lt, gs, c, G, hx, hsim, hsts, hc, hG, hT, ⟨hi1, hi2⟩, ⟨lo1, lo2⟩⟩ :=
    C96_hourly hu (exSeam _ H hH hct) 1 le_rfl rfl (exFits _ H hH hct) (fun i => if i = 0 then 0 else 10000) rfl (by
      intro k
      show (List.replicate 8760 (-10000 : ℝ))[k % 8760]? = _
      rw [List.getElem?_replicate, if_pos (Nat.mod_lt _ (by norm_num))]
      simp)
  have hc' : c = List.replicate 27 20 := by cases hc; rfl
  have hn : (0 : ℝ) < f.length := by exact_mod_cast List.length_pos_iff.2 hf
  have hrb : effectiveRb exProblem.ext (.multiple (exDouble H)) = 51 / 400 := by
    show (11 / 100 : ℝ) / (2 * ((2 : ℤ) : ℝ)) + 1 / (10 * 1) = 51 / 400
    norm_num
  have hval : ∀ k : ℕ, exitTemp ⟨f.length, H, exProblem.media.soil.k, exProblem.media.soil.ugt,
      effectiveRb exProblem.ext (.multiple (exDouble H)), massFlow exProblem f, exProblem.media.fluid.cp⟩ G
      (fun i => if i = 0 then 0 else 10000) (fun i => i) (k + 1) =
      18 + (10000 / H / (4 * π) * G ((k + 1 : ℕ) : ℝ) + 10000 / H * (51 / 400) - 10000 / 16728) / f.length := by
    intro k
    rw [hrb, exProblem_flow]
    unfold exitTemp wallRise
    rw [Finset.sum_eq_single 0]
    · show 18 + _ / _ / (2 * π * 2) * _ + _ - _ / _ / (2 * 2 * 4182) = _
      simp only [Nat.cast_zero, sub_zero, if_true, if_neg (Nat.succ_ne_zero _)]
      have := Real.pi_ne_zero
      field_simp
      ring
    · intro j _ hj
      simp [hj]
    · intro h
      simp at h
  have hbound : ∀ i : ℕ, 1 ≤ i → i ≤ 8760 * 1 → |G i| ≤ max K0 20 := by
    intro i h1 h2
    refine polyline_bound ?_ (hG i h1 h2)
    intro q hq
    rcases List.mem_append.1 hq with hq | hq
    · exact (hK0 _ _ _ hsts q (List.mem_of_mem_filter hq)).trans (le_max_left _ _)
    · have := (List.of_mem_zip (a := q.1) (b := q.2) hq).2
      rw [hc'] at this
      rw [List.eq_of_mem_replicate this]
      refine le_trans ?_ (le_max_right _ _)
      norm_num
  have hpi := Real.pi_pos
  have hA : 0 < 10000 / H / (4 * π) := by positivity
  have hR : 0 < 10000 / H * (51 / 400) := by positivity
  have hmem : ∀ T, some T ∈ s1.HPEFT → ∃ k : ℕ, k + 1 ≤ 8760 ∧
      T = 18 + (10000 / H / (4 * π) * G ((k + 1 : ℕ) : ℝ) + 10000 / H * (51 / 400) - 10000 / 16728) / f.length := by
    intro T hTm
    rw [hT] at hTm
    obtain ⟨k, hk, hkT⟩ := List.mem_map.1 hTm
    obtain rfl := Option.some.inj hkT
    refine ⟨k, ?_, hval k⟩
    have := List.mem_range.1 hk
    omega
  refine ⟨hi, lo, ⟨x, hx, by rw [show exProblem.method = "hourly" from rfl, hsim]⟩, ?_, ?_, ?_⟩
  · obtain ⟨k, hk, rfl⟩ := hmem hi hi1
    have hg := abs_le.1 (hbound (k + 1) (by omega) (by omega))
    gcongr
    · have := mul_le_mul_of_nonneg_left hg.2 hA.le
      linarith
  · obtain ⟨k, hk, rfl⟩ := hmem lo lo1
    have hg := abs_le.1 (hbound (k + 1) (by omega) (by omega))
    have := mul_le_mul_of_nonneg_left hg.1 hA.le
    rw [sub_eq_add_neg, ← neg_div]
    gcongr
    linarith
  · refine le_of_eq_of_le ?_ (hi2 _ (by rw [hT]; exact List.mem_map_of_mem (f := fun k => some _) (List.mem_range.2 (show 8759 < 8760 * 1 by norm_num))))
    rw [hval 8759]
    have hg : G ((8759 + 1 : ℕ) : ℝ) = 20 := by
      refine polyline_const (c := c) ?_ ?_ (hG 8760 (by norm_num) (by norm_num))
      · intro z hz
        rw [hc'] at hz
        exact List.eq_of_mem_replicate hz
      · rw [hct', Real.lt_log_iff_exp_lt (by positivity)]
        have := exp_bounds.2
        refine this.trans ?_
        rcases hH with rfl | rfl <;> norm_num
    rw [hg]

theorem Extremes.unique {hi lo hi' lo' : ℝ} (h : Extremes p f H hi lo) (h' : Extremes p f H hi' lo') :
    hi = hi' ∧ lo = lo' := by
  obtain ⟨x, hx, h⟩ := h
  obtain ⟨x', hx', h'⟩ := h'
  rw [hx] at hx'
  cases hx'
  rw [h] at h'
  cases h'
  exact ⟨rfl, rfl⟩

/-- a row of `n` boreholes, 5 m apart -/
def exRow (n : ℕ) : Field := (List.range n).map fun i : ℕ => (5 * (i : ℝ), 0)

theorem exRow_spacing (n : ℕ) (B : ℝ) (h : boreholeSpacing (3 / 40) (exRow n) = .ok B) : B = 3 / 40 ∨ B = 5 := by
  match n with
  | 0 => cases h
  | 1 =>
    cases h
    exact .inl rfl
  | n + 2 =>
    have e : exRow (n + 2) = (0, 0) :: (5, 0) :: (List.range n).map fun i => (5 * ((i + 2 : ℕ) : ℝ), 0) := by
      unfold exRow
      rw [List.range_succ_eq_map, List.range_succ_eq_map]
      simp
      intro a _
      ring
    rw [e] at h
    unfold boreholeSpacing at h
    rw [show pyGet ((0, 0) :: (5, 0) :: (List.range n).map fun i => (5 * ((i + 2 : ℕ) : ℝ), (0 : ℝ))) 0 = .ok (0, 0) from rfl,
      Except.ok_bind, if_neg (by simp), if_pos (by simp)] at h
    rw [show pyGet ((0, 0) :: (5, 0) :: (List.range n).map fun i => (5 * ((i + 2 : ℕ) : ℝ), (0 : ℝ))) 1 = .ok (5, 0) from rfl,
      Except.ok_bind] at h
    cases h
    right
    norm_num [show √(25 : ℝ) = 5 by rw [show (25 : ℝ) = 5 ^ 2 by norm_num]; exact Real.sqrt_sq (by norm_num)]

theorem exRow_ne {n : ℕ} (h : n ≠ 0) : exRow n ≠ [] := by
  intro e
  have := congrArg List.length e
  simp [exRow] at this
  exact h this

/-- `find_design` offered one borehole and a long enough row returns the row: the one borehole overheats, whatever its
depth, and the row does not. -/
theorem exFind : ∃ n, (findDesign exProblem "rectangle" (.flat [exRow 1, exRow n]) {}).1 = .ok (some (1, exRow n)) := by
  obtain ⟨K, hK⟩ := exExtremes 100 (.inr rfl)
  obtain ⟨K', hK'⟩ := exExtremes 50 (.inl rfl)
  obtain ⟨n, hn⟩ := exists_nat_gt (max (K / 12) 1)
  have hn1 : (1 : ℝ) < n := (le_max_right _ _).trans_lt hn
  have hn0 : n ≠ 0 := by rintro rfl; norm_num at hn1
  have hl : ∀ m : ℕ, (exRow m).length = m := by intro m; simp [exRow]
  refine ⟨n, ?_⟩
  obtain ⟨hi0, lo0, hi1, lo1, hi2, lo2, a, b, c, e0, rfl, e1, rfl, e2, rfl, -, -, -, -, hfin⟩ :=
    C96_search (p := exProblem) "rectangle" (.inr rfl) [exRow 1, exRow n] (exRow 1) (exRow n) rfl rfl (by
      obtain ⟨s, hs, -⟩ := exUsable (exRow 1) (exRow_ne one_ne_zero) 100 (by tauto) (exRow_spacing 1)
      exact ⟨_, s, hs⟩) (by
      intro f hf H hH
      have hH' : H = 50 ∨ H = 100 := hH
      have : ∃ m, m ≠ 0 ∧ f = exRow m := by
        rcases List.mem_pair.1 hf with rfl | rfl
        · exact ⟨1, one_ne_zero, rfl⟩
        · exact ⟨n, hn0, rfl⟩
      obtain ⟨m, hm, rfl⟩ := this
      obtain ⟨s, hs, hct⟩ := exUsable (exRow m) (exRow_ne hm) H (by tauto) (exRow_spacing m)
      exact ⟨_, s, hs, exSeam s H hH' hct, .inl ⟨rfl, 1, le_rfl, rfl, exFits s H hH' hct⟩⟩)
  have hpi := Real.pi_pos
  have hpi4 := Real.pi_lt_four
  have hot : ∀ {H hi lo}, (H = 50 ∨ H = 100) → Extremes exProblem (exRow 1) H hi lo → 35 < hi := by
    intro H hi lo hH he
    have h1 : ∃ hi' lo', Extremes exProblem (exRow 1) H hi' lo' ∧
        18 + (10000 / H / (4 * π) * 20 + 10000 / H * (51 / 400) - 10000 / 16728) / (exRow 1).length ≤ hi' := by
      rcases hH with rfl | rfl
      · obtain ⟨x, y, h1, -, -, h2⟩ := hK' _ (exRow_ne one_ne_zero) (exRow_spacing 1)
        exact ⟨x, y, h1, h2⟩
      · obtain ⟨x, y, h1, -, -, h2⟩ := hK _ (exRow_ne one_ne_zero) (exRow_spacing 1)
        exact ⟨x, y, h1, h2⟩
    obtain ⟨x, y, h1, h2⟩ := h1
    obtain ⟨rfl, rfl⟩ := he.unique h1
    rw [hl, Nat.cast_one, div_one] at h2
    have hlow : (100 : ℝ) / 16 ≤ 10000 / H / (4 * π) := by
      have h3 : (100 : ℝ) ≤ 10000 / H := by rcases hH with rfl | rfl <;> norm_num
      rw [div_le_div_iff₀ (by norm_num) (by positivity)]
      nlinarith
    have hr : 0 ≤ 10000 / H * (51 / 400 : ℝ) := by rcases hH with rfl | rfl <;> norm_num
    linarith
  have hb0 : 0 < excess exProblem hi0 lo0 := lt_max_of_lt_left (sub_pos.2 (hot (.inl rfl) e0))
  have hb1 : 0 < excess exProblem hi1 lo1 := lt_max_of_lt_left (sub_pos.2 (hot (.inr rfl) e1))
  have hb2 : excess exProblem hi2 lo2 < 0 := by
    obtain ⟨x, y, h1, h2, h3, -⟩ := hK _ (exRow_ne hn0) (exRow_spacing n)
    obtain ⟨rfl, rfl⟩ := e2.unique h1
    have hk : K / n < 12 := by
      rw [div_lt_iff₀ (by linarith)]
      have := (le_max_left (K / 12) 1).trans_lt hn
      linarith
    rw [hl] at h2 h3
    exact max_lt (by show hi2 - 35 < 0; linarith) (by show 5 - lo2 < 0; linarith)
  rcases hfin (mul_pos hb0 hb1) (mul_neg_of_pos_of_neg hb1 hb2) with ⟨k, f, hi, lo, hk, he, hw, hfind⟩ | ⟨k, f, hi, lo, hk1, hk2, -⟩
  · match k with
    | 0 =>
      cases hk
      have := hot (.inr rfl) he
      have := hw.1
      change hi ≤ 35 at this
      linarith
    | 1 =>
      cases hk
      exact hfind
    | k + 2 => cases hk
  · simp only [List.length_cons, List.length_nil] at hk2
    omega

end

end Ghedt.WholeSearch
