import Verif.Lemmas.RoundedWhole

set_option linter.unusedSectionVars false

/-!
# C147 — a new exchanger simulated in floating-point arithmetic
-/

namespace Ghedt.WholeSearch
open Real Ghedt.GHE Ghedt.Bhe Ghedt.Radial Ghedt.Whole Ghedt.Search Ghedt.Utilities Ghedt.Spec Ghedt.Network Ghedt.Design

noncomputable section

variable {p : Problem} {f : Field} {H : ℝ} {bhe : Exchanger} {s : UTube} {R : Rounding ℝ} {ℓ : ℝ → ℝ}

/-- C147: without rounding the model is that of the other claims. -/
theorem C147_exact (env : Whole.Env) (method : String) (h : ℝ) :
    Rounded.prepareWhole Rounding.exact log env = prepare env ∧
    Rounded.simulateWhole Rounding.exact (fun w v => (List.zipWith (· * ·) w v).sum) log env method =
      Whole.simulate env method ∧
    Rounded.objectiveWhole Rounding.exact (fun w v => (List.zipWith (· * ·) w v).sum) log env method h =
      Whole.localObjective env method h := by
  have e : ∀ ts x y, Rounded.response Rounding.exact log ts x y = Whole.response ts x y := fun ts x y =>
    funext fun τ => (Rounded.C146_exact ts x y τ [] 0 0).1
  have h1 : Rounded.prepareWhole Rounding.exact log env = prepare env := by
    unfold Rounded.prepareWhole prepare
    simp only [e]
    rfl
  have h2 : Rounded.simulateWhole Rounding.exact (fun w v => (List.zipWith (· * ·) w v).sum) log env method =
      Whole.simulate env method := by
    unfold Rounded.simulateWhole Whole.simulate
    rw [h1]
    rfl
  refine ⟨h1, h2, ?_⟩
  unfold Rounded.objectiveWhole Whole.localObjective
  rw [h2]
  rfl

/-- An exchanger newly made for the field and the height, simulated in floating-point arithmetic, returns `hi` and `lo`, the
extremes of the `n` temperatures `T 0, T 1, …` it stores; the excess computed for the height is `e`. -/
def FloatRun (R : Rounding ℝ) (dot : List ℝ → List ℝ → ℝ) (ℓ : ℝ → ℝ) (p : Problem) (f : Field) (H : ℝ) (method : String) (n : ℕ)
    (T : ℕ → ℝ) (hi lo e : ℝ) : Prop :=
  ∃ x s', fresh p f H = .ok x ∧ Rounded.simulateWhole R dot ℓ x.env method x.state = (.ok (hi, lo), s') ∧
    s'.HPEFT = (List.range n).map (fun k => some (T k)) ∧
    Rounded.objectiveWhole R dot ℓ x.env method H x.state = (.ok e, s')

/-- C147: every new exchanger has a response with such bounds: its abscissae are those of times between 10⁻¹² s and the end of
the g-function. -/
theorem C147_bounds (h : Usable p f H bhe s) (hs : Seam s) :
    ∃ M L, Tame p f H s (max |log (1 / 10 ^ 12 / charTime s)| (3003 / 1000)) M L := by
  obtain ⟨B, c, sts, cl, hl, hy, -, hc, hcl, h1, -⟩ := fresh_ok h
  obtain ⟨rad, lt, gs⟩ := sts
  have hts := charTime_pos (env := envOf p f H B c (cl, hl, hy)) (s := s) h.sound
  obtain ⟨N, r, ys, -, -, -, e'⟩ := calcSts_ok (h.works B c (cl, hl, hy))
  change calcSts p.solve (radialTube p.ext s) none false p.fuel = _ at e'
  rw [h1] at e'
  cases e'
  have hord := points_ordered h hs h1 hc
  set lt := (List.range N).map fun j => log (sampleTime j / charTime s) with hlt
  have hx0 : log (1 / 10 ^ 12 / charTime s) < -(85 / 10) := by
    rw [← log_exp (-(85 / 10))]
    apply log_lt_log (by positivity)
    rw [div_lt_iff₀ hts, mul_comm]
    exact hs.1
  have hesk : ∀ v ∈ (eskilsonLogTimes : List ℝ), -(85 / 10) ≤ v ∧ v ≤ 3003 / 1000 := by
    unfold eskilsonLogTimes
    simp only [List.mem_cons, List.not_mem_nil, or_false]
    rintro v hv
    rcases hv with rfl | rfl | rfl | rfl | rfl | rfl | rfl | rfl | rfl | rfl | rfl | rfl | rfl | rfl | rfl | rfl | rfl | rfl |
      rfl | rfl | rfl | rfl | rfl | rfl | rfl | rfl | rfl <;> norm_num
  have habs : ∀ q ∈ points lt gs c, |q.1| ≤ max |log (1 / 10 ^ 12 / charTime s)| (3003 / 1000) := by
    intro q hq
    have hb : log (1 / 10 ^ 12 / charTime s) ≤ q.1 ∧ q.1 ≤ 3003 / 1000 := by
      unfold points at hq
      rcases List.mem_append.1 hq with hq | hq
      · obtain ⟨k1, k2⟩ := List.mem_filter.1 hq
        have k2 : q.1 ≤ -(85 / 10) := by simpa using k2
        refine ⟨?_, by linarith⟩
        have := (List.of_mem_zip (a := q.1) (b := q.2) k1).1
        obtain ⟨j, -, e⟩ := List.mem_map.1 this
        rw [← e]
        apply log_le_log (by positivity)
        apply div_le_div_of_nonneg_right _ hts.le
        unfold sampleTime
        have : (0 : ℝ) ≤ j := by positivity
        linarith
      · have := hesk _ (List.of_mem_zip (a := q.1) (b := q.2) hq).1
        constructor <;> linarith [this.1, this.2]
    have k1 := neg_abs_le (log (1 / 10 ^ 12 / charTime s))
    have k2 := le_max_left |log (1 / 10 ^ 12 / charTime s)| (3003 / 1000)
    have k3 := le_max_right |log (1 / 10 ^ 12 / charTime s)| (3003 / 1000)
    exact abs_le.2 ⟨by linarith, by linarith⟩
  set pts := points lt gs c with hpts
  refine ⟨(pts.map fun q => |q.2|).sum, ∑ k ∈ Finset.range (pts.length - 1), |(pts.getD (k + 1) 0).2 - (pts.getD k 0).2| /
    ((pts.getD (k + 1) 0).1 - (pts.getD k 0).1), ?_⟩
  have hdiff : ∀ k a b, pts[k]? = some a → pts[k + 1]? = some b → a.1 < b.1 := by
    intro k a b ha hb
    obtain ⟨q1, q2⟩ := List.getElem?_eq_some_iff.1 ha
    obtain ⟨r1, r2⟩ := List.getElem?_eq_some_iff.1 hb
    have := List.pairwise_iff_getElem.1 hord k (k + 1) q1 r1 (by omega)
    rwa [q2, r2] at this
  intro rad' lt' gs' c' e1 e2
  rw [h1] at e1
  cases e1
  rw [hc] at e2
  cases e2
  refine ⟨fun q hq => ⟨habs q hq, ?_⟩, ?_⟩
  · refine List.single_le_sum (fun v hv => ?_) _ (List.mem_map.2 ⟨q, hq, rfl⟩)
    obtain ⟨q', -, rfl⟩ := List.mem_map.1 hv
    exact abs_nonneg _
  · intro k a b ha hb
    have hpos := hdiff k a b ha hb
    rw [← div_le_iff₀ (by linarith)]
    have hk : k + 1 < pts.length := (List.getElem?_eq_some_iff.1 hb).1
    have ea : pts.getD k 0 = a := by rw [List.getD_eq_getElem?_getD, ha]; rfl
    have eb : pts.getD (k + 1) 0 = b := by rw [List.getD_eq_getElem?_getD, hb]; rfl
    have := Finset.single_le_sum (f := fun k => |(pts.getD (k + 1) 0).2 - (pts.getD k 0).2| /
      ((pts.getD (k + 1) 0).1 - (pts.getD k 0).1)) (s := Finset.range (pts.length - 1)) (fun j hj => by
        have hj1 : j + 1 < pts.length := by have := Finset.mem_range.1 hj; omega
        have g1 : pts[j]? = some (pts.getD j 0) := by
          rw [List.getD_eq_getElem?_getD, List.getElem?_eq_getElem (by omega)]; rfl
        have g2 : pts[j + 1]? = some (pts.getD (j + 1) 0) := by
          rw [List.getD_eq_getElem?_getD, List.getElem?_eq_getElem hj1]; rfl
        have := hdiff j _ _ g1 g2
        exact div_nonneg (abs_nonneg _) (by linarith)) (Finset.mem_range.2 (by omega : k < pts.length - 1))
    rw [ea, eb] at this
    exact this

theorem excess_eq (h : Usable p f H bhe s) {x : Held} (hx : fresh p f H = .ok x) {dot : List ℝ → List ℝ → ℝ} {method : String}
    {hi lo : ℝ} {s' : Whole.State} (hsim : Rounded.simulateWhole R dot ℓ x.env method x.state = (.ok (hi, lo), s')) :
    Rounded.objectiveWhole R dot ℓ x.env method H x.state = (.ok (Rounded.cost R p.maxEFT p.minEFT hi lo), s') := by
  obtain ⟨B, c, sts, cl, hl, hy, hB, hc, hcl, h1, -, -, -, -, hf⟩ := fresh_ok h
  rw [hx] at hf
  cases hf
  unfold Rounded.objectiveWhole
  rw [St.modify_bind]
  dsimp only at hsim ⊢
  rw [h.at_height, St.bind_ok hsim]
  rfl

theorem spread {n : ℕ} {T T' : ℕ → ℝ} {hi lo hi' lo' E : ℝ} {err : ℕ → ℝ} (hE : ∀ k < n, err k ≤ E)
    (h : ∀ k < n, |T' k - T k| ≤ err k)
    (m : ((∃ k < n, T k = hi) ∧ ∀ k < n, T k ≤ hi) ∧ (∃ k < n, T k = lo) ∧ ∀ k < n, lo ≤ T k)
    (m' : ((∃ k < n, T' k = hi') ∧ ∀ k < n, T' k ≤ hi') ∧ (∃ k < n, T' k = lo') ∧ ∀ k < n, lo' ≤ T' k) :
    |hi' - hi| ≤ E ∧ |lo' - lo| ≤ E := by
  obtain ⟨⟨⟨a, a1, a2⟩, a3⟩, ⟨b, b1, b2⟩, b3⟩ := m
  obtain ⟨⟨⟨a', a1', a2'⟩, a3'⟩, ⟨b', b1', b2'⟩, b3'⟩ := m'
  have key : ∀ k < n, T k - E ≤ T' k ∧ T' k ≤ T k + E := by
    intro k hk
    have := abs_le.1 ((h k hk).trans (hE k hk))
    constructor <;> linarith
  constructor
  · have q1 := key a a1
    have q2 := key a' a1'
    have q3 := a3 a' a1'
    have q4 := a3' a a1
    exact abs_le.2 ⟨by linarith, by linarith⟩
  · have q1 := key b b1
    have q2 := key b' b1'
    have q3 := b3 b' b1'
    have q4 := b3' b b1
    exact abs_le.2 ⟨by linarith, by linarith⟩

theorem rounded_verdict {n : ℕ} {T T' : ℕ → ℝ} {hi' lo' a b : ℝ} {err : ℕ → ℝ} (h : ∀ k < n, |T' k - T k| ≤ err k)
    (m' : ((∃ k < n, T' k = hi') ∧ ∀ k < n, T' k ≤ hi') ∧ (∃ k < n, T' k = lo') ∧ ∀ k < n, lo' ≤ T' k) :
    (Rounded.cost R b a hi' lo' ≤ 0 → ∀ k < n, a - err k ≤ T k ∧ T k ≤ b + err k) ∧
    ((∀ k < n, a + err k ≤ T k ∧ T k ≤ b - err k) → Rounded.cost R b a hi' lo' ≤ 0) := by
  obtain ⟨⟨⟨i, i1, i2⟩, i3⟩, ⟨j, j1, j2⟩, j3⟩ := m'
  rw [(Rounded.C127_sign R _ _ _ _).1]
  constructor
  · rintro ⟨h1, h2⟩ k hk
    have q := abs_le.1 (h k hk)
    have q1 := i3 k hk
    have q2 := j3 k hk
    constructor <;> linarith
  · intro hall
    constructor
    · have q := abs_le.1 (h i i1)
      have := (hall i i1).2
      linarith
    · have q := abs_le.1 (h j j1)
      have := (hall j j1).1
      linarith

/-- C147: a new exchanger simulated hour by hour for `n` years in double precision, and in exact arithmetic.  The response has
abscissae, ordinates and slopes of at most `W`, `M` and `L`; the logarithm has relative error `η`.  If the years end by a
small margin before the response does, both simulations return.  Temperature by temperature they differ by at most
`Plant.slack`, in whatever order the dot products are added up; so do the extremes, and the excess computed for the exchanger
is at most 0 only if the limits hold up to that, and is if they hold with that to spare. -/
theorem C147_hourly (dot : List ℝ → List ℝ → ℝ)
    (hdot : ∀ w v : List ℝ, w.length = v.length → Summed Rounding.double (w.zip v) (dot w v)) {η W M L : ℝ}
    (hℓ : Accurate η ℓ) (hη : 0 ≤ η) (h : Usable p f H bhe s) (hs : Seam s) (hb : Tame p f H s W M L) (hshift : shift η W ≤ 1)
    (hflow : 0 < massFlow p f) (hcp : 0 < p.media.fluid.cp) (n : ℕ) (hn : 1 ≤ n) (hn' : n ≤ 10 ^ 9)
    (hmonths : p.endMonth - p.startMonth + 1 = 12 * n)
    (hend : 3600 * (8760 * n) ≤ charTime s * exp (3003 / 1000 - shift η W))
    (hcurve : ∀ c, p.gf (massFlow p f) p.media f H p.borehole.rb p.borehole.D = .ok c → ∀ v ∈ c, double v = v)
    (hloads : ∀ q ∈ p.hourly, double q = q) (Q : ℕ → ℝ) (hQ0 : Q 0 = 0)
    (hQ : ∀ k, p.hourly[k % 8760]? = some (-Q (k + 1))) :
    ∃ T hi lo T' hi' lo' e, HourlyRun p f H n T hi lo ∧
      FloatRun Rounding.double dot ℓ p f H "hourly" (8760 * n) T' hi' lo' e ∧
      (∀ k < 8760 * n, |T' k - T k| ≤ (plantOf p f H bhe).slack M (L * shift η W + M / 2 ^ 47) Q (k + 1)) ∧
      (∀ E, (∀ k < 8760 * n, (plantOf p f H bhe).slack M (L * shift η W + M / 2 ^ 47) Q (k + 1) ≤ E) →
        |hi' - hi| ≤ E ∧ |lo' - lo| ≤ E) ∧
      (e ≤ 0 → ∀ k < 8760 * n, p.minEFT - (plantOf p f H bhe).slack M (L * shift η W + M / 2 ^ 47) Q (k + 1) ≤ T k ∧
        T k ≤ p.maxEFT + (plantOf p f H bhe).slack M (L * shift η W + M / 2 ^ 47) Q (k + 1)) ∧
      ((∀ k < 8760 * n, p.minEFT + (plantOf p f H bhe).slack M (L * shift η W + M / 2 ^ 47) Q (k + 1) ≤ T k ∧
        T k ≤ p.maxEFT - (plantOf p f H bhe).slack M (L * shift η W + M / 2 ^ 47) Q (k + 1)) → e ≤ 0) := by
  have hts : 0 < charTime s := by
    obtain ⟨B, c', sts, cl, hl, hy, -⟩ := fresh_ok h
    exact charTime_pos (env := envOf p f H B c' (cl, hl, hy)) (s := s) h.sound
  have hsh : 0 ≤ shift η W := by
    obtain ⟨B, c, sts, cl, hl, hy, -, hc, -, h1, -⟩ := fresh_ok h
    obtain ⟨rad, lt, gs⟩ := sts
    obtain ⟨q, hq, -⟩ := List.mem_map.1 (points_last (lt := lt) (gs := gs) h hc)
    have : 0 ≤ W := (abs_nonneg _).trans ((hb _ _ _ _ h1 hc).1 q hq).1
    unfold shift
    positivity
  have hend' : 3600 * (8760 * n) ≤ charTime s * exp (3003 / 1000) := by
    refine hend.trans (mul_le_mul_of_nonneg_left ?_ hts.le)
    rw [exp_le_exp]
    linarith
  have hQr : rejected p.hourly = Q := by
    funext i
    cases i with
    | zero => rw [hQ0]; rfl
    | succ k => rw [rejected_succ, List.getD_eq_getElem?_getD, hQ]; simp
  obtain ⟨hi, lo, rad, lt, gs, c, G, a1, a2, a3, a4⟩ := hourly_run h hs n hn hmonths hend'
  rw [hQr] at a4
  have hext := a4.extremes h hs hn hmonths hend'
  obtain ⟨x, hx, -, -, -, -, -, -, -, -, -, -, -, hh, -⟩ := C95_made h
  have hnew : x.env.startMonth = p.startMonth ∧ x.env.endMonth = p.endMonth := by
    obtain ⟨B, c, sts, cl, hl, hy, -, -, -, -, -, -, -, -, hf⟩ := fresh_ok h
    rw [hx] at hf
    cases hf
    exact ⟨rfl, rfl⟩
  obtain ⟨-, LQ, hin, hL⟩ := Rounded.C123_hourly (gheEnv x.env fun _ => .error .valueError) (n := 12 * n)
    (show (12 * n : ℤ) = x.env.endMonth - x.env.startMonth + 1 by rw [hnew.1, hnew.2]; exact hmonths.symm) (by omega) (by omega)
    (by
      intro q hq
      change q ∈ x.env.hourly at hq
      rw [hh] at hq
      exact hloads q hq)
  have hceil : ⌈(((12 * n : ℤ)) : ℝ) / 12⌉.toNat = n := by
    push_cast
    rw [mul_div_cancel_left₀ _ (by norm_num)]
    simp
  rw [hceil, show (gheEnv x.env fun _ => .error .valueError).hourly = p.hourly from hh] at hL
  have hLlen : LQ.length = 8760 * n := by
    rw [hL, length_flatten_replicate, List.length_map, h.year, mul_comm]
  have hLk : ∀ k < 8760 * n, LQ[k]? = some (Q (k + 1)) := by
    intro k hk
    rw [hL, getElem?_flatten_replicate _ _ _ (by rw [List.length_map, h.year]; omega), List.length_map, h.year,
      List.getElem?_map, hQ k]
    simp
  have hLe : LQ = (List.range (8760 * n)).map fun k => Q (k + 1) := by
    apply List.ext_getElem?
    intro k
    by_cases hk : k < 8760 * n
    · rw [hLk k hk, List.getElem?_map, List.getElem?_range hk]
      rfl
    · rw [List.getElem?_eq_none (by omega), List.getElem?_eq_none (by simp; omega)]
  have hte : ((pyRange 1 (730 * (12 * (n : ℤ)) + 1)).map fun i : ℤ => (i : ℝ)) =
      (List.range (8760 * n)).map fun k => ((k + 1 : ℕ) : ℝ) := by
    unfold pyRange
    rw [List.map_map, show (730 * (12 * (n : ℤ)) + 1 - 1).toNat = 8760 * n by omega]
    apply List.map_congr_left
    intro k _
    simp [add_comm]
  rw [hLe, hte] at hin
  have hsub : ∀ i j : ℕ, j < i → ((i : ℝ) - (j : ℝ)) = ((i - j : ℕ) : ℝ) := fun i j hj => by rw [Nat.cast_sub hj.le]
  obtain ⟨T', hi', lo', s', b1, b2, b3, b4⟩ := simulate_rounded (R := Rounding.double) dot hdot hℓ hη h hs hb hshift hflow hcp hx
    hcurve (n := 8760 * n) (by omega) (by omega) Q Q (fun i => (i : ℝ)) hQ0 (by simp) (fun j _ _ => by
      rw [sub_self, abs_zero]
      positivity) (fun i _ j hj => by
      rw [hsub i j hj]
      have : (1 : ℝ) ≤ ((i - j : ℕ) : ℝ) := by exact_mod_cast (by omega : 1 ≤ i - j)
      have : (1 : ℝ) / 10 ^ 11 ≤ 1 := by norm_num
      linarith) (fun i hi => by
      refine le_trans ?_ hend
      have : (i : ℝ) ≤ 8760 * n := by exact_mod_cast hi
      linarith) hin a1 a2 (G := G) (fun i hi j hj => by
      rw [hsub i j hj]
      exact a3 _ (by omega) (by omega))
  refine ⟨_, hi, lo, T', hi', lo', _, a4, ⟨x, s', hx, b1, b2, excess_eq h hx b1⟩, b3, fun E hE => spread hE b3 hext b4, ?_⟩
  exact rounded_verdict b3 b4

/-- C147: the same for the hybrid loads of the new exchanger, in any rounding: its hours are at least 10⁻¹¹ s apart and the
last month ends by the small margin before the response does. -/
theorem C147_hybrid (dot : List ℝ → List ℝ → ℝ)
    (hdot : ∀ w v : List ℝ, w.length = v.length → Summed R (w.zip v) (dot w v)) {η W M L : ℝ}
    (hℓ : Accurate η ℓ) (hη : 0 ≤ η) (h : Usable p f H bhe s) (hs : Seam s) (hb : Tame p f H s W M L) (hshift : shift η W ≤ 1)
    (hflow : 0 < massFlow p f) (hcp : 0 < p.media.fluid.cp) (x : Held) (hx : fresh p f H = .ok x)
    (hgap : (0 :: x.env.hour.drop 2).Pairwise (fun u v => 1 / 10 ^ 11 ≤ 3600 * (v - u)))
    (hend : 3600 * (hoursOf p.endMonth.toNat : ℝ) ≤ charTime s * exp (3003 / 1000 - shift η W))
    (hcurve : ∀ c, p.gf (massFlow p f) p.media f H p.borehole.rb p.borehole.D = .ok c → ∀ v ∈ c, R.fl v = v)
    (hlong : x.env.load.length + 6 ≤ 2 ^ 52) (Q : ℕ → ℝ) (hQ0 : Q 0 = 0)
    (hQ : ∀ k, k + 2 < x.env.load.length → x.env.load[k + 2]? = some (Q (k + 1) / 1000)) :
    ∃ (T : ℕ → ℝ) (hi lo : ℝ) (T' : ℕ → ℝ) (hi' lo' e : ℝ), (∃ s', Whole.simulate x.env "hybrid" x.state = (.ok (hi, lo), s') ∧
        s'.HPEFT = (List.range (x.env.load.length - 2)).map fun k => some (T k)) ∧
      FloatRun R dot ℓ p f H "hybrid" (x.env.load.length - 2) T' hi' lo' e ∧
      (∀ k < x.env.load.length - 2, |T' k - T k| ≤
        (plantOf p f H bhe).slack M (L * shift η W + M / 2 ^ 47) Q (k + 1)) ∧
      (∀ E, (∀ k < x.env.load.length - 2, (plantOf p f H bhe).slack M (L * shift η W + M / 2 ^ 47) Q (k + 1) ≤ E) →
        |hi' - hi| ≤ E ∧ |lo' - lo| ≤ E) ∧
      (e ≤ 0 → ∀ k < x.env.load.length - 2,
        p.minEFT - (plantOf p f H bhe).slack M (L * shift η W + M / 2 ^ 47) Q (k + 1) ≤ T k ∧
        T k ≤ p.maxEFT + (plantOf p f H bhe).slack M (L * shift η W + M / 2 ^ 47) Q (k + 1)) ∧
      ((∀ k < x.env.load.length - 2,
        p.minEFT + (plantOf p f H bhe).slack M (L * shift η W + M / 2 ^ 47) Q (k + 1) ≤ T k ∧
        T k ≤ p.maxEFT - (plantOf p f H bhe).slack M (L * shift η W + M / 2 ^ 47) Q (k + 1)) → e ≤ 0) := by
  have hts : 0 < charTime s := by
    obtain ⟨B, c', sts, cl, hl, hy, -⟩ := fresh_ok h
    exact charTime_pos (env := envOf p f H B c' (cl, hl, hy)) (s := s) h.sound
  have hsh : 0 ≤ shift η W := by
    obtain ⟨B, c, sts, cl, hl, hy, -, hc, -, h1, -⟩ := fresh_ok h
    obtain ⟨rad, lt, gs⟩ := sts
    obtain ⟨q, hq, -⟩ := List.mem_map.1 (points_last (lt := lt) (gs := gs) h hc)
    have : 0 ≤ W := (abs_nonneg _).trans ((hb _ _ _ _ h1 hc).1 q hq).1
    unfold shift
    positivity
  have hend' : 3600 * (hoursOf p.endMonth.toNat : ℝ) ≤ charTime s * exp (3003 / 1000) := by
    refine hend.trans (mul_le_mul_of_nonneg_left ?_ hts.le)
    rw [exp_le_exp]
    linarith
  obtain ⟨x', hx', -, -, -, -, -, -, -, -, -, -, -, -, hll, hlast⟩ := C95_made h
  rw [hx] at hx'
  cases hx'
  set t : ℕ → ℝ := at0 (x.env.hour.drop 2) with htd
  set n := x.env.load.length - 2 with hnd
  have ht0 : t 0 = 0 := rfl
  have ht : ∀ k, k + 2 < x.env.load.length → x.env.hour[k + 2]? = some (t (k + 1)) := by
    intro k hk
    rw [htd, at0_succ, List.getD_eq_getElem?_getD, List.getElem?_drop, add_comm 2 k,
      List.getElem?_eq_getElem (by omega)]
    rfl
  have hgap' : (0 :: x.env.hour.drop 2).Pairwise (fun u v => 1 / 10 ^ 12 ≤ 3600 * (v - u)) := by
    refine hgap.imp fun hab => le_trans ?_ hab
    norm_num
  obtain ⟨hi, lo, s', rad, lt, gs, c, G, c1, c2, c3, c4, c5, ⟨m1, m2⟩, m3, m4⟩ :=
    C96_hybrid h hs x hx hgap' hend' Q t hQ0 ht0 hQ ht
  rw [c5] at m1 m2 m3 m4
  have hpair := List.pairwise_iff_getElem.1 hgap
  have hgaps : ∀ i ≤ n, ∀ j < i, 1 / 10 ^ 11 ≤ 3600 * (t i - t j) := by
    intro i hi j hj
    have e : ∀ k ≤ n, ∃ hk : k < (0 :: x.env.hour.drop 2).length, (0 :: x.env.hour.drop 2)[k] = t k := by
      intro k hk
      have hk' : k < (0 :: x.env.hour.drop 2).length := by rw [List.length_cons, List.length_drop]; omega
      refine ⟨hk', ?_⟩
      cases k with
      | zero => rfl
      | succ k =>
        rw [List.length_cons] at hk'
        rw [htd, at0_succ, List.getD_eq_getElem?_getD, List.getElem?_eq_getElem (by omega)]
        rfl
    obtain ⟨k1, e1⟩ := e i hi
    obtain ⟨k2, e2⟩ := e j (by omega)
    have := hpair j i k2 k1 hj
    rw [e1, e2] at this
    exact this
  have hn1 : 1 ≤ n := by
    obtain ⟨k, hk, -⟩ := List.mem_map.1 m1
    have := List.mem_range.1 hk
    omega
  have hends : ∀ i ≤ n, 3600 * t i ≤ charTime s * exp (3003 / 1000 - shift η W) := by
    intro i hi
    refine le_trans ?_ hend
    have hn : t n = (hoursOf p.endMonth.toNat : ℝ) := by
      have := ht (n - 1) (by omega)
      rw [show n - 1 + 2 = x.env.hour.length - 1 by omega, ← List.getLast?_eq_getElem?, hlast] at this
      rw [show n - 1 + 1 = n by omega] at this
      exact (Option.some.inj this).symm
    rw [← hn]
    rcases Nat.lt_or_ge i n with hlt | hge
    · have := hgaps n le_rfl i hlt
      have : (0 : ℝ) < 1 / 10 ^ 11 := by positivity
      linarith
    · rw [show i = n by omega]
  have hlq : (x.env.load.drop 2).map (fun q => Rounded.mul R q 1000) =
      (List.range n).map fun k => (fun j => R.fl (Q j)) (k + 1) := by
    apply List.ext_getElem?
    intro k
    by_cases hk : k < n
    · rw [List.getElem?_map, List.getElem?_drop, add_comm 2 k, hQ k (by omega), List.getElem?_map, List.getElem?_range hk]
      show some (R.fl (Q (k + 1) / 1000 * 1000)) = _
      rw [div_mul_cancel₀ _ (by norm_num)]
      rfl
    · rw [List.getElem?_eq_none (by simp; omega), List.getElem?_eq_none (by simp; omega)]
  have hlt : x.env.hour.drop 2 = (List.range n).map fun k => t (k + 1) := by
    apply List.ext_getElem?
    intro k
    by_cases hk : k < n
    · rw [List.getElem?_drop, add_comm 2 k, ht k (by omega), List.getElem?_map, List.getElem?_range hk]
      rfl
    · rw [List.getElem?_eq_none (by simp; omega), List.getElem?_eq_none (by simp; omega)]
  have hin : Rounded.simulationInput R (gheEnv x.env fun _ => .error .valueError) "hybrid" =
      .ok ((List.range n).map (fun k => (fun j => R.fl (Q j)) (k + 1)), (List.range n).map fun k => t (k + 1)) := by
    rw [← hlq, ← hlt]
    rfl
  obtain ⟨T', hi', lo', s1, b1, b2, b3, b4⟩ := simulate_rounded dot hdot hℓ hη h hs hb hshift hflow hcp hx
    hcurve (n := n) hn1 (by omega) (fun j => R.fl (Q j)) Q t hQ0 ht0 (fun j _ _ => R.err _) hgaps hends hin c2 c3 (G := G) c4
  have hext : ((∃ k < n, exitTemp (siteOf p f H bhe) G Q t (k + 1) = hi) ∧
      ∀ k < n, exitTemp (siteOf p f H bhe) G Q t (k + 1) ≤ hi) ∧
      (∃ k < n, exitTemp (siteOf p f H bhe) G Q t (k + 1) = lo) ∧
      ∀ k < n, lo ≤ exitTemp (siteOf p f H bhe) G Q t (k + 1) := by
    have mem : ∀ k < n, some (exitTemp (siteOf p f H bhe) G Q t (k + 1)) ∈ (List.range n).map fun k =>
        some (exitTemp (siteOf p f H bhe) G Q t (k + 1)) := fun k hk => List.mem_map.2 ⟨k, List.mem_range.2 hk, rfl⟩
    refine ⟨⟨?_, fun k hk => m2 _ (mem k hk)⟩, ?_, fun k hk => m4 _ (mem k hk)⟩
    · obtain ⟨k, hk, e⟩ := List.mem_map.1 m1
      exact ⟨k, List.mem_range.1 hk, Option.some.inj e⟩
    · obtain ⟨k, hk, e⟩ := List.mem_map.1 m3
      exact ⟨k, List.mem_range.1 hk, Option.some.inj e⟩
  refine ⟨fun k => exitTemp (siteOf p f H bhe) G Q t (k + 1), hi, lo, T', hi', lo', _, ⟨s', c1, c5⟩,
    ⟨x, s1, hx, b1, b2, excess_eq h hx b1⟩, b3, fun E hE => spread hE b3 hext b4, ?_⟩
  exact rounded_verdict b3 b4

end

end Ghedt.WholeSearch
