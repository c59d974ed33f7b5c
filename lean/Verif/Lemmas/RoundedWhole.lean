import Verif.Model.RoundedWhole
import Verif.Props.RoundedResponse
import Verif.Props.MoreLoad

set_option linter.unusedSectionVars false

/-!
# Lemmas for the simulation of the whole exchanger object in floating-point arithmetic (C147)
-/

namespace Ghedt.WholeSearch
open Real Ghedt.GHE Ghedt.Bhe Ghedt.Radial Ghedt.Whole Ghedt.Search Ghedt.Utilities Ghedt.Spec Ghedt.Network Ghedt.Design

noncomputable section

variable {p : Problem} {f : Field} {H : ℝ} {bhe : Exchanger} {s : UTube} {R : Rounding ℝ} {ℓ : ℝ → ℝ}

/-- the numbers of `siteOf` as a plant -/
def plantOf (p : Problem) (f : Field) (H : ℝ) (bhe : Exchanger) : Plant ℝ :=
  ⟨f.length, H, 2 * π * p.media.soil.k, p.media.soil.ugt, effectiveRb p.ext bhe, massFlow p f, p.media.fluid.cp⟩

theorem correction_same (hℓ : ℓ 1 = 0) {rb : ℝ} (hrb : rb ≠ 0) {c : List ℝ} (hc : ∀ v ∈ c, R.fl v = v) :
    Rounded.radiusCorrection R ℓ c rb rb = .ok c := by
  unfold Rounded.radiusCorrection
  have : ∀ l : List ℝ, (∀ v ∈ l, R.fl v = v) → (l.mapM fun v => do
      let q ← Rounded.div R rb rb
      return Rounded.sub R v (ℓ q) : Py (List ℝ)) = .ok l := by
    intro l
    induction l with
    | nil => intro _; rfl
    | cons v l ih =>
      intro hl
      rw [List.mapM_cons, ih fun w hw => hl w (List.mem_cons_of_mem _ hw)]
      unfold Rounded.div
      rw [if_neg hrb, div_self hrb, Rounded.fl_one]
      show Except.ok (R.fl (v - ℓ 1) :: l) = _
      rw [hℓ, sub_zero, hl v List.mem_cons_self]
  exact this c hc

theorem prepare_rounded (h : Usable p f H bhe s) (hs : Seam s) {x : Held} (hx : fresh p f H = .ok x) (hℓ : ℓ 1 = 0)
    (hfix : ∀ c, p.gf (massFlow p f) p.media f H p.borehole.rb p.borehole.D = .ok c → ∀ v ∈ c, R.fl v = v) :
    ∃ st rad lt gs c xs ys, Rounded.prepareWhole R ℓ x.env x.state =
        (.ok (Rounded.thermalOf (plantOf p f H bhe) (Rounded.response R ℓ (charTime s) xs ys)), st) ∧
      calcSts p.solve (radialTube p.ext s) none false p.fuel = .ok (rad, lt, gs) ∧
      p.gf (massFlow p f) p.media f H p.borehole.rb p.borehole.D = .ok c ∧ xs.length = ys.length ∧
      xs.zip ys = points lt gs c := by
  obtain ⟨B, c, sts, cl, hl, hy, hB, hc, hcl, h1, -, -, -, -, hf⟩ := fresh_ok h
  rw [hx] at hf
  cases hf
  dsimp only at *
  have hB0 : B ≠ 0 := (h.radius.trans_le hB).ne'
  obtain ⟨d1, d2, d3⟩ := makeExchanger_data h.exchanger h.known
  have hreq := request_one (spl := p.spl) (f := f) (rb := p.borehole.rb) (D := p.borehole.D) (c := c) hB0
    h.height.ne' {}
  obtain ⟨rad, lt, gs⟩ := sts
  have hts : rad.ts = charTime s := by
    obtain ⟨N, r, ys, -, -, e, e'⟩ := calcSts_ok (h.works B c (cl, hl, hy))
    change calcSts p.solve (radialTube p.ext s) none false p.fuel = _ at e'
    rw [h1] at e'
    cases e'
    exact e
  have hb : (borehole bhe).rb = p.borehole.rb := by rw [h.borehole]
  have hH : (borehole bhe).H = H := by rw [h.borehole]
  have hup : updateBhe p.ext bhe = bhe := makeExchanger_settled h.exchanger
  obtain ⟨xs, ys, hgrab, hlen, hzip, -⟩ := Report.grab_points (env := envOf p f H B c (cl, hl, hy)) h.known
    (h.works B c (cl, hl, hy)) (times_one hs B c (cl, hl, hy)) ⟨bhe, s, (rad, lt, gs), {}, [], []⟩ h.at_height.symm h1 _ _
    hreq h.radius.ne' hcl
  have hcorr : (c.map fun v => v - log ((borehole bhe).rb / p.borehole.rb)) = c := by
    rw [hb, div_self h.radius.ne', log_one]
    simp
  have hrq : requestG (envOf p f H B c (cl, hl, hy)) (B / H) ⟨bhe, s, (rad, lt, gs), {}, [], []⟩ =
      (.ok ⟨c, p.borehole.rb, some p.borehole.D, H, false⟩, ⟨bhe, s, (rad, lt, gs), {}, [], []⟩) := by
    unfold requestG
    dsimp only
    rw [show GF.request (envOf p f H B c (cl, hl, hy)).spl (envOf p f H B c (cl, hl, hy)).db (B / H) "default" {} = _ from hreq]
  have hex : GF.radiusCorrection log c p.borehole.rb (borehole bhe).rb = .ok c := by
    have : GF.radiusCorrection log c p.borehole.rb (borehole bhe).rb =
        .ok (c.map fun v => v - log ((borehole bhe).rb / p.borehole.rb)) := by
      unfold GF.radiusCorrection
      refine mapM_ok fun v _ => ?_
      rw [pyDiv_ok h.radius.ne']
      rfl
    rw [this, hcorr]
  have hgrab' : Rounded.grabWhole R ℓ (envOf p f H B c (cl, hl, hy)) (B / H) ⟨bhe, s, (rad, lt, gs), {}, [], []⟩ =
      (.ok (xs, ys), ⟨bhe, s, (rad, lt, gs), {}, [], []⟩) := by
    rw [← show _ = _ from hgrab]
    unfold Rounded.grabWhole grabG
    rw [show (envOf p f H B c (cl, hl, hy)).bSpacing = B from rfl, St.bind_ok hrq, St.bind_ok hrq, St.get_bind, St.get_bind]
    dsimp only
    rw [hex, hb, correction_same hℓ h.radius.ne' (hfix c hc)]
  refine ⟨⟨bhe, s, (rad, lt, gs), {}, [], []⟩, rad, lt, gs, c, xs, ys, ?_, h1, hc, hlen, ?_⟩
  · unfold Rounded.prepareWhole
    rw [St.get_bind]
    dsimp only
    rw [hH, show (envOf p f H B c (cl, hl, hy)).bSpacing = B from rfl, pyDiv_ok h.height.ne', St.lift_ok rfl, St.modify_bind,
      St.get_bind]
    dsimp only
    rw [show (envOf p f H B c (cl, hl, hy)).ext = p.ext from rfl, hup,
      show computeEquivalent p.ext (envOf p f H B c (cl, hl, hy)).brent bhe = _ from h.converts, St.lift_ok rfl]
    dsimp only
    rw [St.modify_bind]
    dsimp only
    rw [show calcSts (envOf p f H B c (cl, hl, hy)).solve (radialTube p.ext s) none false
      (envOf p f H B c (cl, hl, hy)).fuel = _ from h1, St.lift_ok rfl, St.modify_bind]
    dsimp only
    rw [St.bind_ok hgrab', St.get_bind]
    dsimp only
    rw [hH, hts, d1, d2, d3]
    rfl
  · unfold responsePoints at hzip
    dsimp only at hzip
    rw [hcorr] at hzip
    exact hzip

theorem points_first (h : Usable p f H bhe s) (hs : Seam s) {rad : Radial} {lt gs c : List ℝ}
    (hsts : calcSts p.solve (radialTube p.ext s) none false p.fuel = .ok (rad, lt, gs)) :
    log (1 / 10 ^ 12 / charTime s) ∈ (points lt gs c).map Prod.fst := by
  obtain ⟨B, c', sts, cl, hl, hy, -⟩ := fresh_ok h
  obtain ⟨N, r, ys, hN, hlen, -, e'⟩ := calcSts_ok (h.works B c' (cl, hl, hy))
  change calcSts p.solve (radialTube p.ext s) none false p.fuel = _ at e'
  rw [hsts] at e'
  cases e'
  have hts := charTime_pos (env := envOf p f H B c' (cl, hl, hy)) (s := s) h.sound
  have h00 : sampleTime 0 = 1 / 10 ^ 12 := by unfold sampleTime; simp
  refine List.mem_map.2 ⟨(log (1 / 10 ^ 12 / charTime s), gs[0]), ?_, rfl⟩
  unfold points
  refine List.mem_append_left _ (List.mem_filter.2 ⟨?_, ?_⟩)
  · refine List.mem_of_getElem? (i := 0) ?_
    rw [List.getElem?_zip_eq_some]
    refine ⟨?_, List.getElem?_eq_getElem (by omega)⟩
    rw [List.getElem?_map, List.getElem?_range (by omega), Option.map_some, h00]
  · have : log (1 / 10 ^ 12 / charTime s) < -(85 / 10) := by
      rw [← log_exp (-(85 / 10))]
      apply log_lt_log (by positivity)
      rw [div_lt_iff₀ hts, mul_comm]
      exact hs.1
    simpa using this.le

theorem points_last (h : Usable p f H bhe s) {lt gs c : List ℝ}
    (hc : p.gf (massFlow p f) p.media f H p.borehole.rb p.borehole.D = .ok c) :
    (3003 / 1000 : ℝ) ∈ (points lt gs c).map Prod.fst := by
  obtain ⟨c', hc', hl⟩ := h.curve
  rw [hc] at hc'
  cases hc'
  unfold points
  rw [List.map_append, List.map_fst_zip hl.ge]
  refine List.mem_append_right _ ?_
  unfold eskilsonLogTimes
  norm_num

theorem getD_lt (l : List ℝ) {k : ℕ} (hk : k < l.length) : l.getD k 0 = l[k] := by
  simp [List.getD_eq_getElem?_getD, hk]

/-- how large the response is and how steep -/
def Tame (p : Problem) (f : Field) (H : ℝ) (s : UTube) (W M L : ℝ) : Prop :=
  ∀ rad lt gs c, calcSts p.solve (radialTube p.ext s) none false p.fuel = .ok (rad, lt, gs) →
    p.gf (massFlow p f) p.media f H p.borehole.rb p.borehole.D = .ok c →
    (∀ q ∈ points lt gs c, |q.1| ≤ W ∧ |q.2| ≤ M) ∧
      ∀ (k : ℕ) a b, (points lt gs c)[k]? = some a → (points lt gs c)[k + 1]? = some b → |b.2 - a.2| ≤ L * (b.1 - a.1)

theorem plantOf_sound (h : Usable p f H bhe s) (hflow : 0 < massFlow p f) (hcp : 0 < p.media.fluid.cp) :
    (plantOf p f H bhe).Sound where
  boreholes := by
    show (0 : ℝ) < f.length
    exact_mod_cast List.length_pos_of_ne_nil h.field
  height := h.height
  twoPiK := by
    have := soil_pos h
    show 0 < 2 * π * p.media.soil.k
    positivity
  flow := hflow
  cp := hcp

theorem exit_eq (G : ℝ → ℝ) (Q t : ℕ → ℝ) (i : ℕ) :
    (plantOf p f H bhe).exit (fun i j => G (t i - t j)) Q i = exitTemp (siteOf p f H bhe) G Q t i := by
  unfold Plant.exit exitTemp wallRise plantOf siteOf
  dsimp only
  simp only [div_div]

theorem size_le {pl : Plant ℝ} (hp : pl.Sound) {M : ℝ} {G : ℕ → ℕ → ℝ} {Q : ℕ → ℝ} {i : ℕ} (hG : ∀ j < i, |G i j| ≤ M) :
    pl.size G Q i ≤ |pl.ground| + M * pl.changes Q i + |Q i| / (pl.boreholes * pl.height) * |pl.resistance| +
      |Q i| / (pl.boreholes * (2 * pl.flow * pl.cp)) := by
  have hD : 0 < pl.boreholes * pl.height * pl.twoPiK := mul_pos (mul_pos hp.boreholes hp.height) hp.twoPiK
  unfold Plant.size Plant.changes
  gcongr
  rw [Finset.mul_sum]
  refine Finset.sum_le_sum fun j hj => ?_
  rw [mul_comm M]
  exact mul_le_mul_of_nonneg_left (hG j (Finset.mem_range.1 hj)) (by positivity)

/-- a simulation of the new exchanger in floating-point arithmetic, for any loads and increasing times -/
theorem simulate_rounded (dot : List ℝ → List ℝ → ℝ)
    (hdot : ∀ w v : List ℝ, w.length = v.length → Summed R (w.zip v) (dot w v)) {η W M L : ℝ} (hℓ : Accurate η ℓ) (hη : 0 ≤ η)
    (h : Usable p f H bhe s) (hs : Seam s) (hb : Tame p f H s W M L) (hshift : shift η W ≤ 1)
    (hflow : 0 < massFlow p f) (hcp : 0 < p.media.fluid.cp) {x : Held} (hx : fresh p f H = .ok x)
    (hfix : ∀ c, p.gf (massFlow p f) p.media f H p.borehole.rb p.borehole.D = .ok c → ∀ v ∈ c, R.fl v = v)
    {method : String} {n : ℕ} (h0 : 1 ≤ n) (hn : n + 8 ≤ 2 ^ 52) (Q' Q t : ℕ → ℝ) (hQ0 : Q 0 = 0) (ht0 : t 0 = 0)
    (hQ : ∀ j, 1 ≤ j → j ≤ n → |Q' j - Q j| ≤ 1 / 2 ^ 53 * |Q j|)
    (hgap : ∀ i ≤ n, ∀ j < i, 1 / 10 ^ 11 ≤ 3600 * (t i - t j))
    (hend : ∀ i ≤ n, 3600 * t i ≤ charTime s * exp (3003 / 1000 - shift η W))
    (hin : Rounded.simulationInput R (gheEnv x.env fun _ => .error .valueError) method =
      .ok ((List.range n).map (fun k => Q' (k + 1)), (List.range n).map fun k => t (k + 1)))
    {rad : Radial} {lt gs c : List ℝ} (hsts : calcSts p.solve (radialTube p.ext s) none false p.fuel = .ok (rad, lt, gs))
    (hc : p.gf (massFlow p f) p.media f H p.borehole.rb p.borehole.D = .ok c) {G : ℝ → ℝ}
    (hG : ∀ i ≤ n, ∀ j < i, OnPolyline (points lt gs c) (log (3600 * (t i - t j) / charTime s)) (G (t i - t j))) :
    ∃ (T : ℕ → ℝ) (hi lo : ℝ) (s' : Whole.State), Rounded.simulateWhole R dot ℓ x.env method x.state = (.ok (hi, lo), s') ∧
      s'.HPEFT = (List.range n).map (fun k => some (T k)) ∧
      (∀ k < n, |T k - exitTemp (siteOf p f H bhe) G Q t (k + 1)| ≤
        (plantOf p f H bhe).slack M (L * shift η W + M / 2 ^ 47) Q (k + 1)) ∧
      ((∃ k < n, T k = hi) ∧ ∀ k < n, T k ≤ hi) ∧ (∃ k < n, T k = lo) ∧ ∀ k < n, lo ≤ T k := by
  have hℓ1 : ℓ 1 = 0 := by
    have := hℓ 1 one_pos
    rw [log_one, abs_zero, mul_zero, sub_zero] at this
    exact abs_eq_zero.1 (le_antisymm this (abs_nonneg _))
  have hts : 0 < charTime s := by
    obtain ⟨B, c', sts, cl, hl, hy, -⟩ := fresh_ok h
    exact charTime_pos (env := envOf p f H B c' (cl, hl, hy)) (s := s) h.sound
  have hp := plantOf_sound h hflow hcp
  obtain ⟨st, rad', lt', gs', c', xs, ys, hprep, e1, e2, hlen, hzip⟩ := prepare_rounded h hs hx hℓ1 hfix
  rw [hsts] at e1
  cases e1
  rw [hc] at e2
  cases e2
  obtain ⟨hb1, hb2⟩ := hb _ _ _ _ hsts hc
  have hord := points_ordered h hs hsts hc
  have hfst : (points lt gs c).map Prod.fst = xs := by rw [← hzip, List.map_fst_zip hlen.le]
  have hsorted : xs.Pairwise (· < ·) := by rw [← hfst, List.pairwise_map]; exact hord
  have hfirst := points_first (c := c) h hs hsts
  have hlast := points_last (lt := lt) (gs := gs) h hc
  rw [hfst] at hfirst hlast
  set N := xs.length with hN
  have hxs : xs = (List.range N).map fun k => xs.getD k 0 := by
    apply List.ext_getElem (by simp [hN])
    intro k h1 h2
    simp [List.getD_eq_getElem?_getD, h1]
  have hys : ys = (List.range N).map fun k => ys.getD k 0 := by
    apply List.ext_getElem (by rw [List.length_map, List.length_range]; exact hlen.symm)
    intro k h1 h2
    simp [List.getD_eq_getElem?_getD, h1]
  have hget : ∀ k < N, (points lt gs c)[k]? = some (xs.getD k 0, ys.getD k 0) := by
    intro k hk
    have hk' : k < ys.length := by omega
    rw [← hzip, List.getElem?_zip_eq_some]
    have hk1 : k < xs.length := hk
    simp [List.getD_eq_getElem?_getD, hk1, hk']
  have hNpos : 0 < N := List.length_pos_of_mem hfirst
  have hT : Tabulated N (fun k => xs.getD k 0) (fun k => ys.getD k 0) W M L := by
    refine ⟨hNpos, ?_, ?_, ?_, ?_⟩
    · intro k hk
      have := List.pairwise_iff_getElem.1 hord
      have g1 := hget k (by omega)
      have g2 := hget (k + 1) hk
      obtain ⟨q1, q2⟩ := List.getElem?_eq_some_iff.1 g1
      obtain ⟨r1, r2⟩ := List.getElem?_eq_some_iff.1 g2
      have := this k (k + 1) q1 r1 (by omega)
      rw [q2, r2] at this
      exact this
    · exact fun k hk => (hb1 _ (List.mem_of_getElem? (hget k hk))).1
    · exact fun k hk => (hb1 _ (List.mem_of_getElem? (hget k hk))).2
    · exact fun k hk => hb2 k _ _ (hget k (by omega)) (hget (k + 1) hk)
  have hmono : ∀ i j, i ≤ j → j < N → xs.getD i 0 ≤ xs.getD j 0 := by
    intro i j hij
    induction j, hij using Nat.le_induction with
    | base => intro _; exact le_rfl
    | succ j _ ih => intro hj; exact (ih (by omega)).trans (hT.inc j hj).le
  have hx0 : xs.getD 0 0 ≤ log (1 / 10 ^ 12 / charTime s) := by
    obtain ⟨k, hk, e⟩ := List.mem_iff_getElem.1 hfirst
    rw [← e, ← getD_lt xs hk]
    exact hmono 0 k (Nat.zero_le _) hk
  have hxN : 3003 / 1000 ≤ xs.getD (N - 1) 0 := by
    obtain ⟨k, hk, e⟩ := List.mem_iff_getElem.1 hlast
    rw [← e, ← getD_lt xs hk]
    exact hmono k (N - 1) (by omega) (by omega)
  have hsh0 : 0 ≤ shift η W := by
    have : 0 ≤ W := (abs_nonneg _).trans (hT.abscissa 0 hT.pos)
    unfold shift
    positivity
  have hpos : ∀ i ≤ n, ∀ j < i, t j < t i := by
    intro i hi j hj
    have := hgap i hi j hj
    have : (0 : ℝ) < 1 / 10 ^ 11 := by positivity
    linarith
  have ht : ∀ i ≤ n, 0 ≤ t i := by
    intro i hi
    rcases Nat.eq_zero_or_pos i with h1 | h1
    · rw [h1, ht0]
    · have := hpos i hi 0 h1
      rw [ht0] at this
      exact this.le
  have hin1 : ∀ i ≤ n, ∀ j < i, xs.getD 0 0 + shift η W ≤ log ((t i - t j) * 3600 / charTime s) ∧
      log ((t i - t j) * 3600 / charTime s) ≤ xs.getD (N - 1) 0 - shift η W := by
    intro i hi j hj
    have g := hgap i hi j hj
    have g' := hpos i hi j hj
    constructor
    · have h1 : log (1 / 10 ^ 12 / charTime s) + 1 ≤ log ((t i - t j) * 3600 / charTime s) := by
        have : log (1 / 10 ^ 12 / charTime s) + log 10 ≤ log ((t i - t j) * 3600 / charTime s) := by
          rw [← log_mul (by positivity) (by norm_num)]
          apply log_le_log (by positivity)
          rw [div_mul_eq_mul_div]
          apply div_le_div_of_nonneg_right _ hts.le
          have : (1 / 10 ^ 12 * 10 : ℝ) = 1 / 10 ^ 11 := by norm_num
          linarith
        have h10 : (1 : ℝ) ≤ log 10 := by
          rw [le_log_iff_exp_le (by norm_num)]
          have := exp_one_lt_d9
          linarith
        linarith
      linarith
    · have h2 : log ((t i - t j) * 3600 / charTime s) ≤ 3003 / 1000 - shift η W := by
        rw [← log_exp (3003 / 1000 - shift η W)]
        apply log_le_log (by have : 0 < t i - t j := by linarith
                             positivity)
        rw [div_le_iff₀ hts]
        have := hend i hi
        have := ht j (by omega)
        linarith
      linarith
  have hin2 : ∀ i ≤ n, ∀ j < i, t j ≤ t i → t j < t i ∧ xs.getD 0 0 + shift η W ≤ log ((t i - t j) * 3600 / charTime s) ∧
      log ((t i - t j) * 3600 / charTime s) ≤ xs.getD (N - 1) 0 - shift η W :=
    fun i hi j hj _ => ⟨hpos i hi j hj, hin1 i hi j hj⟩
  have hval : ∀ i ≤ n, ∀ j < i, interp1d xs ys (log ((t i - t j) * 3600 / charTime s)) = .ok (G (t i - t j)) := by
    intro i hi j hj
    obtain ⟨k1, k2⟩ := hin1 i hi j hj
    obtain ⟨d, hd⟩ := interp1d_exists (fun k => ys.getD k 0) hT.inc hT.pos (v := log ((t i - t j) * 3600 / charTime s))
      (by linarith) (by linarith)
    rw [← hxs, ← hys] at hd
    have o1 := interp1d_polyline (hsorted.imp le_of_lt) hd
    rw [hzip, mul_comm] at o1
    rw [hd, polyline_unique hord o1 (hG i hi j hj)]
  have hGresp : ∀ i ≤ n, ∀ j < i, t j ≤ t i → Whole.response (charTime s) ((List.range N).map fun k => xs.getD k 0)
      ((List.range N).map fun k => ys.getD k 0) (t i - t j) = .ok ((fun i j => G (t i - t j)) i j) := by
    intro i hi j hj _
    rw [← hxs, ← hys]
    unfold Whole.response
    rw [if_neg (by have := hpos i hi j hj; linarith)]
    exact hval i hi j hj
  have hGM : ∀ i ≤ n, ∀ j < i, |G (t i - t j)| ≤ M := by
    intro i hi j hj
    have := interp1d_range (lo := -M) (hi := M) (fun v hv => by
      obtain ⟨k, hk, e⟩ := List.mem_iff_getElem.1 hv
      have hk' : k < N := by omega
      have := hT.ordinate k hk'
      rw [getD_lt ys hk, e] at this
      exact abs_le.1 this) (hval i hi j hj)
    exact abs_le.2 this
  obtain ⟨T, d, hrun, hTl, hTv⟩ := Rounded.C146_temperatures R dot hdot (plantOf p f H bhe) hp hℓ hη hT hts
    (fun i j => G (t i - t j)) n hn Q' Q t hQ0 ht0 hQ hin2 hGresp
  rw [← hxs, ← hys] at hrun
  have key : ∀ k, ∃ v, k < n → T[k]? = some (some v) ∧ |v - exitTemp (siteOf p f H bhe) G Q t (k + 1)| ≤
      (plantOf p f H bhe).slack M (L * shift η W + M / 2 ^ 47) Q (k + 1) := by
    intro k
    by_cases hk : k < n
    · obtain ⟨v, v1, v2⟩ := hTv (k + 1) (by omega) (by omega) fun j hj => (hpos (k + 1) (by omega) j hj).le
      refine ⟨v, fun _ => ⟨v1, ?_⟩⟩
      rw [exit_eq] at v2
      refine v2.trans ?_
      unfold Plant.slack
      have := size_le hp (Q := Q) (i := k + 1) (G := fun i j => G (t i - t j)) (hGM (k + 1) (by omega))
      gcongr
    · exact ⟨0, fun h1 => absurd h1 hk⟩
  choose T' hT' using key
  have hTe : T = (List.range n).map fun k => some (T' k) := by
    apply List.ext_getElem?
    intro k
    by_cases hk : k < n
    · rw [(hT' k hk).1, List.getElem?_map, List.getElem?_range hk]
      rfl
    · rw [List.getElem?_eq_none (by omega), List.getElem?_eq_none (by simp; omega)]
  have hhead : T.head? = some (some (T' 0)) := by rw [List.head?_eq_getElem?]; exact (hT' 0 h0).1
  obtain ⟨⟨a, ha⟩, b, hb'⟩ := Ghedt.extremes_ok hhead
  obtain ⟨m1, m2⟩ := maxNumber_eq_ok ha
  obtain ⟨m3, m4⟩ := minNumber_eq_ok hb'
  have mem : ∀ k < n, some (T' k) ∈ T := fun k hk => by
    rw [hTe]
    exact List.mem_map.2 ⟨k, List.mem_range.2 hk, rfl⟩
  have mem' : ∀ v, some v ∈ T → ∃ k < n, T' k = v := by
    intro v hv
    rw [hTe] at hv
    obtain ⟨k, hk, e⟩ := List.mem_map.1 hv
    exact ⟨k, List.mem_range.1 hk, Option.some.inj e⟩
  refine ⟨T', a, b, { st with HPEFT := T, dTb := d }, ?_, hTe, fun k hk => (hT' k hk).2,
    ⟨mem' a m1, fun k hk => m2 _ (mem k hk)⟩, mem' b m3, fun k hk => m4 _ (mem k hk)⟩
  unfold Rounded.simulateWhole
  rw [St.bind_ok hprep, St.lift_ok hin]
  dsimp only
  rw [St.lift_ok hrun]
  dsimp only
  rw [St.modify_bind, St.lift_ok ha, St.lift_ok hb']
  rfl

end

end Ghedt.WholeSearch
