import Verif.Model.RoundedSearch
import Verif.Lemmas.SearchOrder
import Verif.Props.RoundedWhole

/-!
# C148 — a design found in floating-point arithmetic
-/

set_option linter.unusedSectionVars false

namespace Ghedt.WholeSearch
open Real Ghedt.GHE Ghedt.Bhe Ghedt.Radial Ghedt.Whole Ghedt.Search Ghedt.Utilities Ghedt.Spec Ghedt.Network Ghedt.Design

noncomputable section

/-- The field is among the candidates. -/
def Among (c : Design.Candidates ℝ) (f : Field) : Prop := ∃ k, Candidate c k f

theorem among_flat {d : List Field} {f : Field} : f ∈ d → Among (.flat d) f := fun h =>
  (List.mem_iff_getElem?.1 h).imp fun _ hk => hk

theorem among_nested {n : List (List Field)} {d : List Field} {f : Field} (hd : d ∈ n) (h : f ∈ d) : Among (.nested n) f :=
  (List.mem_iff_getElem?.1 h).imp fun _ hk => ⟨d, hd, hk⟩

/-- C148: all that the near-square, rectangle and bi-rectangle routines look at is the sign of the excess of each candidate at
minimum and maximum height and the order of the excesses at maximum height.  Two ways of computing the excesses that agree on
these lead to the same end: the same field and index, or the same exception. -/
theorem C148_order (env env' : Search.Env Field ℝ) (routine : String) (hz : routine ≠ "bi-zoned") (c : Design.Candidates ℝ)
    (h : SameOrder env env' (Among c)) :
    (Design.findDesign env routine c {}).1 = (Design.findDesign env' routine c {}).1 := by
  have close : ∀ {x y : St (Search.State Field ℝ) (Option (ℤ × Field))}, Par (Pair env env' (Among c)) Eq x y →
      (x {}).1 = (y {}).1 := by
    intro x y hp
    rcases hp {} {} .nil with ⟨e, h1, h2⟩ | ⟨a, b, h1, h2, rfl, -⟩
    · rw [h1, h2]
    · rw [h1, h2]
  apply close
  unfold Design.findDesign
  split_ifs with q1 q2 q3
  · cases c with
    | nested n => exact Par.bind (Par.lift _) fun _ _ hd => by cases hd.2
    | flat d =>
      refine Par.bind (Par.lift _) ?_
      rintro d' _ ⟨rfl, hd⟩
      cases hd
      exact h.bisection1D fun f hf => among_flat hf
  · cases c with
    | nested n => exact Par.bind (Par.lift _) fun _ _ hd => by cases hd.2
    | flat d =>
      refine Par.bind (Par.lift _) ?_
      rintro d' _ ⟨rfl, hd⟩
      cases hd
      exact h.bisection1D fun f hf => among_flat hf
  · cases c with
    | flat n => exact Par.bind (Par.lift _) fun _ _ hd => by cases hd.2
    | nested n =>
      refine Par.bind (Par.lift _) ?_
      rintro d' _ ⟨rfl, hd⟩
      cases hd
      exact h.bisection2D fun d hd f hf => among_nested hd hf
  · exact Par.throw _

variable {p : Problem} {R : Rounding ℝ} {dot : List ℝ → List ℝ → ℝ} {ℓ : ℝ → ℝ}

theorem findDesign_result (p : Problem) (routine : String) (c : Design.Candidates ℝ) :
    (Design.findDesign (absEnv p) routine c {}).1 = (findDesign p routine c {}).1 := by
  rcases top_findDesign (p := p) routine c with ⟨e, h1, h2⟩ | ⟨v, w, h1, h2, rfl, -⟩
  · rw [h1, h2]
  · rw [h1, h2]

/-- C148: without rounding the model is that of the other claims. -/
theorem C148_exact (p : Problem) (routine : String) (c : Design.Candidates ℝ) :
    (Rounded.findDesign Rounding.exact (fun w v => (List.zipWith (· * ·) w v).sum) log p routine c {}).1 =
      (findDesign p routine c {}).1 := by
  have : Rounded.searchEnv Rounding.exact (fun w v => (List.zipWith (· * ·) w v).sum) log p = absEnv p := by
    unfold Rounded.searchEnv
    have e : Rounded.excessOf Rounding.exact (fun w v => (List.zipWith (· * ·) w v).sum) log p = (absEnv p).sim := by
      funext f H
      unfold Rounded.excessOf
      simp only [(C147_exact _ _ 0).2.1]
      rfl
    rw [e]
  unfold Rounded.findDesign
  rw [this]
  exact findDesign_result p routine c

/-- A new exchanger for the field and the height has extreme temperatures in floating point within `E` of those in exact
arithmetic. -/
def Computed (R : Rounding ℝ) (dot : List ℝ → List ℝ → ℝ) (ℓ : ℝ → ℝ) (p : Problem) (f : Field) (H E : ℝ) : Prop :=
  ∃ x hi lo hi' lo', fresh p f H = .ok x ∧ (Whole.simulate x.env p.method x.state).1 = .ok (hi, lo) ∧
    (Rounded.simulateWhole R dot ℓ x.env p.method x.state).1 = .ok (hi', lo') ∧ |hi' - hi| ≤ E ∧ |lo' - lo| ≤ E

/-- the excess of the field at the height in exact arithmetic -/
def Exceeds (p : Problem) (f : Field) (H e : ℝ) : Prop :=
  ∃ hi lo, Extremes p f H hi lo ∧ e = max (hi - p.maxEFT) (p.minEFT - lo)

theorem Computed.excess {f : Field} {H E : ℝ} (h : Computed R dot ℓ p f H E) :
    ∃ e e', (absEnv p).sim f H = .ok e ∧ Exceeds p f H e ∧ (Rounded.searchEnv R dot ℓ p).sim f H = .ok e' ∧
      (e' ≤ 0 → e ≤ E) ∧ |e' - e| ≤ E + 1 / 2 ^ 53 * (|e| + E) := by
  obtain ⟨x, hi, lo, hi', lo', hx, h1, h2, h3, h4⟩ := h
  refine ⟨max (hi - p.maxEFT) (p.minEFT - lo), Rounded.cost R p.maxEFT p.minEFT hi' lo', ?_, ⟨hi, lo, ⟨x, hx, h1⟩, rfl⟩, ?_, ?_, ?_⟩
  · show (fresh p f H >>= _) = _
    rw [hx]
    show ((Whole.simulate x.env p.method x.state).1 >>= _) = _
    rw [h1]
    rfl
  · show (fresh p f H >>= _) = _
    rw [hx]
    show ((Rounded.simulateWhole R dot ℓ x.env p.method x.state).1 >>= _) = _
    rw [h2]
    rfl
  · rw [(Rounded.C127_sign R _ _ _ _).1]
    rintro ⟨q1, q2⟩
    have := abs_le.1 h3
    have := abs_le.1 h4
    exact max_le (by linarith) (by linarith)
  · have e1 : Rounded.cost R p.maxEFT p.minEFT hi' lo' = R.fl (max (hi' - p.maxEFT) (p.minEFT - lo')) :=
      (R.mono.map_max).symm
    have e2 : |max (hi' - p.maxEFT) (p.minEFT - lo') - max (hi - p.maxEFT) (p.minEFT - lo)| ≤ E := by
      refine (abs_max_sub_max_le_max _ _ _ _).trans (max_le ?_ ?_)
      · rw [show hi' - p.maxEFT - (hi - p.maxEFT) = hi' - hi by ring]
        exact h3
      · rw [show p.minEFT - lo' - (p.minEFT - lo) = -(lo' - lo) by ring, abs_neg]
        exact h4
    rw [e1]
    generalize max (hi' - p.maxEFT) (p.minEFT - lo') = z at e2
    generalize max (hi - p.maxEFT) (p.minEFT - lo) = e at e2
    have e3 := R.err z
    have e4 : |z| ≤ |e| + E := by
      have := abs_sub_abs_le_abs_sub z e
      linarith
    calc |R.fl z - e| = |(R.fl z - z) + (z - e)| := by ring_nf
      _ ≤ |R.fl z - z| + |z - e| := abs_add_le _ _
      _ ≤ 1 / 2 ^ 53 * |z| + E := add_le_add e3 e2
      _ ≤ 1 / 2 ^ 53 * (|e| + E) + E := by gcongr
      _ = _ := by ring

/-- C148: whatever field the search in floating point returns, it is a candidate and its temperatures in exact arithmetic are
within the limits up to the error of the computed ones: at maximum height, or at minimum height if it is the first. -/
theorem C148_returned (routine : String) (hz : routine ≠ "bi-zoned") (c : Design.Candidates ℝ) (E : Field → ℝ → ℝ)
    (hE : ∀ f, Among c f → ∀ H, H = p.minHeight ∨ H = p.maxHeight → Computed R dot ℓ p f H (E f H))
    (r : Option (ℤ × Field)) (hret : (Rounded.findDesign R dot ℓ p routine c {}).1 = .ok r) :
    ∃ (k : ℕ) (f : Field), r = some ((k : ℤ), f) ∧ Candidate c k f ∧
      ((∃ hi lo, Extremes p f p.maxHeight hi lo ∧ hi ≤ p.maxEFT + E f p.maxHeight ∧ p.minEFT - E f p.maxHeight ≤ lo) ∨
        k = 0 ∧ ∃ hi lo, Extremes p f p.minHeight hi lo ∧ hi ≤ p.maxEFT + E f p.minHeight ∧ p.minEFT - E f p.minHeight ≤ lo) := by
  set env := Rounded.searchEnv R dot ℓ p with henv
  have key : ∃ (k : ℕ) (f : Field) (e : ℝ), r = some ((k : ℤ), f) ∧ Candidate c k f ∧
      env.sim f env.maxHeight = .ok e ∧
      (e ≤ 0 ∨ k = 0 ∧ ∃ a, env.sim f env.minHeight = .ok a ∧ a * e < 0) := by
    have flat : ∀ d s', c = .flat d → Search.bisection1D env d {} = (.ok r, s') →
      ∃ (k : ℕ) (f : Field) (e : ℝ), r = some ((k : ℤ), f) ∧ Candidate c k f ∧
      env.sim f env.maxHeight = .ok e ∧
      (e ≤ 0 ∨ k = 0 ∧ ∃ a, env.sim f env.minHeight = .ok a ∧ a * e < 0) := by
      intro d s' hc hb
      unfold Search.bisection1D at hb
      rw [St.bind_eq_ok] at hb
      obtain ⟨u, s1, h1, h2⟩ := hb
      obtain ⟨k, f, e, a1, a2, a3, a4⟩ := C30_feasible _ _ _ _ (setup_temps h1) _ h2
      exact ⟨k, f, e, a1, by rw [hc]; exact a2, a3, a4⟩
    rcases hd : Design.findDesign env routine c {} with ⟨r', s'⟩
    change (Design.findDesign env routine c {}).1 = _ at hret
    rw [hd] at hret
    change r' = _ at hret
    subst hret
    unfold Design.findDesign at hd
    split_ifs at hd with q1 q2 q3
    · rw [St.lift_eq_ok] at hd
      obtain ⟨d, hc, hd⟩ := hd
      cases c with
      | nested n => cases hc
      | flat d' => cases hc; exact flat _ _ rfl hd
    · rw [St.lift_eq_ok] at hd
      obtain ⟨d, hc, hd⟩ := hd
      cases c with
      | nested n => cases hc
      | flat d' => cases hc; exact flat _ _ rfl hd
    · rw [St.lift_eq_ok] at hd
      obtain ⟨d, hc, hd⟩ := hd
      cases c with
      | flat n => cases hc
      | nested n =>
        cases hc
        obtain ⟨outer, key, g, inner, k, f, e, -, -, hin, hk, hr, he, -, hh⟩ := C36_returned_field _ _ _ _ _ hd
        refine ⟨k, f, e, hr, ?_, he, hh⟩
        exact ⟨inner, pyGet_mem' hin, hk⟩
    · cases hd
  obtain ⟨k, f, e, hr, hcand, he, hc⟩ := key
  refine ⟨k, f, hr, hcand, ?_⟩
  have good : ∀ H, H = p.minHeight ∨ H = p.maxHeight → ∀ a, env.sim f H = .ok a → a ≤ 0 →
      ∃ hi lo, Extremes p f H hi lo ∧ hi ≤ p.maxEFT + E f H ∧ p.minEFT - E f H ≤ lo := by
    intro H hH a ha ha0
    obtain ⟨e, e', -, ⟨hi, lo, hx, rfl⟩, h2, h3, -⟩ := (hE f ⟨k, hcand⟩ H hH).excess
    rw [ha] at h2
    cases h2
    have := max_le_iff.1 (h3 ha0)
    exact ⟨hi, lo, hx, by linarith, by linarith⟩
  by_cases he0 : e ≤ 0
  · exact .inl (good _ (.inr rfl) e he he0)
  · rcases hc with hc | ⟨hk, a, ha, hae⟩
    · exact absurd hc he0
    · exact .inr ⟨hk, good _ (.inl rfl) a ha (by nlinarith [not_le.1 he0])⟩

/-- C148: if no candidate's excess in exact arithmetic is within the error of 0 (at minimum and at maximum height) and no two
different candidates have excesses at maximum height within the sum of their errors, the search in floating point ends as the
search in exact arithmetic: with the same field and index, or the same exception. -/
theorem C148_same (routine : String) (hz : routine ≠ "bi-zoned") (c : Design.Candidates ℝ) (E : Field → ℝ → ℝ)
    (hE : ∀ f, Among c f → ∀ H, H = p.minHeight ∨ H = p.maxHeight → Computed R dot ℓ p f H (E f H))
    (hzero : ∀ f, Among c f → ∀ H, H = p.minHeight ∨ H = p.maxHeight → ∀ e, Exceeds p f H e →
      E f H + 1 / 2 ^ 53 * (|e| + E f H) < |e|)
    (hgap : ∀ f g, Among c f → Among c g → f ≠ g → ∀ a b, Exceeds p f p.maxHeight a → Exceeds p g p.maxHeight b →
      E f p.maxHeight + 1 / 2 ^ 53 * (|a| + E f p.maxHeight) + (E g p.maxHeight + 1 / 2 ^ 53 * (|b| + E g p.maxHeight)) < |a - b|) :
    (Rounded.findDesign R dot ℓ p routine c {}).1 = (findDesign p routine c {}).1 := by
  rw [← findDesign_result]
  symm
  apply C148_order _ _ _ hz
  constructor
  case build => rfl
  case minHeight => rfl
  case maxHeight => rfl
  case boreholeH => rfl
  case maxIter => rfl
  case signs =>
    intro f hf H hH
    obtain ⟨e, e', h1, h2, h3, -, h4⟩ := (hE f hf H hH).excess
    have := hzero f hf H hH e h2
    refine ⟨e, e', h1, h3, ?_, ?_⟩
    · have h5 := abs_le.1 (h4.trans this.le)
      have h6 := abs_lt.1 (h4.trans_lt this)
      constructor
      · intro h; rw [abs_of_neg h] at h6; linarith
      · intro h
        by_contra h0
        rw [abs_of_nonneg (not_lt.1 h0)] at h6; linarith
    · have h6 := abs_lt.1 (h4.trans_lt this)
      constructor
      · intro h; rw [abs_of_pos h] at h6; linarith
      · intro h
        by_contra h0
        rw [abs_of_nonpos (not_lt.1 h0)] at h6; linarith
  case order =>
    intro f g hf hg a a' b b' h1 h1' h2 h2'
    by_cases hfg : f = g
    · subst hfg
      rw [h1] at h2
      rw [h1'] at h2'
      cases h2
      cases h2'
      simp
    obtain ⟨e, e', q1, q2, q3, -, q4⟩ := (hE f hf _ (.inr rfl)).excess
    obtain ⟨d, d', t1, t2, t3, -, t4⟩ := (hE g hg _ (.inr rfl)).excess
    change (absEnv p).sim f p.maxHeight = _ at h1
    change (absEnv p).sim g p.maxHeight = _ at h2
    change (Rounded.searchEnv R dot ℓ p).sim f p.maxHeight = _ at h1'
    change (Rounded.searchEnv R dot ℓ p).sim g p.maxHeight = _ at h2'
    rw [q1] at h1
    rw [q3] at h1'
    rw [t1] at h2
    rw [t3] at h2'
    cases h1
    cases h1'
    cases h2
    cases h2'
    have := hgap f g hf hg hfg _ _ q2 t2
    have q5 := abs_le.1 q4
    have t5 := abs_le.1 t4
    constructor
    · intro hle
      rw [abs_of_nonpos (sub_nonpos.2 hle)] at this
      linarith
    · intro hle
      by_contra h0
      rw [abs_of_pos (sub_pos.2 (not_le.1 h0))] at this
      linarith

section
variable {f : Field} {H : ℝ} {bhe : Exchanger} {s : UTube}

/-- C148: for the hourly method in double precision the error of the extremes is the largest `Plant.slack` (C147). -/
theorem C148_hourly (dot : List ℝ → List ℝ → ℝ)
    (hdot : ∀ w v : List ℝ, w.length = v.length → Summed Rounding.double (w.zip v) (dot w v)) {η W M L E : ℝ}
    (hℓ : Accurate η ℓ) (hη : 0 ≤ η) (h : Usable p f H bhe s) (hs : Seam s) (hb : Tame p f H s W M L) (hshift : shift η W ≤ 1)
    (hflow : 0 < massFlow p f) (hcp : 0 < p.media.fluid.cp) (hmethod : p.method = "hourly") (n : ℕ) (hn : 1 ≤ n)
    (hn' : n ≤ 10 ^ 9) (hmonths : p.endMonth - p.startMonth + 1 = 12 * n)
    (hend : 3600 * (8760 * n) ≤ charTime s * exp (3003 / 1000 - shift η W))
    (hcurve : ∀ c, p.gf (massFlow p f) p.media f H p.borehole.rb p.borehole.D = .ok c → ∀ v ∈ c, double v = v)
    (hloads : ∀ q ∈ p.hourly, double q = q) (Q : ℕ → ℝ) (hQ0 : Q 0 = 0)
    (hQ : ∀ k, p.hourly[k % 8760]? = some (-Q (k + 1)))
    (hE : ∀ k < 8760 * n, (plantOf p f H bhe).slack M (L * shift η W + M / 2 ^ 47) Q (k + 1) ≤ E) :
    Computed Rounding.double dot ℓ p f H E := by
  obtain ⟨T, hi, lo, T', hi', lo', e, ⟨x, s1, hx, h1, -⟩, ⟨y, s2, hy, h2, -⟩, -, h3, -⟩ := C147_hourly dot hdot hℓ hη h hs hb
    hshift hflow hcp n hn hn' hmonths hend hcurve hloads Q hQ0 hQ
  rw [hx] at hy
  cases hy
  exact ⟨x, hi, lo, hi', lo', hx, by rw [hmethod, h1], by rw [hmethod, h2], h3 E hE⟩

/-- C148: the same for the hybrid method, in any rounding. -/
theorem C148_hybrid (dot : List ℝ → List ℝ → ℝ)
    (hdot : ∀ w v : List ℝ, w.length = v.length → Summed R (w.zip v) (dot w v)) {η W M L E : ℝ}
    (hℓ : Accurate η ℓ) (hη : 0 ≤ η) (h : Usable p f H bhe s) (hs : Seam s) (hb : Tame p f H s W M L) (hshift : shift η W ≤ 1)
    (hflow : 0 < massFlow p f) (hcp : 0 < p.media.fluid.cp) (hmethod : p.method = "hybrid") (x : Held) (hx : fresh p f H = .ok x)
    (hgap : (0 :: x.env.hour.drop 2).Pairwise (fun u v => 1 / 10 ^ 11 ≤ 3600 * (v - u)))
    (hend : 3600 * (hoursOf p.endMonth.toNat : ℝ) ≤ charTime s * exp (3003 / 1000 - shift η W))
    (hcurve : ∀ c, p.gf (massFlow p f) p.media f H p.borehole.rb p.borehole.D = .ok c → ∀ v ∈ c, R.fl v = v)
    (hlong : x.env.load.length + 6 ≤ 2 ^ 52) (Q : ℕ → ℝ) (hQ0 : Q 0 = 0)
    (hQ : ∀ k, k + 2 < x.env.load.length → x.env.load[k + 2]? = some (Q (k + 1) / 1000))
    (hE : ∀ k < x.env.load.length - 2, (plantOf p f H bhe).slack M (L * shift η W + M / 2 ^ 47) Q (k + 1) ≤ E) :
    Computed R dot ℓ p f H E := by
  obtain ⟨T, hi, lo, T', hi', lo', e, ⟨s1, h1, -⟩, ⟨y, s2, hy, h2, -⟩, -, h3, -⟩ := C147_hybrid dot hdot hℓ hη h hs hb
    hshift hflow hcp x hx hgap hend hcurve hlong Q hQ0 hQ
  rw [hx] at hy
  cases hy
  exact ⟨x, hi, lo, hi', lo', hx, by rw [hmethod, h1], by rw [hmethod, h2], h3 E hE⟩

end

end

end Ghedt.WholeSearch
