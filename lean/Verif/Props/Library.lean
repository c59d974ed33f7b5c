import Verif.Model.Library
import Verif.Props.Compare

/-!
# Exchangers made from a g-function database (C144)
-/

set_option linter.unusedSectionVars false

namespace Ghedt.Library
open Real Ghedt.GHE Ghedt.Bhe Ghedt.Radial Ghedt.Whole Ghedt.Search Ghedt.WholeSearch Ghedt.Utilities Ghedt.Spec
  Ghedt.Network

noncomputable section

variable {p : Problem} {B : ℝ} {db : GF.DB ℝ} {lo hi : ℝ}

/-- The same arguments, except for how g-functions are computed and named. -/
def otherCurves (p : Problem) (f : Field) (H : ℝ) : Problem :=
  let B := match boreholeSpacing p.borehole.rb f with
    | .ok B => B
    | .error _ => 0
  { p with
    gf := fun _ _ _ _ _ _ => .ok (List.replicate 27 0)
    fmt := fun x => if x = B then "0" else if x = H then "1" else if x = p.borehole.rb then "2" else "3"
    toFloat := fun s => if s = "0" then .ok B else if s = "1" then .ok H else if s = "2" then .ok p.borehole.rb else
      .ok p.borehole.D }

theorem otherCurves_usable (h : Sensible p) {f : Field} (hf : f ≠ []) {H : ℝ} (hH : HeightFine p H) (hc : Converts p f H) :
    ∃ bhe s, Usable (otherCurves p f H) f H bhe s ∧ charTime s = soilTime p H := by
  obtain ⟨bhe, s, h1, h2, h3, h4⟩ := sound_of_sensible h hf hH.pos hc
  have hct : charTime s = soilTime p H := charTime_made h1 h2
  refine ⟨bhe, s, ⟨h.flow, hf, hH.pos, h.radius.1, h1, h2, h3, h4, by rw [hct]; exact hH.steps, ?_,
    ⟨_, rfl, by rw [List.length_replicate]; rfl⟩, h.year, h.heating, h.cooling, h.months⟩, hct⟩
  intro B hB x hx
  have hB : boreholeSpacing p.borehole.rb f = .ok B := hB
  show (otherCurves p f H).toFloat ((otherCurves p f H).fmt x) = .ok x
  change x ∈ [B, H, p.borehole.rb, p.borehole.D] at hx
  unfold otherCurves
  dsimp only
  rw [hB]
  dsimp only
  simp only [List.mem_cons, List.not_mem_nil, or_false] at hx
  by_cases h1 : x = B
  · simp [h1]
  by_cases h2 : x = H
  · simp only [if_neg h1, if_pos h2]
    rw [if_neg (by decide), if_pos trivial, h2]
  by_cases h3 : x = p.borehole.rb
  · simp only [if_neg h1, if_neg h2, if_pos h3]
    rw [if_neg (by decide), if_neg (by decide), if_pos trivial, h3]
  · simp only [if_neg h1, if_neg h2, if_neg h3]
    rw [if_neg (by decide), if_neg (by decide), if_neg (by decide)]
    rcases hx with hx | hx | hx | hx
    · exact absurd hx h1
    · exact absurd hx h2
    · exact absurd hx h3
    · rw [hx]

/-- what making an exchanger from a database gives -/
theorem make_ok (h : Sensible p) (hf : db.locations ≠ []) (hH : HeightFine p p.borehole.H)
    (hc : Converts p db.locations p.borehole.H) :
    ∃ bhe s x, Usable (otherCurves p db.locations p.borehole.H) db.locations p.borehole.H bhe s ∧
      fresh (otherCurves p db.locations p.borehole.H) db.locations p.borehole.H = .ok x ∧ x.state.bhe = bhe ∧
      construct x.env bhe = .ok x.state ∧
      make p B db = .ok ⟨{ x.env with db := db, bSpacing := B }, x.state⟩ ∧ ∃ c hyb B',
        x.env = envOf p db.locations p.borehole.H B' c hyb := by
  obtain ⟨bhe, s, hu, -⟩ := otherCurves_usable h hf hH hc
  obtain ⟨B', c, sts, cl, hl, hy, hB, hcv, hcl, h1, h2, h3, h4, h5, hx⟩ := fresh_ok hu
  obtain ⟨Vs, hV, v, hv⟩ := hu.flows
  refine ⟨bhe, s, _, hu, hx, rfl, ?_, ?_, c, _, B', rfl⟩
  · unfold construct
    show (computeEquivalent p.ext p.brent bhe >>= _) = _
    rw [show computeEquivalent p.ext p.brent bhe = .ok (s, bhe) from hu.converts, Except.ok_bind]
    dsimp only
    show (calcSts p.solve (radialTube p.ext s) none false p.fuel >>= _) = _
    rw [show calcSts p.solve (radialTube p.ext s) none false p.fuel = .ok sts from h1]
    rfl
  · unfold make mkGhe
    rw [show retrieveFlow p.flow p.V p.media.fluid.rho db.locations.length = _ from hV, Except.ok_bind]
    dsimp only
    rw [show gheFlow Vs p.media.fluid.rho db.locations.length = _ from hv, Except.ok_bind]
    dsimp only
    rw [show makeExchanger p.ext (massFlow (otherCurves p db.locations p.borehole.H) db.locations) p.media p.borehole = .ok bhe
      from hu.exchanger, Except.ok_bind, show computeEquivalent p.ext p.brent bhe = .ok (s, bhe) from hu.converts,
      Except.ok_bind]
    dsimp only
    rw [show calcSts p.solve (radialTube p.ext s) none false p.fuel = .ok sts from h1, Except.ok_bind, split_eq,
      Except.ok_bind]
    dsimp only
    rw [show GL.mkHybrid (respOf (radialTube p.ext s) sts.1 sts.2.1 sts.2.2)
      ((p.hourly.map fun x => max (-x) 0).map (· / 1000)) ((p.hourly.map fun x => max x 0).map (· / 1000))
      p.startMonth p.endMonth 2019 = .ok (cl, hl, hy) from h4, Except.ok_bind]
    rfl

/-- What an exchanger from a database needs in addition to sensible arguments: the database is complete (at least two
heights, every curve as long as the times, radius and burial depth for every height), at Eskilson's times, with one radius;
the spacings `db.B` of the database and `B` of the exchanger are not zero, and the heights of interest, scaled by their
ratio, are between the smallest height `lo` and the largest `hi` of the database; the heights needed are fine and have an
equivalent tube; and interpolating constants gives a constant. -/
structure Fine (p : Problem) (B : ℝ) (db : GF.DB ℝ) (lo hi : ℝ) : Prop where
  complete : GF.Valid db
  range : GF.Range db lo hi
  times : db.logTime = eskilsonLogTimes
  radius : ∃ r, r ≠ 0 ∧ ∀ v ∈ PyDict.values db.rb, v = r
  constants : ∀ kind x y c h, 2 ≤ x.length → x.length = y.length → x.Nodup → (∀ v ∈ y, v = c) → p.spl kind x y h = c
  field : db.locations ≠ []
  order : p.minHeight < p.maxHeight
  spacing : B ≠ 0
  covers : ∀ H, p.minHeight ≤ H ∧ H ≤ p.maxHeight ∨ H = p.borehole.H → lo ≤ db.B / (B / H) ∧ db.B / (B / H) ≤ hi
  heights : ∀ H ∈ [p.minHeight, p.maxHeight, p.borehole.H], HeightFine p H ∧ Converts p db.locations H
  asked : ∀ e : ℝ → ℝ, ∀ H ∈ asked e (p.brent p.minHeight p.maxHeight), HeightFine p H ∧ Converts p db.locations H

/-- the exchanger is covered in the sense of C89 -/
theorem covered (h : Sensible p) (hl : Fine p B db lo hi) :
    ∃ bhe y, make p B db = .ok y ∧ Covered y.env lo hi bhe y.state ∧ y.state.bhe = bhe ∧
      makeExchanger p.ext (massFlow p db.locations) p.media p.borehole = .ok bhe ∧
      (y.env.ext = p.ext ∧ y.env.brent = p.brent ∧ y.env.solve = p.solve ∧ y.env.fuel = p.fuel ∧ y.env.spl = p.spl ∧
        y.env.db = db ∧ y.env.bSpacing = B) ∧
      (y.env.hourly = p.hourly ∧ y.env.startMonth = p.startMonth ∧ y.env.endMonth = p.endMonth ∧
        y.env.minHeight = p.minHeight ∧ y.env.maxHeight = p.maxHeight ∧ y.env.maxEFT = p.maxEFT ∧ y.env.minEFT = p.minEFT) ∧
      (y.env.load.length = y.env.hour.length ∧ 2 < y.env.hour.length ∧
        (y.env.hour.drop 2).getLast? = some (hoursOf p.endMonth.toNat : ℝ)) ∧
      (PeaksPlaced p.hourly ∨ PeaksLast p.hourly → (0 :: y.env.hour.drop 2).Pairwise (fun u v => 1 / 1000000 ≤ v - u)) := by
  obtain ⟨hH, hc⟩ := hl.heights p.borehole.H (by simp)
  obtain ⟨bhe, s, x, hu, hx, hb, hcon, hmk, c, hyb, B', henv⟩ := make_ok (B := B) h hl.field hH hc
  have hpos : ∀ H, p.minHeight ≤ H ∧ H ≤ p.maxHeight ∨ H = p.borehole.H → H ≠ 0 := by
    rintro H (⟨h1, -⟩ | rfl)
    · exact ((hl.heights p.minHeight (by simp)).1.pos.trans_le h1).ne'
    · exact hH.pos.ne'
  have hw : ∀ H, p.minHeight ≤ H ∧ H ≤ p.maxHeight ∨ H = p.borehole.H →
      Within { x.env with db := db, bSpacing := B } lo hi H := by
    intro H hH
    obtain ⟨h1, h2⟩ := hl.covers H hH
    refine ⟨hpos H hH, hl.spacing, ?_, ?_⟩
    · show lo - 1 / 1000000 < db.B / (B / H)
      linarith
    · show db.B / (B / H) < hi + 1 / 1000000
      linarith
  have hbor : Whole.borehole bhe = p.borehole := hu.borehole
  have hset : Settled x.env.ext bhe := by
    rw [henv]
    exact makeExchanger_settled hu.exchanger
  refine ⟨bhe, _, hmk, ⟨hcon, hset, hl.complete, hl.range, ?_, ?_, ?_, ?_⟩, hb, hu.exchanger, ?_, ?_, ?_, ?_⟩
  · rw [hbor]
    exact hw _ (.inr rfl)
  · rw [henv]; exact hl.order.le
  · intro H h1 h2
    rw [henv] at h1 h2
    exact hw _ (.inl ⟨h1, h2⟩)
  · rw [henv]
    exact inside_of_bracketed (h.brent _ _ hl.order.le)
  · rw [henv]; exact ⟨rfl, rfl, rfl, rfl, rfl, rfl, rfl⟩
  · rw [henv]; exact ⟨rfl, rfl, rfl, rfl, rfl, rfl, rfl⟩
  · have := fresh_hours hu hx
    exact this
  · intro hp
    have : (0 :: x.env.hour.drop 2).Pairwise (fun u v => 1 / 1000000 ≤ v - u) := by
      rcases hp with hp | hp
      · exact C104_input hu hp x hx
      · exact C104_ends hu hp x hx
    exact this

/-- C144: it can be simulated, by either method, at every height between the bounds, and at that of the borehole. -/
theorem C144_simulate (h : Sensible p) (hl : Fine p B db lo hi) {y : Held} (hy : make p B db = .ok y) {method : String} {H : ℝ}
    (hH : p.minHeight ≤ H ∧ H ≤ p.maxHeight ∨ H = p.borehole.H) (hfine : HeightFine p H) (hc : Converts p db.locations H)
    (hp : PeriodFine { p with method := method } H) :
    ∃ u w, (Whole.simulate y.env method (y.state.at H)).1 = .ok (u, w) := by
  obtain ⟨bhe, y', hy', hcov, hb, hmk, ⟨q1, q2, q3, q4, q5, q6, q7⟩, ⟨r1, r2, r3, r4, r5, -, -⟩, ⟨l1, l2, l3⟩, hgap⟩ := covered h hl
  rw [hy] at hy'
  cases hy'
  obtain ⟨bhe', s', e1, e2, e3, e4⟩ := sound_of_sensible h hl.field hfine.pos hc
  have hbhe : bhe' = setHeight H bhe := by
    have := makeExchanger_height hmk H
    rw [e1] at this
    cases this
    rfl
  subst hbhe
  have hct : charTime s' = soilTime p H := charTime_made e1 e2
  have hw : Within y.env lo hi H := by
    obtain ⟨h1, h2⟩ := hl.covers H hH
    refine ⟨hfine.pos.ne', by rw [q7]; exact hl.spacing, ?_, ?_⟩
    · rw [q6, q7]; linarith
    · rw [q6, q7]; linarith
  have hready : Ready y.env lo hi bhe H s' := by
    refine ⟨⟨hfine.pos.ne', ?_, ?_, ?_, ?_⟩, hw, ?_⟩
    · rw [q1, q2]; exact e2
    · rw [q1]; exact e3
    · rw [q3]; exact e4.sized
    · rw [q4, hct]; exact hfine.steps
    · intro a tb hreq
      obtain ⟨r, hr, hrad⟩ := hl.radius
      rw [request_within hcov.db hcov.range hw {} (Or.inl rfl)] at hreq
      cases hreq
      show y.env.spl _ _ _ _ ≠ _
      rw [q5, hl.constants _ _ _ r _ ?_ ?_ hcov.db.nodup (by rw [q6]; exact hrad)]
      · exact hr
      · rw [PyDict.keys, List.length_map]
        exact hcov.db.two
      · rw [PyDict.values, List.length_map, ← List.length_map (f := Prod.fst) (as := y.env.db.rb)]
        exact congrArg List.length hcov.db.rb.symm
  have htimes : Times y.env s' (-(85 / 10)) (3003 / 1000) := by
    have hlt : y.env.db.logTime = eskilsonLogTimes := by rw [q6]; exact hl.times
    refine ⟨?_, ?_, ?_, ?_, ?_⟩
    · rw [hlt]; exact eskilson_pairwise
    · rw [hlt]; norm_num [eskilsonLogTimes]
    · rw [hlt]; norm_num [eskilsonLogTimes]
    · rw [hct]; exact hfine.late
    · rw [hct]; exact hfine.seam
  rcases hp with ⟨hm, n, n1, n2, n3⟩ | ⟨hm, m1, m2⟩
  · dsimp only at hm
    subst hm
    obtain ⟨⟨u, w⟩, st', hsim, -⟩ := C90_hourly hcov [] (by simp) H s' hready _ _ htimes n (by exact_mod_cast n1)
      (by rw [r2, r3]; exact n2) (by rw [r1]; exact h.year) (by
        rw [hct]
        have n3 : 3600 * (8760 * (n : ℝ)) ≤ soilTime p H * exp (3003 / 1000) := n3
        push_cast
        linarith)
    exact ⟨u, w, by rw [show (y.state.at H) = ((List.foldl (perform y.env) y.state []).at H) from rfl, hsim]⟩
  · dsimp only at hm
    subst hm
    have hgap' : (0 :: y.env.hour.drop 2).Pairwise (fun u v => 1 / 10 ^ 12 ≤ 3600 * (v - u)) := by
      refine (hgap m1).imp ?_
      intro u v huv
      have : (1 : ℝ) / 10 ^ 12 ≤ 3600 * (1 / 1000000) := by norm_num
      linarith
    have m2 : 3600 * (hoursOf p.endMonth.toNat : ℝ) ≤ soilTime p H * exp (3003 / 1000) := m2
    obtain ⟨⟨u, w⟩, st', hsim, -⟩ := (C90_hybrid hcov [] (by simp) H s' hready _ _ htimes l1
      (by rw [l1]; exact l2)).1 hgap' (by
        rw [hct]
        intro v hv
        have := hours_le l3 (by positivity) (List.pairwise_cons.1 hgap').2 v hv
        linarith)
    exact ⟨u, w, by rw [show (y.state.at H) = ((List.foldl (perform y.env) y.state []).at H) from rfl, hsim]⟩

theorem periodFine_mono (h : Sensible p) {method : String} {H H' : ℝ} (h0 : 0 ≤ H) (hH : H ≤ H')
    (hp : PeriodFine { p with method := method } H) : PeriodFine { p with method := method } H' := by
  have hm := soilTime_mono h h0 hH
  have hexp : (0 : ℝ) < exp (3003 / 1000) := exp_pos _
  have := mul_le_mul_of_nonneg_right hm hexp.le
  rcases hp with ⟨hm, n, n1, n2, n3⟩ | ⟨hm, m1, m2⟩
  · exact .inl ⟨hm, n, n1, n2, le_trans n3 this⟩
  · exact .inr ⟨hm, m1, le_trans m2 this⟩

/-- C144: for sensible arguments and a database that covers the heights of interest, making an exchanger from the database
raises nothing, and after any use between the bounds sizing has the outcomes of C115: nothing is raised but
`ZeroDivisionError` when a temperature at a bound is at its limit exactly, and what the root finder raises. -/
theorem C144_size (h : Sensible p) (hl : Fine p B db lo hi) (method : String)
    (hp : PeriodFine { p with method := method } p.minHeight) :
    ∃ y, make p B db = .ok y ∧ y.env.db = db ∧ y.env.bSpacing = B ∧ Whole.borehole y.state.bhe = p.borehole ∧
      SizeOutcome p method y := by
  classical
  obtain ⟨bhe, y, hy, hcov, hb, hmk, ⟨-, hbr, -, -, -, hdb, hB⟩, ⟨-, -, -, hmin, hmax, hmx, hmn⟩, -⟩ := covered h hl
  have hlt := hl.order
  have hlow := (hl.heights p.minHeight (by simp)).1.pos
  refine ⟨y, hy, hdb, hB, ?_, ?_⟩
  · rw [hb]
    obtain ⟨-, h2, h3, h4⟩ := makeExchanger_same hmk (by
      have hm := hcov.made
      cases bhe with
      | other => cases hm
      | _ => trivial)
    cases hq : Whole.borehole bhe
    rw [hq] at h2 h3 h4
    dsimp only at h2 h3 h4
    rw [h2, h3, h4]
  let e : ℝ → ℝ := fun H => if hH : ∃ v : ℝ × ℝ, (Whole.simulate y.env method (y.state.at H)).1 = .ok v then
    excess p hH.choose.1 hH.choose.2 else 0
  have hin : Inside p.minHeight p.maxHeight (p.brent p.minHeight p.maxHeight) :=
    inside_of_bracketed (h.brent _ _ hlt.le)
  have hask : ∀ H ∈ asked e (p.brent p.minHeight p.maxHeight), p.minHeight ≤ H ∧ H ≤ p.maxHeight := by
    generalize p.brent p.minHeight p.maxHeight = q at hin
    induction hin with
    | done x => simp [asked]
    | fail er => simp [asked]
    | ask z next a1 a2 _ ih =>
      intro H hH
      rw [asked, List.mem_cons] at hH
      rcases hH with rfl | hH
      · exact ⟨a1, a2⟩
      · exact ih _ H hH
  have hbetween : ∀ H ∈ p.minHeight :: p.maxHeight :: asked e (p.brent p.minHeight p.maxHeight),
      p.minHeight ≤ H ∧ H ≤ p.maxHeight := by
    intro H hH
    rw [List.mem_cons, List.mem_cons] at hH
    rcases hH with rfl | rfl | hH
    · exact ⟨le_rfl, hlt.le⟩
    · exact ⟨hlt.le, le_rfl⟩
    · exact hask H hH
  have hsim : ∀ H ∈ p.minHeight :: p.maxHeight :: asked e (p.brent p.minHeight p.maxHeight), ∃ u w,
      (Whole.simulate y.env method (y.state.at H)).1 = .ok (u, w) ∧ e H = excess p u w := by
    intro H hH
    have hbt := hbetween H hH
    have hfc : HeightFine p H ∧ Converts p db.locations H := by
      rw [List.mem_cons, List.mem_cons] at hH
      rcases hH with rfl | rfl | hH
      · exact hl.heights _ (by simp)
      · exact hl.heights _ (by simp)
      · exact hl.asked e H hH
    obtain ⟨u, w, huw⟩ := C144_simulate h hl hy (.inl hbt) hfc.1 hfc.2 (periodFine_mono h hlow.le hbt.1 hp)
    have hex : ∃ v : ℝ × ℝ, (Whole.simulate y.env method (y.state.at H)).1 = .ok v := ⟨_, huw⟩
    refine ⟨u, w, huw, ?_⟩
    show (if hH : _ then _ else _) = _
    rw [dif_pos hex]
    have h2 := Except.ok.inj (hex.choose_spec.symm.trans huw)
    rw [h2]
  refine ⟨e, _, _, rfl, rfl, hsim, ?_⟩
  intro ops hops st hst
  have hwi : ∀ z, p.minHeight ≤ z → z ≤ p.maxHeight → Within y.env lo hi z := fun z a1 a2 =>
    hcov.bounds z (by rw [hmin]; exact a1) (by rw [hmax]; exact a2)
  have hops' : ∀ z, Op.height z ∈ ops → Within y.env lo hi z := fun z hz => hwi z (hops z hz).1 (hops z hz).2
  have href := (C89_refinement hcov ops hops' method st hst _ rfl).2
  rw [hbr] at href
  have hex : ∀ H ∈ p.minHeight :: p.maxHeight :: asked e (p.brent p.minHeight p.maxHeight),
      Excess (gheEnv y.env fun z => (prepare y.env (y.state.at z)).1) method H (e H) := by
    intro H hH
    obtain ⟨u, w, q1, q2⟩ := hsim H hH
    obtain ⟨b1, b2⟩ := hbetween H hH
    have := excess_of hcov method H (hwi H b1 b2) u w q1
    rw [hmx, hmn] at this
    rw [q2]
    exact this
  set E := gheEnv y.env fun z => (prepare y.env (y.state.at z)).1 with hE
  have Emin : E.minHeight = p.minHeight := hmin
  have Emax : E.maxHeight = p.maxHeight := hmax
  have e0 : Excess E method E.minHeight (e p.minHeight) := by rw [Emin]; exact hex _ (by simp)
  have e1 : Excess E method E.maxHeight (e p.maxHeight) := by rw [Emax]; exact hex _ (by simp)
  have t3 : ∀ w s', Whole.size y.env method st = (.ok w, s') →
      p.minHeight ≤ (Whole.borehole s'.bhe).H ∧ (Whole.borehole s'.bhe).H ≤ p.maxHeight ∧
      (.notShallowEnough ∈ w ↔ (Whole.borehole s'.bhe).H = p.minHeight) ∧
      (.notDeepEnough ∈ w ↔ (Whole.borehole s'.bhe).H = p.maxHeight) := by
    intro w s' hs
    rw [← hmin, ← hmax]
    exact C89_size hcov ops hops' method w s' (by rw [← hst]; exact hs)
  have hsc : e p.minHeight * e p.maxHeight < 0 → _ := fun hsign => size_sign_change p.brent E method e
    (by rw [Emin]; exact hex _ (by simp)) (by rw [Emax]; exact hex _ (by simp))
    (by rw [Emin, Emax]; exact fun H hH => hex H (by simp [hH])) (by rw [Emin, Emax]; exact hsign) (view st)
  refine ⟨?_, ?_, ?_, ?_⟩
  · intro hz
    have := C44_exact_bound p.brent E method _ _ e0 e1 hz (view st)
    rw [href] at this
    exact this
  · intro hz
    obtain ⟨s', q1, q2⟩ := C44_no_sign_change p.brent E method (by rw [Emin, Emax]; exact hlt) _ _ e0 e1 hz (view st)
    rw [href] at q1
    rcases hr : Whole.size y.env method st with ⟨r, t⟩
    rw [hr] at q1
    cases q1
    refine ⟨t, rfl, ?_⟩
    rw [← Emax, ← q2]
    rfl
  · intro hsign er her
    have := (hsc hsign).2 er (by rw [Emin, Emax]; exact her)
    rw [href] at this
    exact this
  · intro hsign x0 hx0
    obtain ⟨w, s', g1, g2⟩ := (hsc hsign).1 x0 (by rw [Emin, Emax]; exact hx0)
    rw [href] at g1
    rcases hr : Whole.size y.env method st with ⟨r, t⟩
    rw [hr] at g1
    cases g1
    refine ⟨w, t, rfl, ?_, t3 w t hr⟩
    rw [Emin, Emax] at g2
    exact g2

/-- The height a script prints after sizing, `e H` being how far the temperatures simulated at the height `H` are outside the
limits: `ZeroDivisionError` if that is exactly zero at a bound; the maximum height if the signs at the bounds are equal;
otherwise what the root finder raises, or the last height it asked for, which is between the bounds. -/
def Printed (p : Problem) (e : ℝ → ℝ) (r : Py ℝ) : Prop :=
  (e p.minHeight = 0 ∨ e p.maxHeight = 0 → r = .error .zeroDivisionError) ∧
  (0 < e p.minHeight * e p.maxHeight → r = .ok p.maxHeight) ∧
  (e p.minHeight * e p.maxHeight < 0 → ∀ er, outcome e (p.brent p.minHeight p.maxHeight) = .error er → r = .error er) ∧
  (e p.minHeight * e p.maxHeight < 0 → ∀ x, outcome e (p.brent p.minHeight p.maxHeight) = .ok x →
    ∃ H, r = .ok H ∧ H = (asked e (p.brent p.minHeight p.maxHeight)).getLast?.getD p.maxHeight ∧
      p.minHeight ≤ H ∧ H ≤ p.maxHeight)

theorem printed_of {method : String} {y : Held} (h : SizeOutcome p method y) :
    ∃ e : ℝ → ℝ, (∀ H ∈ p.minHeight :: p.maxHeight :: asked e (p.brent p.minHeight p.maxHeight), ∃ u w,
      (Whole.simulate y.env method (y.state.at H)).1 = .ok (u, w) ∧ e H = excess p u w) ∧
      Printed p e (sized y method) := by
  obtain ⟨e, a, b, rfl, rfl, hs, h⟩ := h
  obtain ⟨h1, h2, h3, h4⟩ := h [] (by simp) y.state rfl
  refine ⟨e, hs, fun hz => ?_, fun hz => ?_, fun hz er her => ?_, fun hz x hx => ?_⟩
  · unfold sized
    rcases hr : Whole.size y.env method y.state with ⟨r, s⟩
    have := h1 hz
    rw [hr] at this
    change r = _ at this
    rw [this]
  · obtain ⟨s', q1, q2⟩ := h2 hz
    unfold sized
    rw [q1]
    exact congrArg Except.ok q2
  · unfold sized
    rcases hr : Whole.size y.env method y.state with ⟨r, s⟩
    have := h3 hz er her
    rw [hr] at this
    change r = _ at this
    rw [this]
  · obtain ⟨w, s', q1, q2, q3, q4, -⟩ := h4 hz x hx
    refine ⟨_, ?_, q2, q3, q4⟩
    unfold sized
    rw [q1]

/-- C144: the script that sizes a field with g-functions from a file prints a height, or raises what sizing raises: the
temperatures are those that the exchanger made from the file gives at the bounds and at the heights asked for. -/
theorem C144_computed (h : Sensible p) (data : GF.RawDB ℝ) (hd : GF.importDB p.toFloat data = .ok db)
    (hl : Fine p B db lo hi) (hp : PeriodFine { p with method := "hybrid" } p.minHeight) :
    ∃ y e, make p B db = .ok y ∧
      (∀ H ∈ p.minHeight :: p.maxHeight :: asked e (p.brent p.minHeight p.maxHeight), ∃ u w,
        (Whole.simulate y.env "hybrid" (y.state.at H)).1 = .ok (u, w) ∧ e H = excess p u w) ∧
      Printed p e (computed p B data) := by
  obtain ⟨y, hy, -, -, -, ho⟩ := C144_size h hl "hybrid" hp
  obtain ⟨e, h1, h2⟩ := printed_of ho
  refine ⟨y, e, hy, h1, ?_⟩
  unfold computed
  rw [hd, Except.ok_bind, hy, Except.ok_bind]
  exact h2

/-- What computing the g-functions of the heights `Hs` needs in addition to sensible arguments: distinct boreholes, at least
two positive heights at least a micrometre apart, the smallest and the largest of which enclose the bounds; the height of the
borehole is one of them; the numbers in the keys survive being written and read; `interp1d` passes through its points; and the
heights needed are fine. -/
structure LiveFine (p : Problem) (B : ℝ) (f : Field) (Hs : List ℝ) (lo hi : ℝ) : Prop where
  field : f ≠ []
  distinct : f.Nodup
  spacing : B ≠ 0
  several : 2 ≤ Hs.length
  nodup : Hs.Nodup
  apart : ∀ a ∈ Hs, ∀ b ∈ Hs, a ≠ b → 1 / 1000000 ≤ |a - b|
  positive : ∀ H ∈ Hs, 0 < H
  ends : lo ∈ Hs ∧ hi ∈ Hs ∧ ∀ H ∈ Hs, lo ≤ H ∧ H ≤ hi
  order : p.minHeight < p.maxHeight
  covers : lo ≤ p.minHeight ∧ p.maxHeight ≤ hi
  borehole : p.borehole.H ∈ Hs
  text : ∀ x ∈ B :: p.borehole.rb :: p.borehole.D :: Hs, p.toFloat (p.fmt x) = .ok x
  spline : GF.Reproduces p.spl
  constants : ∀ kind x y c h, 2 ≤ x.length → x.length = y.length → x.Nodup → (∀ v ∈ y, v = c) → p.spl kind x y h = c
  heights : ∀ H ∈ [p.minHeight, p.maxHeight, p.borehole.H], HeightFine p H ∧ Converts p f H
  asked : ∀ e : ℝ → ℝ, ∀ H ∈ asked e (p.brent p.minHeight p.maxHeight), HeightFine p H ∧ Converts p f H

variable {f : Field} {Hs : List ℝ}

theorem curve_of (h : Sensible p) (hf : f ≠ []) (hd : f.Nodup) {H : ℝ} (hH : 0 < H) :
    ∃ c, p.gf (massFlow p f) p.media f H p.borehole.rb p.borehole.D = .ok c ∧
      c.length = (eskilsonLogTimes : List ℝ).length := by
  obtain ⟨lib, r, hgf, hA, hr⟩ := h.curves
  have hw : p.media.hardware ≠ .other := by
    intro e
    have := h.pipes
    rw [e] at this
    exact this
  rw [hgf]
  exact C102_answered hA r hr _ p.media f H _ _ hw h.soil.1 h.soil.2 hf hd hH h.radius.1

/-- the database of several heights is complete -/
theorem library_of (h : Sensible p) (hl : LiveFine p B f Hs lo hi) :
    ∃ db, GF.computeLive p.fmt p.toFloat (p.gf (massFlow p f) p.media f) B Hs (List.replicate Hs.length p.borehole.rb)
        (List.replicate Hs.length p.borehole.D) eskilsonLogTimes f = .ok db ∧ db.locations = f ∧
      Fine p B db lo hi ∧ ∀ H ∈ Hs, ∀ c, p.gf (massFlow p f) p.media f H p.borehole.rb p.borehole.D = .ok c →
        (GF.request p.spl db (B / H) "default" {}).1 = .ok ⟨c, p.borehole.rb, some p.borehole.D, H, false⟩ := by
  have hcur : ∀ H ∈ Hs, ∃ c, p.gf (massFlow p f) p.media f H p.borehole.rb p.borehole.D = .ok c ∧
      c.length = (eskilsonLogTimes : List ℝ).length := fun H hH => curve_of h hl.field hl.distinct (hl.positive H hH)
  choose! gc hg1 hg2 using hcur
  obtain ⟨db, hok, hdB, hlt', hloc, hv, hkeys, hst⟩ := GF.C81_live p.fmt p.toFloat
    (p.gf (massFlow p f) p.media f) B Hs (List.replicate Hs.length p.borehole.rb)
    (List.replicate Hs.length p.borehole.D) (by
      intro x hx
      apply hl.text
      simp only [List.mem_cons, List.mem_append, List.mem_replicate] at hx ⊢
      tauto)
    (Hs.map gc) eskilsonLogTimes f hl.several (by simp) (by simp) (by simp) hl.nodup (by
      intro i a r d c h1 h2 h3 h4
      have h2 := List.eq_of_mem_replicate (List.mem_of_getElem? h2)
      have h3 := List.eq_of_mem_replicate (List.mem_of_getElem? h3)
      rw [List.getElem?_map, h1, Option.map_some, Option.some.injEq] at h4
      subst h2 h3 h4
      exact hg1 _ (List.mem_of_getElem? h1)) (by
      intro c hc
      obtain ⟨a, ha, rfl⟩ := List.mem_map.1 hc
      exact hg2 a ha)
  have hmem : ∀ H ∈ Hs, (H, gc H) ∈ db.g ∧ (H, p.borehole.rb) ∈ db.rb ∧ (H, p.borehole.D) ∈ db.D := by
    intro H hH
    obtain ⟨i, hi, hiH⟩ := List.getElem_of_mem hH
    refine hst i H _ _ _ (by rw [List.getElem?_eq_getElem hi, hiH]) ?_ ?_ ?_
    · rw [List.getElem?_eq_getElem (by simpa using hi), List.getElem_replicate]
    · rw [List.getElem?_eq_getElem (by simpa using hi), List.getElem_replicate]
    · rw [List.getElem?_map, List.getElem?_eq_getElem hi, hiH, Option.map_some]
  have hrng : GF.Range db lo hi :=
    ⟨(hkeys _).2 hl.ends.1, (hkeys _).2 hl.ends.2.1, fun H hH => hl.ends.2.2 H ((hkeys H).1 hH)⟩
  refine ⟨db, hok, hloc, ⟨hv, hrng, hlt', ⟨p.borehole.rb, h.radius.1.ne', ?_⟩, hl.constants, by rw [hloc]; exact hl.field,
    hl.order, hl.spacing, ?_, by rw [hloc]; exact hl.heights, by rw [hloc]; exact hl.asked⟩, ?_⟩
  · intro r hr
    obtain ⟨⟨H, r'⟩, hm, rfl⟩ := List.mem_map.1 hr
    have hk : H ∈ PyDict.keys db.rb := List.mem_map.2 ⟨_, hm, rfl⟩
    rw [hv.rb] at hk
    have h2 := (hmem H ((hkeys H).1 hk)).2.1
    have hn : (PyDict.keys db.rb).Nodup := by rw [hv.rb]; exact hv.nodup
    exact congrArg Prod.snd (List.inj_on_of_nodup_map hn hm h2 rfl)
  · intro H hH
    have hpos : 0 < H := by
      rcases hH with ⟨h1, -⟩ | rfl
      · exact (hl.heights p.minHeight (by simp)).1.pos.trans_le h1
      · exact hl.positive _ hl.borehole
    have e : db.B / (B / H) = H := by
      have := hl.spacing
      have := hpos.ne'
      rw [hdB]
      field_simp
    rw [e]
    rcases hH with ⟨h1, h2⟩ | rfl
    · exact ⟨hl.covers.1.trans h1, h2.trans hl.covers.2⟩
    · exact hl.ends.2.2 _ hl.borehole
  · intro H hH c hc
    obtain ⟨m1, m2, m3⟩ := hmem H hH
    have hcc : c = gc H := by
      rw [hg1 H hH] at hc
      cases hc
      rfl
    subst hcc
    have := GF.C47_stored p.spl hl.spline db hv (by rw [hdB]; exact hl.spacing) [] (by simp) ?_ H _ _ _ m1 m2 m3
      (hl.positive H hH).ne'
    · rw [hdB] at this
      exact this
    · intro a ha b hb hab
      exact hl.apart a ((hkeys a).1 ha) b ((hkeys b).1 hb) hab

/-- C144: the script that computes g-functions itself.  The temperatures it prints first, from the g-function of one height,
are those that the exchanger with the g-functions of several heights gives at that height; the height it prints is that of
sizing the latter.  Nothing else is raised than by sizing. -/
theorem C144_live (h : Sensible p) (hl : LiveFine p B f Hs lo hi)
    (hp : PeriodFine { p with method := "hybrid" } p.minHeight)
    (hp' : PeriodFine { p with method := "hybrid" } p.borehole.H) :
    ∃ db y e u w, GF.computeLive p.fmt p.toFloat (p.gf (massFlow p f) p.media f) B Hs
        (List.replicate Hs.length p.borehole.rb) (List.replicate Hs.length p.borehole.D) eskilsonLogTimes f = .ok db ∧
      make p B db = .ok y ∧
      (∀ H ∈ p.minHeight :: p.maxHeight :: asked e (p.brent p.minHeight p.maxHeight), ∃ u w,
        (Whole.simulate y.env "hybrid" (y.state.at H)).1 = .ok (u, w) ∧ e H = excess p u w) ∧
      (Whole.simulate y.env "hybrid" y.state).1 = .ok (u, w) ∧
      ∃ r, Printed p e r ∧ live p B f Hs = r.map fun H => ((u, w), H) := by
  obtain ⟨db, hdb, hloc, hF, hreq⟩ := library_of h hl
  obtain ⟨y, hy, -, -, -, ho⟩ := C144_size h hF "hybrid" hp
  obtain ⟨e, h1, h2⟩ := printed_of ho
  obtain ⟨hH, hc⟩ := hl.heights p.borehole.H (by simp)
  obtain ⟨c, hcur, hclen⟩ := curve_of h hl.field hl.distinct hH.pos
  -- both exchangers
  obtain ⟨bhe, s, x, hu, hx, hb, hcon, hmk, -⟩ := make_ok (B := B) (db := db) h (by rw [hloc]; exact hl.field) hH
    (by rw [hloc]; exact hc)
  obtain ⟨bhe1, s1, x1, hu1, hx1, hb1, hcon1, hmk1, c0, hyb, B', hE⟩ := make_ok (B := B)
    (db := oneCurve B p.borehole.H p.borehole.rb p.borehole.D c f) h hl.field hH hc
  rw [hloc] at hx
  have hxx : x1 = x := by
    change fresh (otherCurves p f p.borehole.H) f p.borehole.H = _ at hx1
    rw [hx1] at hx
    cases hx
    rfl
  subst hxx
  have hbb : bhe1 = bhe := hb1.symm.trans hb
  subst hbb
  rw [hmk] at hy
  cases hy
  -- the simulations
  have hat : x1.state.at p.borehole.H = x1.state := by
    unfold Whole.State.at
    rw [hb, hu1.at_height, ← hb]
  obtain ⟨u, w, huw⟩ := C144_simulate h hF hmk (.inr rfl) hH (by rw [hloc]; exact hc) hp'
  change (Whole.simulate _ "hybrid" (x1.state.at p.borehole.H)).1 = _ at huw
  rw [hat] at huw
  have hset : Settled p.ext bhe1 := makeExchanger_settled hu1.exchanger
  have hW : ∀ d, Works { x1.env with db := d, bSpacing := B } bhe1 p.borehole.H s1 := by
    intro d
    rw [hE]
    exact ⟨hH.pos.ne', by rw [hu1.at_height]; exact hu1.converts, hu1.sound, hu1.solver.sized, hu1.steps⟩
  have htab : x1.state.table = {} := by
    unfold construct at hcon1
    rw [bind_eq_ok] at hcon1
    obtain ⟨a, -, hcon1⟩ := hcon1
    rw [bind_eq_ok] at hcon1
    obtain ⟨b, -, hcon1⟩ := hcon1
    have := Except.ok.inj hcon1
    rw [← this]
  rcases hreq' : GF.request p.spl db (B / p.borehole.H) "default" {} with ⟨r, tb⟩
  have hr := hreq _ hl.borehole c hcur
  rw [hreq'] at hr
  change r = _ at hr
  subst hr
  have henv : x1.env.spl = p.spl ∧ x1.env.ext = p.ext := by
    rw [hE]
    exact ⟨rfl, rfl⟩
  obtain ⟨e1, q1, hp1⟩ := prepare_of (env := { x1.env with db := db, bSpacing := B }) (by
      show Settled x1.env.ext bhe1; rw [henv.2]; exact hset) hu1.known (hW _) x1.state
    (by rw [hu1.at_height]; exact hb) _ tb (by rw [htab]; show GF.request x1.env.spl _ _ _ _ = _; rw [henv.1]; exact hreq')
  obtain ⟨e2, q2, hp2⟩ := prepare_of
    (env := { x1.env with db := oneCurve B p.borehole.H p.borehole.rb p.borehole.D c f, bSpacing := B }) (by
      show Settled x1.env.ext bhe1; rw [henv.2]; exact hset) hu1.known (hW _)
    x1.state (by rw [hu1.at_height]; exact hb) _ _ (request_one hl.spacing hH.pos.ne' _)
  have hsame := simulate_same (e1 := { x1.env with db := db, bSpacing := B })
    (e2 := { x1.env with db := oneCurve B p.borehole.H p.borehole.rb p.borehole.D c f, bSpacing := B })
    (s1 := x1.state) (s2 := x1.state) (method := "hybrid") (by
      rw [hp1, hp2, Except.ok_bind, Except.ok_bind]
      unfold thermalOf
      dsimp only
      rw [hF.times, hloc]
      rfl) rfl
  refine ⟨db, _, e, u, w, hdb, hmk, h1, huw, _, h2, ?_⟩
  unfold live
  obtain ⟨Vs, hV, -⟩ := hu1.flows
  change retrieveFlow p.flow p.V p.media.fluid.rho f.length = .ok (Vs, massFlow p f) at hV
  rw [hV, Except.ok_bind]
  dsimp only
  rw [computeLive_one (by
    intro z hz
    apply hl.text
    have := hl.borehole
    simp only [List.mem_cons, List.not_mem_nil, or_false] at hz ⊢
    rcases hz with rfl | rfl | rfl | rfl
    · exact .inl rfl
    · exact .inr (.inr (.inr this))
    · exact .inr (.inl rfl)
    · exact .inr (.inr (.inl rfl))) hcur, Except.ok_bind, hmk1, Except.ok_bind]
  dsimp only
  rw [← hsame.1, huw, Except.ok_bind, hdb, Except.ok_bind, hmk, Except.ok_bind]
  cases sized { env := { x1.env with db := db, bSpacing := B }, state := x1.state } "hybrid" <;> rfl

/-- C144: and if the spacing given is that of the coordinates, they are the temperatures by which a field is judged in a
search (C93). -/
theorem C144_search (hB : boreholeSpacing p.borehole.rb f = .ok B)
    (u w H : ℝ) (hr : live p B f Hs = .ok ((u, w), H)) :
    Extremes { p with method := "hybrid" } f p.borehole.H u w := by
  unfold live at hr
  rw [bind_eq_ok] at hr
  obtain ⟨flows, hflows, hr⟩ := hr
  rw [bind_eq_ok] at hr
  obtain ⟨db, hdb, hr⟩ := hr
  rw [bind_eq_ok] at hr
  obtain ⟨x, hx, hr⟩ := hr
  rw [bind_eq_ok] at hr
  obtain ⟨v, hv, hr⟩ := hr
  have hv2 : v = (u, w) := by
    rw [bind_eq_ok] at hr
    obtain ⟨db2, -, hr⟩ := hr
    rw [bind_eq_ok] at hr
    obtain ⟨y, -, hr⟩ := hr
    rw [bind_eq_ok] at hr
    obtain ⟨H', -, hr⟩ := hr
    cases hr
    rfl
  subst hv2
  refine ⟨x, ?_, hv⟩
  unfold fresh buildGhe
  rw [show retrieveFlow ({ p with method := "hybrid" } : Problem).flow ({ p with method := "hybrid" } : Problem).V
    ({ p with method := "hybrid" } : Problem).media.fluid.rho f.length = .ok flows from hflows, Except.ok_bind]
  rw [show boreholeSpacing ({ ({ p with method := "hybrid" } : Problem).borehole with H := p.borehole.H } : Borehole).rb f =
    .ok B from hB, Except.ok_bind]
  dsimp only
  rw [hdb, Except.ok_bind]
  have hloc := Compare.computeLive_locations hdb
  unfold make at hx
  rw [hloc, hflows, Except.ok_bind] at hx
  exact hx

end

end Ghedt.Library
