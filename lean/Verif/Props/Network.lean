import Verif.Props.WholeSize
import Verif.Lemmas.ReportState
import Verif.Model.Network

/-!
# What `pygfunction` is asked to compute, and where its answer is used (C101, C102)
-/

set_option linter.unusedSectionVars false

namespace Ghedt.Network
open Real Ghedt.GHE Ghedt.Bhe Ghedt.Radial Ghedt.Whole Ghedt.WholeSearch Ghedt.Spec Ghedt.Utilities

noncomputable section

variable {ext : Ext} {lib : Pyg} {m : ℝ} {media : WholeSearch.Media}

/-! ## C101 — the question -/

/-- C101: making an exchanger of one of the three classes never raises.  It has the media, the borehole and the mass flow
it was given; the flow in each pipe is the whole of it, or half of it for a `MultipleUTube`, which is connected in
parallel. -/
theorem C101_exchanger (ext : Ext) (m : ℝ) (media : WholeSearch.Media) (b : Borehole) (h : media.hardware ≠ .other) :
    ∃ x, makeExchanger ext m media b = .ok x ∧ mediaOf x = media ∧ Whole.borehole x = b ∧ flowOf x = m ∧
      match x with
      | .single t => t.mPipe = m ∧ t.circuit.nPipes = 1 ∧ t.circuit.config = none
      | .multiple t => t.mPipe = m / 2 ∧ t.circuit.nPipes = (t.pipe.pos.length / 2 : ℕ) ∧
          t.circuit.config = some "parallel"
      | .coaxial c => c.mPipe = m
      | .other => False := by
  obtain ⟨hw, fl, gr, so⟩ := media
  cases hw with
  | single pipe => exact ⟨_, rfl, rfl, rfl, rfl, rfl, rfl, rfl⟩
  | multiple pipe => exact ⟨_, rfl, rfl, rfl, rfl, rfl, rfl, rfl⟩
  | coaxial pipe => exact ⟨_, rfl, rfl, rfl, rfl, rfl⟩
  | other => exact absurd rfl h

theorem place_ok (boundary : String) (b : Bore) (f : List (ℝ × ℝ)) (x : Exchanger)
    (hx : makeExchanger ext m media ⟨b.H, b.D, b.rb⟩ = .ok x) :
    placeBoreholes ext m media boundary b f = .ok
      (f.map fun c => ⟨b.H, b.D, b.rb, c.1, c.2, b.tilt, b.orientation⟩,
        if boundary = "MIFT" then f.map fun _ => x else []) := by
  unfold placeBoreholes
  obtain ⟨acc, hacc, hf⟩ := foldlM_pyRange_inv
    (f := fun (acc : List Bore × List Exchanger) (i : ℤ) => do
      let c ← pyGet f i
      let bore : Bore := ⟨b.H, b.D, b.rb, c.1, c.2, b.tilt, b.orientation⟩
      if boundary = "MIFT" then
        let bhe ← makeExchanger ext m media ⟨bore.H, bore.D, bore.rb⟩
        return (acc.1 ++ [bore], acc.2 ++ [bhe])
      else return (acc.1 ++ [bore], acc.2))
    (fun k acc => acc = ((f.take k.toNat).map fun c => ⟨b.H, b.D, b.rb, c.1, c.2, b.tilt, b.orientation⟩,
        if boundary = "MIFT" then (f.take k.toNat).map fun _ => x else [])) (a := 0) (b := f.length) (by omega)
    (by
      rintro k acc k0 k1 rfl
      dsimp only
      rw [pyGet_nonneg f k0 (by omega), Except.ok_bind, hx, Except.ok_bind]
      have ht : f.take (k + 1).toNat = f.take k.toNat ++ [f[k.toNat]'(by omega)] := by
        rw [show (k + 1).toNat = k.toNat + 1 by omega, List.take_succ_eq_append_getElem (by omega)]
      by_cases hb : boundary = "MIFT"
      · rw [if_pos hb]
        refine ⟨_, rfl, ?_⟩
        rw [ht, if_pos hb, if_pos hb, List.map_append, List.map_append]
        rfl
      · rw [if_neg hb]
        refine ⟨_, rfl, ?_⟩
        rw [ht, if_neg hb, if_neg hb, List.map_append]
        rfl) (s := ([], [])) (by simp)
  rw [hacc, hf]
  simp

/-- C101: `calculate_g_function` with other settings: the kind of segments is read without regard to case, the boundary
condition with regard to it; anything unknown raises `ValueError`.  Given segment ratios are used as they are, for equal
segments none. For the boundary conditions of uniform heat extraction or wall temperature the boreholes are passed without
exchangers. -/
theorem C101_settings (ext : Ext) (lib : Pyg) (m : ℝ) (media : WholeSearch.Media) (times : List ℝ) (f : List (ℝ × ℝ))
    (b : Bore) (o : Settings) (hw : media.hardware ≠ .other) (hc : media.soil.rhoCp ≠ 0) :
    (lower o.segments ≠ "equal" → lower o.segments ≠ "unequal" →
      calculateG ext lib m media times f b o = .error .valueError) ∧
    (∀ r, (lower o.segments = "equal" ∧ r = none ∨ lower o.segments = "unequal" ∧
        (∃ l, r = some l ∧ (o.ratios = some l ∨ o.ratios = none ∧ lib.ratios o.nSegments o.endLengthRatio = .ok l))) →
      (o.boundary ∉ ["UHTR", "UBWT", "MIFT"] → calculateG ext lib m media times f b o = .error .valueError) ∧
      (o.boundary = "UHTR" ∨ o.boundary = "UBWT" → calculateG ext lib m media times f b o = lib.gFunction
        { source := .boreholes
            (f.map fun c => { H := b.H, D := b.D, rb := b.rb, x := c.1, y := c.2, tilt := b.tilt, orientation := b.orientation })
          alpha := media.soil.k / media.soil.rhoCp, times := times, boundary := o.boundary, nSegments := o.nSegments
          ratios := r, disp := o.disp, method := o.solver }) ∧
      (o.boundary = "MIFT" → ∃ x, makeExchanger ext m media ⟨b.H, b.D, b.rb⟩ = .ok x ∧
        calculateG ext lib m media times f b o = lib.gFunction
        { source := .network
            (f.map fun c => { H := b.H, D := b.D, rb := b.rb, x := c.1, y := c.2, tilt := b.tilt, orientation := b.orientation })
            (List.replicate f.length x) (f.length * m) media.fluid.cp
          alpha := media.soil.k / media.soil.rhoCp, times := times, boundary := o.boundary, nSegments := o.nSegments
          ratios := r, disp := o.disp, method := o.solver })) := by
  obtain ⟨x, hx, -⟩ := C101_exchanger ext m media ⟨b.H, b.D, b.rb⟩ hw
  unfold calculateG
  rw [place_ok _ _ f x hx, Except.ok_bind]
  dsimp only
  rw [pyDiv_ok hc, Except.ok_bind]
  constructor
  · intro h1 h2
    unfold segmentRatios
    rw [if_neg h1, if_neg h2]
    rfl
  · intro r hr
    have hq : segmentRatios lib o = .ok r := by
      unfold segmentRatios
      rcases hr with ⟨h, rfl⟩ | ⟨h, l, rfl, h1 | ⟨h1, h2⟩⟩
      · rw [if_pos h]
      · rw [if_neg (by rw [h]; decide), if_pos h, h1]
      · rw [if_neg (by rw [h]; decide), if_pos h, h1]
        dsimp only
        rw [h2]
        rfl
    rw [hq, Except.ok_bind]
    simp only [List.mem_cons, List.not_mem_nil, or_false, not_or, and_imp]
    refine ⟨fun h1 h2 h3 => ?_, fun h => ?_, fun h => ⟨x, hx, ?_⟩⟩
    · rw [if_neg (by tauto), if_neg h3]
    · rw [if_pos h]
    · rw [if_neg (by rw [h]; decide), if_pos h, if_pos h, List.length_map, List.map_const']

/-- What `pygfunction` is asked for a field with the default settings: the boreholes at the given places, in order, all
vertical and of the given height, burial depth and radius; the same exchanger `x` in each; the network has the flow of all
of them together; the soil diffusivity is `k / ρc`; the times are those whose logarithm relative to `H² / (9 α)` is given;
uniform inlet temperature, 8 unequal segments with ratios `r`, equivalent-borehole solver. -/
def question (logTime : List ℝ) (m : ℝ) (media : WholeSearch.Media) (f : List (ℝ × ℝ)) (H rb D : ℝ) (x : Exchanger)
    (r : List ℝ) : Query where
  source := .network
    (f.map fun c => { H := H, D := D, rb := rb, x := c.1, y := c.2, tilt := 0, orientation := 0 })
    (List.replicate f.length x) (f.length * m) media.fluid.cp
  alpha := media.soil.k / media.soil.rhoCp
  times := logTime.map fun l => H ^ 2 / (9 * (media.soil.k / media.soil.rhoCp)) * exp l
  boundary := "MIFT"
  nSegments := 8
  ratios := some r
  disp := false
  method := "equivalent"

/-- C101: with the default settings, the g-function of a field is the answer of `pygfunction` to `question`, or the
exception it raises. -/
theorem C101_asked (ext : Ext) (lib : Pyg) (logTime : List ℝ) (m : ℝ) (media : WholeSearch.Media)
    (f : List (ℝ × ℝ)) (H rb D : ℝ) (hw : media.hardware ≠ .other) (hk : media.soil.k ≠ 0)
    (hc : media.soil.rhoCp ≠ 0) (r : List ℝ) (hr : lib.ratios 8 (2 / 100) = .ok r) :
    ∃ x, makeExchanger ext m media ⟨H, D, rb⟩ = .ok x ∧
      liveCurve ext lib logTime {} m media f H rb D = lib.gFunction (question logTime m media f H rb D x r) := by
  obtain ⟨x, hx, -⟩ := C101_exchanger ext m media ⟨H, D, rb⟩ hw
  refine ⟨x, hx, ?_⟩
  unfold liveCurve
  rw [pyDiv_ok hc, Except.ok_bind, pyDiv_ok (by positivity), Except.ok_bind]
  obtain ⟨-, -, h⟩ := (C101_settings ext lib m media (logTime.map fun l => exp l * (H ^ 2 / (9 * (media.soil.k /
    media.soil.rhoCp)))) f ⟨H, D, rb, 0, 0, 0, 0⟩ {} hw hc).2 (some r)
    (.inr ⟨by decide +kernel, r, rfl, .inr ⟨rfl, hr⟩⟩)
  obtain ⟨x', hx', h⟩ := h rfl
  obtain rfl : x = x' := Except.ok.inj (hx.symm.trans hx')
  simp only [mul_comm (exp _)] at h ⊢
  exact h

/-! ## C102 — the answer -/

/-- On a polyline through points in order, the value between two successive points is interpolated between theirs. -/
theorem polyline_between {pts : List (ℝ × ℝ)} (hp : (pts.map Prod.fst).Pairwise (· < ·)) {v y : ℝ}
    (h : OnPolyline pts v y) {n : ℕ} {a b : ℝ × ℝ} (ha : pts[n]? = some a) (hb : pts[n + 1]? = some b) (h1 : a.1 ≤ v)
    (h2 : v ≤ b.1) : y = a.2 + (b.2 - a.2) * ((v - a.1) / (b.1 - a.1)) := by
  have mono : ∀ i j : ℕ, ∀ a b : ℝ × ℝ, pts[i]? = some a → pts[j]? = some b → i < j → a.1 < b.1 := by
    intro i j a b hi hj hij
    have := List.pairwise_iff_getElem.1 hp i j
    obtain ⟨hi', rfl⟩ := List.getElem?_eq_some_iff.1 hi
    obtain ⟨hj', rfl⟩ := List.getElem?_eq_some_iff.1 hj
    have := this (by simpa using hi') (by simpa using hj') hij
    rwa [List.getElem_map, List.getElem_map] at this
  have hab := mono _ _ _ _ ha hb (Nat.lt_succ_self n)
  have hne : b.1 - a.1 ≠ 0 := (sub_pos.2 hab).ne'
  rcases h with h | ⟨k, p, q, hk, hk1, h3, h4, h5⟩
  · obtain ⟨l, hl⟩ := List.mem_iff_getElem?.1 h
    rcases lt_trichotomy l n with hln | rfl | hln
    · exact absurd (mono _ _ _ _ hl ha hln) (not_lt.2 h1)
    · rw [hl] at ha
      cases Option.some.inj ha
      simp
    · rcases eq_or_lt_of_le (Nat.succ_le_of_lt hln) with e | e
      · rw [Nat.succ_eq_add_one] at e
        rw [← e, hb] at hl
        cases Option.some.inj hl
        dsimp only at hne ⊢
        rw [div_self hne]
        ring
      · exact absurd (mono _ _ _ _ hb hl e) (not_lt.2 h2)
  · rcases lt_trichotomy k n with hkn | rfl | hkn
    · rcases eq_or_lt_of_le (Nat.succ_le_of_lt hkn) with e | e
      · rw [Nat.succ_eq_add_one] at e
        rw [e, ha] at hk1
        cases Option.some.inj hk1
        exact absurd h4 (not_lt.2 h1)
      · exact absurd (h4.trans (mono _ _ _ _ hk1 ha e)) (not_lt.2 h1)
    · rw [hk] at ha
      rw [hk1] at hb
      cases Option.some.inj ha
      cases Option.some.inj hb
      rw [h5]
      ring
    · rcases eq_or_lt_of_le (Nat.succ_le_of_lt hkn) with e | e
      · rw [Nat.succ_eq_add_one] at e
        rw [← e, hb] at hk
        cases Option.some.inj hk
        obtain rfl : v = b.1 := le_antisymm h2 h3
        rw [h5, div_self hne]
        ring
      · exact absurd (mono _ _ _ _ hb hk e) (not_lt.2 (h3.trans h2))

/-- the equivalent tube has the height and the soil given -/
theorem soil_made {p : Problem} {m H : ℝ} {bhe : Exchanger} {s : UTube}
    (hex : makeExchanger p.ext m p.media { p.borehole with H := H } = .ok bhe)
    (hco : computeEquivalent p.ext p.brent bhe = .ok (s, bhe)) :
    s.b.H = H ∧ s.circuit.ks = p.media.soil.k ∧ s.soil = p.media.soil := by
  have hk : Known bhe := by
    cases bhe with
    | other => cases hco
    | _ => trivial
  have hso := (makeExchanger_data hex hk).1
  have hb : Whole.borehole bhe = { p.borehole with H := H } := by
    obtain ⟨-, h2, h3, h4⟩ := makeExchanger_same hex hk
    cases hb : Whole.borehole bhe
    rw [hb] at h2 h3 h4
    dsimp only at h2 h3 h4
    rw [h2, h3, h4]
  · have tube : ∀ c v t0 k kg, initialTube p.ext c v = .ok t0 → s = withKg p.ext (withK p.ext t0 k) kg →
        s.b.H = c.b.H ∧ s.circuit.ks = c.soil.k ∧ s.soil = c.soil := by
      intro c v t0 k kg h0 hs
      obtain ⟨t', ht', -, -, -, a0, -, -, a1, a2, a3, a4, a5, a6, a7, -, -, -, a8, -⟩ := initialTube_eq p.ext c v
      rw [h0] at ht'; cases ht'
      refine ⟨?_, ?_, ?_⟩
      · rw [hs]; show t0.b.H = _; rw [a0]
      · rw [hs]; exact a8
      · rw [hs]; exact a7
    cases bhe with
    | single t =>
      cases hco
      unfold makeExchanger at hex
      cases hw : p.media.hardware with
      | single pipe =>
        rw [hw] at hex
        cases hex
        exact ⟨rfl, rfl, rfl⟩
      | multiple pipe => rw [hw] at hex; cases hex
      | coaxial pipe => rw [hw] at hex; cases hex
      | other => rw [hw] at hex; cases hex
    | multiple t =>
      obtain ⟨-, t0, k, kg, h0, -, -, hs⟩ := multiple_form _ _ _ _ _ hco
      obtain ⟨e1, e2, e3⟩ := tube _ _ _ _ _ h0 hs
      dsimp only at e1 e2 e3
      change t.b = _ at hb
      change t.soil = _ at hso
      rw [hb] at e1
      rw [hso] at e2 e3
      exact ⟨e1, e2, e3⟩
    | coaxial c =>
      obtain ⟨-, t0, k, kg, h0, -, -, hs⟩ := coaxial_form _ _ _ _ _ hco
      obtain ⟨e1, e2, e3⟩ := tube _ _ _ _ _ h0 hs
      dsimp only at e1 e2 e3
      change c.b = _ at hb
      change c.soil = _ at hso
      rw [hb] at e1
      rw [hso] at e2 e3
      exact ⟨e1, e2, e3⟩
    | other => cases hco

/-- the characteristic time of the equivalent tube is that of the soil and the height given -/
theorem charTime_made {p : Problem} {m H : ℝ} {bhe : Exchanger} {s : UTube}
    (hex : makeExchanger p.ext m p.media { p.borehole with H := H } = .ok bhe)
    (hco : computeEquivalent p.ext p.brent bhe = .ok (s, bhe)) :
    charTime s = H ^ 2 / (9 * (p.media.soil.k / p.media.soil.rhoCp)) := by
  have key := soil_made hex hco
  unfold charTime
  rw [key.1, key.2.1, key.2.2]

theorem charTime_media {p : Problem} {f : List (ℝ × ℝ)} {H : ℝ} {bhe : Exchanger} {s : UTube}
    (h : Usable p f H bhe s) : charTime s = H ^ 2 / (9 * (p.media.soil.k / p.media.soil.rhoCp)) :=
  charTime_made h.exchanger h.converts

variable {p : Problem} {f : List (ℝ × ℝ)} {H : ℝ} {bhe : Exchanger} {s : UTube}

theorem usable_soil (h : Usable p f H bhe s) : p.media.soil.k ≠ 0 ∧ p.media.soil.rhoCp ≠ 0 ∧ p.media.hardware ≠ .other := by
  obtain ⟨B, g, sts, cl, hl, hyb, -⟩ := fresh_ok h
  have h1 := charTime_pos (h.works B g (cl, hl, hyb)).sound
  rw [charTime_media h] at h1
  refine ⟨?_, ?_, ?_⟩
  · intro h0
    rw [h0] at h1
    simp at h1
  · intro h0
    rw [h0] at h1
    simp at h1
  · intro h0
    have hex := h.exchanger
    unfold makeExchanger at hex
    rw [h0] at hex
    cases hex
    exact h.known

/-- the points of the response are in order of time -/
theorem points_increasing (h : Usable p f H bhe s) (hs : Seam s) (rad : Radial) (lt gs c : List ℝ)
    (hsts : calcSts p.solve (radialTube p.ext s) none false p.fuel = .ok (rad, lt, gs))
    (hc : p.gf (massFlow p f) p.media f H p.borehole.rb p.borehole.D = .ok c) :
    (((lt.zip gs).filter (fun q => decide (q.1 ≤ -(85 / 10))) ++ (eskilsonLogTimes : List ℝ).zip c).map
      Prod.fst).Pairwise (· < ·) := by
  obtain ⟨B, g, sts, cl, hl, hyb, hBr, hg, hgl, h1, -, -, -, hB, hf⟩ := fresh_ok h
  rw [hc] at hg
  cases hg
  rw [hsts] at h1
  cases h1
  have hB0 : B ≠ 0 := (h.radius.trans_le hBr).ne'
  have hreq := request_one (H := H) (f := f) (spl := p.spl) (rb := p.borehole.rb) (D := p.borehole.D)
    (c := c) hB0 h.height.ne' {}
  obtain ⟨xs, ys, -, hlen, hzip, hsort, -⟩ := Report.grab_points (env := envOf p f H B c (cl, hl, hyb)) h.known (h.works B c (cl, hl, hyb))
    (times_one hs B c (cl, hl, hyb)) ⟨bhe, s, (rad, lt, gs), {}, [], []⟩ h.at_height.symm hsts _ _ hreq h.radius.ne' hgl
  have hcorr : (c.map fun v => v - log ((borehole bhe).rb / p.borehole.rb)) = c := by
    rw [h.borehole, div_self h.radius.ne', log_one]
    simp
  unfold responsePoints at hzip
  dsimp only at hzip
  rw [hcorr] at hzip
  change _ = _ ++ (eskilsonLogTimes : List ℝ).zip c at hzip
  rw [← hzip, List.map_fst_zip hlen.le]
  exact hsort

/-- Between two of the times asked for, the response is interpolated between the answers, linearly in the logarithm of
the time. -/
def Interpolated (times c : List ℝ) (τ y : ℝ) : Prop :=
  ∀ (j : ℕ) (T T' a b : ℝ), times[j]? = some T → times[j + 1]? = some T' → c[j]? = some a → c[j + 1]? = some b →
    T ≤ τ → τ ≤ T' → y = a + (b - a) * (log (τ / T) / log (T' / T))

theorem interpolated (h : Usable p f H bhe s) (hs : Seam s) (rad : Radial) (lt gs c : List ℝ)
    (hsts : calcSts p.solve (radialTube p.ext s) none false p.fuel = .ok (rad, lt, gs))
    (hc : p.gf (massFlow p f) p.media f H p.borehole.rb p.borehole.D = .ok c) (τ y : ℝ)
    (hy : OnPolyline ((lt.zip gs).filter (fun q => decide (q.1 ≤ -(85 / 10))) ++ (eskilsonLogTimes : List ℝ).zip c)
      (log (τ / charTime s)) y) :
    Interpolated ((eskilsonLogTimes : List ℝ).map fun l => H ^ 2 / (9 * (p.media.soil.k / p.media.soil.rhoCp)) * exp l)
      c τ y := by
  intro j T T' a b hT hT' ha hb h1 h2
  have hinc := points_increasing h hs rad lt gs c hsts hc
  obtain ⟨B, g, sts, cl, hl, hyb, -⟩ := fresh_ok h
  have hts := charTime_pos (h.works B g (cl, hl, hyb)).sound
  rw [← charTime_media h, List.getElem?_map, Option.map_eq_some_iff] at hT hT'
  obtain ⟨l, hl, rfl⟩ := hT
  obtain ⟨l', hl', rfl⟩ := hT'
  have hτ : 0 < τ := lt_of_lt_of_le (by have := exp_pos l; positivity) h1
  have e1 := exp_pos l
  have e2 := exp_pos l'
  have := polyline_between hinc hy (n := ((lt.zip gs).filter (fun q => decide (q.1 ≤ -(85 / 10)))).length + j)
    (a := (l, a)) (b := (l', b)) (by
      rw [List.getElem?_append_right (by omega), Nat.add_sub_cancel_left, List.getElem?_zip_eq_some]
      exact ⟨hl, ha⟩) (by
      rw [List.getElem?_append_right (by omega), Nat.add_assoc, Nat.add_sub_cancel_left, List.getElem?_zip_eq_some]
      exact ⟨hl', hb⟩) (by
      rw [le_log_iff_exp_le (by positivity), le_div_iff₀ hts, mul_comm]
      exact h1) (by
      rw [log_le_iff_le_exp (by positivity), div_le_iff₀ hts, mul_comm]
      exact h2)
  rw [this]
  dsimp only
  congr 3
  · rw [log_div hτ.ne' hts.ne', log_div hτ.ne' (by positivity), log_mul hts.ne' e1.ne', log_exp]
    ring
  · rw [mul_div_mul_left _ _ hts.ne', log_div e2.ne' e1.ne', log_exp, log_exp]

/-- C102: a hourly simulation of a new exchanger uses the answer of `pygfunction` for the times it was asked for: the
response at an hour between two times of the question is interpolated between the values answered for them. -/
theorem C102_hourly (hgf : p.gf = liveCurve p.ext lib eskilsonLogTimes {}) (r : List ℝ)
    (hr : lib.ratios 8 (2 / 100) = .ok r) (h : Usable p f H bhe s) (hs : Seam s) (n : ℕ) (hn : 1 ≤ n)
    (hmonths : p.endMonth - p.startMonth + 1 = 12 * n)
    (hend : 3600 * (8760 * n) ≤ charTime s * exp (3003 / 1000)) (Q : ℕ → ℝ) (hQ0 : Q 0 = 0)
    (hQ : ∀ k, p.hourly[k % 8760]? = some (-Q (k + 1))) (q : Query)
    (hq : q = question eskilsonLogTimes (massFlow p f) p.media f H p.borehole.rb p.borehole.D bhe r) :
    ∃ x hi lo s' c G, lib.gFunction q = .ok c ∧ fresh p f H = .ok x ∧
      Whole.simulate x.env "hourly" x.state = (.ok (hi, lo), s') ∧
      s'.HPEFT = (List.range (8760 * n)).map (fun k => some (exitTemp ⟨f.length, H, p.media.soil.k, p.media.soil.ugt,
        effectiveRb p.ext bhe, massFlow p f, p.media.fluid.cp⟩ G Q (fun i => i) (k + 1))) ∧
      ∀ i : ℕ, 1 ≤ i → i ≤ 8760 * n → Interpolated q.times c (3600 * i) (G i) := by
  obtain ⟨x, hi, lo, s', rad, lt, gs, c, G, h1, h2, h3, h4, h5, h6, -⟩ := C96_hourly h hs n hn hmonths hend Q hQ0 hQ
  obtain ⟨k0, c0, w0⟩ := usable_soil h
  obtain ⟨x', hx', hask⟩ := C101_asked p.ext lib eskilsonLogTimes (massFlow p f) p.media f H p.borehole.rb p.borehole.D
    w0 k0 c0 r hr
  have hbx : bhe = x' := Except.ok.inj (h.exchanger.symm.trans hx')
  subst hbx
  refine ⟨x, hi, lo, s', c, G, ?_, h1, h2, h6, ?_⟩
  · rw [hq, ← hask, ← hgf, h4]
  · intro i i1 i2
    rw [hq]
    exact interpolated h hs rad lt gs c h3 h4 _ _ (h5 i i1 i2)

/-- C102: the same for the hybrid loads and the times from a load change to the end of a later step. -/
theorem C102_hybrid (hgf : p.gf = liveCurve p.ext lib eskilsonLogTimes {}) (r : List ℝ)
    (hr : lib.ratios 8 (2 / 100) = .ok r) (h : Usable p f H bhe s) (hs : Seam s) (x : Held) (hx : fresh p f H = .ok x)
    (hgap : (0 :: x.env.hour.drop 2).Pairwise (fun u v => 1 / 10 ^ 12 ≤ 3600 * (v - u)))
    (hend : 3600 * (hoursOf p.endMonth.toNat : ℝ) ≤ charTime s * exp (3003 / 1000)) (Q t : ℕ → ℝ) (hQ0 : Q 0 = 0)
    (ht0 : t 0 = 0) (hQ : ∀ k, k + 2 < x.env.load.length → x.env.load[k + 2]? = some (Q (k + 1) / 1000))
    (ht : ∀ k, k + 2 < x.env.load.length → x.env.hour[k + 2]? = some (t (k + 1))) (q : Query)
    (hq : q = question eskilsonLogTimes (massFlow p f) p.media f H p.borehole.rb p.borehole.D bhe r) :
    ∃ hi lo s' c G, lib.gFunction q = .ok c ∧ Whole.simulate x.env "hybrid" x.state = (.ok (hi, lo), s') ∧
      s'.HPEFT = (List.range (x.env.load.length - 2)).map (fun k => some (exitTemp ⟨f.length, H, p.media.soil.k,
        p.media.soil.ugt, effectiveRb p.ext bhe, massFlow p f, p.media.fluid.cp⟩ G Q t (k + 1))) ∧
      ∀ i ≤ x.env.load.length - 2, ∀ j < i, Interpolated q.times c (3600 * (t i - t j)) (G (t i - t j)) := by
  obtain ⟨hi, lo, s', rad, lt, gs, c, G, h2, h3, h4, h5, h6, -⟩ := C96_hybrid h hs x hx hgap hend Q t hQ0 ht0 hQ ht
  obtain ⟨k0, c0, w0⟩ := usable_soil h
  obtain ⟨x', hx', hask⟩ := C101_asked p.ext lib eskilsonLogTimes (massFlow p f) p.media f H p.borehole.rb p.borehole.D
    w0 k0 c0 r hr
  have hbx : bhe = x' := Except.ok.inj (h.exchanger.symm.trans hx')
  subst hbx
  refine ⟨hi, lo, s', c, G, ?_, h2, h6, ?_⟩
  · rw [hq, ← hask, ← hgf, h4]
  · intro i i1 j j1
    rw [hq]
    exact interpolated h hs rad lt gs c h3 h4 _ _ (h5 i i1 j j1)

/-- `pygfunction` answers sensible questions: boreholes at different places, positive height, radius and diffusivity,
positive increasing times, one exchanger per borehole.  It gives one value per time. -/
def Answers (lib : Pyg) : Prop :=
  ∀ q field xs flow cp, q.source = .network field xs flow cp → field ≠ [] → xs.length = field.length →
    (field.map fun b => (b.x, b.y)).Nodup → (∀ b ∈ field, 0 < b.H ∧ 0 < b.rb) → 0 < q.alpha →
    (0 :: q.times).Pairwise (· < ·) → q.boundary = "MIFT" → q.method = "equivalent" →
    ∃ c, lib.gFunction q = .ok c ∧ c.length = q.times.length

/-- C102: what the theorems about designs ask of the g-function calculation holds when `pygfunction` answers sensible
questions: the question asked for a field without repeated boreholes is one. -/
theorem C102_answered (hA : Answers lib) (r : List ℝ) (hr : lib.ratios 8 (2 / 100) = .ok r) (m : ℝ)
    (media : WholeSearch.Media) (f : List (ℝ × ℝ)) (H rb D : ℝ) (hw : media.hardware ≠ .other)
    (hk : 0 < media.soil.k) (hc : 0 < media.soil.rhoCp) (hf : f ≠ []) (hd : f.Nodup) (hH : 0 < H) (hb : 0 < rb) :
    ∃ c, liveCurve ext lib eskilsonLogTimes {} m media f H rb D = .ok c ∧
      c.length = (eskilsonLogTimes : List ℝ).length := by
  obtain ⟨x, -, hask⟩ := C101_asked ext lib eskilsonLogTimes m media f H rb D hw hk.ne' hc.ne' r hr
  rw [hask]
  obtain ⟨c, h1, h2⟩ := hA (question eskilsonLogTimes m media f H rb D x r) _ _ _ _ rfl (by simpa using hf) (by simp)
    (by simpa [List.map_map, Function.comp_def] using hd) (by
      intro b hb'
      obtain ⟨c, -, rfl⟩ := List.mem_map.1 hb'
      exact ⟨hH, hb⟩) (by show 0 < media.soil.k / media.soil.rhoCp; positivity) (by
      have hp : 0 < H ^ 2 / (9 * (media.soil.k / media.soil.rhoCp)) := by positivity
      refine List.pairwise_cons.2 ⟨?_, ?_⟩
      · intro t ht
        obtain ⟨l, -, rfl⟩ := List.mem_map.1 ht
        have := exp_pos l
        positivity
      · refine List.Pairwise.map _ ?_ (show (eskilsonLogTimes : List ℝ).Pairwise (· < ·) from ?_)
        · intro a b hab
          exact mul_lt_mul_of_pos_left (exp_lt_exp.2 hab) hp
        · exact eskilson_pairwise) rfl rfl
  refine ⟨c, h1, ?_⟩
  rw [h2]
  show (List.map _ _).length = _
  rw [List.length_map]

/-! ### the theorems apply -/

/-- a library that answers every question with a curve that grows with the time asked for -/
def exLib : Pyg where
  ratios n _ := .ok (List.replicate n.toNat (1 / 8))
  gFunction q := .ok (q.times.map fun t => t / 1000000)

theorem exLib_answers : Answers exLib := by
  intro q _ _ _ _ _ _ _ _ _ _ _ _ _
  exact ⟨_, rfl, by simp⟩

/-- the problem of the search example, with the modelled `calculate_g_function` -/
def exNet : Problem := { exProblem with gf := liveCurve exProblem.ext exLib eskilsonLogTimes {} }

theorem exRow_nodup (n : ℕ) : (exRow n).Nodup := by
  refine List.Nodup.map ?_ List.nodup_range
  intro a b hab
  have := (Prod.mk.inj hab).1
  have : (a : ℝ) = b := by linarith
  exact_mod_cast this

theorem exNet_usable (n : ℕ) (hn : n ≠ 0) : ∃ s, Usable exNet (exRow n) 100 (.multiple (exDouble 100)) s ∧
    charTime s = 100000 * 100 ^ 2 := by
  obtain ⟨s, hu, hct⟩ := exUsable (exRow n) (exRow_ne hn) 100 (by tauto) (exRow_spacing n)
  refine ⟨s, ⟨hu.flow, hu.field, hu.height, hu.radius, hu.exchanger, hu.converts, hu.sound, hu.solver, hu.steps, hu.text,
    ?_, hu.year, hu.heating, hu.cooling, hu.months⟩, hct⟩
  refine C102_answered exLib_answers _ rfl _ exProblem.media (exRow n) 100 (3 / 40) 2 (by intro h; cases h) ?_ ?_
    (exRow_ne hn) (exRow_nodup n) (by norm_num) (by norm_num)
  · show (0 : ℝ) < (exDouble 100).soil.k
    norm_num [exDouble]
  · show (0 : ℝ) < (exDouble 100).soil.rhoCp
    norm_num [exDouble]

/-- one year of three boreholes: hour 90 lies between the first two of the 27 times asked for -/
example : ∃ x hi lo s' c G T T', fresh exNet (exRow 3) 100 = .ok x ∧
    Whole.simulate x.env "hourly" x.state = (.ok (hi, lo), s') ∧ s'.HPEFT.length = 8760 ∧ c.length = 27 ∧
    T = 10 ^ 9 * exp (-(85 / 10)) ∧ T' = 10 ^ 9 * exp (-(78 / 10)) ∧ T < 3600 * 90 ∧ 3600 * 90 < T' ∧
    exLib.gFunction (question eskilsonLogTimes 2 exNet.media (exRow 3) 100 (3 / 40) 2 (.multiple (exDouble 100))
      (List.replicate 8 (1 / 8))) = .ok c ∧
    s'.HPEFT[89]? = some (some (exitTemp ⟨3, 100, 2, 18, effectiveRb exNet.ext (.multiple (exDouble 100)), 2,
      exNet.media.fluid.cp⟩ G (fun k => if k = 0 then 0 else 10000) (fun i => i) 90)) ∧
    G 90 = T / 1000000 + (T' / 1000000 - T / 1000000) * (log (3600 * 90 / T) / log (T' / T)) := by
  obtain ⟨s, hu, hct⟩ := exNet_usable 3 (by norm_num)
  have hseam := exSeam s 100 (.inr rfl) hct
  obtain ⟨e1, e2⟩ := exp_bounds
  obtain ⟨x, hi, lo, s', c, G, h1, h2, h3, h4, h5⟩ := C102_hourly (lib := exLib) rfl (List.replicate 8 (1 / 8)) rfl hu hseam 1
    le_rfl (by decide) (by
      rw [hct]
      have : 1 ≤ exp (3003 / 1000 : ℝ) := one_le_exp (by norm_num)
      push_cast
      nlinarith) (fun k => if k = 0 then 0 else 10000) (by simp) (by
      intro k
      show (List.replicate 8760 (-10000 : ℝ))[k % 8760]? = _
      rw [List.getElem?_replicate, if_pos (Nat.mod_lt _ (by norm_num))]
      simp) _ rfl
  rw [show massFlow exNet (exRow 3) = 2 from exProblem_flow _] at h1 h4
  have hlen : (exRow 3).length = 3 := by simp [exRow]
  have hq : question eskilsonLogTimes (massFlow exNet (exRow 3)) exNet.media (exRow 3) 100 exNet.borehole.rb
    exNet.borehole.D (.multiple (exDouble 100)) (List.replicate 8 (1 / 8)) = question eskilsonLogTimes 2 exNet.media
      (exRow 3) 100 (3 / 40) 2 (.multiple (exDouble 100)) (List.replicate 8 (1 / 8)) := by
    rw [show massFlow exNet (exRow 3) = 2 from exProblem_flow _]
    rfl
  have htimes : (question eskilsonLogTimes 2 exNet.media (exRow 3) 100 (3 / 40) 2 (.multiple (exDouble 100))
      (List.replicate 8 (1 / 8))).times = eskilsonLogTimes.map fun l => 10 ^ 9 * exp l := by
    show (eskilsonLogTimes.map fun l => (100 : ℝ) ^ 2 / (9 * (2 / 1800000)) * exp l) = _
    norm_num
  have hc : c = (eskilsonLogTimes.map fun l => 10 ^ 9 * exp l).map fun t => t / 1000000 := by
    rw [← htimes]
    exact (Except.ok.inj h1).symm
  have hE : exp (-(78 / 10 : ℝ)) = exp (-(85 / 10)) * exp (7 / 10) := by
    rw [← exp_add]
    norm_num
  have hexp := add_one_le_exp (7 / 10 : ℝ)
  refine ⟨x, hi, lo, s', c, G, _, _, h2, h3, ?_, ?_, rfl, rfl, ?_, ?_, h1, ?_, ?_⟩
  · rw [h4]
    simp
  · rw [hc]
    simp [eskilsonLogTimes]
  · nlinarith
  · rw [hE]
    nlinarith
  · rw [h4, List.getElem?_map, hlen, List.getElem?_range (by norm_num)]
    rfl
  · have := h5 90 (by norm_num) (by norm_num) 0 (10 ^ 9 * exp (-(85 / 10))) (10 ^ 9 * exp (-(78 / 10)))
      (10 ^ 9 * exp (-(85 / 10)) / 1000000) (10 ^ 9 * exp (-(78 / 10)) / 1000000) (by
        rw [hq, htimes]
        norm_num [eskilsonLogTimes]) (by
        rw [hq, htimes]
        norm_num [eskilsonLogTimes]) (by
        rw [hc]
        norm_num [eskilsonLogTimes]) (by
        rw [hc]
        norm_num [eskilsonLogTimes]) (by push_cast; nlinarith) (by rw [hE]; push_cast; nlinarith)
    push_cast at this
    exact this

/-- an unknown kind of segments, an unknown boundary condition (in lower case), and a known one in mixed case -/
example : calculateG exNet.ext exLib 2 exNet.media [1] (exRow 3) ⟨100, 2, 3 / 40, 0, 0, 0, 0⟩ { segments := "even" } =
      .error .valueError ∧
    calculateG exNet.ext exLib 2 exNet.media [1] (exRow 3) ⟨100, 2, 3 / 40, 0, 0, 0, 0⟩ { boundary := "mift" } =
      .error .valueError ∧
    calculateG exNet.ext exLib 2 exNet.media [1] (exRow 3) ⟨100, 2, 3 / 40, 0, 0, 0, 0⟩
      { segments := "Equal", boundary := "UBWT" } = .ok [1 / 1000000] := by
  have hw : exNet.media.hardware ≠ .other := by intro h; cases h
  have hc : exNet.media.soil.rhoCp ≠ 0 := by
    show (exDouble 100).soil.rhoCp ≠ 0
    norm_num [exDouble]
  refine ⟨?_, ?_, ?_⟩
  · exact (C101_settings _ _ _ _ _ _ _ _ hw hc).1 (by decide +kernel) (by decide +kernel)
  · exact ((C101_settings _ _ _ _ _ _ _ _ hw hc).2 (some (List.replicate 8 (1 / 8))) (.inr ⟨by decide +kernel, _, rfl,
      .inr ⟨rfl, rfl⟩⟩)).1 (by decide)
  · rw [((C101_settings _ _ _ _ _ _ _ _ hw hc).2 none (.inl ⟨by decide +kernel, rfl⟩)).2.1 (.inr rfl)]
    rfl

end

end Ghedt.Network
