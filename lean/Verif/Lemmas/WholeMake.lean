import Verif.Lemmas.WholeSearch
import Verif.Lemmas.WholeTotal
import Verif.Props.WholeGhe
import Verif.Props.WholeValue
import Verif.Props.Radial
import Verif.Props.Inexact
import Verif.Props.Hybrid
import Verif.Props.Calendar

/-!
# Constructing an exchanger: lemmas
-/

set_option linter.unusedSectionVars false

namespace Ghedt.WholeSearch
open Real Ghedt.GHE Ghedt.Bhe Ghedt.Radial Ghedt.Whole Ghedt.Search Ghedt.Utilities Ghedt.Spec

noncomputable section

/-- Mass flow rate in one borehole, kg/s: the volume flow is in litres per second, of one borehole or of all. -/
def massFlow (p : Problem) (f : Field) : ℝ :=
  (if p.flow = "borehole" then p.V else p.V / f.length) / 1000 * p.media.fluid.rho

/-- In the two days looked at for the peak of a month no load exceeds that peak by less than 100 W. -/
def Separated (loads : List ℝ) : Prop := ClearPeaks 100 false loads

/-- What the user gives is usable for a field and a height: `bhe` is the borehole heat exchanger, `s` its equivalent
single U-tube. -/
structure Usable (p : Problem) (f : Field) (H : ℝ) (bhe : Exchanger) (s : UTube) : Prop where
  flow : p.flow = "borehole" ∨ p.flow = "system"
  field : f ≠ []
  height : 0 < H
  radius : 0 < p.borehole.rb
  exchanger : makeExchanger p.ext (massFlow p f) p.media { p.borehole with H := H } = .ok bhe
  converts : computeEquivalent p.ext p.brent bhe = .ok (s, bhe)
  sound : (radialTube p.ext s).Sound
  /-- `dgtsv` is accurate enough for the equivalent tube -/
  solver : AccurateFor p.solve (radialTube p.ext s)
  /-- enough iterations for the short-time simulation -/
  steps : max (charTime s * exp (-(86 / 10))) (49 * 3600) / 120 + 1 ≤ p.fuel
  /-- the numbers that name the g-function are read back as they were written -/
  text : ∀ B, boreholeSpacing p.borehole.rb f = .ok B → ∀ x ∈ [B, H, p.borehole.rb, p.borehole.D],
    p.toFloat (p.fmt x) = .ok x
  curve : ∃ c, p.gf (massFlow p f) p.media f H p.borehole.rb p.borehole.D = .ok c ∧
    c.length = (eskilsonLogTimes : List ℝ).length
  year : p.hourly.length = 8760
  heating : Separated (p.hourly.map fun x => max x 0)
  cooling : Separated (p.hourly.map fun x => max (-x) 0)
  months : 1 ≤ p.startMonth ∧ p.startMonth ≤ p.endMonth

variable {p : Problem} {f : Field} {H : ℝ} {bhe : Exchanger} {s : UTube}

theorem calcSts_stable {ext : Ext} {solve : Solver} {fuel : ℕ} (hs : (radialTube ext s).Sound)
    (hsol : SizedSolver solve) (hf : max (charTime s * exp (-(86 / 10))) (49 * 3600) / 120 + 1 ≤ fuel) :
    ∃ res, ∀ F, fuel ≤ F → calcSts solve (radialTube ext s) none false F = .ok res := by
  obtain ⟨X, N, h0, h1, h2, hrun⟩ := Radial.run_sized hs hsol none
  refine ⟨_, fun F hF => hrun F (le_trans ?_ hF)⟩
  rcases Nat.lt_or_ge N 2 with hl | hl
  · have : (0 : ℝ) ≤ max (charTime s * exp (-(86 / 10))) (49 * 3600) / 120 := by positivity
    have : (1 : ℝ) ≤ fuel := by linarith
    have : 1 ≤ fuel := by exact_mod_cast this
    omega
  · have := h2 (N - 1) (by omega) (by omega)
    unfold sampleTime at this
    rw [Nat.cast_sub h0, Nat.cast_one] at this
    change _ < max (charTime s * exp (-(86 / 10))) (49 * 3600) at this
    have hq : (N : ℝ) ≤ fuel := by
      have : (0 : ℝ) < 1 / 10 ^ 12 := by positivity
      linarith
    exact_mod_cast hq

theorem monthLoads_map {α β : Type} (g : α → β) (leap : Bool) (l : List α) (m : ℕ) :
    monthLoads leap (l.map g) m = (monthLoads leap l m).map g := by
  unfold monthLoads
  rw [← List.map_drop, ← List.map_take]

/-- the month peaks at the same hour in kW -/
theorem peaksAt_div {w : List ℝ} {m i : ℕ} {P : ℝ} (h : PeaksAt (monthLoads false (w.map (· / 1000)) m) i P) :
    ∃ q, PeaksAt (monthLoads false w m) i q ∧ q / 1000 = P := by
  rw [monthLoads_map] at h
  obtain ⟨h1, h2, h3⟩ := h
  rw [List.getElem?_map] at h1
  obtain ⟨q, hq, rfl⟩ := Option.map_eq_some_iff.1 h1
  refine ⟨q, ⟨hq, fun j hj hjq => h2 j hj (by rw [List.getElem?_map, hjq]; rfl), fun x hx => ?_⟩, rfl⟩
  have := h3 _ (List.mem_map_of_mem (f := (· / 1000)) hx)
  linarith

/-- one of the two load decompositions -/
theorem loads_ok {ext : Ext} {solve : Solver} (hs : (radialTube ext s).Sound)
    (hsol : AccurateFor solve (radialTube ext s))
    {fuel : ℕ} {res : Radial × List ℝ × List ℝ}
    (hres : ∀ F, fuel ≤ F → calcSts solve (radialTube ext s) none false F = .ok res) {w : List ℝ}
    (hlen : w.length = 8760) (hpos : ∀ x ∈ w, 0 ≤ x) (hsep : Separated w) :
    ∃ L, GL.mkLoads (respOf (radialTube ext s) res.1 res.2.1 res.2.2) (w.map (· / 1000)) 2019 = .ok L := by
  have hleap : ¬ LeapYear 2019 := by decide
  obtain ⟨N, r, lt, g, L, h1, h2, -⟩ := C58_computed hs hsol (hourly := w.map (· / 1000)) (year := 2019)
    (by rw [if_neg hleap, List.length_map, hlen])
    (by
      intro x hx
      obtain ⟨y, hy, rfl⟩ := List.mem_map.1 hx
      have := hpos y hy
      positivity)
    (by
      intro m m1 m2 i pk hpk x hx
      rw [decide_eq_false hleap] at hpk hx
      rw [GL.twoDays_map] at hx
      obtain ⟨q, hq, rfl⟩ := peaksAt_div hpk
      obtain ⟨y, hy, rfl⟩ := List.mem_map.1 hx
      rcases hsep m m1 m2 i q hq y hy with h | h
      · left; linarith
      · right; linarith)
  have : res = (r, lt, g) := by
    have e1 := hres (max fuel N) (le_max_left _ _)
    rw [h1 _ (le_max_right _ _)] at e1
    cases e1; rfl
  subst this
  exact ⟨L, h2⟩

theorem split_eq (hourly : List ℝ) : GL.splitHeatAndCool hourly "W" =
    .ok ((hourly.map fun x => max (-x) 0).map (· / 1000), (hourly.map fun x => max x 0).map (· / 1000)) := by
  unfold GL.splitHeatAndCool
  have : GL.unitScale (K := ℝ) "W" = .ok 1000 := rfl
  rw [this]
  dsimp only
  rw [Except.ok_bind, GL.splitFold (by norm_num)]
  congr 2
  · rw [List.map_map]
    refine List.map_congr_left fun x _ => ?_
    show _ = max (-x) 0 / 1000
    split_ifs with h
    · rw [max_eq_right (by linarith)]; simp
    · rw [max_eq_left (by linarith)]; ring
  · rw [List.map_map]
    refine List.map_congr_left fun x _ => ?_
    show _ = max x 0 / 1000
    split_ifs with h
    · rw [max_eq_left (by linarith)]
    · rw [max_eq_right (by linarith)]; simp

/-- a database of one curve -/
def oneCurve (B H rb D : ℝ) (c : List ℝ) (f : Field) : GF.DB ℝ :=
  ⟨B, [(H, rb)], [(H, D)], [(H, c)], eskilsonLogTimes, f⟩

theorem computeLive_one {fmt : ℝ → String} {toFloat : String → Py ℝ} {gf : ℝ → ℝ → ℝ → Py (List ℝ)} {B H rb D : ℝ}
    (ht : ∀ x ∈ [B, H, rb, D], toFloat (fmt x) = .ok x) {c : List ℝ} (hc : gf H rb D = .ok c) (f : Field) :
    GF.computeLive fmt toFloat gf B [H] [rb] [D] eskilsonLogTimes f = .ok (oneCurve B H rb D c f) := by
  unfold GF.computeLive
  have hr : pyRange 0 (([H] : List ℝ).length : ℤ) = [0] := by
    show pyRange 0 1 = [0]
    decide
  have g0 : ∀ a : ℝ, pyGet [a] 0 = .ok a := fun a => rfl
  rw [hr]
  simp only [List.foldlM_cons, List.foldlM_nil, g0, Except.ok_bind, hc]
  show GF.importDB toFloat ⟨[([fmt B, fmt H, fmt rb, fmt D], c)], f, eskilsonLogTimes⟩ = _
  have k0 : pyGet [fmt B, fmt H, fmt rb, fmt D] 0 = .ok (fmt B) := rfl
  have k1 : pyGet [fmt B, fmt H, fmt rb, fmt D] 1 = .ok (fmt H) := rfl
  have k2 : pyGet [fmt B, fmt H, fmt rb, fmt D] 2 = .ok (fmt rb) := rfl
  have k3 : pyGet [fmt B, fmt H, fmt rb, fmt D] 3 = .ok (fmt D) := rfl
  have k4 : pyGet (PyDict.keys [([fmt B, fmt H, fmt rb, fmt D], c)]) 0 = .ok [fmt B, fmt H, fmt rb, fmt D] := rfl
  have hd : ∀ {β : Type} (v : β), PyDict.get [(H, v)] H = .ok v := by
    intro β v
    simp [PyDict.get, PyDict.find?]
  have hs : ∀ {β : Type} (v : β), PyDict.set ([] : PyDict ℝ β) H v = [(H, v)] := fun v => rfl
  have hk : ∀ {β : Type} (v : β), PyDict.keys [(H, v)] = [H] := fun v => rfl
  have hi : ([H] : List ℝ).insertionSort (fun a b => GF.truncInt a ≤ GF.truncInt b) = [H] := by simp
  have t0 := ht B (by simp)
  have t1 := ht H (by simp)
  have t2 := ht rb (by simp)
  have t3 := ht D (by simp)
  unfold GF.importDB GF.importEntry
  simp only [List.foldlM_cons, List.foldlM_nil, k1, k2, k3, t0, t1, t2, t3, Except.ok_bind, hs, pure_bind, k4, k0, hk, hi,
    List.mapM_cons, List.mapM_nil, hd]
  rfl

theorem spacing_ok {rb : ℝ} (hf : f ≠ []) : ∃ B, boreholeSpacing rb f = .ok B ∧ rb ≤ B := by
  unfold boreholeSpacing
  rcases f with _ | ⟨a, _ | ⟨b, l⟩⟩
  · exact absurd rfl hf
  · exact ⟨rb, rfl, le_rfl⟩
  · refine ⟨max rb (Real.sqrt ((b.1 - a.1) ^ 2 + (b.2 - a.2) ^ 2)), ?_, le_max_left _ _⟩
    rw [show pyGet (a :: b :: l) 0 = .ok a from rfl, Except.ok_bind, if_neg (by simp), if_pos (by simp),
      show pyGet (a :: b :: l) 1 = .ok b from rfl]
    rfl

/-- what stays fixed in the new exchanger -/
def envOf (p : Problem) (f : Field) (H B : ℝ) (c : List ℝ) (h : GL.Loads ℝ × GL.Loads ℝ × GL.Hybrid ℝ) : Whole.Env where
  ext := p.ext
  brent := p.brent
  solve := p.solve
  fuel := p.fuel
  spl := p.spl
  db := oneCurve B H p.borehole.rb p.borehole.D c f
  bSpacing := B
  rejection := h.1
  extraction := h.2.1
  load := h.2.2.load
  hour := h.2.2.hour
  hourly := p.hourly
  startMonth := p.startMonth
  endMonth := p.endMonth
  maxEFT := p.maxEFT
  minEFT := p.minEFT
  minHeight := p.minHeight
  maxHeight := p.maxHeight

theorem Usable.flows (h : Usable p f H bhe s) : ∃ Vs, retrieveFlow p.flow p.V p.media.fluid.rho f.length =
    .ok (Vs, massFlow p f) ∧ ∃ v, gheFlow Vs p.media.fluid.rho f.length = .ok (v, massFlow p f) := by
  have hn : (f.length : ℝ) ≠ 0 := by
    have := List.length_pos_iff.2 h.field
    exact_mod_cast (by omega : f.length ≠ 0)
  unfold retrieveFlow gheFlow massFlow
  rcases h.flow with hf | hf
  · rw [if_pos hf, if_pos hf]
    refine ⟨p.V * f.length, rfl, p.V, ?_⟩
    rw [pyDiv_ok hn, Except.ok_bind, mul_div_cancel_right₀ _ hn]
    rfl
  · have hf' : ¬ p.flow = "borehole" := by rw [hf]; decide
    rw [if_neg hf', if_neg hf', if_pos hf, pyDiv_ok hn, Except.ok_bind]
    refine ⟨p.V, rfl, p.V / f.length, ?_⟩
    rw [pyDiv_ok hn]
    rfl

theorem Usable.known (h : Usable p f H bhe s) : Known bhe := by
  have := h.converts
  cases bhe with
  | other => cases this
  | _ => trivial

theorem Usable.borehole (h : Usable p f H bhe s) : Whole.borehole bhe = { p.borehole with H := H } := by
  obtain ⟨-, h2, h3, h4⟩ := makeExchanger_same h.exchanger h.known
  cases hb : Whole.borehole bhe
  rw [hb] at h2 h3 h4
  dsimp only at h2 h3 h4
  rw [h2, h3, h4]

/-- the two load decompositions and the hybrid load -/
theorem Usable.hybrid (h : Usable p f H bhe s) : ∃ sts cl hl hy,
    calcSts p.solve (radialTube p.ext s) none false p.fuel = .ok sts ∧
    GL.mkLoads (respOf (radialTube p.ext s) sts.1 sts.2.1 sts.2.2)
      ((p.hourly.map fun x => max (-x) 0).map (· / 1000)) 2019 = .ok cl ∧
    GL.mkLoads (respOf (radialTube p.ext s) sts.1 sts.2.1 sts.2.2)
      ((p.hourly.map fun x => max x 0).map (· / 1000)) 2019 = .ok hl ∧
    GL.mkHybrid (respOf (radialTube p.ext s) sts.1 sts.2.1 sts.2.2)
      ((p.hourly.map fun x => max (-x) 0).map (· / 1000)) ((p.hourly.map fun x => max x 0).map (· / 1000))
      p.startMonth p.endMonth 2019 = .ok (cl, hl, hy) := by
  obtain ⟨sts, hsts⟩ := calcSts_stable h.sound h.solver.sized h.steps
  obtain ⟨cl, hcl⟩ := loads_ok h.sound h.solver hsts (w := p.hourly.map fun x => max (-x) 0)
    (by rw [List.length_map, h.year]) (by
      intro x hx
      obtain ⟨y, -, rfl⟩ := List.mem_map.1 hx
      exact le_max_right _ _) h.cooling
  obtain ⟨hl, hhl⟩ := loads_ok h.sound h.solver hsts (w := p.hourly.map fun x => max x 0)
    (by rw [List.length_map, h.year]) (by
      intro x hx
      obtain ⟨y, -, rfl⟩ := List.mem_map.1 hx
      exact le_max_right _ _) h.heating
  obtain ⟨m1, m2⟩ := h.months
  obtain ⟨a, ha⟩ : ∃ a : ℕ, p.startMonth = a := ⟨p.startMonth.toNat, by omega⟩
  obtain ⟨b, hb⟩ : ∃ b : ℕ, p.endMonth = b := ⟨p.endMonth.toNat, by omega⟩
  obtain ⟨-, -, -, hy, hhy, -⟩ := GL.C63_hybrid hcl hhl (start := a) (finish := b) (by omega) (by omega)
  rw [← ha, ← hb] at hhy
  exact ⟨sts, cl, hl, hy, hsts _ le_rfl, hcl, hhl, hhy⟩

theorem fresh_ok (h : Usable p f H bhe s) : ∃ B c sts cl hl hy, p.borehole.rb ≤ B ∧
    p.gf (massFlow p f) p.media f H p.borehole.rb p.borehole.D = .ok c ∧
    c.length = (eskilsonLogTimes : List ℝ).length ∧
    calcSts p.solve (radialTube p.ext s) none false p.fuel = .ok sts ∧
    GL.mkLoads (respOf (radialTube p.ext s) sts.1 sts.2.1 sts.2.2)
      ((p.hourly.map fun x => max (-x) 0).map (· / 1000)) 2019 = .ok cl ∧
    GL.mkLoads (respOf (radialTube p.ext s) sts.1 sts.2.1 sts.2.2)
      ((p.hourly.map fun x => max x 0).map (· / 1000)) 2019 = .ok hl ∧
    GL.mkHybrid (respOf (radialTube p.ext s) sts.1 sts.2.1 sts.2.2)
      ((p.hourly.map fun x => max (-x) 0).map (· / 1000)) ((p.hourly.map fun x => max x 0).map (· / 1000))
      p.startMonth p.endMonth 2019 = .ok (cl, hl, hy) ∧
    boreholeSpacing p.borehole.rb f = .ok B ∧
    fresh p f H = .ok ⟨envOf p f H B c (cl, hl, hy), ⟨bhe, s, sts, {}, [], []⟩⟩ := by
  obtain ⟨B, hB, hBr⟩ := spacing_ok (rb := p.borehole.rb) h.field
  obtain ⟨c, hc, hcl⟩ := h.curve
  obtain ⟨sts, cl, hl, hy, h1, h2, h3, h4⟩ := h.hybrid
  obtain ⟨Vs, hV, v, hv⟩ := h.flows
  refine ⟨B, c, sts, cl, hl, hy, hBr, hc, hcl, h1, h2, h3, h4, hB, ?_⟩
  unfold fresh buildGhe mkGhe
  rw [hV, Except.ok_bind]
  dsimp only
  rw [hB, Except.ok_bind, computeLive_one (h.text B hB) hc f, Except.ok_bind]
  change (gheFlow Vs p.media.fluid.rho f.length >>= _) = _
  rw [hv, Except.ok_bind]
  dsimp only
  rw [h.exchanger, Except.ok_bind, h.converts, Except.ok_bind]
  dsimp only
  rw [h1, Except.ok_bind, split_eq, Except.ok_bind]
  dsimp only
  rw [h4, Except.ok_bind]
  rfl

/-! ### simulating the new exchanger -/

theorem request_one {spl : String → List ℝ → List ℝ → ℝ → ℝ} {B rb D : ℝ} {c : List ℝ} (hB : B ≠ 0) (hH : H ≠ 0)
    (t : GF.Table ℝ) : GF.request spl (oneCurve B H rb D c f) (B / H) "default" t =
      (.ok ⟨c, rb, some D, H, false⟩, t) := by
  have e0 : (1 : ℝ) / (B / H) * B = H := by field_simp
  unfold GF.request
  rw [pyDiv_ok (div_ne_zero hB hH), St.lift_ok rfl]
  dsimp only
  have hk : PyDict.keys (oneCurve B H rb D c f).g = [H] := rfl
  have hd : ∀ {β : Type} (v : β), PyDict.get [(H, v)] H = .ok v := by
    intro β v
    simp [PyDict.get, PyDict.find?]
  have hB' : (oneCurve B H rb D c f).B = B := rfl
  rw [hk, hB', e0, show pyMax [H] = .ok H from rfl, St.lift_ok rfl, show pyMin [H] = .ok H from rfl, St.lift_ok rfl,
    sub_self, abs_zero, if_pos (by norm_num)]
  rw [if_pos (by norm_num), if_pos ⟨le_rfl, le_rfl⟩, show pyGet [H] 0 = .ok H from rfl,
    St.lift_ok rfl, sub_self, pyDiv_ok hH, St.lift_ok rfl, if_pos (by norm_num)]
  rw [show PyDict.get (oneCurve B H rb D c f).g H = .ok c from hd c, St.lift_ok rfl,
    show PyDict.get (oneCurve B H rb D c f).rb H = .ok rb from hd rb, St.lift_ok rfl,
    show PyDict.get (oneCurve B H rb D c f).D H = .ok D from hd D, St.lift_ok rfl]
  rfl

theorem makeExchanger_settled {ext : Ext} {m : ℝ} {media : Media} {b : Borehole} {x : Exchanger}
    (h : makeExchanger ext m media b = .ok x) : Settled ext x := by
  obtain ⟨hw, fl, gr, so⟩ := media
  unfold makeExchanger at h
  cases hw with
  | single pipe =>
    dsimp only at h
    rw [bind_eq_ok] at h
    obtain ⟨t, h1, h2⟩ := h
    cases h2
    cases h1
    rfl
  | multiple pipe =>
    dsimp only at h
    rw [bind_eq_ok] at h
    obtain ⟨t, h1, h2⟩ := h
    cases h2
    unfold mkMultiple mkUTube at h1
    rw [bind_eq_ok] at h1
    obtain ⟨mp, -, h1⟩ := h1
    cases h1
    rfl
  | coaxial pipe => cases h; rfl
  | other => cases h; rfl

theorem setHeight_self (x : Exchanger) : setHeight (Whole.borehole x).H x = x := by
  cases x <;> rfl

theorem Usable.at_height (h : Usable p f H bhe s) : setHeight H bhe = bhe := by
  conv_lhs => rw [show H = (Whole.borehole bhe).H by rw [h.borehole]]
  exact setHeight_self bhe

theorem Usable.works (h : Usable p f H bhe s) (B : ℝ) (c : List ℝ) (hy : GL.Loads ℝ × GL.Loads ℝ × GL.Hybrid ℝ) :
    Works (envOf p f H B c hy) bhe H s where
  nonzero := h.height.ne'
  converts := by
    rw [h.at_height]
    exact h.converts
  sound := h.sound
  solver := h.solver.sized
  steps := h.steps

theorem eskilson_pairwise : (eskilsonLogTimes : List ℝ).Pairwise (· < ·) := by
  unfold eskilsonLogTimes
  norm_num [List.pairwise_cons]

/-- The short-time response does not have a value at exactly the time where the long-time response begins. -/
def Seam (s : UTube) : Prop :=
  1 / 10 ^ 12 < charTime s * exp (-(85 / 10)) ∧ ∀ k : ℕ, charTime s * exp (-(85 / 10)) ≠ 1 / 10 ^ 12 + 120 * k

theorem times_one (hs : Seam s) (B : ℝ) (c : List ℝ) (hy : GL.Loads ℝ × GL.Loads ℝ × GL.Hybrid ℝ) :
    Times (envOf p f H B c hy) s (-(85 / 10)) (3003 / 1000) where
  increasing := eskilson_pairwise
  first := by
    show (eskilsonLogTimes : List ℝ).head? = _
    unfold eskilsonLogTimes
    norm_num
  last := by
    show (eskilsonLogTimes : List ℝ).getLast? = _
    unfold eskilsonLogTimes
    norm_num
  start := hs.1
  seam := hs.2

theorem makeExchanger_data {ext : Ext} {m : ℝ} {media : Media} {b : Borehole} {x : Exchanger}
    (h : makeExchanger ext m media b = .ok x) (hk : Known x) :
    soilOf x = media.soil ∧ flowOf x = m ∧ cpOf x = media.fluid.cp := by
  obtain ⟨hw, fl, gr, so⟩ := media
  unfold makeExchanger at h
  cases hw with
  | single pipe =>
    dsimp only at h
    rw [bind_eq_ok] at h
    obtain ⟨t, h1, h2⟩ := h
    cases h2
    cases h1
    exact ⟨rfl, rfl, rfl⟩
  | multiple pipe =>
    dsimp only at h
    rw [bind_eq_ok] at h
    obtain ⟨t, h1, h2⟩ := h
    cases h2
    unfold mkMultiple mkUTube at h1
    rw [bind_eq_ok] at h1
    obtain ⟨mp, -, h1⟩ := h1
    cases h1
    exact ⟨rfl, rfl, rfl⟩
  | coaxial pipe => cases h; exact ⟨rfl, rfl, rfl⟩
  | other => cases h; exact absurd hk id

/-- The response of the new exchanger: short-time samples up to the first of the 27 times of the g-function, then
the g-function. -/
def points (lt gs c : List ℝ) : List (ℝ × ℝ) :=
  (lt.zip gs).filter (fun q => decide (q.1 ≤ -(85 / 10))) ++ (eskilsonLogTimes : List ℝ).zip c

theorem exitTemp_eq {th : Thermal ℝ} {site : Site} (e1 : th.nbh = site.boreholes) (e2 : th.H = site.height)
    (e3 : th.twoPiK = 2 * π * site.conductivity) (e4 : th.Tg = site.ground) (e5 : th.Rb = site.resistance)
    (e6 : th.mdot = site.flow) (e7 : th.cp = site.cp) (Ql tl : List ℝ) (i : ℕ) :
    temp th (resp th) Ql tl i = exitTemp site (resp th) (at0 Ql) (at0 tl) i ∧
      rise th (resp th) Ql tl i = wallRise site (resp th) (at0 Ql) (at0 tl) i := by
  have hat : ∀ i, at0 (Ql.map (· / th.nbh)) i = at0 Ql i / th.nbh := by
    intro i
    cases i with
    | zero => simp
    | succ i =>
      rw [at0_succ, at0_succ, List.getD_eq_getElem?_getD, List.getD_eq_getElem?_getD, List.getElem?_map]
      cases Ql[i]? <;> simp
  have hrise : ∀ i, rise th (resp th) Ql tl i = wallRise site (resp th) (at0 Ql) (at0 tl) i := by
    intro i
    unfold rise wallRise
    refine Finset.sum_congr rfl fun j _ => ?_
    rw [hat, hat, e1, e2, e3, ← sub_div, div_div (at0 Ql (j + 1) - at0 Ql j)]
  refine ⟨?_, hrise i⟩
  unfold temp exitTemp
  rw [hrise, hat, e4, e5, e6, e7, e1, e2, div_div]

/-- what a simulation of the new exchanger computes, for any loads `Ql` ending at the times `tl` -/
theorem simulate_fresh (h : Usable p f H bhe s) (hs : Seam s) {x : Held} (hx : fresh p f H = .ok x) {method : String}
    {Ql tl : List ℝ} (hin : simulationInput (gheEnv x.env fun _ => .error .valueError) method = .ok (Ql, tl))
    (hlen : Ql.length = tl.length) (hne : Ql ≠ [])
    (husable : (0 :: tl).Pairwise (fun u v => u ≤ v →
      1 / 10 ^ 12 ≤ 3600 * (v - u) ∧ 3600 * (v - u) ≤ charTime s * exp (3003 / 1000)))
    (hfirst : 0 ≤ at0 tl 1) :
    ∃ hi lo s' rad lt gs c G, simulate x.env method x.state = (.ok (hi, lo), s') ∧
      calcSts p.solve (radialTube p.ext s) none false p.fuel = .ok (rad, lt, gs) ∧
      p.gf (massFlow p f) p.media f H p.borehole.rb p.borehole.D = .ok c ∧
      (∀ i ≤ Ql.length, ∀ j < i, at0 tl j ≤ at0 tl i → OnPolyline (points lt gs c)
        (log (3600 * (at0 tl i - at0 tl j) / charTime s)) (G (at0 tl i - at0 tl j))) ∧
      s'.HPEFT = (List.range Ql.length).map (fun k => if Late tl (k + 1) then none else some (exitTemp
        ⟨f.length, H, p.media.soil.k, p.media.soil.ugt, effectiveRb p.ext bhe, massFlow p f, p.media.fluid.cp⟩ G
        (at0 Ql) (at0 tl) (k + 1))) ∧
      (some hi ∈ s'.HPEFT ∧ ∀ T, some T ∈ s'.HPEFT → T ≤ hi) ∧
      (some lo ∈ s'.HPEFT ∧ ∀ T, some T ∈ s'.HPEFT → lo ≤ T) := by
  obtain ⟨B, c, sts, cl, hl, hy, hB, hc, hcl, -, -, -, -, -, hf⟩ := fresh_ok h
  rw [hx] at hf
  cases hf
  dsimp only at *
  have hB0 : B ≠ 0 := (h.radius.trans_le hB).ne'
  have hset : Settled p.ext bhe := makeExchanger_settled h.exchanger
  obtain ⟨d1, d2, d3⟩ := makeExchanger_data h.exchanger h.known
  have hreq := request_one (spl := p.spl) (f := f) (rb := p.borehole.rb) (D := p.borehole.D) (c := c) hB0
    h.height.ne' {}
  have hT := times_one (p := p) (f := f) (H := H) hs B c (cl, hl, hy)
  obtain ⟨th, rad, lt, gs, t1, t2, t3, e1, e2, e3, e4, e5, e6, e7⟩ := thermalOf_value (env := envOf p f H B c (cl, hl, hy))
    h.known ⟨c, p.borehole.rb, some p.borehole.D, H, false⟩ h.radius.ne' hcl (h.works B c (cl, hl, hy)) hT
  obtain ⟨th', t1', g1, g2⟩ := thermalOf_ok (env := envOf p f H B c (cl, hl, hy)) (x := bhe) (h := H)
    ⟨c, p.borehole.rb, some p.borehole.D, H, false⟩ h.radius.ne' hcl (h.works B c (cl, hl, hy)) hT
  rw [t1] at t1'
  cases t1'
  obtain ⟨e, q, hp⟩ := prepare_of (env := envOf p f H B c (cl, hl, hy)) hset h.known (h.works B c (cl, hl, hy))
    ⟨bhe, s, sts, {}, [], []⟩ h.at_height.symm _ _ hreq
  rw [Except.ok_bind, t1] at hp
  have hresp := (responds_iff (t := tl) g1).2 husable
  rw [← hlen] at hresp
  have hok := simulateDetailed_ok hlen.le hresp
  obtain ⟨⟨u, hu⟩, w, hw⟩ := extremes_ok (temps_head (th := th) (G := resp th) (Q := Ql)
    (List.length_pos_of_ne_nil hne) hfirst)
  have hb : (borehole bhe).rb = p.borehole.rb := by rw [h.borehole]
  refine ⟨u, w, ⟨setHeight H bhe, e, q, {}, (List.range Ql.length).map (fun k => tempN th (resp th) Ql tl (k + 1)),
    (List.range Ql.length).map (fun k => riseN th (resp th) Ql tl (k + 1))⟩, rad, lt, gs, c, resp th, ?_, t2, hc, ?_, ?_,
    ?_, ?_⟩
  · unfold Whole.simulate
    rw [St.bind_ok hp, hin, St.lift_ok rfl]
    dsimp only
    rw [hok, St.lift_ok rfl]
    dsimp only
    rw [St.modify_bind, St.lift_ok hu, St.lift_ok hw]
    rfl
  · intro i hi j hj hle
    have := t3 _ _ (hresp.eq hi hj hle)
    unfold responsePoints at this
    dsimp only at this
    rw [hb, div_self h.radius.ne', log_one] at this
    simp only [sub_zero, List.map_id'] at this
    exact this
  · refine List.map_congr_left fun k _ => ?_
    refine if_congr Iff.rfl rfl (congrArg some ?_)
    refine (exitTemp_eq ?_ ?_ ?_ ?_ ?_ ?_ ?_ Ql tl (k + 1)).1
    · exact e1
    · exact e2
    · rw [e3, d1]
    · rw [e4, d1]
    · rw [e5, h.at_height]; rfl
    · rw [e6, d2]
    · rw [e7, d3]
  · exact maxNumber_eq_ok hu
  · exact minNumber_eq_ok hw

/-- the same for times that increase -/
theorem simulate_fresh_ordered (h : Usable p f H bhe s) (hs : Seam s) {x : Held} (hx : fresh p f H = .ok x)
    {method : String} {Ql tl : List ℝ}
    (hin : simulationInput (gheEnv x.env fun _ => .error .valueError) method = .ok (Ql, tl))
    (hlen : Ql.length = tl.length) (hne : Ql ≠ [])
    (hgap : (0 :: tl).Pairwise (fun u v => 1 / 10 ^ 12 ≤ 3600 * (v - u)))
    (hend : ∀ u ∈ tl, 3600 * u ≤ charTime s * exp (3003 / 1000)) :
    ∃ hi lo s' rad lt gs c G, simulate x.env method x.state = (.ok (hi, lo), s') ∧
      calcSts p.solve (radialTube p.ext s) none false p.fuel = .ok (rad, lt, gs) ∧
      p.gf (massFlow p f) p.media f H p.borehole.rb p.borehole.D = .ok c ∧
      (∀ i ≤ Ql.length, ∀ j < i, OnPolyline (points lt gs c)
        (log (3600 * (at0 tl i - at0 tl j) / charTime s)) (G (at0 tl i - at0 tl j))) ∧
      s'.HPEFT = (List.range Ql.length).map (fun k => some (exitTemp
        ⟨f.length, H, p.media.soil.k, p.media.soil.ugt, effectiveRb p.ext bhe, massFlow p f, p.media.fluid.cp⟩ G
        (at0 Ql) (at0 tl) (k + 1))) ∧
      (some hi ∈ s'.HPEFT ∧ ∀ T, some T ∈ s'.HPEFT → T ≤ hi) ∧
      (some lo ∈ s'.HPEFT ∧ ∀ T, some T ∈ s'.HPEFT → lo ≤ T) := by
  have ho := ordered_of_gaps hgap
  obtain ⟨hi, lo, s', rad, lt, gs, c, G, h1, h2, h3, h4, h5, h6⟩ := simulate_fresh h hs hx hin hlen hne
    (usable_of_gaps hgap hend)
    (ho 1 (by rw [← hlen]; exact List.length_pos_of_ne_nil hne) 0 (by omega))
  refine ⟨hi, lo, s', rad, lt, gs, c, G, h1, h2, h3, fun i hi j hj => h4 i hi j hj (ho i (by rw [← hlen]; exact hi) j hj),
    ?_, h6⟩
  rw [h5]
  refine List.map_congr_left fun k hk => if_neg ?_
  rintro ⟨j, hj, hlt⟩
  exact absurd (ho (k + 1) (by rw [← hlen]; exact List.mem_range.1 hk) j hj) (not_le.2 hlt)

end

end Ghedt.WholeSearch
