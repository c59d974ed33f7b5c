import Verif.Lemmas.Warm
import Verif.Props.Script
import Verif.Props.DesignExample
import Verif.Props.Network

/-!
# Only temperature differences matter (C132)

The same design in a ground that is `c` degrees warmer, with limits `c` degrees higher.
-/

namespace Ghedt.WholeSearch
open Ghedt.GHE Ghedt.Bhe Ghedt.Whole Ghedt.Files Ghedt.Script Ghedt.Network

noncomputable section

/-- `x'` is what `x` is, but for fluid temperatures that are `c` higher: the borehole with its height, the g-functions, the
loads and the changes of the temperature of the borehole wall are the same. -/
structure Warmer (c : ℝ) (x x' : Held) : Prop where
  borehole : Whole.borehole x'.state.bhe = Whole.borehole x.state.bhe
  fluid : x'.state.HPEFT = x.state.HPEFT.map (Option.map (· + c))
  wall : x'.state.dTb = x.state.dTb
  gFunctions : x'.env.db = x.env.db
  load : x'.env.load = x.env.load
  hour : x'.env.hour = x.env.hour

/-- The outcomes of two searches are the same, and what they hold differs as in `Warmer`. -/
structure AsWarm {α : Type} (c : ℝ) (r r' : Except PyErr α × WholeSearch.State) : Prop where
  result : r'.1 = r.1
  excess : r'.2.temps = r.2.temps
  excessNested : r'.2.tempsNested = r.2.tempsNested
  heights : r'.2.heights = r.2.heights
  held : r'.2.held = none ↔ r.2.held = none
  exchanger : ∀ x x', r.2.held = some x → r'.2.held = some x' → Warmer c x x'

theorem asWarm_of {α : Type} {c : ℝ} {m m' : St WholeSearch.State α}
    (h : Commutes Alike.ProperS (Warm.search c) id m m') : AsWarm c (m {}) (m' {}) := by
  obtain ⟨h1, -⟩ := h {} Alike.proper_empty
  rw [← Commutes.map_id'] at h1
  replace h1 : m' {} = ((m {}).1, Warm.search c (m {}).2) := h1
  rw [h1]
  refine ⟨rfl, rfl, rfl, rfl, by simp [Warm.search], ?_⟩
  intro x x' hx hx'
  simp only [Warm.search, hx, Option.map_some, Option.some.injEq] at hx'
  subst hx'
  exact ⟨Ground.borehole_ground _ _, rfl, rfl, rfl, rfl, rfl⟩

variable {p : Problem} {c : ℝ}

/-- C132: a design in a ground `c` degrees warmer, with limits `c` degrees higher, ends as the design does: with the same
exception, or the same field; the excess temperatures and total lengths recorded are the same, and what it holds has the same
height and the fluid temperatures `c` degrees higher. -/
theorem C132_design (hgf : ∀ m d f H rb D, p.gf m (Ground.media (· + c) d) f H rb D = p.gf m d f H rb D) (fuel : ℕ)
    (gc : Design.Constraints ℝ) (routine : String) :
    AsWarm c (design p fuel gc routine {}) (design (Warm.problem c p) fuel gc routine {}) :=
  asWarm_of (Alike.commutes_design (Warm.same hgf) fuel gc routine)

/-- C132: the same for any candidates, and after sizing the exchanger found. -/
theorem C132_sized {i : Saved} (hgf : ∀ m d f H rb D, i.problem.gf m (Ground.media (· + c) d) f H rb D = i.problem.gf m d f H rb D) :
    AsWarm c (findAndSize i {}) (findAndSize { i with problem := Warm.problem c i.problem } {}) :=
  asWarm_of (Alike.commutes_findAndSize (Warm.same hgf) i.routine i.candidates)

/-- C132: the exchanger made for a field at a height in the warmer ground is the one made otherwise, `c` degrees warmer; it
raises when the other does.  It is one of those of `C132_simulate` and `C132_size`. -/
theorem C132_built (hgf : ∀ m d f H rb D, p.gf m (Ground.media (· + c) d) f H rb D = p.gf m d f H rb D) (f : List (ℝ × ℝ)) (H : ℝ) :
    fresh (Warm.problem c p) f H = (fresh p f H).map (Warm.held c) ∧ ∀ x, fresh p f H = .ok x → x.state.bhe ≠ .other := by
  unfold fresh
  constructor
  · exact Alike.fresh_alike (Warm.same hgf) p.flow p.V p.media { p.borehole with H := H } f
  · intro x hx
    obtain ⟨flows, -, hx⟩ := bind_eq_ok.mp hx
    exact Alike.buildGhe_proper hx

/-- C132: an exchanger `c` degrees warmer, with limits `c` degrees higher, is simulated with all temperatures `c` degrees higher,
and raises when the other does. -/
theorem C132_simulate (x x' : Held) (hx : x.state.bhe ≠ .other) (hx' : x' = Warm.held c x) (method : String) :
    (Whole.simulate x'.env method x'.state).1 =
      (Whole.simulate x.env method x.state).1.map (fun r => (r.1 + c, r.2 + c)) ∧
    (Whole.simulate x'.env method x'.state).2.HPEFT =
      (Whole.simulate x.env method x.state).2.HPEFT.map (Option.map (· + c)) ∧
    (Whole.simulate x'.env method x'.state).2.dTb = (Whole.simulate x.env method x.state).2.dTb := by
  subst hx'
  obtain ⟨h1, -⟩ := Warm.commutes_simulate x.env c method x.state hx
  simp only [Warm.held, h1]
  exact ⟨rfl, rfl, rfl⟩

/-- C132: … and is sized to the same height, with the same warnings. -/
theorem C132_size (x x' : Held) (hx : x.state.bhe ≠ .other) (hx' : x' = Warm.held c x) (method : String) :
    (Whole.size x'.env method x'.state).1 = (Whole.size x.env method x.state).1 ∧
    Whole.borehole (Whole.size x'.env method x'.state).2.bhe = Whole.borehole (Whole.size x.env method x.state).2.bhe := by
  subst hx'
  obtain ⟨h1, -⟩ := Alike.commutes_size (φ := (· + c)) (ft := Warm.temps c) (fd := id) (Warm.objects c) x.env
    (fun m => Warm.commutes_simulate x.env c m) (fun _ => Warm.cost_warm c _ _ _ _) method x.state hx
  rw [← Commutes.map_id'] at h1
  replace h1 : Whole.size (Warm.held c x).env method (Warm.held c x).state =
    ((Whole.size x.env method x.state).1, Warm.state c (Whole.size x.env method x.state).2) := h1
  rw [h1]
  exact ⟨rfl, Ground.borehole_ground _ _⟩

/-- C132: the script that finds and sizes a design and exports it writes the same file, or raises the same. -/
theorem C132_file {i : Saved} (hgf : ∀ m d f H rb D, i.problem.gf m (Ground.media (· + c) d) f H rb D = i.problem.gf m d f H rb D)
    (enc : Encoder Json) (out : File) (d : Disk) :
    designToFile enc out { i with problem := Warm.problem c i.problem } d = designToFile enc out i d :=
  Alike.designToFile_alike (Warm.same hgf) i.routine i.candidates enc out d

/-! ### the g-functions -/

/-- `pygfunction` does not look at the undisturbed temperature of the ground kept by the exchangers it is given. -/
def ReadsNoTemperature (lib : Network.Pyg) : Prop :=
  ∀ (φ : ℝ → ℝ) field xs flow cp (q : Network.Query), lib.gFunction { q with source := .network field (xs.map (Ground.exchanger φ)) flow cp } =
    lib.gFunction { q with source := .network field xs flow cp }

/-- C132: with such a `pygfunction` the g-functions of the package do not depend on the undisturbed ground temperature, which is
what the other theorems ask for. -/
theorem C132_curve (ext : Ext) (lib : Network.Pyg) (h : ReadsNoTemperature lib) (logTime : List ℝ) (o : Network.Settings)
    (m : ℝ) (φ : ℝ → ℝ) (d : Media) (f : List (ℝ × ℝ)) (H rb D : ℝ) :
    Network.liveCurve ext lib logTime o m (Ground.media φ d) f H rb D = Network.liveCurve ext lib logTime o m d f H rb D := by
  unfold Network.liveCurve Network.calculateG
  rw [Alike.placeBoreholes_ground]
  have e : pyDiv (Ground.media φ d).soil.k (Ground.media φ d).soil.rhoCp = pyDiv d.soil.k d.soil.rhoCp := rfl
  rw [e]
  cases pyDiv d.soil.k d.soil.rhoCp with
  | error e => rfl
  | ok alpha =>
    simp only [Except.ok_bind]
    cases pyDiv (H ^ 2) (9 * alpha) with
    | error e => rfl
    | ok ts =>
      simp only [Except.ok_bind]
      cases Network.placeBoreholes ext m d o.boundary ⟨H, D, rb, 0, 0, 0, 0⟩ f with
      | error e => rfl
      | ok r =>
        simp only [Except.map, Except.ok_bind]
        cases Network.segmentRatios lib o with
        | error e => rfl
        | ok ratios =>
          simp only [Except.ok_bind, Prod.map, id]
          split_ifs
          · rfl
          · exact h φ r.1 r.2 (r.1.length * m) d.fluid.cp ⟨.boreholes [], alpha, _, o.boundary, o.nSegments, ratios, o.disp,
              o.solver⟩
          · rfl

/-! ### concrete cases -/

/-- The design of C77's example in a ground of 28 °C instead of 18 °C, with limits between 14 °C and 45 °C: the same field of
more than one borehole is found. -/
example : ∃ (N : ℕ) (T t : ℝ) (k : ℕ) (f : List (ℝ × ℝ)), 44 < T ∧ T < 45 ∧ 14 < t ∧ t < 15 ∧ f ≠ [(0, 0)] ∧
    (design { exLimit T t with media := { exProblem.media with soil := { exProblem.media.soil with ugt := 28 } } } 0
      { length := some (5 * N), B := some 5 } "near-square" {}).1 = .ok (some ((k : ℤ), f)) := by
  obtain ⟨N, T, t, k, f, hN, h1, h2, h3, h4, h, hne⟩ := exDesign
  refine ⟨N, T + 10, t + 10, k, f, by linarith, by linarith, by linarith, by linarith, hne, ?_⟩
  have := (C132_design (p := exLimit T t) (c := 10) (fun m d f H rb D => C132_curve _ _ (fun _ _ _ _ _ _ => rfl) _ _ _ _ _ _ _ _
    _) 0 { length := some (5 * N), B := some 5 } "near-square").result
  rw [h] at this
  rw [← this]
  have hu : (18 : ℝ) + 10 = 28 := by norm_num
  have hp : Warm.problem 10 (exLimit T t) = { exLimit (T + 10) (t + 10) with
      media := { exProblem.media with soil := { exProblem.media.soil with ugt := 28 } } } := by
    rw [← hu]; rfl
  rw [hp]

/-- C132 applies to sizing and to the exported file with whatever encoder, here for single U-tubes and the near-square fields
of 5 m. -/
example (c : ℝ) (cd : Codec Json Saved) (d : List (List (ℝ × ℝ))) :
    AsWarm c (findAndSize ⟨exSingle, "near-square", .flat d⟩ {})
      (findAndSize ⟨Warm.problem c exSingle, "near-square", .flat d⟩ {}) ∧
    designToFile cd.json (["out"], "x") ⟨Warm.problem c exSingle, "near-square", .flat d⟩ exDisk =
      designToFile cd.json (["out"], "x") ⟨exSingle, "near-square", .flat d⟩ exDisk := by
  have hgf : ∀ m d f H rb D, exSingle.gf m (Ground.media (· + c) d) f H rb D = exSingle.gf m d f H rb D :=
    fun m d f H rb D => C132_curve _ _ (fun _ _ _ _ _ _ => rfl) _ _ _ _ _ _ _ _ _
  exact ⟨C132_sized (i := ⟨exSingle, "near-square", .flat d⟩) hgf,
    C132_file (i := ⟨exSingle, "near-square", .flat d⟩) hgf _ _ _⟩

/-- Three double U-tubes of 100 m are simulated with some temperatures in a ground of 18 °C, and with temperatures `c` higher,
and the same size, in a ground of `18 + c`. -/
example (c : ℝ) : ∃ x x' hi lo, fresh exNet (exRow 3) 100 = .ok x ∧ fresh (Warm.problem c exNet) (exRow 3) 100 = .ok x' ∧
    (soilOf x'.state.bhe).ugt = (soilOf x.state.bhe).ugt + c ∧
    (Whole.simulate x.env "hourly" x.state).1 = .ok (hi, lo) ∧
    (Whole.simulate x'.env "hourly" x'.state).1 = .ok (hi + c, lo + c) ∧
    (Whole.size x'.env "hybrid" x'.state).1 = (Whole.size x.env "hybrid" x.state).1 := by
  obtain ⟨s, hu, hct⟩ := exNet_usable 3 (by norm_num)
  have hseam := exSeam s 100 (.inr rfl) hct
  obtain ⟨x, hi, lo, s', -, -, -, h2, h3, -⟩ := C102_hourly (lib := exLib) rfl (List.replicate 8 (1 / 8)) rfl hu hseam 1
    le_rfl (by decide) (by
      rw [hct]
      have : 1 ≤ Real.exp (3003 / 1000 : ℝ) := Real.one_le_exp (by norm_num)
      push_cast
      nlinarith) (fun k => if k = 0 then 0 else 10000) (by simp) (by
      intro k
      show (List.replicate 8760 (-10000 : ℝ))[k % 8760]? = _
      rw [List.getElem?_replicate, if_pos (Nat.mod_lt _ (by norm_num))]
      simp) _ rfl
  obtain ⟨h4, h5⟩ := C132_built (p := exNet) (c := c) (fun m d f H rb D => C132_curve _ _ (fun _ _ _ _ _ _ => rfl) _ _ _ _ _ _
    _ _ _) (exRow 3) 100
  have hx := h5 x h2
  refine ⟨x, Warm.held c x, hi, lo, h2, by rw [h4, h2]; rfl, ?_, by rw [h3], ?_, (C132_size x _ hx rfl "hybrid").1⟩
  · show (soilOf (Ground.exchanger (· + c) x.state.bhe)).ugt = _
    rw [Ground.soilOf_ground _ hx]
    rfl
  · rw [(C132_simulate x _ hx rfl "hourly").1, h3]
    rfl

end

end Ghedt.WholeSearch
