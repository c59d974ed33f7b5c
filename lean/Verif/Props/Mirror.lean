import Verif.Lemmas.Mirror
import Verif.Props.Warm

/-!
# Heating and cooling are treated alike (C133)

The same design with heating and cooling loads exchanged and all temperatures mirrored.
-/

namespace Ghedt.WholeSearch
open Ghedt.GHE Ghedt.Bhe Ghedt.Whole Ghedt.Files Ghedt.Script Ghedt.Network

noncomputable section

/-- `x'` is the mirror of `x`: fluid temperatures are `a` minus those of `x`, the temperature of the borehole wall changes the
other way, and so do the loads, at the same hours; the monthly loads of rejection are those of extraction and the other way
round.  The borehole with its height and the g-functions are the same. -/
structure Mirrored (a : ℝ) (x x' : Held) : Prop where
  borehole : Whole.borehole x'.state.bhe = Whole.borehole x.state.bhe
  fluid : x'.state.HPEFT = x.state.HPEFT.map (Option.map fun T => a - T)
  wall : x'.state.dTb = x.state.dTb.map (Option.map fun d => -d)
  gFunctions : x'.env.db = x.env.db
  load : x'.env.load = x.env.load.map fun q => -q
  hour : x'.env.hour = x.env.hour
  rejection : x'.env.rejection = x.env.extraction
  extraction : x'.env.extraction = x.env.rejection

/-- The outcomes of two searches are the same, and what they hold differs as in `Mirrored`. -/
structure AsMirror {α : Type} (a : ℝ) (r r' : Except PyErr α × WholeSearch.State) : Prop where
  result : r'.1 = r.1
  excess : r'.2.temps = r.2.temps
  excessNested : r'.2.tempsNested = r.2.tempsNested
  heights : r'.2.heights = r.2.heights
  held : r'.2.held = none ↔ r.2.held = none
  exchanger : ∀ x x', r.2.held = some x → r'.2.held = some x' → Mirrored a x x'

theorem mirrored_held (a : ℝ) (x : Held) : Mirrored a x (Mirror.held a x) :=
  ⟨Ground.borehole_ground _ _, rfl, rfl, rfl, rfl, rfl, rfl, rfl⟩

theorem asMirror_of {α : Type} {a : ℝ} {m m' : St WholeSearch.State α}
    (h : Commutes Alike.ProperS (Mirror.search a) id m m') : AsMirror a (m {}) (m' {}) := by
  obtain ⟨h1, -⟩ := h {} Alike.proper_empty
  rw [← Commutes.map_id'] at h1
  replace h1 : m' {} = ((m {}).1, Mirror.search a (m {}).2) := h1
  rw [h1]
  refine ⟨rfl, rfl, rfl, rfl, by simp [Mirror.search], ?_⟩
  intro x x' hx hx'
  simp only [Mirror.search, hx, Option.map_some, Option.some.injEq] at hx'
  subst hx'
  exact mirrored_held a x

variable {p : Problem} {a : ℝ}

/-- C133: a design for the loads of the other sign, with the undisturbed ground temperature mirrored about half of `a` and the
limits mirrored and exchanged, ends as the design does: with the same exception, or the same field; the excess temperatures and
total lengths recorded are the same, and what it holds has the same height and mirrored temperatures. -/
theorem C133_design (hgf : ∀ m d f H rb D, p.gf m (Ground.media (a - ·) d) f H rb D = p.gf m d f H rb D) (fuel : ℕ)
    (gc : Design.Constraints ℝ) (routine : String) :
    AsMirror a (design p fuel gc routine {}) (design (Mirror.problem a p) fuel gc routine {}) :=
  asMirror_of (Alike.commutes_design (Mirror.same hgf) fuel gc routine)

/-- C133: the same for any candidates, and after sizing the exchanger found. -/
theorem C133_sized {i : Saved} (hgf : ∀ m d f H rb D, i.problem.gf m (Ground.media (a - ·) d) f H rb D = i.problem.gf m d f H rb D) :
    AsMirror a (findAndSize i {}) (findAndSize { i with problem := Mirror.problem a i.problem } {}) :=
  asMirror_of (Alike.commutes_findAndSize (Mirror.same hgf) i.routine i.candidates)

/-- C133: the exchanger made for a field at a height is the mirror of the one made otherwise; it raises when the other does.  It
is one of those of `C133_simulate` and `C133_size`. -/
theorem C133_built (hgf : ∀ m d f H rb D, p.gf m (Ground.media (a - ·) d) f H rb D = p.gf m d f H rb D) (f : List (ℝ × ℝ)) (H : ℝ) :
    fresh (Mirror.problem a p) f H = (fresh p f H).map (Mirror.held a) ∧
    (∀ x, fresh p f H = .ok x → x.state.bhe ≠ .other) ∧ ∀ x, Mirrored a x (Mirror.held a x) := by
  unfold fresh
  refine ⟨Alike.fresh_alike (Mirror.same hgf) p.flow p.V p.media { p.borehole with H := H } f, ?_, mirrored_held a⟩
  intro x hx
  obtain ⟨flows, -, hx⟩ := bind_eq_ok.mp hx
  exact Alike.buildGhe_proper hx

/-- C133: the mirrored exchanger is simulated with mirrored temperatures, the highest of which is the mirrored lowest and the
other way round, and raises when the other does; the temperature of the borehole wall changes the other way. -/
theorem C133_simulate (x x' : Held) (hx : x.state.bhe ≠ .other) (hx' : x' = Mirror.held a x) (method : String) :
    (Whole.simulate x'.env method x'.state).1 =
      (Whole.simulate x.env method x.state).1.map (fun r => (a - r.2, a - r.1)) ∧
    (Whole.simulate x'.env method x'.state).2.HPEFT =
      (Whole.simulate x.env method x.state).2.HPEFT.map (Option.map fun T => a - T) ∧
    (Whole.simulate x'.env method x'.state).2.dTb =
      (Whole.simulate x.env method x.state).2.dTb.map (Option.map fun d => -d) := by
  subst hx'
  obtain ⟨h1, -⟩ := Mirror.commutes_simulate x.env a method x.state hx
  simp only [Mirror.held, h1]
  exact ⟨rfl, rfl, rfl⟩

/-- C133: … and is sized to the same height, with the same warnings. -/
theorem C133_size (x x' : Held) (hx : x.state.bhe ≠ .other) (hx' : x' = Mirror.held a x) (method : String) :
    (Whole.size x'.env method x'.state).1 = (Whole.size x.env method x.state).1 ∧
    Whole.borehole (Whole.size x'.env method x'.state).2.bhe = Whole.borehole (Whole.size x.env method x.state).2.bhe := by
  subst hx'
  obtain ⟨h1, -⟩ := Alike.commutes_size (φ := (a - ·)) (ft := Mirror.temps a) (fd := Mirror.changes) (Mirror.objects a) x.env
    (fun m => Mirror.commutes_simulate x.env a m) (fun _ => Mirror.cost_mirror a _ _ _ _) method x.state hx
  rw [← Commutes.map_id'] at h1
  replace h1 : Whole.size (Mirror.held a x).env method (Mirror.held a x).state =
    ((Whole.size x.env method x.state).1, Mirror.state a (Whole.size x.env method x.state).2) := h1
  rw [h1]
  exact ⟨rfl, Ground.borehole_ground _ _⟩

/-- C133: the script that finds and sizes a design and exports it writes the same file, or raises the same. -/
theorem C133_file {i : Saved} (hgf : ∀ m d f H rb D, i.problem.gf m (Ground.media (a - ·) d) f H rb D = i.problem.gf m d f H rb D)
    (enc : Encoder Json) (out : File) (d : Disk) :
    designToFile enc out { i with problem := Mirror.problem a i.problem } d = designToFile enc out i d :=
  Alike.designToFile_alike (Mirror.same hgf) i.routine i.candidates enc out d

/-- C133: the hourly loads of the other sign are split with heating and cooling exchanged, and the hybrid load made of them has
loads of the other sign at the same hours, or the same exception is raised, provided the response raises nothing but
`ValueError`, as that of a borehole does. -/
theorem C133_loads (hourly : List ℝ) (r : GL.Resp ℝ) (hr : ∀ t e, r.g t = .error e → e = .valueError) (startMonth endMonth year : ℤ)
    (rej ext : List ℝ) (h : GL.splitHeatAndCool hourly "W" = .ok (rej, ext)) :
    GL.splitHeatAndCool (hourly.map fun q => -q) "W" = .ok (ext, rej) ∧
    GL.mkHybrid r ext rej startMonth endMonth year = (GL.mkHybrid r rej ext startMonth endMonth year).map fun x =>
      (x.2.1, x.1, ⟨x.2.2.load.map fun q => -q, x.2.2.hour, x.2.2.sfload.map fun q => -q⟩) := by
  refine ⟨?_, Mirror.mkHybrid_swap hr ?_ startMonth endMonth year⟩
  · have := Mirror.split_mirror hourly
    rw [h] at this
    exact this
  · rw [split_eq] at h
    cases h
    simp

/-! ### concrete cases -/

/-- The problem of C77's example, which cools in a ground of 18 °C within `t` and `T`, for heating in a ground of 22 °C. -/
def exMirror (T t : ℝ) : Problem := { exLimit T t with
  media := { exProblem.media with soil := { exProblem.media.soil with ugt := 22 } }
  hourly := List.replicate 8760 10000
  maxEFT := 40 - t
  minEFT := 40 - T }

/-- The same field of more than one borehole is found. -/
example : ∃ (N : ℕ) (T t : ℝ) (k : ℕ) (f : List (ℝ × ℝ)), f ≠ [(0, 0)] ∧ 34 < T ∧ T < 35 ∧ 4 < t ∧ t < 5 ∧
    (design (exMirror T t) 0 { length := some (5 * N), B := some 5 } "near-square" {}).1 = .ok (some ((k : ℤ), f)) := by
  obtain ⟨N, T, t, k, f, hN, h1, h2, h3, h4, h, hne⟩ := exDesign
  refine ⟨N, T, t, k, f, hne, by linarith, by linarith, by linarith, by linarith, ?_⟩
  have := (C133_design (p := exLimit T t) (a := 40) (fun m d f H rb D => C132_curve _ _ (fun _ _ _ _ _ _ => rfl) _ _ _ _ _ _ _ _
    _) 0 { length := some (5 * N), B := some 5 } "near-square").result
  rw [h] at this
  rw [← this]
  have hu : (40 : ℝ) - 18 = 22 := by norm_num
  have hl : Mirror.loads exProblem.hourly = List.replicate 8760 10000 := by
    show (List.replicate 8760 (-10000 : ℝ)).map _ = _
    rw [List.map_replicate, neg_neg]
  have hp : Mirror.problem 40 (exLimit T t) = exMirror T t := by
    unfold exMirror
    rw [← hu, ← hl]; rfl
  rw [hp]

/-- C133 applies to sizing and to the exported file with whatever encoder, here for single U-tubes and any fields. -/
example (a : ℝ) (cd : Codec Json Saved) (d : List (List (ℝ × ℝ))) :
    AsMirror a (findAndSize ⟨exSingle, "near-square", .flat d⟩ {})
      (findAndSize ⟨Mirror.problem a exSingle, "near-square", .flat d⟩ {}) ∧
    designToFile cd.json (["out"], "x") ⟨Mirror.problem a exSingle, "near-square", .flat d⟩ exDisk =
      designToFile cd.json (["out"], "x") ⟨exSingle, "near-square", .flat d⟩ exDisk := by
  have hgf : ∀ m d f H rb D, exSingle.gf m (Ground.media (a - ·) d) f H rb D = exSingle.gf m d f H rb D :=
    fun m d f H rb D => C132_curve _ _ (fun _ _ _ _ _ _ => rfl) _ _ _ _ _ _ _ _ _
  exact ⟨C133_sized (i := ⟨exSingle, "near-square", .flat d⟩) hgf,
    C133_file (i := ⟨exSingle, "near-square", .flat d⟩) hgf _ _ _⟩

/-- Three double U-tubes of 100 m that take up 10 kW in a ground of 18 °C are simulated with some temperatures; those that give
10 kW in a ground of 2 °C with the mirrored ones, and they get the same size. -/
example : ∃ x x' hi lo, fresh exNet (exRow 3) 100 = .ok x ∧ fresh (Mirror.problem 20 exNet) (exRow 3) 100 = .ok x' ∧
    (Mirror.problem 20 exNet).hourly = List.replicate 8760 10000 ∧ (soilOf x'.state.bhe).ugt = 20 - (soilOf x.state.bhe).ugt ∧
    (Whole.simulate x.env "hourly" x.state).1 = .ok (hi, lo) ∧
    (Whole.simulate x'.env "hourly" x'.state).1 = .ok (20 - lo, 20 - hi) ∧
    (Whole.size x'.env "hybrid" x'.state).1 = (Whole.size x.env "hybrid" x.state).1 := by
  obtain ⟨s, hu, hct⟩ := exNet_usable 3 (by norm_num)
  have hseam := exSeam s 100 (.inr rfl) hct
  obtain ⟨x, hi, lo, s', -, -, hh, h2, h3, -⟩ := C102_hourly (lib := exLib) rfl (List.replicate 8 (1 / 8)) rfl hu hseam 1
    le_rfl (by decide) (by
      rw [hct]
      have : 1 ≤ Real.exp (3003 / 1000 : ℝ) := Real.one_le_exp (by norm_num)
      push_cast
      nlinarith) (fun k => if k = 0 then 0 else 10000) (by simp) (by
      intro k
      show (List.replicate 8760 (-10000 : ℝ))[k % 8760]? = _
      rw [List.getElem?_replicate, if_pos (Nat.mod_lt _ (by norm_num))]
      simp) _ rfl
  obtain ⟨h4, h5, -⟩ := C133_built (p := exNet) (a := 20) (fun m d f H rb D => C132_curve _ _ (fun _ _ _ _ _ _ => rfl) _ _ _ _ _ _
    _ _ _) (exRow 3) 100
  have hx := h5 x h2
  refine ⟨x, Mirror.held 20 x, hi, lo, h2, by rw [h4, h2]; rfl, ?_, ?_, by rw [h3], ?_, (C133_size x _ hx rfl "hybrid").1⟩
  · show (List.replicate 8760 (-10000 : ℝ)).map _ = _
    rw [List.map_replicate, neg_neg]
  · show (soilOf (Ground.exchanger (20 - ·) x.state.bhe)).ugt = _
    rw [Ground.soilOf_ground _ hx]
    rfl
  · rw [(C133_simulate x _ hx rfl "hourly").1, h3]
    rfl

/-- a year that cools for an hour in July and heats for an hour in January -/
example : GL.splitHeatAndCool [-1000, 2000, (0 : ℝ)] "W" = .ok ([1, 0, 0], [0, 2, 0]) ∧
    GL.splitHeatAndCool ([-1000, 2000, (0 : ℝ)].map fun q => -q) "W" = .ok ([0, 2, 0], [1, 0, 0]) := by
  have h : GL.splitHeatAndCool [-1000, 2000, (0 : ℝ)] "W" = .ok ([1, 0, 0], [0, 2, 0]) := by
    rw [split_eq]; norm_num
  exact ⟨h, (C133_loads _ ⟨fun _ => .error .valueError, 1, 1⟩ (fun _ _ h => by cases h; rfl) 1 12 2019 _ _ h).1⟩

end

end Ghedt.WholeSearch
