import Verif.Lemmas.Turned
import Verif.Props.Warm

/-!
# The same design somewhere else (C152)

Only distances between boreholes matter: candidates that are moved, turned or mirrored give the same design.
-/

namespace Ghedt.WholeSearch
open Ghedt.GHE Ghedt.Bhe Ghedt.Whole Ghedt.Files Ghedt.Script Ghedt.Network Ghedt.Utilities

noncomputable section

/-- A motion of the plane: no distance between two points changes. -/
def KeepsDistances (μ : ℝ × ℝ → ℝ × ℝ) : Prop :=
  ∀ a b, ((μ a).1 - (μ b).1) ^ 2 + ((μ a).2 - (μ b).2) ^ 2 = (a.1 - b.1) ^ 2 + (a.2 - b.2) ^ 2

/-- The outcomes of two searches are the same, but that the fields are moved: the same exception or the same index, and the
exchangers held do not differ in anything but the coordinates of the boreholes. -/
structure Elsewhere (μ : ℝ × ℝ → ℝ × ℝ) (r r' : Except PyErr (Option (ℤ × List (ℝ × ℝ))) × WholeSearch.State) : Prop where
  result : r'.1 = r.1.map (Option.map fun q => (q.1, q.2.map μ))
  excess : r'.2.temps = r.2.temps
  excessNested : r'.2.tempsNested = r.2.tempsNested
  heights : r'.2.heights = r.2.heights
  held : r'.2.held = none ↔ r.2.held = none
  exchanger : ∀ x x', r.2.held = some x → r'.2.held = some x' → x'.state = x.state ∧
    x'.env = { x.env with db := { x.env.db with locations := x.env.db.locations.map μ } }

theorem elsewhere_of {μ : ℝ × ℝ → ℝ × ℝ} {m m' : St WholeSearch.State (Option (ℤ × List (ℝ × ℝ)))}
    (h : Commutes Moved.Any (Moved.state (List.map μ)) (Moved.result (List.map μ)) m m') : Elsewhere μ (m {}) (m' {}) := by
  obtain ⟨h1, -⟩ := h {} trivial
  replace h1 : m' {} = ((m {}).1.map (Moved.result (List.map μ)), Moved.state (List.map μ) (m {}).2) := h1
  rw [h1]
  refine ⟨rfl, rfl, rfl, rfl, by simp [Moved.state], ?_⟩
  intro x x' hx hx'
  simp only [Moved.state, hx, Option.map_some, Option.some.injEq] at hx'
  subst hx'
  exact ⟨rfl, rfl⟩

theorem spacing_moved {μ : ℝ × ℝ → ℝ × ℝ} (hμ : KeepsDistances μ) (rb : ℝ) (f : List (ℝ × ℝ)) :
    boreholeSpacing rb (f.map μ) = boreholeSpacing rb f := by
  unfold boreholeSpacing
  rw [List.length_map, Moved.pyGet_moved, Moved.pyGet_moved]
  cases pyGet f 0 with
  | error e => rfl
  | ok a =>
    simp only [Except.map, Except.ok_bind]
    split_ifs
    · rfl
    · cases pyGet f 1 with
      | error e => rfl
      | ok b => simp only [Except.ok_bind, hμ b a]
    · rfl

theorem motion_of {p : Problem} {μ : ℝ × ℝ → ℝ × ℝ} (hμ : KeepsDistances μ)
    (hgf : ∀ m d f H rb D, p.gf m d (f.map μ) H rb D = p.gf m d f H rb D) : Moved.Motion p (List.map μ) :=
  ⟨fun _ => List.length_map _, spacing_moved hμ, hgf⟩

/-- The candidates with every borehole moved. -/
def movedCandidates (μ : ℝ × ℝ → ℝ × ℝ) : Design.Candidates ℝ → Design.Candidates ℝ
  | .flat d => .flat (d.map fun f => f.map μ)
  | .nested d => .nested (d.map fun fs => fs.map fun f => f.map μ)

theorem movedCandidates_eq (μ : ℝ × ℝ → ℝ × ℝ) (c : Design.Candidates ℝ) :
    movedCandidates μ c = Moved.candidates (List.map μ) c := by
  cases c <;> rfl

variable {p : Problem} {μ : ℝ × ℝ → ℝ × ℝ}

/-- C152: among candidates that are all moved the same way, each routine ends as it does among the candidates: with the same
exception, or with the field of the same index, moved; excess temperatures and total lengths recorded are the same, and the
exchanger held is the same at the moved place. -/
theorem C152_moved (hμ : KeepsDistances μ) (hgf : ∀ m d f H rb D, p.gf m d (f.map μ) H rb D = p.gf m d f H rb D)
    (routine : String) (c : Design.Candidates ℝ) :
    Elsewhere μ (findDesign p routine c {}) (findDesign p routine (movedCandidates μ c) {}) := by
  rw [movedCandidates_eq]
  exact elsewhere_of (Moved.commutes_findDesign (motion_of hμ hgf) routine c)

/-- C152: … and when the exchanger found is sized as well. -/
theorem C152_sized (hμ : KeepsDistances μ) (hgf : ∀ m d f H rb D, p.gf m d (f.map μ) H rb D = p.gf m d f H rb D)
    (routine : String) (c : Design.Candidates ℝ) :
    Elsewhere μ (findAndSize ⟨p, routine, c⟩ {}) (findAndSize ⟨p, routine, movedCandidates μ c⟩ {}) := by
  rw [movedCandidates_eq]
  exact elsewhere_of (Moved.commutes_findAndSize (motion_of hμ hgf) routine c)

/-- C152: the script that finds and sizes a design and exports it writes the same file, or raises the same. -/
theorem C152_file (hμ : KeepsDistances μ) (hgf : ∀ m d f H rb D, p.gf m d (f.map μ) H rb D = p.gf m d f H rb D)
    (routine : String) (c : Design.Candidates ℝ) (enc : Encoder Json) (out : File) (d : Disk) :
    designToFile enc out ⟨p, routine, movedCandidates μ c⟩ d = designToFile enc out ⟨p, routine, c⟩ d := by
  rw [movedCandidates_eq]
  exact Moved.designToFile_moved (motion_of hμ hgf) routine c enc out d

/-! ### land turned by a right angle -/

/-- the mirror at the diagonal -/
def swapped (c : ℝ × ℝ) : ℝ × ℝ := (c.2, c.1)

theorem swapped_keeps : KeepsDistances swapped := fun a b => add_comm _ _

theorem turned_of (h : Moved.Motion p (List.map swapped)) {fuel : ℕ} {gc gc' : Design.Constraints ℝ} {routine : String}
    (hc : Design.designInit fuel gc' routine = (Design.designInit fuel gc routine).map (Moved.candidates Moved.turn)) :
    Elsewhere swapped (design p fuel gc routine {}) (design p fuel gc' routine {}) := by
  apply elsewhere_of
  unfold design
  exact Commutes.bind (g := Moved.candidates Moved.turn) (Commutes.lift hc) fun c => Moved.commutes_findDesign h routine c

/-- C152: a rectangle design on land of different length and width that are exchanged, with the same `B_max_x`, is the design,
mirrored at the diagonal. -/
theorem C152_rectangle (hgf : ∀ m d f H rb D, p.gf m d (f.map swapped) H rb D = p.gf m d f H rb D) (fuel : ℕ)
    (gc : Design.Constraints ℝ) (h : gc.length ≠ gc.width) :
    Elsewhere swapped (design p fuel gc "rectangle" {})
      (design p fuel { gc with length := gc.width, width := gc.length } "rectangle" {}) :=
  turned_of (motion_of swapped_keeps hgf) (Moved.designInit_rectangle fuel gc h)

/-- C152: a bi-rectangle design on land of different length and width that are exchanged, with the largest spacings exchanged as
well, is the design, mirrored at the diagonal. -/
theorem C152_biRectangle (hgf : ∀ m d f H rb D, p.gf m d (f.map swapped) H rb D = p.gf m d f H rb D) (fuel : ℕ)
    (gc : Design.Constraints ℝ) (h : gc.length ≠ gc.width) :
    Elsewhere swapped (design p fuel gc "bi-rectangle" {})
      (design p fuel { gc with length := gc.width, width := gc.length, BmaxX := gc.BmaxY, BmaxY := gc.BmaxX } "bi-rectangle" {}) :=
  turned_of (motion_of swapped_keeps hgf) (Moved.designInit_biRectangle fuel gc h)

/-! ### the g-functions -/

/-- The borehole at the place it is moved to. -/
def movedBore (μ : ℝ × ℝ → ℝ × ℝ) (b : Bore) : Bore := { b with x := (μ (b.x, b.y)).1, y := (μ (b.x, b.y)).2 }

/-- `pygfunction` sees no more of where vertical boreholes are than the distances between them. -/
structure ReadsDistances (lib : Pyg) : Prop where
  boreholes : ∀ μ, KeepsDistances μ → ∀ field, (∀ b ∈ field, b.tilt = 0) → ∀ q : Query,
    lib.gFunction { q with source := .boreholes (field.map (movedBore μ)) } = lib.gFunction { q with source := .boreholes field }
  network : ∀ μ, KeepsDistances μ → ∀ field, (∀ b ∈ field, b.tilt = 0) → ∀ xs flow cp, ∀ q : Query,
    lib.gFunction { q with source := .network (field.map (movedBore μ)) xs flow cp } =
      lib.gFunction { q with source := .network field xs flow cp }

theorem foldlM_kept {σ ι : Type} {f : σ → ι → Py σ} (P : σ → Prop) (hf : ∀ s i s', P s → f s i = .ok s' → P s') (l : List ι) :
    ∀ s s', P s → l.foldlM f s = .ok s' → P s' := by
  induction l with
  | nil => intro s s' hs h; cases h; exact hs
  | cons i l ih =>
    intro s s' hs h
    rw [List.foldlM_cons] at h
    obtain ⟨t, ht, h⟩ := bind_eq_ok.mp h
    exact ih t s' (hf s i t hs ht) h

theorem placed_tilt {ext : Ext} {m : ℝ} {d : Media} {boundary : String} {b : Bore} {f : List (ℝ × ℝ)}
    {r : List Bore × List Exchanger} (h : placeBoreholes ext m d boundary b f = .ok r) : ∀ x ∈ r.1, x.tilt = b.tilt := by
  refine foldlM_kept (fun r : List Bore × List Exchanger => ∀ x ∈ r.1, x.tilt = b.tilt) ?_ _ _ _ (by simp) h
  intro s i s' hs hi
  obtain ⟨c, -, hi⟩ := bind_eq_ok.mp hi
  have key : ∀ x ∈ s.1 ++ [(⟨b.H, b.D, b.rb, c.1, c.2, b.tilt, b.orientation⟩ : Bore)], x.tilt = b.tilt := by
    intro x hx
    rcases List.mem_append.mp hx with hx | hx
    · exact hs x hx
    · rw [List.mem_singleton.mp hx]
  by_cases hb : boundary = "MIFT"
  · simp only [hb, if_true] at hi
    obtain ⟨e, -, hi⟩ := bind_eq_ok.mp hi
    cases hi
    exact key
  · simp only [hb, if_false] at hi
    cases hi
    exact key

theorem place_moved (ext : Ext) (m : ℝ) (d : Media) (boundary : String) (b : Bore) (f : List (ℝ × ℝ)) :
    placeBoreholes ext m d boundary b (f.map μ) =
      (placeBoreholes ext m d boundary b f).map (Prod.map (List.map (movedBore μ)) id) := by
  unfold placeBoreholes
  rw [List.length_map]
  refine Alike.foldlM_map (Prod.map (List.map (movedBore μ)) id) ?_ _ ([], [])
  intro s i
  rw [Moved.pyGet_moved]
  cases pyGet f i with
  | error e => rfl
  | ok c =>
    simp only [Except.map, Except.ok_bind]
    split_ifs
    · cases makeExchanger ext m d ⟨b.H, b.D, b.rb⟩ with
      | error e => rfl
      | ok x => simp [movedBore]
    · simp [movedBore]

/-- C152: with such a `pygfunction` the g-functions of the package do not depend on the place of the field, which is what the
other theorems ask for. -/
theorem C152_curve (ext : Ext) (lib : Pyg) (h : ReadsDistances lib) (hμ : KeepsDistances μ) (logTime : List ℝ) (o : Settings)
    (m : ℝ) (d : Media) (f : List (ℝ × ℝ)) (H rb D : ℝ) :
    liveCurve ext lib logTime o m d (f.map μ) H rb D = liveCurve ext lib logTime o m d f H rb D := by
  unfold liveCurve calculateG
  rw [place_moved]
  cases pyDiv d.soil.k d.soil.rhoCp with
  | error e => rfl
  | ok alpha =>
    simp only [Except.ok_bind]
    cases pyDiv (H ^ 2) (9 * alpha) with
    | error e => rfl
    | ok ts =>
      simp only [Except.ok_bind]
      cases hr : placeBoreholes ext m d o.boundary ⟨H, D, rb, 0, 0, 0, 0⟩ f with
      | error e => rfl
      | ok r =>
        have ht : ∀ b ∈ r.1, b.tilt = 0 := placed_tilt hr
        simp only [Except.map, Except.ok_bind]
        cases segmentRatios lib o with
        | error e => rfl
        | ok ratios =>
          simp only [Except.ok_bind, Prod.map, id, List.length_map]
          split_ifs
          · exact h.boreholes μ hμ r.1 ht ⟨.boreholes [], alpha, _, o.boundary, o.nSegments, ratios, o.disp, o.solver⟩
          · exact h.network μ hμ r.1 ht r.2 (r.1.length * m) d.fluid.cp ⟨.boreholes [], alpha, _, o.boundary, o.nSegments, ratios,
              o.disp, o.solver⟩
          · rfl

/-! ### concrete cases -/

/-- ten metres east, three to the south, and a turn to the left -/
def exMotion (c : ℝ × ℝ) : ℝ × ℝ := (10 - c.2, c.1 - 3)

theorem exMotion_keeps : KeepsDistances exMotion := fun a b => by simp only [exMotion]; ring

/-- a `pygfunction` that reads the distances from the first borehole -/
def exDistances : Pyg where
  ratios _ _ := .ok [1]
  gFunction q := .ok (q.times.map fun _ => match q.source with
    | .boreholes field => (field.map fun b => (field.map fun c => Real.sqrt ((b.x - c.x) ^ 2 + (b.y - c.y) ^ 2)).sum).sum
    | .network field _ _ _ => (field.map fun b => (field.map fun c => Real.sqrt ((b.x - c.x) ^ 2 + (b.y - c.y) ^ 2)).sum).sum)

example : ReadsDistances exDistances := by
  have key : ∀ (μ : ℝ × ℝ → ℝ × ℝ), KeepsDistances μ → ∀ field : List Bore,
      ((field.map (movedBore μ)).map fun b => ((field.map (movedBore μ)).map fun c =>
        Real.sqrt ((b.x - c.x) ^ 2 + (b.y - c.y) ^ 2)).sum).sum =
      (field.map fun b => (field.map fun c => Real.sqrt ((b.x - c.x) ^ 2 + (b.y - c.y) ^ 2)).sum).sum := by
    intro μ hμ field
    simp only [List.map_map, Function.comp_def]
    congr 1
    apply List.map_congr_left
    intro b _
    congr 1
    apply List.map_congr_left
    intro c _
    simp only [movedBore, hμ (b.x, b.y) (c.x, c.y)]
  constructor
  · intro μ hμ field _ q
    simp only [exDistances, key μ hμ]
  · intro μ hμ field _ xs flow cp q
    simp only [exDistances, key μ hμ]

/-- The design of C77's example, with the fields moved: the same field of more than one borehole is found there. -/
example : ∃ (N : ℕ) (T t : ℝ) (k : ℕ) (f : List (ℝ × ℝ)) (d : Design.Candidates ℝ), f ≠ [(0, 0)] ∧
    Design.designInit 0 ({ length := some (5 * N), B := some 5 } : Design.Constraints ℝ) "near-square" = .ok d ∧
    (findDesign (exLimit T t) "near-square" (movedCandidates exMotion d) {}).1 = .ok (some ((k : ℤ), f.map exMotion)) := by
  obtain ⟨N, T, t, k, f, -, -, -, -, -, h, hne⟩ := exDesign
  unfold design at h
  cases hd : Design.designInit 0 ({ length := some (5 * N), B := some 5 } : Design.Constraints ℝ) "near-square" with
  | error e =>
    rw [hd] at h
    cases h
  | ok d =>
    rw [hd] at h
    refine ⟨N, T, t, k, f, d, hne, hd, ?_⟩
    have h1 := (C152_moved (p := exLimit T t) exMotion_keeps (fun m d f H rb D => C152_curve _ exTwenty
      ⟨fun _ _ _ _ _ => rfl, fun _ _ _ _ _ _ _ _ => rfl⟩ exMotion_keeps _ _ _ _ _ _ _ _) "near-square" d).result
    rw [h1, show (findDesign (exLimit T t) "near-square" d {}).1 = _ from h]
    rfl

/-- C152 applies to land of 20 m by 30 m and 30 m by 20 m. -/
example (T t : ℝ) : Elsewhere swapped
    (design (exLimit T t) 0 ⟨some 20, some 30, none, some 5, some 10, some 8⟩ "bi-rectangle" {})
    (design (exLimit T t) 0 ⟨some 30, some 20, none, some 5, some 8, some 10⟩ "bi-rectangle" {}) ∧ Elsewhere swapped
    (design (exLimit T t) 0 ⟨some 20, some 30, none, some 5, some 10, none⟩ "rectangle" {})
    (design (exLimit T t) 0 ⟨some 30, some 20, none, some 5, some 10, none⟩ "rectangle" {}) := by
  have hne : (some 20 : Option ℝ) ≠ some 30 := by
    intro h
    have := Option.some.inj h
    norm_num at this
  have hgf : ∀ m d f H rb D, (exLimit T t).gf m d (f.map swapped) H rb D = (exLimit T t).gf m d f H rb D :=
    fun m d f H rb D => C152_curve _ exTwenty ⟨fun _ _ _ _ _ => rfl, fun _ _ _ _ _ _ _ _ => rfl⟩ swapped_keeps _ _ _ _ _ _ _ _
  exact ⟨C152_biRectangle (p := exLimit T t) hgf 0 ⟨some 20, some 30, none, some 5, some 10, some 8⟩ hne,
    C152_rectangle (p := exLimit T t) hgf 0 ⟨some 20, some 30, none, some 5, some 10, none⟩ hne⟩

end

end Ghedt.WholeSearch
