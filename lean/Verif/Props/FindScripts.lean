import Verif.Model.FindScripts
import Verif.Props.Compare
import Verif.Props.Plots
import Verif.Props.WholeDesign
import Verif.Props.DesignExample
import Verif.Props.TownExample

/-!
# The scripts that find a design and draw it (C153)
-/

namespace Ghedt.FindScripts
open Ghedt.GHE Ghedt.Search Ghedt.WholeSearch Ghedt.Script Ghedt.Compare Ghedt.Files Ghedt.Plots Ghedt.Utilities Ghedt.Design
open Ghedt.Spec Ghedt.Domains

noncomputable section

/-- The four scripts. -/
def scripts : List Setting := [nearSquare, rectangle, biRectangle, biZoned]

/-- Where the boreholes can be: on 85 m by 36.5 m, or on 155 m by 160 m for the near-square script. -/
def Drawn (set : Setting) (f : List (ℝ × ℝ)) : Prop :=
  if set.routine = "near-square" then ∀ q ∈ f, InLand 155 160 q else ∀ q ∈ f, InLand 85 (73 / 2) q

/-- The picture of a field: the boreholes alone, or the outline of land of 85 m by 80 m, the boreholes, and the outline of a
building of 50 m by 33.3 m. -/
def picture (set : Setting) (f : List (ℝ × ℝ)) : Fig ℝ :=
  if set.routine = "near-square" then ⟨[.points f ""], "x (m)", "y (m)"⟩
  else ⟨[.line [(0, 0), (85, 0), (85, 80), (0, 80), (0, 0)] "g" "", .points f "",
    .line [(15, 73 / 2), (65, 73 / 2), (65, 349 / 5), (15, 349 / 5), (15, 73 / 2)] "r" ""], "x (m)", "y (m)"⟩

/-- 36.5 m by 85 m hold 9 and 20 boreholes at 4.45 m, 5 and 10 at 12 m and 10 m -/
theorem zoned_counts : (⌈(85 : ℝ) / 10 + 1⌉ ≤ ⌊(85 : ℝ) / (445 / 100) + 1⌋ ∧
    ⌈(365 / 10 : ℝ) / 12 + 1⌉ ≤ ⌊(365 / 10 : ℝ) / (445 / 100) + 1⌋) ∧
    ⌊(85 : ℝ) / (445 / 100) + 1⌋ + ⌊(365 / 10 : ℝ) / (445 / 100) + 1⌋ ≤ 40 := by
  have e1 : ⌊(85 : ℝ) / (445 / 100) + 1⌋ = 20 := by rw [Int.floor_eq_iff]; norm_num
  have e2 : ⌊(365 / 10 : ℝ) / (445 / 100) + 1⌋ = 9 := by rw [Int.floor_eq_iff]; norm_num
  have e3 : ⌈(85 : ℝ) / 10 + 1⌉ = 10 := by rw [Int.ceil_eq_iff]; norm_num
  have e4 : ⌈(365 / 10 : ℝ) / 12 + 1⌉ = 5 := by rw [Int.ceil_eq_iff]; norm_num
  rw [e1, e2, e3, e4]
  decide

/-- C153: all of the scripts find candidates for their constraints. -/
theorem C153_candidates (fuel : ℕ) (hfuel : 40 ≤ fuel) (set : Setting) (hset : set ∈ scripts) :
    (∃ c, designInit fuel set.constraints set.routine = .ok c) ∧ ∃ c, designInit fuel set.constraints set.later = .ok c := by
  have hb : ∃ c, designInit fuel biRectangle.constraints "bi-rectangle" = .ok c := by
    obtain ⟨d, -, h⟩ := (((C77_available fuel biRectangle.constraints (X := 85) (Y := 365 / 10) (B := 1) (Bmin := 445 / 100) (BX := 10)
      (BY := 12) (by norm_num) (by norm_num) (by norm_num) (by norm_num) (by norm_num) (by norm_num) rfl).2 rfl rfl rfl).2 rfl).1
    exact ⟨_, h⟩
  simp only [scripts, List.mem_cons, List.not_mem_nil, or_false] at hset
  rcases hset with rfl | rfl | rfl | rfl
  · obtain ⟨n, d, -, -, h⟩ := (C77_available fuel nearSquare.constraints (X := lengthOfSide 32 5) (Y := 1) (B := 5) (Bmin := 1) (BX := 1)
      (BY := 1) (by norm_num [lengthOfSide]) (by norm_num) (by norm_num) (by norm_num) (by norm_num) (by norm_num) rfl).1 rfl
    exact ⟨⟨_, h⟩, ⟨_, h⟩⟩
  · obtain ⟨d, -, h⟩ := ((C77_available fuel rectangle.constraints (X := 85) (Y := 365 / 10) (B := 1) (Bmin := 3) (BX := 10)
      (BY := 1) (by norm_num) (by norm_num) (by norm_num) (by norm_num) (by norm_num) (by norm_num) rfl).2 rfl rfl rfl).1
    exact ⟨⟨_, h⟩, ⟨_, h⟩⟩
  · exact ⟨hb, hb⟩
  · refine ⟨?_, hb⟩
    obtain ⟨⟨h1, h2⟩, h3⟩ := zoned_counts
    obtain ⟨d0, ds, h, -⟩ := C17_zonedNested_in_land (K := ℝ) (X := 85) (Y := 365 / 10) (Bmin := 445 / 100) (BX := 10) (BY := 12)
      (by norm_num) (by norm_num) (by norm_num) (by norm_num) (by norm_num) (by norm_num) (by norm_num) h1 h2
      (fuel := fuel) (by have : (40 : ℤ) ≤ fuel := by exact_mod_cast hfuel
                         omega)
    have hz := (((C77_available fuel biZoned.constraints (X := 85) (Y := 365 / 10) (B := 1) (Bmin := 445 / 100) (BX := 10)
      (BY := 12) (by norm_num) (by norm_num) (by norm_num) (by norm_num) (by norm_num) (by norm_num) rfl).2 rfl rfl rfl).2 rfl).2
    exact ⟨.nested (d0 :: ds), by rw [show biZoned.routine = "bi-zoned" from rfl, hz, h]; rfl⟩

/-! ### the first design -/

theorem fresh_nonempty {p : Problem} {f : List (ℝ × ℝ)} {H : ℝ} {x : Held} (h : fresh p f H = .ok x) : f ≠ [] := by
  rintro rfl
  unfold fresh at h
  obtain ⟨flows, -, h⟩ := bind_eq_ok.mp h
  obtain ⟨B, hB, -⟩ := bind_eq_ok.mp h
  cases hB

/-- what finding and sizing leaves: the exchanger has the coordinates of the field found -/
theorem found {p : Problem} {routine : String} {c : Candidates ℝ} {r : Option (ℤ × List (ℝ × ℝ))} {s : WholeSearch.State} {x : Held}
    (h : findAndSize ⟨p, routine, c⟩ {} = (.ok r, s)) (hx : s.held = some x) :
    ∃ k f c', findDesign p routine c {} = (.ok (some (k, f)), c') ∧ x.env.db.locations = f ∧ f ≠ [] := by
  unfold findAndSize at h
  dsimp only at h
  rcases hq : findDesign p routine c {} with ⟨e | r', c'⟩
  · rw [St.bind_error hq] at h
    cases h
  rw [St.bind_ok hq] at h
  have hr : ∃ k f, r' = some (k, f) ∧ Holds p routine f c' ∧ f ≠ [] := by
    have htop := top_findDesign (p := p) routine c
    rw [hq] at htop
    rcases htop with ⟨e, -, he⟩ | ⟨v, w, -, hw, hvw, -, hh⟩
    · cases he
    · cases hw
      subst hvw
      by_cases hz : routine = "bi-zoned"
      · subst hz
        obtain ⟨k, f, _, _, _, _, _, hv, -, hf, -⟩ := C93_zoned _ _ _ hq
        exact ⟨k, f, hv, hh _ _ hv, fresh_nonempty hf⟩
      · obtain ⟨k, f, _, _, _, hv, -, hf, -⟩ := C93_returned _ hz _ _ _ hq
        exact ⟨k, f, hv, hh _ _ hv, fresh_nonempty hf⟩
  obtain ⟨k, f, rfl, hh, hne⟩ := hr
  obtain ⟨y, hy, hf⟩ := holds_locations hh
  rcases hg : computeG p c' with ⟨e | u, c1⟩
  · rw [St.bind_error hg] at h
    cases h
  obtain ⟨z, hz, hc1, hl⟩ := computeG_locations hy hg
  rw [St.bind_ok hg] at h
  subst hc1
  rcases hs : Whole.size z.env "hybrid" z.state with ⟨e | w, st⟩
  · rw [St.bind_error (s' := { c' with held := some ⟨z.env, st⟩ }) (e := e) (by
      unfold onHeld
      dsimp only
      rw [hs])] at h
    cases h
  · rw [St.bind_ok (s' := { c' with held := some ⟨z.env, st⟩ }) (a := w) (by
      unfold onHeld
      dsimp only
      rw [hs])] at h
    cases h
    cases hx
    exact ⟨k, f, c', rfl, by rw [← hf, ← hl], hne⟩

variable {fuel : ℕ} {set : Setting} {b : Bhe.Borehole} {p : Problem} {ps : List Problem} {d : Disk} {render : Fig ℝ → String}

theorem first_block {c : Candidates ℝ} (hc : designInit fuel set.constraints set.routine = .ok c) :
    (first fuel set b p).map (fun r => (r.1, r.2.1)) = block b ⟨p, set.routine, c⟩ := by
  unfold first block
  rw [hc, Except.ok_bind]
  rcases findAndSize ⟨{ p with borehole := b }, set.routine, c⟩ {} with ⟨e | r, s⟩
  · rfl
  · dsimp only
    cases s.held <;> rfl

theorem first_found {s : Summary} {b' : Bhe.Borehole} {l : List (ℝ × ℝ)} (h : first fuel set b p = .ok (s, b', l)) :
    ∃ k c', WholeSearch.design { p with borehole := b } fuel set.constraints set.routine {} = (.ok (some (k, l)), c') ∧ l ≠ [] ∧
      s.boreholes = l.length := by
  unfold first at h
  obtain ⟨c, hc, h⟩ := bind_eq_ok.mp h
  rcases hq : findAndSize ⟨{ p with borehole := b }, set.routine, c⟩ {} with ⟨e | r, t⟩
  · rw [hq] at h; cases h
  rw [hq] at h
  dsimp only at h
  rcases hx : t.held with _ | x
  · rw [hx] at h; cases h
  rw [hx] at h
  cases h
  obtain ⟨k, f, c', h1, h2, h3⟩ := found hq hx
  refine ⟨k, c', ?_, by rw [h2]; exact h3, rfl⟩
  unfold WholeSearch.design
  rw [hc, h2]
  exact h1

theorem others_compare {c : Candidates ℝ} (hc : designInit fuel set.constraints set.later = .ok c) :
    ∀ (ps : List Problem) (b : Bhe.Borehole), others fuel set b ps = Compare.compare b (ps.map (⟨·, set.later, c⟩)) := by
  intro ps
  induction ps with
  | nil => intro b; rfl
  | cons p ps ih =>
    intro b
    unfold others
    rw [List.map_cons]
    unfold Compare.compare
    rw [hc, Except.ok_bind]
    rcases block b ⟨p, set.later, c⟩ with e | ⟨s, b'⟩
    · rfl
    · dsimp only
      rw [ih b']

/-- what is drawn -/
theorem drawn_picture (hset : set ∈ scripts) (f : List (ℝ × ℝ)) (hf : f ≠ []) :
    visualizeArea set.perimeter f set.noGo = .ok (picture set f) := by
  have key : visualizeArea land f (some building) = .ok ⟨[.line [(0, 0), (85, 0), (85, 80), (0, 80), (0, 0)] "g" "", .points f "",
      .line [(15, 73 / 2), (65, 73 / 2), (65, 349 / 5), (15, 349 / 5), (15, 73 / 2)] "r" ""], "x (m)", "y (m)"⟩ := by
    rw [(C112_area land f building (by simp [building, makeRectanglePerimeter])).2.1, if_neg (by simp [land, makeRectanglePerimeter]),
      if_neg hf]
    simp only [land, building, makeRectanglePerimeter, Plots.closed]
    norm_num
  simp only [scripts, List.mem_cons, List.not_mem_nil, or_false] at hset
  rcases hset with rfl | rfl | rfl | rfl
  · show visualizeArea [] f none = _
    rw [(C112_area [] f [(0, 0)] (by simp)).1, if_pos rfl, if_neg hf]
    rfl
  · exact key
  · exact key
  · exact key

theorem drawn_saved (hset : set ∈ scripts) (f : List (ℝ × ℝ)) (hf : f ≠ []) (hd : d.dirs [] = true)
    (hn : d.dirs [set.picture] = false) : (do
      let fig ← St.lift (visualizeArea set.perimeter f set.noGo)
      dumpTo (fun f => (render f, none)) ([], set.picture) fig : St Disk Unit) d =
    (.ok (), d.put ([], set.picture) (render (picture set f))) := by
  rw [drawn_picture hset f hf, St.bind_ok (show St.lift (Except.ok (picture set f)) d = (.ok (picture set f), d) from rfl)]
  exact dumpTo_ok (f := ([], set.picture)) hd hn rfl

theorem drawn_where (hset : set ∈ scripts) (hfuel : 40 ≤ fuel) {k : ℤ} {f : List (ℝ × ℝ)} {c' : WholeSearch.State}
    (h : WholeSearch.design p fuel set.constraints set.routine {} = (.ok (some (k, f)), c')) : Drawn set f := by
  simp only [scripts, List.mem_cons, List.not_mem_nil, or_false] at hset
  have e : (365 / 10 : ℝ) = 73 / 2 := by norm_num
  rcases hset with rfl | rfl | rfl | rfl
  · obtain ⟨_, _, _, hr, h1, -⟩ := C106_nearSquare fuel nearSquare.constraints (L := lengthOfSide 32 5) (B := 5)
      (by norm_num [lengthOfSide]) (by norm_num) rfl rfl _ _ h
    cases hr
    have e1 : lengthOfSide 32 (5 : ℝ) = 155 := by norm_num [lengthOfSide]
    rw [e1, show (155 : ℝ) + 5 = 160 by norm_num] at h1
    exact h1
  · obtain ⟨_, _, _, hr, h1, -⟩ := C106_rectangle fuel rectangle.constraints (X := 85) (Y := 365 / 10) (Bmin := 3) (BX := 10)
      (by norm_num) (by norm_num) (by norm_num) (by norm_num) rfl rfl rfl rfl _ _ h
    cases hr
    rw [e] at h1
    exact h1
  · obtain ⟨_, _, _, hr, h1, -⟩ := C106_biRectangle fuel biRectangle.constraints (X := 85) (Y := 365 / 10) (Bmin := 445 / 100) (BX := 10)
      (BY := 12) (by norm_num) (by norm_num) (by norm_num) (by norm_num) (by norm_num) rfl rfl rfl rfl rfl _ _ h
    cases hr
    rw [e] at h1
    exact h1
  · obtain ⟨⟨g1, g2⟩, g3⟩ := zoned_counts
    obtain ⟨_, _, _, _, _, _, _, hr, h1, -⟩ := C106_biZoned fuel biZoned.constraints (X := 85) (Y := 365 / 10) (Bmin := 445 / 100)
      (BX := 10) (BY := 12) (by norm_num) (by norm_num) (by norm_num) (by norm_num) (by norm_num) (by norm_num) (by norm_num) g1 g2
      (by have : (40 : ℤ) ≤ fuel := by exact_mod_cast hfuel
          omega) rfl rfl rfl rfl rfl _ _ h
    cases hr
    rw [e] at h1
    exact h1

/-- C153: drawing does not disturb: what a script prints, and the exception that ends it, are those of the script of C143 that
makes the same designs without a picture. -/
theorem C153_printed (hset : set ∈ scripts) {c c' : Candidates ℝ}
    (hc : designInit fuel set.constraints set.routine = .ok c) (hc' : designInit fuel set.constraints set.later = .ok c')
    (hd : d.dirs [] = true) (hn : d.dirs [set.picture] = false) :
    (script render fuel set b p ps d).1 = Compare.compare b (⟨p, set.routine, c⟩ :: ps.map (⟨·, set.later, c'⟩)) := by
  have h1 := first_block (b := b) (p := p) hc
  unfold script Compare.compare
  rw [← h1]
  rcases hf : first fuel set b p with e | ⟨s, b', l⟩
  · rfl
  · obtain ⟨k, c1, -, hl, -⟩ := first_found hf
    dsimp only
    rw [drawn_saved hset l hl hd hn]
    show _ = ((fun q : List Summary × Option PyErr => (s :: q.1, q.2)) (Compare.compare b' _))
    rw [← others_compare hc' ps b']

/-- C153: the picture shows the field found for the first exchanger and nothing else is written; if the first design raises, and
nothing is printed, the disk is left as it was.  A later design that raises does not undo the picture. -/
theorem C153_picture (hset : set ∈ scripts) (hfuel : 40 ≤ fuel) (hd : d.dirs [] = true) (hn : d.dirs [set.picture] = false) :
    ((script render fuel set b p ps d).1.1 = [] ∧ (script render fuel set b p ps d).2 = d ∧
      ∃ e, (script render fuel set b p ps d).1.2 = some e) ∨
    ∃ (s : Summary) (rest : List Summary) (k : ℤ) (f : List (ℝ × ℝ)), (script render fuel set b p ps d).1.1 = s :: rest ∧
      (WholeSearch.design { p with borehole := b } fuel set.constraints set.routine {}).1 = .ok (some (k, f)) ∧
      s.boreholes = f.length ∧ f ≠ [] ∧ Drawn set f ∧
      (script render fuel set b p ps d).2 = d.put ([], set.picture) (render (picture set f)) := by
  unfold script
  rcases hf : first fuel set b p with e | ⟨s, b', l⟩
  · exact .inl ⟨rfl, rfl, e, rfl⟩
  · right
    obtain ⟨k, c1, h1, hl, h2⟩ := first_found hf
    dsimp only
    rw [drawn_saved hset l hl hd hn]
    exact ⟨s, _, k, l, rfl, by rw [h1], h2, hl, drawn_where hset hfuel h1, rfl⟩

/-- C153: the land and the building drawn fit the design: the boreholes are on the land and none is inside the building. -/
theorem C153_clear (hset : set ∈ scripts) (hs : set ≠ nearSquare) (f : List (ℝ × ℝ)) (h : Drawn set f) :
    ∀ q ∈ f, InLand 85 80 q ∧ ¬ (15 < q.1 ∧ q.1 < 65 ∧ 73 / 2 < q.2 ∧ q.2 < 349 / 5) := by
  have key : ∀ q ∈ f, InLand 85 (73 / 2) q := by
    simp only [scripts, List.mem_cons, List.not_mem_nil, or_false] at hset
    rcases hset with rfl | rfl | rfl | rfl
    · exact absurd rfl hs
    · exact h
    · exact h
    · exact h
  intro q hq
  obtain ⟨⟨h1, h2⟩, h3, h4⟩ := key q hq
  exact ⟨⟨⟨h1, h2⟩, h3, by linarith⟩, fun h => by linarith [h.2.2.1]⟩

/-- C153 (violation): whatever the problems are, the script for zoned designs is the script of C143 whose first design has the
routine for zones and whose others have the routine for two spacings; every field that can be found by these is a full grid. -/
theorem C153_routines (hfuel : 40 ≤ fuel) (hd : d.dirs [] = true) (hn : d.dirs ["bi-zoned.png"] = false) :
    ∃ (c : Candidates ℝ) (n : List (List (List (ℝ × ℝ)))),
      (script render fuel biZoned b p ps d).1 =
        Compare.compare b (⟨p, "bi-zoned", c⟩ :: ps.map (⟨·, "bi-rectangle", .nested n⟩)) ∧
      n ≠ [] ∧ ∀ l ∈ n, l ≠ [] ∧ ∀ f ∈ l, ∃ (nx ny : ℤ) (bx bY : ℝ), IsGrid nx ny bx bY f ∧
        445 / 100 ≤ bx ∧ bx ≤ 10 ∧ 445 / 100 ≤ bY ∧ bY ≤ 12 := by
  obtain ⟨⟨h1, h2⟩, -⟩ := zoned_counts
  obtain ⟨⟨c, hc⟩, -⟩ := C153_candidates fuel hfuel biZoned (by simp [scripts])
  obtain ⟨n, hn', hi⟩ := (((C77_available fuel biZoned.constraints (X := 85) (Y := 365 / 10) (B := 1) (Bmin := 445 / 100) (BX := 10)
    (BY := 12) (by norm_num) (by norm_num) (by norm_num) (by norm_num) (by norm_num) (by norm_num) rfl).2 rfl rfl rfl).2 rfl).1
  obtain ⟨m, hm, hlen, hall, -⟩ := C13_nested (X := (85 : ℝ)) (Y := 365 / 10) (Bmin := 445 / 100) (BX := 10) (BY := 12) (by norm_num)
    (by norm_num) (by norm_num) (by norm_num) (by norm_num) (.inl ⟨by norm_num, rfl, rfl, rfl, rfl⟩)
  rw [hn'] at hm
  cases hm
  refine ⟨c, n, C153_printed (by simp [scripts]) hc hi hd hn, ?_, fun l hl => ⟨(hall l hl).2.2.1.2 h1, (hall l hl).2.2.2.2⟩⟩
  rintro rfl
  rw [List.length_nil, Nat.cast_zero] at hlen
  have := le_max_right 0 (⌊(365 / 10 : ℝ) / (445 / 100) + 1⌋ - ⌈(365 / 10 : ℝ) / 12 + 1⌉ + 1)
  omega

/-! ### cases -/

theorem exDisk_picture (hset : set ∈ scripts) : exDisk.dirs [] = true ∧ exDisk.dirs [set.picture] = false := by
  simp only [scripts, List.mem_cons, List.not_mem_nil, or_false] at hset
  rcases hset with rfl | rfl | rfl | rfl <;> exact ⟨rfl, by decide⟩

/-- C153 applies to the building of C106 in all of the scripts: they begin with candidates, and print what the scripts without
pictures print. -/
example (T t : ℝ) (hset : set ∈ scripts) : ∃ c c', designInit 40 set.constraints set.routine = .ok c ∧
    (script render 40 set exTown.borehole (exTown.limits T t) [exTown.limits T t, exTown.limits T t] exDisk).1 =
      Compare.compare exTown.borehole [⟨exTown.limits T t, set.routine, c⟩, ⟨exTown.limits T t, set.later, c'⟩,
        ⟨exTown.limits T t, set.later, c'⟩] := by
  obtain ⟨⟨c, hc⟩, c', hc'⟩ := C153_candidates 40 le_rfl set hset
  exact ⟨c, c', hc, C153_printed hset hc hc' (exDisk_picture hset).1 (exDisk_picture hset).2⟩

/-- A file `notes` that is there before a script is there afterwards. -/
example (hset : set ∈ scripts) : (script render 40 set b p ps exDisk).2.files ([], "notes") = some "hello" := by
  rcases C153_picture (render := render) (b := b) (p := p) (ps := ps) hset le_rfl (exDisk_picture hset).1 (exDisk_picture hset).2 with
    ⟨-, h, -⟩ | ⟨_, _, _, f, -, -, -, -, -, h⟩
  · rw [h]; rfl
  · rw [h]
    simp only [scripts, List.mem_cons, List.not_mem_nil, or_false] at hset
    rcases hset with rfl | rfl | rfl | rfl <;> simp [Disk.put, exDisk, nearSquare, rectangle, biRectangle, biZoned]

/-- A row of boreholes along the edge of the land that the scripts may use. -/
example : ∀ q ∈ ([(20, 73 / 2), (30, 73 / 2)] : List (ℝ × ℝ)),
    InLand 85 80 q ∧ ¬ (15 < q.1 ∧ q.1 < 65 ∧ 73 / 2 < q.2 ∧ q.2 < 349 / 5) := by
  refine C153_clear (set := biZoned) (by simp [scripts]) (fun h => by
    have := congrArg Setting.picture h
    simp [biZoned, nearSquare] at this) _ ?_
  rw [Drawn, if_neg (by simp [biZoned])]
  intro q hq
  rcases List.mem_pair.1 hq with rfl | rfl <;> norm_num [InLand]

example : ∃ (c : Candidates ℝ) (n : List (List (List (ℝ × ℝ)))),
    (script render 40 biZoned b p [p] exDisk).1 = Compare.compare b [⟨p, "bi-zoned", c⟩, ⟨p, "bi-rectangle", .nested n⟩] ∧ n ≠ [] := by
  obtain ⟨c, n, h1, h2, -⟩ := C153_routines (render := render) (b := b) (p := p) (ps := [p]) (d := exDisk) (fuel := 40) le_rfl rfl
    (by decide)
  exact ⟨c, n, h1, h2⟩

end

end Ghedt.FindScripts
