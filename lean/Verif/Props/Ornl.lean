import Verif.Props.Script
import Verif.Props.Pipes
import Verif.Props.Design
import Verif.Props.Compare
import Verif.Model.Ornl

/-!
# From the parameters of another program to an exported file (C151)

The script `design_from_ornl_json_input.py`, as it is and with a length for the near-square routine.
-/

set_option linter.unusedSectionVars false

namespace Ghedt.Ornl
open Real Ghedt.GHE Ghedt.Bhe Ghedt.Whole Ghedt.Search Ghedt.Spec Ghedt.WholeSearch Ghedt.Files Ghedt.Script Ghedt.Design
  Ghedt.Creation Ghedt.Report

noncomputable section

/-- A number of a JSON document, written with a decimal point or without. -/
def IsNumber (j : Option Json) (x : ℝ) : Prop := j = some (.num x) ∨ ∃ n : ℤ, j = some (.int n) ∧ x = n

/-- The twelve keys and their values. -/
def Given.entries (g : Given) : List (String × ℝ) :=
  [("max_height", g.maxHeight), ("bore_hole_radius", g.boreholeRadius), ("B_spacing", g.spacing),
    ("pipe_out_diameter", g.pipeDiameter), ("pipe_thickness", g.pipeThickness), ("u-tube_distance", g.tubeDistance),
    ("pipe_thermal_conductivity", g.kPipe), ("ground_thermal_conductivity", g.kSoil),
    ("grout_thermal_conductivity", g.kGrout), ("ground_thermal_heat_capacity", g.rhoCpSoil),
    ("ground_temperature", g.ugt), ("design_flow_rate", g.flowRate)]

/-- The document has these numbers under the twelve keys. -/
def Holds (data : Json) (g : Given) : Prop := ∀ e ∈ g.entries, IsNumber (data.get e.1) e.2

/-- the twelve keys -/
def keysRead : List String :=
  ["max_height", "bore_hole_radius", "B_spacing", "pipe_out_diameter", "pipe_thickness", "u-tube_distance",
    "pipe_thermal_conductivity", "ground_thermal_conductivity", "grout_thermal_conductivity", "ground_thermal_heat_capacity",
    "ground_temperature", "design_flow_rate"]

theorem find?_get (l : List (String × Json)) (k : String) : PyDict.find? l k = (Json.obj l).get k := by
  unfold Json.get
  induction l with
  | nil => rfl
  | cons q l ih =>
    obtain ⟨a, v⟩ := q
    unfold PyDict.find?
    by_cases h : a = k
    · simp [h]
    · rw [if_neg h, ih]
      dsimp only
      rw [List.find?_cons_of_neg (by simpa using h)]

theorem number_of {l : List (String × Json)} {k : String} {x : ℝ} (h : IsNumber ((Json.obj l).get k) x) :
    number l k = .ok x := by
  unfold number PyDict.get
  rw [find?_get]
  rcases h with h | ⟨n, h, rfl⟩
  · rw [h]; rfl
  · rw [h]; rfl

theorem number_congr {l l' : List (String × Json)} {k : String} (h : (Json.obj l).get k = (Json.obj l').get k) :
    number l k = number l' k := by
  unfold number PyDict.get
  rw [find?_get, find?_get, h]

theorem readGiven_of {l : List (String × Json)} {g : Given} (h : Holds (.obj l) g) : readGiven l = .ok g := by
  unfold Holds Given.entries at h
  simp only [List.forall_mem_cons] at h
  obtain ⟨h1, h2, h3, h4, h5, h6, h7, h8, h9, h10, h11, h12, -⟩ := h
  unfold readGiven
  rw [number_of h1, number_of h2, number_of h3, number_of h4, number_of h5, number_of h6, number_of h7, number_of h8,
    number_of h9, number_of h10, number_of h11, number_of h12]
  rfl

theorem readGiven_congr {l l' : List (String × Json)} (h : ∀ k ∈ keysRead, (Json.obj l).get k = (Json.obj l').get k) :
    readGiven l = readGiven l' := by
  unfold keysRead at h
  simp only [List.forall_mem_cons] at h
  obtain ⟨h1, h2, h3, h4, h5, h6, h7, h8, h9, h10, h11, h12, -⟩ := h
  unfold readGiven
  rw [number_congr h1, number_congr h2, number_congr h3, number_congr h4, number_congr h5, number_congr h6, number_congr h7,
    number_congr h8, number_congr h9, number_congr h10, number_congr h11, number_congr h12]

theorem pipe_ok (g : Given) : pipe g = .ok ⟨[(-(g.tubeDistance / 2 + g.pipeDiameter / 2), 0),
    (g.tubeDistance / 2 + g.pipeDiameter / 2, 0)], g.pipeDiameter / 2 - g.pipeThickness, g.pipeDiameter / 2, g.tubeDistance,
    1 / 10 ^ 6, g.kPipe, 1542 * 1000⟩ := by
  obtain ⟨p, q, h, rfl, rfl, -⟩ := C75_legs g.tubeDistance (g.pipeDiameter / 2)
  unfold pipe
  dsimp only
  rw [h]
  rfl

variable {world : Problem} {fuel : ℕ} {csv : String → Py (List ℝ)} {c : Codec Json Saved} {extra : PyDict String ℝ}
  {params table out : File} {d : Disk}

/-- the script from the text of the file on -/
theorem script_eq (extra : PyDict String ℝ) : script world fuel c.unjson csv c.json extra params table out d =
    match d.files params with
    | none => (.error .osError, d)
    | some t =>
      match c.unjson t with
      | .error e => (.error e, d)
      | .ok (.obj l) =>
        match readGiven l with
        | .error e => (.error e, d)
        | .ok g =>
          match d.files table with
          | none => (.error .osError, d)
          | some u =>
            match csv u with
            | .error e => (.error e, d)
            | .ok loads =>
              match (constraints (("B", g.spacing) :: extra) >>= fun gc => designInit fuel gc "near-square") with
              | .error e => (.error e, d)
              | .ok candidates => designToFile c.json out ⟨problem world g ⟨[(-(g.tubeDistance / 2 + g.pipeDiameter / 2), 0),
    (g.tubeDistance / 2 + g.pipeDiameter / 2, 0)], g.pipeDiameter / 2 - g.pipeThickness, g.pipeDiameter / 2, g.tubeDistance,
    1 / 10 ^ 6, g.kPipe, 1542 * 1000⟩ loads, "near-square", candidates⟩ d
      | .ok _ => (.error .typeError, d) := by
  unfold script jsLoad
  cases h1 : d.files params with
  | none =>
    dsimp only
    have : readAll params d = (.error .osError, d) := by unfold readAll; rw [h1]
    rw [St.bind_error (by rw [St.bind_error this])]
  | some t =>
    dsimp only
    have hr : readAll params d = (.ok t, d) := by unfold readAll; rw [h1]
    cases h2 : c.unjson t with
    | error e => rw [St.bind_error (by rw [St.bind_ok hr, h2]; rfl)]
    | ok data =>
      rw [St.bind_ok (by rw [St.bind_ok hr, h2]; rfl)]
      cases data with
      | num => rfl
      | int => rfl
      | arr => rfl
      | obj l =>
        dsimp only
        rw [St.lift_ok rfl]
        cases h3 : readGiven l with
        | error e => rw [St.lift_error rfl]
        | ok g =>
          rw [St.lift_ok rfl, pipe_ok, St.lift_ok rfl]
          cases h4 : d.files table with
          | none =>
            have : readAll table d = (.error .osError, d) := by unfold readAll; rw [h4]
            rw [St.bind_error this]
          | some u =>
            have : readAll table d = (.ok u, d) := by unfold readAll; rw [h4]
            rw [St.bind_ok this]
            dsimp only
            cases h5 : csv u with
            | error e => rw [St.lift_error rfl]
            | ok loads =>
              rw [St.lift_ok rfl]
              dsimp only
              cases h6 : constraints (("B", g.spacing) :: extra) with
              | error e => rw [St.lift_error rfl]; rfl
              | ok gc =>
                rw [St.lift_ok rfl, Except.ok_bind]
                cases h7 : designInit fuel gc "near-square" with
                | error e => rw [St.lift_error rfl]
                | ok cand => rw [St.lift_ok rfl]

/-- C151: as it is, the script raises and leaves the disk as it was, whatever the files.  With all twelve numbers and the
loads at hand it raises `AssertionError`: the near-square routine wants a length and is given none. -/
theorem C151_raises :
    (∃ e, script world fuel c.unjson csv c.json [] params table out d = (.error e, d)) ∧
    (d.files params = none → script world fuel c.unjson csv c.json [] params table out d = (.error .osError, d)) ∧
    ∀ t l g u loads, d.files params = some t → c.unjson t = .ok (.obj l) → Holds (.obj l) g → d.files table = some u →
      csv u = .ok loads → script world fuel c.unjson csv c.json [] params table out d = (.error .assertionError, d) := by
  have hdes : ∀ B : ℝ, (constraints [("B", B)] >>= fun gc => designInit fuel gc "near-square") =
      (.error .assertionError : Py (Candidates ℝ)) := fun B => rfl
  rw [script_eq]
  refine ⟨?_, ?_, ?_⟩
  · cases d.files params with
    | none => exact ⟨_, rfl⟩
    | some t =>
      dsimp only
      cases c.unjson t with
      | error e => exact ⟨_, rfl⟩
      | ok data =>
        cases data with
        | num => exact ⟨_, rfl⟩
        | int => exact ⟨_, rfl⟩
        | arr => exact ⟨_, rfl⟩
        | obj l =>
          dsimp only
          cases readGiven l with
          | error e => exact ⟨_, rfl⟩
          | ok g =>
            dsimp only
            cases d.files table with
            | none => exact ⟨_, rfl⟩
            | some u =>
              dsimp only
              cases csv u with
              | error e => exact ⟨_, rfl⟩
              | ok loads =>
                dsimp only
                rw [hdes]
                exact ⟨_, rfl⟩
  · intro h
    rw [h]
  · intro t l g u loads h1 h2 h3 h4 h5
    rw [h1]
    dsimp only
    rw [h2]
    dsimp only
    rw [readGiven_of h3]
    dsimp only
    rw [h4]
    dsimp only
    rw [h5]
    dsimp only
    rw [hdes]

/-- C151: the script looks at twelve keys only.  The limits on temperature and height and the period that are in the file
besides (`max_EFT`, `min_EFT`, `min_height`, `simulation_period`) change nothing. -/
theorem C151_keys (dec dec' : String → Py Json) (t : String) (l l' : List (String × Json)) (h : d.files params = some t)
    (h1 : dec t = .ok (.obj l)) (h2 : dec' t = .ok (.obj l'))
    (hk : ∀ k ∈ ["max_height", "bore_hole_radius", "B_spacing", "pipe_out_diameter", "pipe_thickness", "u-tube_distance",
      "pipe_thermal_conductivity", "ground_thermal_conductivity", "grout_thermal_conductivity", "ground_thermal_heat_capacity",
      "ground_temperature", "design_flow_rate"], (Json.obj l).get k = (Json.obj l').get k) :
    script world fuel dec csv c.json extra params table out d = script world fuel dec' csv c.json extra params table out d := by
  have e1 := script_eq (world := world) (fuel := fuel) (csv := csv) (c := { c with unjson := dec }) (params := params)
    (table := table) (out := out) (d := d) extra
  have e2 := script_eq (world := world) (fuel := fuel) (csv := csv) (c := { c with unjson := dec' }) (params := params)
    (table := table) (out := out) (d := d) extra
  dsimp only at e1 e2
  rw [e1, e2, h]
  dsimp only
  rw [h1, h2]
  dsimp only
  rw [readGiven_congr hk]

/-! ### with a length -/

/-- The exchanger is a single U-tube with this record. -/
def Kept (r : TubeRecord) (s : Whole.State) : Prop := ∃ t, s.bhe = .single t ∧ recordOf t = r

variable {r : TubeRecord}

theorem Kept.of_bhe {s s' : Whole.State} (hs : Kept r s) (h : s'.bhe = s.bhe) : Kept r s' := by
  unfold Kept
  rw [h]
  exact hs

theorem Kept.setHeight {s : Whole.State} (hs : Kept r s) (H : ℝ) : Kept r (s.at H) := by
  obtain ⟨t, h1, h2⟩ := hs
  refine ⟨_, by unfold State.at; rw [h1]; rfl, ?_⟩
  rw [← h2]
  rfl

theorem Kept.update {s : Whole.State} (ext : Ext) (hs : Kept r s) : Kept r { s with bhe := updateBhe ext s.bhe } := by
  obtain ⟨t, h1, h2⟩ := hs
  refine ⟨_, by dsimp only; rw [h1]; rfl, ?_⟩
  rw [← h2]
  rfl

theorem kept_prepare (env : Whole.Env) : Preserves (Kept r) (Whole.prepare env) := by
  unfold Whole.prepare
  refine Preserves.bind Preserves.get fun s0 => Preserves.bind (Preserves.lift _) fun q =>
    Preserves.bind (Preserves.modify fun s hs => hs.update env.ext) fun _ => Preserves.getBind fun s hs => ?_
  cases hce : computeEquivalent env.ext env.brent s.bhe with
  | error e => rw [St.lift_error rfl]; exact hs
  | ok w =>
    obtain ⟨eq, x'⟩ := w
    obtain rfl := computeEquivalent_same _ _ _ _ _ hce
    rw [St.lift_ok rfl]
    dsimp only
    rw [St.modify_bind]
    refine Preserves.bind (I := Kept r) (Preserves.lift _) (fun sts => ?_) _ (hs.of_bhe rfl)
    refine Preserves.bind (Preserves.modify fun s hs => hs.of_bhe rfl) fun _ => ?_
    refine Preserves.bind ?_ fun _ => Preserves.bind Preserves.get fun _ => Preserves.pure _
    unfold grabG
    refine Preserves.bind ?_ fun _ => Preserves.bind Preserves.get fun _ =>
      Preserves.bind (Preserves.lift _) fun _ => Preserves.lift _
    intro s hs
    exact hs.of_bhe rfl

theorem kept_simulate (env : Whole.Env) (method : String) : Preserves (Kept r) (Whole.simulate env method) := by
  unfold Whole.simulate
  refine Preserves.bind (kept_prepare env) fun th => Preserves.bind (Preserves.lift _) fun w => ?_
  refine Preserves.bind (Preserves.lift _) fun w => ?_
  exact Preserves.bind (Preserves.modify fun s hs => hs.of_bhe rfl) fun _ => Preserves.bind (Preserves.lift _)
    fun _ => Preserves.bind (Preserves.lift _) fun _ => Preserves.pure _

theorem kept_size (env : Whole.Env) (method : String) : Preserves (Kept r) (Whole.size env method) := by
  unfold Whole.size
  refine Preserves.bind (Preserves.modify fun s hs => hs.setHeight _) fun _ => Preserves.bind Preserves.get fun s =>
    Preserves.bind (Preserves.solveRoot (fun y => ?_) _ _ _ _) fun _ => Preserves.bind Preserves.get fun _ =>
      Preserves.pure _
  unfold Whole.localObjective
  exact Preserves.bind (Preserves.modify fun s hs => hs.setHeight _) fun _ =>
    Preserves.bind (kept_simulate env method) fun _ => Preserves.pure _

theorem fresh_kept {p : Problem} {q : Pipe} {f : Field} {H : ℝ} {x : Held} (hq : p.media.hardware = .single q)
    (hfl : p.flow = "system") (h : fresh p f H = .ok x) :
    f ≠ [] ∧ Kept ⟨p.borehole.rb, q.rIn, q.rOut, q.s, q.pos, p.V / f.length / 1000 * p.media.fluid.rho, p.media.grout.k,
      p.media.soil.k, q.k⟩ x.state := by
  unfold fresh buildGhe mkGhe retrieveFlow at h
  rw [if_neg (by rw [hfl]; decide), if_pos hfl] at h
  rw [bind_eq_ok] at h
  obtain ⟨flows, hflows, h⟩ := h
  rw [bind_eq_ok] at hflows
  obtain ⟨vb, hvb, hflows⟩ := hflows
  cases hflows
  have hne : f ≠ [] := by
    rintro rfl
    simp [pyDiv] at hvb
  rw [bind_eq_ok] at h
  obtain ⟨B, -, h⟩ := h
  rw [bind_eq_ok] at h
  obtain ⟨db, hdb, h⟩ := h
  have hloc := Compare.computeLive_locations hdb
  rw [bind_eq_ok] at h
  obtain ⟨⟨vb', m⟩, hm, h⟩ := h
  unfold gheFlow at hm
  rw [hloc, hvb, Except.ok_bind] at hm
  cases hm
  have hvb' : vb = p.V / f.length := by
    unfold pyDiv at hvb
    split_ifs at hvb
    cases hvb
    rfl
  dsimp only at h
  rw [bind_eq_ok] at h
  obtain ⟨e, he, h⟩ := h
  rw [bind_eq_ok] at h
  obtain ⟨⟨eq, e'⟩, hce, h⟩ := h
  obtain rfl := computeEquivalent_same _ _ _ _ _ hce
  dsimp only at h
  rw [bind_eq_ok] at h
  obtain ⟨sts, -, h⟩ := h
  rw [bind_eq_ok] at h
  obtain ⟨⟨rj, ex⟩, -, h⟩ := h
  dsimp only at h
  rw [bind_eq_ok] at h
  obtain ⟨⟨cl, hl, hy⟩, -, h⟩ := h
  cases h
  refine ⟨hne, ?_⟩
  unfold makeExchanger at he
  rw [hq] at he
  dsimp only at he
  rw [bind_eq_ok] at he
  obtain ⟨t, ht, he⟩ := he
  cases he
  unfold mkSingle mkUTube at ht
  rw [bind_eq_ok] at ht
  obtain ⟨mp, -, ht⟩ := ht
  cases ht
  refine ⟨_, rfl, ?_⟩
  rw [← hvb']
  rfl

/-- what a design of single U-tubes leaves on the disk -/
theorem toFile_kept {i : Saved} {q : Pipe} (hz : i.routine ≠ "bi-zoned") (hq : i.problem.media.hardware = .single q)
    (hfl : i.problem.flow = "system") :
    (∃ e, designToFile c.json out i d = (.error e, d)) ∨
    ∃ k f x, Candidate i.candidates k f ∧ f ≠ [] ∧ x.numberOfBoreholes = f.length ∧
      x.tube = ⟨i.problem.borehole.rb, q.rIn, q.rOut, q.s, q.pos,
        i.problem.V / f.length / 1000 * i.problem.media.fluid.rho, i.problem.media.grout.k, i.problem.media.soil.k, q.k⟩ ∧
      designToFile c.json out i d = (match (c.json (exportJson x)).2 with | none => .ok () | some e => .error e,
        d.put (out.1, out.2 ++ ".json") (c.json (exportJson x)).1) := by
  unfold designToFile
  rcases hfs : findAndSize i {} with ⟨e | r, s⟩
  · exact .inl ⟨e, rfl⟩
  dsimp only
  unfold findAndSize at hfs
  rcases hd : findDesign i.problem i.routine i.candidates {} with ⟨e | r0, c'⟩
  · rw [St.bind_error hd] at hfs
    cases hfs
  rw [St.bind_ok hd] at hfs
  obtain ⟨k, f, x, hi, lo, rfl, hcand, hx, hheld, -⟩ := C93_returned i.routine hz i.candidates c' r0 hd
  obtain ⟨hne, hk⟩ := fresh_kept hq hfl hx
  rcases hg : computeG i.problem c' with ⟨e | u, c1⟩
  · rw [St.bind_error hg] at hfs
    cases hfs
  rw [St.bind_ok hg] at hfs
  unfold computeG at hg
  rw [hheld] at hg
  dsimp only at hg
  split at hg
  · cases hg
  rename_i db hdb
  cases hg
  rcases hsz : Whole.size { x.env with db := db } "hybrid" { x.state with table := {} } with ⟨q1, st⟩
  have hk1 := kept_size { x.env with db := db } "hybrid" _ (hk.of_bhe (s' := { x.state with table := {} }) rfl)
  rw [hsz] at hk1
  have hon : onHeld (fun env => Whole.size env "hybrid")
      { c' with held := some ⟨{ x.env with db := db }, { x.state with table := {} }⟩ } =
      (q1, { c' with held := some ⟨{ x.env with db := db }, st⟩ }) := by
    unfold onHeld
    dsimp only
    rw [hsz]
  rcases q1 with e | w
  · rw [St.bind_error hon] at hfs
    cases hfs
  rw [St.bind_ok hon] at hfs
  cases hfs
  dsimp only
  unfold oakRidgeExport
  dsimp only
  rcases hor : Report.oakRidge f { x.env with db := db } st with ⟨e | v, st'⟩
  · exact .inl ⟨e, rfl⟩
  dsimp only
  unfold jsDump
  rw [dumpTo_eq]
  by_cases h : (d.dirs (out.1, out.2 ++ ".json").1 && !d.dirs ((out.1, out.2 ++ ".json").1 ++ [(out.1, out.2 ++ ".json").2])) = true
  · right
    obtain ⟨t, ht1, ht2⟩ := hk1
    refine ⟨k, f, v, hcand, hne, ?_, ?_, by rw [if_pos h]; rfl⟩
    all_goals
      unfold Report.oakRidge at hor
      rw [St.get_bind] at hor
      rcases hpd : pyDiv x.env.bSpacing (borehole st.bhe).H with e | bh
      · dsimp only at hor
        rw [hpd, St.lift_error rfl] at hor
        cases hor
      dsimp only at hor
      rw [hpd, St.lift_ok rfl] at hor
      rcases hgr : grabG { x.env with db := db } bh st with ⟨e | xy, s1⟩
      · rw [St.bind_error hgr] at hor
        cases hor
      rw [St.bind_ok hgr] at hor
      rcases hep : Export.exportPairs xy.1 xy.2 with e | prs
      · rw [hep, St.lift_error rfl] at hor
        cases hor
      rw [hep, St.lift_ok rfl] at hor
      cases hor
    · rfl
    · rw [← ht2]
      unfold tubeOf
      rw [ht1]
  · exact .inl ⟨.osError, by rw [if_neg h]⟩

/-- C151: with a length `L` for the land the script does what it is meant to.  Either it raises and leaves the disk as it
was, or the only thing it changes is the file `out.json`, and the value written there is about single U-tubes with the data
of the parameter file: half the diameter, the thickness, the distance and the conductivities, with the flow rate, which is
of the whole field and in m³/s, divided evenly.  The field is a grid of the given spacing of at most `⌊L / B⌋ + 1` by one
more. -/
theorem C151_length {L : ℝ} (hL : 0 ≤ L) (t : String) (l : List (String × Json)) (g : Given)
    (h1 : d.files params = some t) (h2 : c.unjson t = .ok (.obj l)) (h3 : Holds (.obj l) g) (hB : 0 < g.spacing) :
    (∃ e, script world fuel c.unjson csv c.json [("length", L)] params table out d = (.error e, d)) ∨
    ∃ (nx ny : ℤ) (f : Field) (j u : Json) (m : ℝ), 1 ≤ nx ∧ nx ≤ ⌊L / g.spacing⌋ + 1 ∧ (ny = nx ∨ ny = nx + 1) ∧
      IsGrid nx ny g.spacing g.spacing f ∧
      script world fuel c.unjson csv c.json [("length", L)] params table out d =
        (match (c.json j).2 with | none => .ok () | some e => .error e, d.put (out.1, out.2 ++ ".json") (c.json j).1) ∧
      j.get "number_of_boreholes" = some (.int f.length) ∧ j.get "single_u_tube" = some u ∧
      u.get "r_b" = some (.num g.boreholeRadius) ∧ u.get "r_out" = some (.num (g.pipeDiameter / 2)) ∧
      u.get "r_in" = some (.num (g.pipeDiameter / 2 - g.pipeThickness)) ∧ u.get "s" = some (.num g.tubeDistance) ∧
      u.get "pos" = some (.arr [.arr [.num (-(g.tubeDistance / 2 + g.pipeDiameter / 2)), .num 0],
        .arr [.num (g.tubeDistance / 2 + g.pipeDiameter / 2), .num 0]]) ∧
      u.get "m_flow_borehole" = some (.num m) ∧ m * f.length = g.flowRate * world.media.fluid.rho ∧
      u.get "k_g" = some (.num g.kGrout) ∧ u.get "k_s" = some (.num g.kSoil) ∧ u.get "k_p" = some (.num g.kPipe) := by
  rw [script_eq, h1]
  dsimp only
  rw [h2]
  dsimp only
  rw [readGiven_of h3]
  dsimp only
  cases d.files table with
  | none => exact .inl ⟨_, rfl⟩
  | some u =>
    dsimp only
    cases csv u with
    | error e => exact .inl ⟨_, rfl⟩
    | ok loads =>
      dsimp only
      have hf : 0 ≤ ⌊L / g.spacing⌋ := Int.floor_nonneg.2 (div_nonneg hL hB.le)
      obtain ⟨dom, hdom, hlen, hfields, -⟩ := Domains.C07_nearSquare_fields (lower := 1) (upper := ⌊L / g.spacing⌋ + 1)
        le_rfl (by omega) hB
      have hc : (constraints [("B", g.spacing), ("length", L)] >>= fun gc => designInit fuel gc "near-square") =
          .ok (.flat dom) := by
        show (Utilities.numberOfBoreholes L g.spacing (fun q => ⌊q⌋) >>= fun n => Domains.squareAndNearSquare 1 n g.spacing >>=
          fun d => .ok (Candidates.flat d)) = _
        unfold Utilities.numberOfBoreholes
        rw [pyDiv_ok hB.ne', Except.ok_bind]
        show (Domains.squareAndNearSquare 1 _ g.spacing >>= _) = _
        rw [hdom]
        rfl
      rw [hc]
      dsimp only
      rcases toFile_kept (c := c) (out := out) (d := d)
        (i := ⟨problem world g ⟨[(-(g.tubeDistance / 2 + g.pipeDiameter / 2), 0),
          (g.tubeDistance / 2 + g.pipeDiameter / 2, 0)], g.pipeDiameter / 2 - g.pipeThickness, g.pipeDiameter / 2,
          g.tubeDistance, 1 / 10 ^ 6, g.kPipe, 1542 * 1000⟩ loads, "near-square", .flat dom⟩)
        (show ("near-square" : String) ≠ "bi-zoned" by decide) rfl rfl with he | ⟨k, f, x, q1, q2, q3, q4, q5⟩
      · exact .inl he
      right
      have hk : dom[k]? = some f := q1
      have hklt : k < dom.length := (List.getElem?_eq_some_iff.1 hk).1
      have hgrid : ∃ nx ny : ℤ, 1 ≤ nx ∧ nx ≤ ⌊L / g.spacing⌋ + 1 ∧ (ny = nx ∨ ny = nx + 1) ∧
          IsGrid nx ny g.spacing g.spacing f := by
        obtain ⟨f1, g1, e1, e2, e3, e4⟩ := hfields (k / 2) (by omega)
        rcases Nat.mod_two_eq_zero_or_one k with hm | hm
        · rw [show 2 * (k / 2) = k by omega, hk] at e1
          cases e1
          exact ⟨_, _, by omega, by omega, .inl rfl, e3⟩
        · rw [show 2 * (k / 2) + 1 = k by omega, hk] at e2
          cases e2
          exact ⟨_, _, by omega, by omega, .inr rfl, e4⟩
      obtain ⟨nx, ny, n1, n2, n3, n4⟩ := hgrid
      have hpos : (f.length : ℝ) ≠ 0 := by
        have : f.length ≠ 0 := fun h => q2 (List.eq_nil_of_length_eq_zero h)
        exact_mod_cast this
      refine ⟨nx, ny, f, exportJson x, _, g.flowRate * 1000 / f.length / 1000 * world.media.fluid.rho, n1, n2, n3, n4, q5, ?_, rfl,
        ?_, ?_, ?_, ?_, ?_, ?_, ?_, ?_, ?_, ?_⟩
      · rw [← q3]; rfl
      all_goals try rw [q4]
      all_goals try rfl
      field_simp

/-! ### the file of the repository -/

/-- `ornl_params.json`, with the temperature limit as a parameter and without the texts under `units`. -/
def exParams (maxEFT : ℤ) : List (String × Json) :=
  [("design_flow_rate", .num 0.0312), ("bore_hole_radius", .num 0.075), ("ground_thermal_conductivity", .num 2),
    ("ground_thermal_heat_capacity", .num 2343493), ("ground_temperature", .num 18.3), ("grout_thermal_conductivity", .num 1),
    ("pipe_thermal_conductivity", .num 0.4), ("pipe_out_diameter", .num 0.02667), ("u-tube_distance", .num 0.0323),
    ("pipe_thickness", .num 0.002535), ("total_coil_capacity", .num 283528.083833554), ("max_height", .int 135),
    ("min_height", .int 60), ("max_EFT", .int maxEFT), ("min_EFT", .int 5), ("B_spacing", .int 5),
    ("simulation_period", .int 240), ("FluidFactor", .int 1), ("units", .obj [])]

def exGiven : Given :=
  ⟨135, 0.075, 5, 0.02667, 0.002535, 0.0323, 0.4, 2, 1, 2343493, 18.3, 0.0312⟩

theorem exParams_holds (T : ℤ) : Holds (.obj (exParams T)) exGiven := by
  unfold Holds Given.entries
  simp only [List.forall_mem_cons]
  refine ⟨.inr ⟨135, rfl, by norm_num [exGiven]⟩, .inl rfl, .inr ⟨5, rfl, by norm_num [exGiven]⟩, .inl rfl, .inl rfl, .inl rfl,
    .inl rfl, .inl rfl, .inl rfl, .inl rfl, .inl rfl, .inl rfl, by simp⟩

/-- A disk with the two files. -/
def exFiles : Disk where
  dirs := fun q => decide (q = [])
  files := fun f => if f = ([], "ornl_params.json") then some "parameters" else if f = ([], "loads.csv") then some "loads" else none

/-- C151 applies to the file of the repository: the script raises `AssertionError`, whatever the loads; with other limits in
the file nothing would change; and with a length of 100 m what it writes, if it writes, has a pipe of 13.335 mm. -/
example (world : Problem) (fuel : ℕ) (c : Codec Json Saved) (loads : List ℝ) (out : File)
    (hc : c.unjson "parameters" = .ok (.obj (exParams 35))) :
    script world fuel c.unjson (fun _ => .ok loads) c.json [] ([], "ornl_params.json") ([], "loads.csv") out exFiles =
      (.error .assertionError, exFiles) ∧
    (∀ T extra, script world fuel (fun _ => .ok (.obj (exParams T))) (fun _ => .ok loads) c.json extra ([], "ornl_params.json")
      ([], "loads.csv") out exFiles = script world fuel c.unjson (fun _ => .ok loads) c.json extra ([], "ornl_params.json")
      ([], "loads.csv") out exFiles) ∧
    ((∃ e, script world fuel c.unjson (fun _ => .ok loads) c.json [("length", 100)] ([], "ornl_params.json") ([], "loads.csv")
        out exFiles = (.error e, exFiles)) ∨
      ∃ j u, j.get "single_u_tube" = some u ∧ u.get "r_out" = some (.num 0.013335) ∧
        (script world fuel c.unjson (fun _ => .ok loads) c.json [("length", 100)] ([], "ornl_params.json") ([], "loads.csv")
          out exFiles).2 = exFiles.put (out.1, out.2 ++ ".json") (c.json j).1) := by
  have hp : exFiles.files ([], "ornl_params.json") = some "parameters" := by decide
  have ht : exFiles.files ([], "loads.csv") = some "loads" := by decide
  refine ⟨?_, ?_, ?_⟩
  · exact C151_raises.2.2 _ _ _ _ _ hp hc (exParams_holds 35) ht rfl
  · intro T extra
    refine C151_keys _ _ "parameters" _ _ hp rfl hc fun k hk => ?_
    simp only [List.mem_cons, List.not_mem_nil, or_false] at hk
    rcases hk with rfl | rfl | rfl | rfl | rfl | rfl | rfl | rfl | rfl | rfl | rfl | rfl
    all_goals rfl
  · rcases C151_length (world := world) (fuel := fuel) (csv := fun _ => .ok loads) (table := ([], "loads.csv")) (out := out)
      (show (0 : ℝ) ≤ 100 by norm_num) _ _ _ hp hc (exParams_holds 35) (by norm_num [exGiven]) with
      he | ⟨nx, ny, f, j, u, m, -, -, -, -, h5, -, h7, -, h9, -⟩
    · exact .inl he
    · refine .inr ⟨j, u, h7, ?_, by rw [h5]⟩
      rw [h9]
      norm_num [exGiven]

end

end Ghedt.Ornl
