import Verif.Props.Workflow
import Verif.Props.WorkflowExample
import Verif.Props.Files
import Verif.Model.Script

/-!
# From an input file to an exported file (C130)

The script `design_from_input.py` reads a design from a file, finds the field, sizes it by the hybrid method and exports it.
-/

set_option linter.unusedSectionVars false

namespace Ghedt.Script
open Real Ghedt.GHE Ghedt.Bhe Ghedt.Radial Ghedt.Whole Ghedt.Search Ghedt.Utilities Ghedt.Spec Ghedt.Network
  Ghedt.WholeSearch Ghedt.Files Ghedt.Report Ghedt.Design Ghedt.Domains Ghedt.Coordinates

noncomputable section

variable {c : Codec Json Saved} {d : Disk} {input out : File} {i : Saved}

/-- the file written -/
def target (out : File) : File := (out.1, out.2 ++ ".json")

theorem export_disk (sel : List (ℝ × ℝ)) (env : Whole.Env) (st : Whole.State) (d : Disk) :
    (∃ e, (oakRidgeExport c.json out sel env (st, d)).1 = .error e ∧
      (oakRidgeExport c.json out sel env (st, d)).2.2 = d ∧
      ∀ d' : Disk, d'.dirs = d.dirs → (oakRidgeExport c.json out sel env (st, d')).1 = .error e ∧
        (oakRidgeExport c.json out sel env (st, d')).2.2 = d') ∨
    ∃ j, (oakRidgeExport c.json out sel env (st, d)).2.2 = d.put (target out) (c.json j).1 ∧
      (∀ e, (oakRidgeExport c.json out sel env (st, d)).1 = .error e → (c.json j).2 = some e) ∧
      ∀ d' : Disk, d'.dirs = d.dirs →
        (oakRidgeExport c.json out sel env (st, d')).1 = (oakRidgeExport c.json out sel env (st, d)).1 ∧
        (oakRidgeExport c.json out sel env (st, d')).2.2 = d'.put (target out) (c.json j).1 := by
  unfold oakRidgeExport
  dsimp only
  rcases Report.oakRidge sel env st with ⟨e | x, s'⟩
  · exact .inl ⟨e, rfl, rfl, fun d' _ => ⟨rfl, rfl⟩⟩
  · dsimp only
    unfold jsDump
    simp only [dumpTo_eq]
    by_cases h : (d.dirs (out.1, out.2 ++ ".json").1 && !d.dirs ((out.1, out.2 ++ ".json").1 ++ [(out.1, out.2 ++ ".json").2])) = true
    · right
      refine ⟨exportJson x, by rw [if_pos h]; rfl, ?_, fun d' hd' => ?_⟩
      · intro e he
        rw [if_pos h] at he
        dsimp only at he
        cases hj : (c.json (exportJson x)).2 with
        | none => rw [hj] at he; cases he
        | some e' => rw [hj] at he; cases he; rfl
      · rw [hd', if_pos h, if_pos h]
        exact ⟨rfl, rfl⟩
    · left
      refine ⟨.osError, by rw [if_neg h], by rw [if_neg h], fun d' hd' => ?_⟩
      rw [hd', if_neg h]
      exact ⟨rfl, rfl⟩

theorem toFile_disk (i : Saved) (d : Disk) :
    (∃ e, ∀ d' : Disk, d'.dirs = d.dirs → designToFile c.json out i d' = (.error e, d')) ∨
    ∃ j r, (∀ e, r = .error e → (c.json j).2 = some e) ∧
      ∀ d' : Disk, d'.dirs = d.dirs → designToFile c.json out i d' = (r, d'.put (target out) (c.json j).1) := by
  unfold designToFile
  rcases findAndSize i {} with ⟨e | r, s⟩
  · exact .inl ⟨e, fun d' _ => rfl⟩
  · dsimp only
    cases s.held with
    | none => exact .inl ⟨_, fun d' _ => rfl⟩
    | some x =>
      cases r with
      | none => exact .inl ⟨_, fun d' _ => rfl⟩
      | some q =>
        dsimp only
        rcases export_disk (c := c) (out := out) q.2 x.env x.state d with ⟨e, -, -, h⟩ | ⟨j, h1, h2, h3⟩
        · exact .inl ⟨e, fun d' hd' => Prod.ext (h d' hd').1 (h d' hd').2⟩
        · exact .inr ⟨j, _, h2, fun d' hd' => Prod.ext (h3 d' hd').1 (h3 d' hd').2⟩

theorem script_eq (d : Disk) :
    designFromInput c.unpickle c.json input out d = match (readInputFile c.unpickle input d).1 with
      | .error e => (.error e, d)
      | .ok i => designToFile c.json out i d := by
  unfold designFromInput
  have h : readInputFile c.unpickle input d = ((readInputFile c.unpickle input d).1, d) :=
    Prod.ext rfl (by rw [(load_eq _ _ _).2, (load_eq _ _ _).1])
  cases hr : (readInputFile c.unpickle input d).1 with
  | error e =>
    rw [hr] at h
    rw [St.bind_error h]
  | ok i =>
    rw [hr] at h
    rw [St.bind_ok h]

theorem put_put (d : Disk) (f : File) (t : String) : (d.put f t).put f t = d.put f t := by
  unfold Disk.put
  congr 1
  funext g
  by_cases h : g = f <;> simp [h]

theorem read_put {f : File} (h : input ≠ f) (d : Disk) (t : String) :
    (readInputFile c.unpickle input (d.put f t)).1 = (readInputFile c.unpickle input d).1 := by
  rw [(load_eq _ _ _).2, (load_eq _ _ _).1, (load_eq _ _ _).2, (load_eq _ _ _).1]
  have : (d.put f t).files input = d.files input := by simp [Disk.put, h]
  rw [this]

/-- C130: whatever is in the input file and whatever is raised, the script makes no directory and writes no file but
`out.json`; if it raises, and the JSON encoder does not, the disk is as before. -/
theorem C130_disk (r : Except PyErr Unit) (d' : Disk) (h : designFromInput c.unpickle c.json input out d = (r, d')) :
    d'.dirs = d.dirs ∧ (∀ f, f ≠ (out.1, out.2 ++ ".json") → d'.files f = d.files f) ∧
    ∀ e, r = .error e → (∀ j, (c.json j).2 = none) → d' = d := by
  rw [script_eq] at h
  cases hr : (readInputFile c.unpickle input d).1 with
  | error e =>
    rw [hr] at h
    cases h
    exact ⟨rfl, fun f _ => rfl, fun e _ _ => rfl⟩
  | ok i =>
    rw [hr] at h
    replace h : designToFile c.json out i d = (r, d') := h
    rcases toFile_disk (c := c) (out := out) i d with ⟨e, h1⟩ | ⟨j, r', h1, h2⟩
    · rw [h1 d rfl] at h
      cases h
      exact ⟨rfl, fun f _ => rfl, fun e _ _ => rfl⟩
    · rw [h2 d rfl] at h
      cases h
      refine ⟨rfl, fun f hf => ?_, fun e he hj => ?_⟩
      · show (if f = target out then _ else _) = _
        rw [if_neg (show f ≠ target out from hf)]
      · rw [hj] at h1
        cases h1 e he

/-- C130: running the script again gives the same result and the same files: nothing of the first run is left but the file
it wrote (unless that is the input file itself). -/
theorem C130_repeat (hne : input ≠ (out.1, out.2 ++ ".json")) (r : Except PyErr Unit) (d' : Disk)
    (h : designFromInput c.unpickle c.json input out d = (r, d')) :
    designFromInput c.unpickle c.json input out d' = (r, d') := by
  have h0 := h
  rw [script_eq] at h
  cases hr : (readInputFile c.unpickle input d).1 with
  | error e =>
    rw [hr] at h
    cases h
    exact h0
  | ok i =>
    rw [hr] at h
    replace h : designToFile c.json out i d = (r, d') := h
    rcases toFile_disk (c := c) (out := out) i d with ⟨e, h1⟩ | ⟨j, r', h1, h2⟩
    · rw [h1 d rfl] at h
      cases h
      exact h0
    · rw [h2 d rfl] at h
      cases h
      rw [script_eq, read_put (show input ≠ target out from hne), hr]
      have := h2 (d.put (target out) (c.json j).1) rfl
      rw [put_put] at this
      exact this

/-- C130: a design written by `create_input_file`, whatever was done with files since (other than writing that one): the
script does with it what finding, sizing and exporting would have done with the design object itself. -/
theorem C130_saved (hg : d.Good) (f : File) (i : Saved) (t : String) (hf : d.dirs f.1 = true)
    (hn : d.dirs (f.1 ++ [f.2 ++ ".obj"]) = false) (he : c.pickle i = (t, none)) (hd : c.unpickle t = .ok i)
    (ops : List (Files.Op Json Saved)) (hops : ∀ op ∈ ops, op.writes ≠ some (f.1, f.2 ++ ".obj")) (d' : Disk)
    (hd' : d' = ops.foldl (Files.perform c) (createInputFile c.pickle f i d).2) :
    designFromInput c.unpickle c.json (f.1, f.2 ++ ".obj") out d' = designToFile c.json out i d' := by
  have := (C111_pickle hg f i t hf hn he hd ops hops).2
  rw [← hd'] at this
  rw [script_eq, this]

/-- what the script holds before it exports -/
theorem findAndSize_eq {k : ℤ} {f : Field} {c' : WholeSearch.State} {y : Held}
    (hd : findDesign i.problem i.routine i.candidates {} = (.ok (some (k, f)), c'))
    (hy : computeG i.problem c' = (.ok (), { c' with held := some y })) :
    findAndSize i {} = match Whole.size y.env "hybrid" y.state with
      | (.error e, st) => (.error e, { c' with held := some ⟨y.env, st⟩ })
      | (.ok _, st) => (.ok (some (k, f)), { c' with held := some ⟨y.env, st⟩ }) := by
  unfold findAndSize
  rw [St.bind_ok hd, St.bind_ok hy]
  rcases hq : Whole.size y.env "hybrid" y.state with ⟨e | w, st⟩
  · rw [St.bind_error (s' := { c' with held := some ⟨y.env, st⟩ }) (e := e) (by
      unfold onHeld
      dsimp only
      rw [hq])]
  · rw [St.bind_ok (s' := { c' with held := some ⟨y.env, st⟩ }) (a := w) (by
      unfold onHeld
      dsimp only
      rw [hq])]
    rfl

/-- The value written to the exported file describes the field `f` at the height `H`: the length and the number of boreholes;
the tube equivalent to the exchanger `bhe` at that height; and 56 to 85 points, in order of time, from its short-time values
and all 27 long-time values `g`. -/
def FileDescribes (p : Problem) (f : Field) (bhe : Exchanger) (g : List ℝ) (H : ℝ) (j : Json) : Prop :=
  j.get "borehole_length" = some (.num H) ∧ j.get "number_of_boreholes" = some (.int f.length) ∧
  ∃ (s : UTube) (rad : Radial) (lt gs : List ℝ) (pairs : List (ℝ × ℝ)) (u : Json),
    computeEquivalent p.ext p.brent (setHeight H bhe) = .ok (s, setHeight H bhe) ∧
    calcSts p.solve (radialTube p.ext s) none false p.fuel = .ok (rad, lt, gs) ∧
    j.get "g_function_pairs" = some (.arr (pairs.map fun q => .obj [("ln_tts", .num q.1), ("g_value", .num q.2)])) ∧
    pairs.Sublist ((lt.zip gs).filter (fun q => decide (q.1 ≤ -(85 / 10))) ++ eskilsonLogTimes.zip g) ∧
    (eskilsonLogTimes.zip g) <:+ pairs ∧ (pairs.map Prod.fst).Pairwise (· < ·) ∧ 56 ≤ pairs.length ∧ pairs.length ≤ 85 ∧
    j.get "single_u_tube" = some u ∧ u.get "r_b" = some (.num s.b.rb) ∧ u.get "r_in" = some (.num s.circuit.rIn) ∧
    u.get "r_out" = some (.num s.circuit.rOut) ∧ u.get "s" = some (.num s.pipe.s) ∧
    u.get "pos" = some (.arr (s.circuit.pos.map fun q => .arr [.num q.1, .num q.2])) ∧
    u.get "m_flow_borehole" = some (.num s.mBorehole) ∧ u.get "k_g" = some (.num s.grout.k) ∧
    u.get "k_s" = some (.num s.soil.k) ∧ u.get "k_p" = some (.num s.pipe.k)

/-- C130: what becomes of the design that was read, for sensible arguments (near-square, rectangle or bi-rectangle
routine).  If the search raises, so does the script, and the disk is as before.  If it returns the field `f`, let `e H` be
how far the temperatures of that field, simulated by the hybrid method at height `H`, are outside the limits.  If `e` is 0
at the minimum or the maximum height, or if the root finder raises, the script raises, with the disk as before.  Otherwise
the value it writes describes that field at a height between the bounds: the maximum height if `e` has the same sign at
both, and else the last one the root finder asked for.  It then returns unless the encoder raises, and what is read back
later is what the decoder makes of the text that the encoder made of that value.  If the search used the hybrid method, the field is
within the limits at the maximum height, or it is the first candidate. -/
theorem C130_outcome (hg : d.Good) (hz : i.routine ≠ "bi-zoned") (h : Sensible i.problem)
    (hp : PeriodFine { i.problem with method := "hybrid" } i.problem.minHeight)
    (hc : ∀ k f, Candidate i.candidates k f → f ≠ [] ∧ f.Nodup ∧ SizingFine i.problem f)
    (hlong : 1 / 10 ^ 12 + 120 * 29 ≤ soilTime i.problem i.problem.minHeight * exp (-(85 / 10)))
    (hf : d.dirs out.1 = true) (hn : d.dirs (out.1 ++ [out.2 ++ ".json"]) = false) :
    (∀ er, (findDesign i.problem i.routine i.candidates {}).1 = .error er →
      designToFile c.json out i d = (.error er, d)) ∧
    ∀ r c', findDesign i.problem i.routine i.candidates {} = (.ok r, c') →
      ∃ (k : ℕ) (f : Field) (x y : Held) (e : ℝ → ℝ) (a b : ℝ), r = some ((k : ℤ), f) ∧ Candidate i.candidates k f ∧
        fresh i.problem f i.problem.maxHeight = .ok x ∧
        computeG i.problem { held := some x } = (.ok (), { held := some y }) ∧
        a = e i.problem.minHeight ∧ b = e i.problem.maxHeight ∧
        (∀ H ∈ i.problem.minHeight :: i.problem.maxHeight ::
            asked e (i.problem.brent i.problem.minHeight i.problem.maxHeight), ∃ u w,
          (Whole.simulate y.env "hybrid" (y.state.at H)).1 = .ok (u, w) ∧ e H = excess i.problem u w) ∧
        (i.problem.method = "hybrid" → b ≤ 0 ∨ k = 0) ∧
        (a = 0 ∨ b = 0 → designToFile c.json out i d = (.error .zeroDivisionError, d)) ∧
        (a * b < 0 → ∀ er, outcome e (i.problem.brent i.problem.minHeight i.problem.maxHeight) = .error er →
          designToFile c.json out i d = (.error er, d)) ∧
        ∀ H, (0 < a * b ∧ H = i.problem.maxHeight ∨
            a * b < 0 ∧ (∃ z, outcome e (i.problem.brent i.problem.minHeight i.problem.maxHeight) = .ok z) ∧
              H = (asked e (i.problem.brent i.problem.minHeight i.problem.maxHeight)).getLast?.getD i.problem.maxHeight) →
          i.problem.minHeight ≤ H ∧ H ≤ i.problem.maxHeight ∧ ∃ j ans tb,
            GF.request i.problem.spl y.env.db (x.env.bSpacing / H) "default" {} = (.ok ans, tb) ∧
            FileDescribes i.problem f x.state.bhe ans.g H j ∧
            (designToFile c.json out i d).1 = (match (c.json j).2 with | none => .ok () | some e => .error e) ∧
            ∀ ops : List (Files.Op Json Saved), (∀ op ∈ ops, op.writes ≠ some (out.1, out.2 ++ ".json")) →
              (jsLoad c.unjson (out.1, out.2 ++ ".json") (ops.foldl (Files.perform c) (designToFile c.json out i d).2)).1 =
                c.unjson (c.json j).1 := by
  constructor
  · intro er her
    rcases hq : findDesign i.problem i.routine i.candidates {} with ⟨r, s⟩
    rw [hq] at her
    obtain rfl : r = .error er := her
    unfold designToFile findAndSize
    rw [St.bind_error hq]
  intro r c' hd
  obtain ⟨k, f, x, hi, lo, rfl, hcand, hx, hheld, -⟩ := C93_returned i.routine hz i.candidates c' r hd
  obtain ⟨g1, g2, g3⟩ := hc k f hcand
  obtain ⟨x1, y, hx1, hy, ho⟩ := C115_size h g1 g2 g3 "hybrid" hp
  rw [hx] at hx1
  cases hx1
  have ho' := ho
  obtain ⟨e, a, b, ha, hb, hsim, hsize⟩ := ho
  obtain ⟨t1, t2, t3, t4⟩ := hsize [] (by simp) y.state rfl
  have hbooks := computeG_books hheld hy
  have hfs := findAndSize_eq hd hbooks
  have herr : ∀ er, (Whole.size y.env "hybrid" y.state).1 = .error er → designToFile c.json out i d = (.error er, d) := by
    intro er her
    rcases hq : Whole.size y.env "hybrid" y.state with ⟨q, st⟩
    rw [hq] at her hfs
    obtain rfl : q = .error er := her
    unfold designToFile
    rw [hfs]
  refine ⟨k, f, x, y, e, a, b, rfl, hcand, hx, hy, ha, hb, hsim, ?_, ?_, ?_, ?_⟩
  · intro hm
    obtain ⟨k1, f1, y1, e1, -, e3, -, e5⟩ := C115_design i.routine hz i.candidates h "hybrid" hp hc _ c' hd
    rw [hbooks] at e3
    cases e3
    cases e1
    obtain ⟨u, w, e6, e7⟩ := e5 hm.symm
    rcases e7 with ⟨e7, e8⟩ | ⟨rfl, -⟩
    · left
      obtain ⟨u', w', e9, e10⟩ := hsim i.problem.maxHeight (by simp)
      rw [e6] at e9
      cases e9
      rw [hb, e10]
      exact max_le (by linarith) (by linarith)
    · exact .inr rfl
  · exact fun h0 => herr _ (t1 h0)
  · exact fun hs er he => herr _ (t3 hs er he)
  intro H hH
  have hsized : ∃ w st, Whole.size y.env "hybrid" y.state = (.ok w, st) ∧ (Whole.borehole st.bhe).H = H ∧
      i.problem.minHeight ≤ H ∧ H ≤ i.problem.maxHeight ∧ HeightFine i.problem H ∧ Converts i.problem f H := by
    rcases hH with ⟨hs, rfl⟩ | ⟨hs, ⟨z, hz⟩, rfl⟩
    · obtain ⟨s', e1, e2⟩ := t2 hs
      exact ⟨_, s', e1, e2, by linarith [g3.apart], le_rfl, g3.heights.2, g3.converts.2⟩
    · obtain ⟨w, s', e1, e2, e3, e4, -⟩ := t4 hs z hz
      rw [e2] at e3 e4
      refine ⟨w, s', e1, e2, e3, e4, ?_⟩
      cases hl : (asked e (i.problem.brent i.problem.minHeight i.problem.maxHeight)).getLast? with
      | none => exact ⟨g3.heights.2, g3.converts.2⟩
      | some v => exact g3.asked e v (List.mem_of_getLast? hl)
  obtain ⟨w, st, hq, hHst, hlo, hhi, hfine, hconv⟩ := hsized
  obtain ⟨bhe, s, hcov, hready, htimes, hct, hlt, rfl, hrad, ⟨q1, q2, q3, q4, q5, q6⟩, hrb⟩ :=
    ready_between h g1 g2 g3 hx hy hlo hhi hfine hconv
  have h27 : y.env.db.logTime.length = 27 := by
    rw [hlt]
    simp [eskilsonLogTimes]
  have hge : 1 / 10 ^ 12 + 120 * 29 ≤ charTime s * exp (-(85 / 10)) := by
    rw [hct]
    have := soilTime_mono h g3.heights.1.pos.le hlo
    nlinarith [exp_pos (-(85 / 10) : ℝ)]
  obtain ⟨x0, rad, lt, gs, ans, tb, x1, x2, x3, x4, x5, x6, x7, x8, x9, x10, x11⟩ :=
    (C98_export hcov [] (by simp) st (Evaluated.sized "hybrid" w st hq) H hHst s hready _ _ htimes h27 f).2 hge
  have hans := hrb ans tb x3
  have hcorr : (ans.g.map fun v => v - log ((borehole x.state.bhe).rb / ans.rb)) = ans.g := by
    rw [hrad, hans, div_self h.radius.1.ne', log_one]
    simp
  rw [hcorr, hlt] at x7 x8
  rw [hq] at hfs
  have hto : designToFile c.json out i d =
      ((oakRidgeExport c.json out f y.env (st, d)).1, (oakRidgeExport c.json out f y.env (st, d)).2.2) := by
    unfold designToFile
    rw [hfs]
  obtain ⟨b1, b2⟩ := export_written (c := c) hg out f y.env st x1 hf hn
  rw [hto]
  rw [q5, q6] at x3
  rw [q3, q1, q4] at x2
  have hconv' := hready.converts
  rw [q1, q2] at hconv'
  refine ⟨hlo, hhi, exportJson x0, ans, tb, x3, ⟨?_, ?_, s, rad, lt, gs, x0.pairs, _, hconv', x2, rfl, x7, x8, x9, x10, x11, rfl,
    ?_, ?_, ?_, ?_, ?_, ?_, ?_, ?_, ?_⟩, b1, b2⟩
  · rw [← x4]; rfl
  · rw [← x5]; rfl
  · rw [← x6.rb]; rfl
  · rw [← x6.rIn]; rfl
  · rw [← x6.rOut]; rfl
  · rw [← x6.distance]; rfl
  · rw [← x6.pos]; rfl
  · rw [← x6.flow]; rfl
  · rw [← x6.grout]; rfl
  · rw [← x6.soil]; rfl
  · rw [← x6.pipe]; rfl

/-- C130: the constraints of the script `design_from_ornl_json_input.py` (line 111), a spacing and no length, are refused
with `AssertionError` before anything is searched, whatever the other arguments: that script never gets to its export. -/
theorem C130_ornl (p : Problem) (fuel : ℕ) (B : ℝ) (s : WholeSearch.State) :
    design p fuel { B := some B } "near-square" s = (.error .assertionError, s) := by
  rfl

/-- C130 applies, with whatever encoder, to the near-square candidates of 5 m and single U-tubes: the script raises and
leaves the disk as it was, or the text it writes is that of a value with a length from 50 m to 100 m and the number of
boreholes of a candidate. -/
example (c : Codec Json Saved) (N : ℕ) (hN : N ≠ 0) : ∃ d, squareAndNearSquare 1 N (5 : ℝ) = .ok d ∧
    ((∃ e, designToFile c.json (["out"], "x") ⟨exSingle, "near-square", .flat d⟩ exDisk = (.error e, exDisk)) ∨
      ∃ j H f, 50 ≤ H ∧ H ≤ 100 ∧ f ∈ d ∧ j.get "borehole_length" = some (.num H) ∧
        j.get "number_of_boreholes" = some (.int f.length) ∧
        (jsLoad c.unjson (["out"], "x.json")
          (designToFile c.json (["out"], "x") ⟨exSingle, "near-square", .flat d⟩ exDisk).2).1 = c.unjson (c.json j).1) := by
  have hN1 : (1 : ℤ) ≤ N := by omega
  have hd : ∃ d, squareAndNearSquare 1 N (5 : ℝ) = .ok d :=
    (C07_nearSquare_guard 1 (N : ℤ) (5 : ℝ)).2.2 ⟨le_rfl, hN1, hN1⟩
  obtain ⟨d, hd⟩ := hd
  refine ⟨d, hd, ?_⟩
  have h := C130_outcome (c := c) (d := exDisk) (out := (["out"], "x")) (i := ⟨exSingle, "near-square", .flat d⟩) exDisk_good
    (show ("near-square" : String) ≠ "bi-zoned" by decide) exSingle_sensible (exSingle_period le_rfl) (fun k f hk => by
      obtain ⟨nx, ny, q1, q2, q3, rfl⟩ := exSquare_mem hN1 hd f (List.mem_of_getElem? hk)
      have hG := isGrid_lattice q1 q2 (show (0 : ℝ) < 5 by norm_num) (show (0 : ℝ) < 5 by norm_num)
      exact ⟨isGrid_ne hG, hG.distinct, exSingle_sizing (exSquare_spacing q1 q2 q3)⟩) (by
      show _ ≤ soilTime exSingle 50 * _
      rw [exSoilTime _ rfl]
      have := exp_bounds.1
      norm_num at this ⊢
      linarith) (by decide +kernel) (by decide +kernel)
  obtain ⟨h1, h2⟩ := h
  rcases hq : findDesign exSingle "near-square" (.flat d) {} with ⟨e | r, c'⟩
  · exact .inl ⟨e, h1 e (by rw [hq])⟩
  obtain ⟨k, f, x, y, e, a, b, rfl, hc, -, -, -, -, -, -, t1, t2, t3⟩ := h2 r c' hq
  rcases lt_trichotomy (a * b) 0 with h | h | h
  · cases ho : outcome e (exSingle.brent exSingle.minHeight exSingle.maxHeight) with
    | error er => exact .inl ⟨er, t2 h er ho⟩
    | ok z =>
      obtain ⟨u1, u2, j, ans, tb, -, u3, -, u4⟩ := t3 _ (.inr ⟨h, ⟨z, ho⟩, rfl⟩)
      exact .inr ⟨j, _, f, u1, u2, List.mem_of_getElem? hc, u3.1, u3.2.1, u4 [] (by simp)⟩
  · exact .inl ⟨_, t1 (mul_eq_zero.1 h)⟩
  · obtain ⟨u1, u2, j, ans, tb, -, u3, -, u4⟩ := t3 _ (.inl ⟨h, rfl⟩)
    exact .inr ⟨j, _, f, u1, u2, List.mem_of_getElem? hc, u3.1, u3.2.1, u4 [] (by simp)⟩

/-- the input and the other files are not touched by the script, and running it again changes nothing -/
example (c : Codec Json Saved) : ∃ r d', designFromInput c.unpickle c.json ([], "notes") (["out"], "x") exDisk = (r, d') ∧
    d'.files ([], "notes") = some "hello" ∧ designFromInput c.unpickle c.json ([], "notes") (["out"], "x") d' = (r, d') := by
  rcases h : designFromInput c.unpickle c.json ([], "notes") (["out"], "x") exDisk with ⟨r, d'⟩
  refine ⟨r, d', rfl, ?_, C130_repeat (by decide) r d' h⟩
  rw [(C130_disk r d' h).2.1 _ (by decide)]
  rfl

/-- a saved input, other files written, then the script: as if it had been given the object -/
example (c : Codec Json Saved) (i : Saved) (t : String) (he : c.pickle i = (t, none)) (hd : c.unpickle t = .ok i) (j : Json) :
    designFromInput c.unpickle c.json (["out"], "in.obj") (["out"], "x")
      (Files.perform c (createInputFile c.pickle (["out"], "in") i exDisk).2 (.dump (["out"], "y") j)) =
    designToFile c.json (["out"], "x") i
      (Files.perform c (createInputFile c.pickle (["out"], "in") i exDisk).2 (.dump (["out"], "y") j)) :=
  C130_saved exDisk_good (["out"], "in") i t (by decide +kernel) (by decide +kernel) he hd [.dump (["out"], "y") j]
    (by simp [Op.writes]) _ rfl

end

end Ghedt.Script
