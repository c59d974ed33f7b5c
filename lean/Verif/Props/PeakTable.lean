import Verif.Model.PeakTable
import Verif.Props.Loads
import Verif.Props.Hybrid

/-!
# C109 — the table of the peak analysis
-/

set_option linter.unusedSectionVars false

namespace Ghedt.GL
open Spec Search
variable {K : Type} [Field K] [LinearOrder K] [IsStrictOrderedRing K]

/-- Names of the months. -/
def calendarNames : List String :=
  ["January", "February", "March", "April", "May", "June", "July", "August", "September", "October",
   "November", "December"]

/-- Headings of the columns. -/
def peakHeadings : List (String × String) :=
  [("Total", "rejection"), ("Total", "extraction"), ("Peak", "rejection"), ("Peak", "extraction"),
   ("Average", "rejection"), ("Average", "extraction"), ("Peak Day", "rejection"),
   ("Peak Day", "extraction"), ("Peak Duration", "rejection"), ("Peak Duration", "extraction")]

/-- `df.loc[row, column]`: the entry in the first row and column with these labels. -/
def Frame.entry (F : Frame K) (row : String) (column : String × String) : Option K :=
  (F.rows[F.index.idxOf (some row)]?).bind fun r => r[F.columns.idxOf column]?

/-- Row `name` of the table describes the loads of a month: their sum, their largest value, their mean, the day on
which that value is first reached (the day before if that is in the first hour of a day) and a duration. -/
def Describes (F : Frame K) (name kind : String) (loads : List K) (duration : K) : Prop :=
  F.entry name ("Total", kind) = some loads.sum ∧
  F.entry name ("Average", kind) = some (loads.sum / loads.length) ∧
  F.entry name ("Peak Duration", kind) = some duration ∧
  ∃ (peak : K) (i : ℕ), F.entry name ("Peak", kind) = some peak ∧ (∀ x ∈ loads, x ≤ peak) ∧
    loads[i]? = some peak ∧ (∀ j < i, loads[j]? ≠ some peak) ∧
    F.entry name ("Peak Day", kind) = some ((if i % 24 = 0 then i / 24 else i / 24 + 1 : ℕ) : K)

/-- one row -/
def peakRow (cl hl : Loads K) (m : ℕ) : List K :=
  [cl.total.getD m 0, hl.total.getD m 0, cl.peak.getD m 0, hl.peak.getD m 0, cl.average.getD m 0,
   hl.average.getD m 0, ((cl.peakDay.getD m 0 : ℤ) : K), ((hl.peakDay.getD m 0 : ℤ) : K),
   cl.duration.getD m 0, hl.duration.getD m 0]

/-- one entry of the dictionary -/
def peakEntry (cl hl : Loads K) (m : ℕ) : PyDict String (PyDict String K) :=
  [("Total", [("rejection", cl.total.getD m 0), ("extraction", hl.total.getD m 0)]),
   ("Peak", [("rejection", cl.peak.getD m 0), ("extraction", hl.peak.getD m 0)]),
   ("Average", [("rejection", cl.average.getD m 0), ("extraction", hl.average.getD m 0)]),
   ("Peak Day", [("rejection", ((cl.peakDay.getD m 0 : ℤ) : K)),
     ("extraction", ((hl.peakDay.getD m 0 : ℤ) : K))]),
   ("Peak Duration", [("rejection", cl.duration.getD m 0), ("extraction", hl.duration.getD m 0)])]

theorem peakTableStep_ok {cl hl : Loads K} (hc : Full cl) (hh : Full hl) (ac : cl.average.length = 13)
    (ah : hl.average.length = 13) {m : ℕ} (hm : m ≤ 12) {name : Option String}
    (hn : numberToMonth (m : ℤ) = .ok name) (d : PyDict (Option String) (PyDict String (PyDict String K))) :
    peakTableStep cl hl d (m : ℤ) = .ok (PyDict.set d name (peakEntry cl hl m)) := by
  have := hc.total; have := hc.peak; have := hc.duration; have := hc.day
  have := hh.total; have := hh.peak; have := hh.duration; have := hh.day
  unfold peakTableStep
  rw [hn, getD_ok (l := cl.total) (by omega) 0, getD_ok (l := hl.total) (by omega) 0,
    getD_ok (l := cl.peak) (by omega) 0, getD_ok (l := hl.peak) (by omega) 0,
    getD_ok (l := cl.average) (by omega) 0, getD_ok (l := hl.average) (by omega) 0,
    getD_ok (l := cl.peakDay) (by omega) 0, getD_ok (l := hl.peakDay) (by omega) 0,
    getD_ok (l := cl.duration) (by omega) 0, getD_ok (l := hl.duration) (by omega) 0]
  rfl

theorem set_new {α β : Type} [DecidableEq α] (d : PyDict α β) (k : α) (v : β)
    (h : k ∉ PyDict.keys d) : PyDict.set d k v = d ++ [(k, v)] := by
  induction d with
  | nil => rfl
  | cons e d ih =>
    obtain ⟨k', v'⟩ := e
    simp only [PyDict.keys, List.map_cons, List.mem_cons, not_or] at h
    rw [PyDict.set, if_neg (fun e => h.1 e.symm), ih h.2]
    rfl

theorem peakTable_fold {cl hl : Loads K} (hc : Full cl) (hh : Full hl) (ac : cl.average.length = 13)
    (ah : hl.average.length = 13) (n : ℕ) (hn : n ≤ 12) :
    (pyRange 1 ((n : ℤ) + 1)).foldlM (peakTableStep cl hl) [] =
      .ok ((List.range n).map fun k => (calendarNames[k]?, peakEntry cl hl (k + 1))) := by
  induction n with
  | zero => rfl
  | succ n ih =>
    have e : pyRange 1 (((n + 1 : ℕ) : ℤ) + 1) = pyRange 1 ((n : ℤ) + 1) ++ [((n + 1 : ℕ) : ℤ)] := by
      rw [pyRange_succ (by omega)]; push_cast; rfl
    rw [e, List.foldlM_append, ih (by omega), Except.ok_bind, List.foldlM_cons]
    have hname : numberToMonth ((n + 1 : ℕ) : ℤ) = .ok (calendarNames[n]?) := by
      clear ih e
      have : n < 12 := by omega
      interval_cases n <;> decide
    rw [peakTableStep_ok hc hh ac ah (by omega) hname, Except.ok_bind, List.foldlM_nil, List.range_succ,
      List.map_append, set_new]
    · rfl
    · intro h
      simp only [PyDict.keys, List.map_map, List.mem_map, List.mem_range, Function.comp] at h
      obtain ⟨k, hk, e⟩ := h
      have hnd : calendarNames.Nodup := by decide
      have hl : calendarNames.length = 12 := rfl
      exact absurd ((List.getElem?_inj (by omega) hnd).1 e) (by omega)

theorem peakTable_ok {cl hl : Loads K} (hc : Full cl) (hh : Full hl) (ac : cl.average.length = 13)
    (ah : hl.average.length = 13) :
    peakTable cl hl = .ok ⟨calendarNames.map some, peakHeadings,
      (List.range 12).map fun k => peakRow cl hl (k + 1)⟩ := by
  unfold peakTable
  have := peakTable_fold hc hh ac ah 12 le_rfl
  rw [show ((12 : ℕ) : ℤ) + 1 = 13 from rfl] at this
  rw [this, Except.ok_bind]
  have e1 : PyDict.keys ((List.range 12).map fun k => (calendarNames[k]?, peakEntry cl hl (k + 1))) =
      calendarNames.map some := by
    simp only [PyDict.keys, List.map_map, Function.comp_def]
    rfl
  have e2 : (PyDict.values ((List.range 12).map fun k =>
      (calendarNames[k]?, peakEntry cl hl (k + 1)))).map
      (fun e => (PyDict.values e).flatMap fun inner => PyDict.values inner) =
      (List.range 12).map fun k => peakRow cl hl (k + 1) := by
    simp only [PyDict.values, List.map_map, Function.comp_def]
    rfl
  dsimp only
  rw [e1, e2]
  unfold mkFrame
  rw [if_pos]
  · rfl
  · refine ⟨by simp [calendarNames], ?_⟩
    intro row hrow
    obtain ⟨k, -, rfl⟩ := List.mem_map.1 hrow
    rfl

theorem peakTable_entry (cl hl : Loads K) {m : ℕ} {name : String} (h1 : 1 ≤ m)
    (hn : calendarNames[m - 1]? = some name) (c : String × String) :
    Frame.entry ⟨calendarNames.map some, peakHeadings,
      (List.range 12).map fun k => peakRow cl hl (k + 1)⟩ name c =
      (peakRow cl hl m)[peakHeadings.idxOf c]? := by
  have hlt : m - 1 < 12 := by
    by_contra h
    rw [List.getElem?_eq_none (by simp [calendarNames]; omega)] at hn; cases hn
  have hidx : (calendarNames.map some).idxOf (some name) = m - 1 := by
    obtain ⟨k, hk⟩ : ∃ k, m - 1 = k := ⟨_, rfl⟩
    rw [hk] at hn hlt ⊢
    interval_cases k <;> cases hn <;> decide
  unfold Frame.entry
  rw [hidx]
  simp only [List.getElem?_map, List.getElem?_range hlt, Option.map_some, Option.bind_some]
  rw [Nat.sub_add_cancel h1]

theorem describes_month {r : Resp K} {hourly : List K} {year : ℤ} {L : Loads K}
    (h : mkLoads r hourly year = .ok L) {m : ℕ} (h1 : 1 ≤ m) (h2 : m ≤ 12) {F : Frame K}
    {name kind : String} (eT : F.entry name ("Total", kind) = some (L.total.getD m 0))
    (eP : F.entry name ("Peak", kind) = some (L.peak.getD m 0))
    (eA : F.entry name ("Average", kind) = some (L.average.getD m 0))
    (eY : F.entry name ("Peak Day", kind) = some ((L.peakDay.getD m 0 : ℤ) : K))
    (eD : F.entry name ("Peak Duration", kind) = some (L.duration.getD m 0)) :
    Describes F name kind (monthLoads (decide (LeapYear year)) hourly m) (L.duration.getD m 0) := by
  obtain ⟨hM, -, -, -⟩ := mkLoads_inv h
  obtain ⟨t, p, a, d, w, g1, g2, g3, g4, -, f, -⟩ := hM.month m h1 h2
  obtain ⟨p', i, day, k1, k2, k3, k4, k5⟩ := C55_day h h1 h2
  rw [g2] at k1; cases k1
  simp only [List.getD_eq_getElem?_getD, g1, g2, g3, k4, Option.getD_some] at eT eP eA eY
  refine ⟨by rw [eT, f.total_eq], by rw [eA, f.average_eq], eD, p, i, eP, f.peak_max, k2, k3, ?_⟩
  rw [eY, k5]
  norm_cast

/-- C109: the table of a hybrid load has the twelve months as rows, in order, and for each of the five fields a column
for rejection and one for extraction; each row describes the loads of that month, the entry of a field and a load type
being found under these two headings. -/
theorem C109_table {r : Resp K} {rej ext : List K} {start finish year : ℤ} {cl hl : Loads K}
    {H : Hybrid K} (h : mkHybrid r rej ext start finish year = .ok (cl, hl, H)) :
    ∃ F, peakTable cl hl = .ok F ∧ F.index = calendarNames.map some ∧ F.columns = peakHeadings ∧
      F.rows.length = 12 ∧ (∀ row ∈ F.rows, row.length = 10) ∧
      ∀ (m : ℕ) (name : String), 1 ≤ m → calendarNames[m - 1]? = some name →
        ∃ dr de, cl.duration[m]? = some dr ∧ hl.duration[m]? = some de ∧
        Describes F name "rejection" (monthLoads (decide (LeapYear year)) rej m) dr ∧
        Describes F name "extraction" (monthLoads (decide (LeapYear year)) ext m) de := by
  unfold mkHybrid at h
  simp only [bind_eq_ok] at h
  obtain ⟨cl', h1, hl', h2, H', h3, h4⟩ := h
  cases h4
  have f1 := (mkLoads_full h1).1
  have f2 := (mkLoads_full h2).1
  have a1 := (mkLoads_inv h1).1.average_length
  have a2 := (mkLoads_inv h2).1.average_length
  refine ⟨_, peakTable_ok f1 f2 a1 a2, rfl, rfl, by simp, by simp [peakRow], ?_⟩
  intro m name hm hn
  have hlt : m ≤ 12 := by
    by_contra hc
    rw [List.getElem?_eq_none (by simp [calendarNames]; omega)] at hn; cases hn
  have hd1 := f1.duration
  have hd2 := f2.duration
  refine ⟨cl.duration.getD m 0, hl.duration.getD m 0, ?_, ?_, describes_month h1 hm hlt ?_ ?_ ?_ ?_ ?_,
    describes_month h2 hm hlt ?_ ?_ ?_ ?_ ?_⟩
  · rw [List.getD_eq_getElem?_getD, List.getElem?_eq_getElem (by omega)]; rfl
  · rw [List.getD_eq_getElem?_getD, List.getElem?_eq_getElem (by omega)]; rfl
  all_goals rw [peakTable_entry cl hl hm hn]; rfl

/-- The year of C58: its table exists and its rows describe it. -/
example : ∃ (L : Loads ℚ) (F : Frame ℚ), peakTable L L = .ok F ∧ F.rows.length = 12 ∧
    ∃ d, Describes F "March" "extraction" (monthLoads (decide (LeapYear 2019)) exYear 3) d := by
  obtain ⟨L, hL, -⟩ := exYear_ok
  obtain ⟨-, -, -, H, hH, -⟩ := C63_hybrid hL hL (show 1 ≤ 1 from le_rfl) (show 1 ≤ 240 by norm_num)
  obtain ⟨F, h1, -, -, h2, -, h3⟩ := C109_table hH
  obtain ⟨-, d, -, -, -, h4⟩ := h3 3 "March" (by norm_num) (by decide)
  exact ⟨L, F, h1, h2, d, h4⟩

end Ghedt.GL
