import Verif.Props.Files
import Verif.Model.Plots

/-!
# Pictures of fields (C112)
-/

set_option linter.unusedSectionVars false

namespace Ghedt.Plots
open Ghedt.Files

variable {K : Type} [Field K] [LinearOrder K]

/-- The picture of a field: exactly its boreholes, with the axes in metres. -/
def fieldPicture (l : List (K × K)) : Fig K := ⟨[.points l ""], "x (m)", "y (m)"⟩

theorem zip_unzip (l : List (K × K)) : l.unzip.1.zip l.unzip.2 = l := List.zip_unzip l

theorem scatter_unzip (l : List (K × K)) (label : String) :
    scatter l.unzip.1 l.unzip.2 label = .ok (.points l label) := by
  unfold scatter
  rw [if_pos (by simp), zip_unzip]

theorem plotLine_unzip (l : List (K × K)) (style label : String) :
    plotLine l.unzip.1 l.unzip.2 style label = .ok (.line l style label) := by
  unfold plotLine
  rw [if_pos (by simp), zip_unzip]

/-- C112: `visualize_coordinates` and `visualize_borefield` draw each borehole of the field, in order, and nothing else;
an empty field raises ValueError.  Without an argument `visualize_borefield` draws the field of the object. -/
theorem C112_field (db : GF.DB K) (l : List (K × K)) :
    (l ≠ [] → visualizeCoordinates l = .ok (fieldPicture l) ∧ visualizeBorefield db (some l) = .ok (fieldPicture l)) ∧
    (db.locations ≠ [] → visualizeBorefield db none = .ok (fieldPicture db.locations)) ∧
    visualizeCoordinates ([] : List (K × K)) = .error .valueError ∧
    visualizeBorefield db (some []) = .error .valueError ∧
    (db.locations = [] → visualizeBorefield db none = .error .valueError) := by
  have h1 : ∀ m : List (K × K), m ≠ [] → (do
      let (x, y) ← unzip2 m
      let k ← scatter x y ""
      return (⟨[k], "x (m)", "y (m)"⟩ : Fig K) : Py (Fig K)) = .ok (fieldPicture m) := by
    intro m hm
    unfold unzip2
    rw [if_neg hm, Except.ok_bind]
    dsimp only
    rw [scatter_unzip, Except.ok_bind]
    rfl
  refine ⟨fun hl => ⟨h1 l hl, h1 l hl⟩, fun hl => h1 _ hl, rfl, rfl, fun hl => ?_⟩
  unfold visualizeBorefield
  rw [hl]
  rfl

/-- A closed outline. -/
def closed (l : List (K × K)) : List (K × K) := l ++ l.head?.toList

theorem closed_line (l : List (K × K)) (hl : l ≠ []) (style : String) : (do
      let p0 ← pyGet l 0
      let (x, y) ← unzip2 (l ++ [p0])
      let m ← plotLine x y style ""
      return [m] : Py (List (Mark K))) = .ok [.line (closed l) style ""] := by
  cases l with
  | nil => exact absurd rfl hl
  | cons a l =>
    have : pyGet (a :: l) 0 = .ok a := rfl
    rw [this, Except.ok_bind]
    unfold unzip2
    rw [if_neg (by simp), Except.ok_bind]
    dsimp only
    rw [plotLine_unzip, Except.ok_bind]
    rfl

/-- C112: `visualize_area_and_constraints` draws the outline of the land, closed, then the boreholes, then the outline of
the zone to be avoided, closed; an empty outline of the land, no boreholes and no zone are left out, but an empty zone
raises IndexError. -/
theorem C112_area (perimeter field : List (K × K)) (zone : List (K × K)) (hz : zone ≠ []) :
    visualizeArea perimeter field none = .ok ⟨
      (if perimeter = [] then [] else [.line (closed perimeter) "g" ""]) ++ (if field = [] then [] else [.points field ""]),
      "x (m)", "y (m)"⟩ ∧
    visualizeArea perimeter field (some zone) = .ok ⟨
      (if perimeter = [] then [] else [.line (closed perimeter) "g" ""]) ++
        (if field = [] then [] else [.points field ""]) ++ [.line (closed zone) "r" ""], "x (m)", "y (m)"⟩ ∧
    visualizeArea perimeter field (some []) = .error .indexError := by
  have ha : (if perimeter.length > 0 then do
      let p0 ← pyGet perimeter 0
      let (x, y) ← unzip2 (perimeter ++ [p0])
      let m ← plotLine x y "g" ""
      return [m]
    else return [] : Py (List (Mark K))) = .ok (if perimeter = [] then [] else [.line (closed perimeter) "g" ""]) := by
    by_cases h : perimeter = []
    · subst h; rfl
    · rw [if_pos (List.length_pos_iff.2 h), if_neg h]
      exact closed_line _ h _
  have hb : (if field.length > 0 then do
      let (x, y) ← unzip2 field
      let m ← scatter x y ""
      return [m]
    else return [] : Py (List (Mark K))) = .ok (if field = [] then [] else [.points field ""]) := by
    by_cases h : field = []
    · subst h; rfl
    · rw [if_pos (List.length_pos_iff.2 h), if_neg h]
      unfold unzip2
      rw [if_neg h, Except.ok_bind]
      dsimp only
      rw [scatter_unzip, Except.ok_bind]
      rfl
  unfold visualizeArea
  simp only [ha, hb, Except.ok_bind]
  refine ⟨?_, ?_, rfl⟩
  · show Except.ok _ = _
    simp
  · have := closed_line zone hz "r"
    rw [this, Except.ok_bind]
    rfl

theorem zfill3_inj {i j : ℕ} (h : zfill3 i = zfill3 j) : i = j := by
  have key : ∀ n : ℕ, Nat.ofDigitChars 10 (zfill3 n).toList 0 = n := by
    intro n
    unfold zfill3
    rw [String.toList_ofList, Nat.ofDigitChars_append, Nat.ofDigitChars_replicate_zero]
    simp
  rw [← key i, ← key j, h]

/-- The file of picture number `i`. -/
def pictureFile (folder : List String) (i : ℕ) : File := (folder, zfill3 i ++ ".png")

/-- C112: the name of picture number `i`: the number in decimal, with zeros in front up to three digits, and `.png`. -/
theorem C112_names (folder : List String) (i : ℕ) :
    (pictureFile folder i).1 = folder ∧ ∃ (zeros : ℕ) (name : String),
      (pictureFile folder i).2 = name ++ ".png" ∧
      name = String.ofList (List.replicate zeros '0') ++ toString i ∧
      name.length = max 3 (toString i).length := by
  refine ⟨rfl, 3 - (toString i).length, zfill3 i, rfl, ?_, ?_⟩
  · apply String.toList_inj.1
    unfold zfill3
    rw [String.toList_ofList, String.toList_append, String.toList_ofList]
  · unfold zfill3
    rw [← String.length_toList, String.toList_ofList, List.length_append, List.length_replicate, String.length_toList]
    omega

theorem pictureFile_inj {folder : List String} {i j : ℕ} (h : pictureFile folder i = pictureFile folder j) : i = j := by
  apply zfill3_inj
  have h1 := congrArg (fun f : File => f.2.toList) h
  simp only [pictureFile, String.toList_append] at h1
  exact String.toList_inj.1 (List.append_cancel_right h1)

theorem domainLoop_eq (render : Fig K → String) (folder : List String) (fields : List (List (K × K))) :
    ∀ (k : ℕ) (d : Disk), d.dirs folder = true →
      (∀ i, d.dirs (folder ++ [(pictureFile folder i).2]) = false) →
      ∃ d', domainLoop render folder (fields.zipIdx k) d =
          (if [] ∈ fields then .error .valueError else .ok (), d') ∧ d'.dirs = d.dirs ∧
        (∀ j f, (fields.takeWhile (fun l => decide (l ≠ [])))[j]? = some f →
          d'.files (pictureFile folder (k + j)) = some (render (fieldPicture f))) ∧
        ∀ g, (∀ j < (fields.takeWhile (fun l => decide (l ≠ []))).length, g ≠ pictureFile folder (k + j)) →
          d'.files g = d.files g := by
  induction fields with
  | nil =>
    intro k d _ _
    exact ⟨d, rfl, rfl, by simp, by simp⟩
  | cons f fields ih =>
    intro k d hd hn
    rw [List.zipIdx_cons]
    unfold domainLoop
    by_cases hf : f = []
    · subst hf
      have h1 : domainStep render folder (([] : List (K × K)), k) d = (.error .valueError, d) := by
        unfold domainStep
        have e1 : (St.lift (unzip2 (([] : List (K × K)), k).1) : St Disk _) d = (.error .valueError, d) := rfl
        rw [St.bind_error e1]
      rw [St.bind_error h1]
      exact ⟨d, by simp, rfl, by simp, by simp⟩
    · have h1 : domainStep render folder (f, k) d =
          (.ok (), d.put (pictureFile folder k) (render (fieldPicture f))) := by
        unfold domainStep
        have e1 : (St.lift (unzip2 (f, k).1) : St Disk _) d = (.ok f.unzip, d) := by
          rw [show unzip2 (f, k).1 = .ok f.unzip from if_neg hf]
          rfl
        have e2 : (St.lift (scatter f.unzip.1 f.unzip.2 "") : St Disk _) d = (.ok (.points f ""), d) := by
          rw [scatter_unzip]
          rfl
        rw [St.bind_ok e1]
        dsimp only
        rw [St.bind_ok e2]
        exact dumpTo_ok hd (hn k) rfl
      rw [St.bind_ok h1]
      obtain ⟨d', e1, e2, e3, e4⟩ := ih (k + 1) (d.put (pictureFile folder k) (render (fieldPicture f))) hd hn
      have htw : (f :: fields).takeWhile (fun l => decide (l ≠ [])) =
          f :: fields.takeWhile (fun l => decide (l ≠ [])) := by simp [hf]
      refine ⟨d', ?_, e2, ?_, ?_⟩
      · rw [e1]
        simp [Ne.symm hf]
      · intro j f' hj
        rw [htw] at hj
        cases j with
        | zero =>
          obtain rfl : f = f' := by simpa using hj
          rw [Nat.add_zero, e4 _ (fun j _ h => by have := pictureFile_inj h; omega)]
          simp [Disk.put]
        | succ j =>
          have := e3 j f' (by simpa using hj)
          rwa [show k + (j + 1) = k + 1 + j by omega]
      · intro g hg
        rw [htw] at hg
        rw [e4 g (fun j hj => by
          have := hg (j + 1) (by simpa using hj)
          rwa [show k + (j + 1) = k + 1 + j by omega] at this)]
        exact if_neg (hg 0 (by simp))

/-- C112: `visualize_domain(domain, folder)`, unless a file is in the way of the folder or a directory in the way of a
picture: it raises ValueError if some field is empty and else returns.  In both cases the picture of every field before
the first empty one is in the file with its number, and no other file is changed: so pictures with higher numbers that
were there before stay. -/
theorem C112_domain {d : Disk} (h : d.Good) (render : Fig K → String) (domain : List (List (K × K)))
    (folder : List String) (hb : ∀ q n, q ++ [n] <+: folder → d.files (q, n) = none)
    (hn : ∀ i, d.dirs (folder ++ [(pictureFile folder i).2]) = false) :
    ((visualizeDomain render domain folder d).1 = if [] ∈ domain then .error .valueError else .ok ()) ∧
    (visualizeDomain render domain folder d).2.dirs folder = true ∧
    (∀ i f, domain[i]? = some f → (∀ f' ∈ domain.take (i + 1), f' ≠ []) →
      (visualizeDomain render domain folder d).2.files (pictureFile folder i) = some (render (fieldPicture f))) ∧
    ∀ g, (∀ i < domain.length, g ≠ pictureFile folder i) →
      (visualizeDomain render domain folder d).2.files g = d.files g := by
  obtain ⟨a1, -, a3⟩ := C111_directory h folder
  obtain ⟨d1, hr, hd1, hn1, hfiles⟩ : ∃ d1, createIfNot folder d = (.ok (), d1) ∧ d1.dirs folder = true ∧
      (∀ i, d1.dirs (folder ++ [(pictureFile folder i).2]) = false) ∧ d1.files = d.files := by
    by_cases hp : d.dirs folder = true
    · exact ⟨d, a1 (.inl hp), hp, hn, rfl⟩
    · obtain ⟨b1, b2, b3⟩ := a3 (by simpa using hp) hb
      refine ⟨_, Prod.ext b1 rfl, (b3 _).2 (.inr List.prefix_rfl), fun i => ?_, b2⟩
      rw [Bool.eq_false_iff]
      intro h1
      rcases (b3 _).1 h1 with h2 | h2
      · rw [hn i] at h2; cases h2
      · have := h2.length_le
        simp at this
  obtain ⟨d', e1, e2, e3, e4⟩ := domainLoop_eq render folder domain 0 d1 hd1 hn1
  have hv : visualizeDomain render domain folder d = (if [] ∈ domain then .error .valueError else .ok (), d') := by
    unfold visualizeDomain
    rw [St.bind_ok hr]
    exact e1
  rw [hv]
  refine ⟨rfl, by rw [e2]; exact hd1, fun i f hi hne => ?_, fun g hg => ?_⟩
  · have := e3 i f ?_
    · simpa using this
    · have hlt : i < domain.length := by
        by_contra hcon
        rw [List.getElem?_eq_none (by omega)] at hi
        cases hi
      have hsplit : domain.takeWhile (fun l => decide (l ≠ [])) =
          domain.take (i + 1) ++ (domain.drop (i + 1)).takeWhile (fun l => decide (l ≠ [])) := by
        conv_lhs => rw [← List.take_append_drop (i + 1) domain]
        rw [List.takeWhile_append_of_pos]
        intro l hl
        simpa using hne l hl
      rw [hsplit, List.getElem?_append_left (by simp; omega), List.getElem?_take_of_lt (by omega), hi]
  · rw [e4 g fun j hj => by
      rw [Nat.zero_add]
      exact hg j (hj.trans_le ((List.takeWhile_sublist _).length_le)), hfiles]

/-- What is drawn for the curve stored for a height: the curve over the logarithmic times, and at its end the ratio of
spacing to height. -/
def curveMarks [FloorRing K] (num4 : K → String) (db : GF.DB K) (last : K) (q : K × List K) (end_ : K) : List (Mark K) :=
  [.line (db.logTime.zip q.2) "" (toString (pyInt db.B) ++ "/" ++ toString (pyInt q.1)),
   .text (num4 (db.B / q.1)) (last - 4 / 10, if q.1 = 8 then end_ - 5 else end_ + 1)]

theorem pyGet_last (l : List K) (v : K) (h : l.getLast? = some v) : pyGet l (-1) = .ok v := by
  obtain ⟨l', rfl⟩ : ∃ l', l = l' ++ [v] := by
    rw [List.getLast?_eq_some_iff] at h
    obtain ⟨l', rfl⟩ := h
    exact ⟨l', rfl⟩
  unfold pyGet
  have : ((-1 : ℤ) + ((l' ++ [v]).length : ℤ)) = l'.length := by simp
  simp only [show (-1 : ℤ) < 0 by norm_num, if_true, this]
  simp

theorem gStep_fits [FloorRing K] (num4 : K → String) (db : GF.DB K) (last : K) (hlast : db.logTime.getLast? = some last)
    (marks : List (Mark K)) (q : K × List K) (hlen : q.2.length = db.logTime.length) :
    gStep num4 db marks q = if q.1 = 0 then .error .zeroDivisionError else
      .ok (marks ++ curveMarks num4 db last q (q.2.getLast?.getD 0)) := by
  have hne : q.2 ≠ [] := by
    intro h
    rw [h] at hlen
    have : db.logTime = [] := List.length_eq_zero_iff.1 hlen.symm
    rw [this] at hlast
    cases hlast
  obtain ⟨e, he⟩ : ∃ e, q.2.getLast? = some e := by
    rw [List.getLast?_eq_some_getLast hne]
    exact ⟨_, rfl⟩
  unfold gStep plotLine
  rw [if_pos hlen.symm, Except.ok_bind, pyGet_last _ _ hlast, Except.ok_bind, pyGet_last _ _ he, Except.ok_bind]
  by_cases h0 : q.1 = 0
  · rw [if_pos h0, h0, pyDiv_zero]
    rfl
  · rw [if_neg h0, pyDiv_ok h0, Except.ok_bind, he]
    unfold curveMarks
    split <;> rfl

theorem gStep_other [FloorRing K] (num4 : K → String) (db : GF.DB K) (marks : List (Mark K)) (q : K × List K)
    (hlen : q.2.length ≠ db.logTime.length) : gStep num4 db marks q = .error .valueError := by
  unfold gStep plotLine
  rw [if_neg (Ne.symm hlen)]
  rfl

/-- C112: `visualize_g_functions` of a database whose curves have one value per time, for heights other than 0, draws
every stored curve once, the one stored last first. -/
theorem C112_curves [FloorRing K] (num4 : K → String) (db : GF.DB K) (last : K) (hlast : db.logTime.getLast? = some last)
    (hlen : ∀ q ∈ db.g, q.2.length = db.logTime.length) (hH : ∀ q ∈ db.g, q.1 ≠ 0) :
    visualizeGFunctions num4 db = .ok ⟨.text "B/H" (275 / 100, 135) ::
        db.g.reverse.flatMap (fun q => curveMarks num4 db last q (q.2.getLast?.getD 0)),
      "ln(t/t$_s$)", "g-function"⟩ := by
  have key : ∀ (l : List (K × List K)) (marks : List (Mark K)), (∀ q ∈ l, q ∈ db.g) →
      l.foldlM (gStep num4 db) marks = .ok (marks ++ l.flatMap fun q => curveMarks num4 db last q (q.2.getLast?.getD 0)) := by
    intro l
    induction l with
    | nil => intro marks _; simp
    | cons q l ih =>
      intro marks hl
      have hq := hl q (by simp)
      rw [List.foldlM_cons, gStep_fits num4 db last hlast marks q (hlen q hq), if_neg (hH q hq), Except.ok_bind,
        ih _ fun q hq => hl q (by simp [hq])]
      simp
  unfold visualizeGFunctions
  rw [key _ _ (by simp), Except.ok_bind]
  rfl

/-- C112: but curves for different heights with the same whole metres have the same name in the legend. -/
theorem C112_legend [FloorRing K] [IsStrictOrderedRing K] (num4 : K → String) (db : GF.DB K) (last e e' : K) (q q' : K × List K)
    (h : 0 ≤ q.1) (h' : 0 ≤ q'.1) (hf : ⌊q.1⌋ = ⌊q'.1⌋) :
    ∃ p p' name t t', curveMarks num4 db last q e = [.line p "" name, t] ∧
      curveMarks num4 db last q' e' = [.line p' "" name, t'] :=
  ⟨_, _, _, _, _, rfl, by
    unfold curveMarks
    rw [show pyInt q'.1 = pyInt q.1 by unfold pyInt; rw [if_pos h, if_pos h', hf]]⟩

/-- C112: a curve whose length is not that of the times raises ValueError, wherever it is stored, unless a curve stored
after it is for the height 0 (or there are no times at all). -/
theorem C112_mismatch [FloorRing K] (num4 : K → String) (db : GF.DB K) (hne : db.logTime ≠ []) (q : K × List K)
    (before after : List (K × List K)) (hg : db.g = before ++ q :: after) (hq : q.2.length ≠ db.logTime.length)
    (h0 : ∀ q' ∈ after, q'.1 ≠ 0) : visualizeGFunctions num4 db = .error .valueError := by
  obtain ⟨last, hlast⟩ : ∃ last, db.logTime.getLast? = some last := by
    rw [List.getLast?_eq_some_getLast hne]
    exact ⟨_, rfl⟩
  have key : ∀ (l : List (K × List K)) (marks : List (Mark K)), (∀ q' ∈ l, q'.1 ≠ 0) →
      (l ++ q :: before.reverse).foldlM (gStep num4 db) marks = .error .valueError := by
    intro l
    induction l with
    | nil => intro marks _; rw [List.nil_append, List.foldlM_cons, gStep_other _ _ _ _ hq]; rfl
    | cons a l ih =>
      intro marks hl
      rw [List.cons_append, List.foldlM_cons]
      by_cases ha : a.2.length = db.logTime.length
      · rw [gStep_fits num4 db last hlast marks a ha, if_neg (hl a (by simp)), Except.ok_bind]
        exact ih _ fun q' h => hl q' (by simp [h])
      · rw [gStep_other _ _ _ _ ha]
        rfl
  unfold visualizeGFunctions
  rw [hg, List.reverse_append, List.reverse_cons, List.append_assoc, List.singleton_append,
    key _ _ (by simpa using h0)]
  rfl

/-- C112: a curve for the height 0 raises ZeroDivisionError, if the curves stored from it on have one value per time. -/
theorem C112_zero_height [FloorRing K] (num4 : K → String) (db : GF.DB K) (hne : db.logTime ≠ []) (c : List K)
    (before after : List (K × List K)) (hg : db.g = before ++ (0, c) :: after)
    (hlen : ∀ q ∈ (0, c) :: after, q.2.length = db.logTime.length) :
    visualizeGFunctions num4 db = .error .zeroDivisionError := by
  obtain ⟨last, hlast⟩ : ∃ last, db.logTime.getLast? = some last := by
    rw [List.getLast?_eq_some_getLast hne]
    exact ⟨_, rfl⟩
  have key : ∀ (l : List (K × List K)) (marks : List (Mark K)), (∀ q' ∈ l, q'.2.length = db.logTime.length) →
      (l ++ (0, c) :: before.reverse).foldlM (gStep num4 db) marks = .error .zeroDivisionError := by
    intro l
    induction l with
    | nil =>
      intro marks _
      rw [List.nil_append, List.foldlM_cons, gStep_fits num4 db last hlast marks (0, c) (hlen _ (by simp)), if_pos rfl]
      rfl
    | cons a l ih =>
      intro marks hl
      rw [List.cons_append, List.foldlM_cons, gStep_fits num4 db last hlast marks a (hl a (by simp))]
      split
      · rfl
      · rw [Except.ok_bind]
        exact ih _ fun q' h => hl q' (by simp [h])
  unfold visualizeGFunctions
  rw [hg, List.reverse_append, List.reverse_cons, List.append_assoc, List.singleton_append,
    key _ _ (by intro q' h; exact hlen q' (by simp at h; simp [h]))]
  rfl

/-! ### examples -/

example : visualizeArea [((0 : ℚ), 0), (9, 0), (9, 5)] [(1, 1), (2, 1)] (some [(3, 3), (4, 3), (4, 4)]) = .ok ⟨
    [.line [(0, 0), (9, 0), (9, 5), (0, 0)] "g" "", .points [(1, 1), (2, 1)] "",
      .line [(3, 3), (4, 3), (4, 4), (3, 3)] "r" ""], "x (m)", "y (m)"⟩ :=
  (C112_area _ _ _ (by decide)).2.1

/-- an empty field among the candidates: the pictures before it are drawn, then there is a ValueError -/
example (render : Fig ℚ → String) :
    (visualizeDomain render [[(0, 0)], [(0, 0), (5, 0)], [], [(1, 1)]] ["out"] exDisk).1 = .error .valueError ∧
    (visualizeDomain render [[(0, 0)], [(0, 0), (5, 0)], [], [(1, 1)]] ["out"] exDisk).2.files (["out"], "001.png") =
      some (render (fieldPicture [(0, 0), (5, 0)])) ∧
    (visualizeDomain render [[(0, 0)], [(0, 0), (5, 0)], [], [(1, 1)]] ["out"] exDisk).2.files ([], "notes") =
      some "hello" := by
  obtain ⟨h1, -, h2, h3⟩ := C112_domain exDisk_good render [[((0 : ℚ), (0 : ℚ))], [(0, 0), (5, 0)], [], [(1, 1)]] ["out"]
    (by
      intro q n hq
      show (if (q, n) = ([], "notes") then some "hello" else none) = none
      rw [if_neg]
      rintro e
      cases e
      obtain ⟨t, ht⟩ := hq
      simp at ht)
    (by
      intro i
      simp [exDisk, pictureFile])
  refine ⟨by rw [h1]; simp, ?_, ?_⟩
  · have := h2 1 [(0, 0), (5, 0)] rfl (by decide +kernel)
    rwa [show pictureFile ["out"] 1 = (["out"], "001.png") by decide +kernel] at this
  · rw [h3 _ (by intro i _; simp [pictureFile])]
    decide +kernel

/-- two curves with the same name: heights 100 and 100.5 -/
example : visualizeGFunctions (K := ℚ) (fun _ => "b/h") 
      { B := 5, rb := [], D := [], g := [(100, [1, 3]), (201 / 2, [2, 4])], logTime := [-4, 0], locations := [(0, 0)] } = .ok ⟨
    [.text "B/H" (275 / 100, 135), .line [(-4, 2), (0, 4)] "" "5/100", .text "b/h" (0 - 4 / 10, 4 + 1),
      .line [(-4, 1), (0, 3)] "" "5/100", .text "b/h" (0 - 4 / 10, 3 + 1)], "ln(t/t$_s$)", "g-function"⟩ := by
  rw [C112_curves _ _ 0 rfl (by simp) (by simp)]
  have h5 : toString (pyInt (5 : ℚ)) = "5" := by decide +kernel
  have h1 : toString (pyInt (100 : ℚ)) = "100" := by decide +kernel
  have h2 : toString (pyInt (201 / 2 : ℚ)) = "100" := by decide +kernel
  simp only [List.reverse_cons, List.reverse_nil, List.nil_append, List.cons_append, List.flatMap_cons, List.flatMap_nil,
    curveMarks, h5, h1, h2]
  norm_num
  decide

/-- a curve too short, stored first: the two others are drawn before the ValueError -/
example (num4 : ℚ → String) : visualizeGFunctions num4
      { B := 5, rb := [], D := [], g := [(50, [7]), (100, [1, 3]), (150, [2, 4])], logTime := [-4, 0],
        locations := [(0, 0)] } = .error .valueError :=
  C112_mismatch _ _ (by simp) (50, [7]) [] [(100, [1, 3]), (150, [2, 4])] rfl (by simp) (by simp)

/-- a curve for the height 0 -/
example (num4 : ℚ → String) : visualizeGFunctions num4
      { B := 5, rb := [], D := [], g := [(50, [7]), (0, [1, 3]), (150, [2, 4])], logTime := [-4, 0],
        locations := [(0, 0)] } = .error .zeroDivisionError :=
  C112_zero_height _ _ (by simp) [1, 3] [(50, [7])] [(150, [2, 4])] rfl (by simp)

/-- the curves of 100.0 m and of 100.5 m have the same name in the legend -/
example (num4 : ℚ → String) : ∃ p p' name t t',
    curveMarks num4 { B := 5, rb := [], D := [], g := [(100, [1, 3]), (201 / 2, [2, 4])], logTime := [-4, 0], locations := [(0, 0)] } 0
      (100, [1, 3]) 3 = [.line p "" name, t] ∧
    curveMarks num4 { B := 5, rb := [], D := [], g := [(100, [1, 3]), (201 / 2, [2, 4])], logTime := [-4, 0], locations := [(0, 0)] } 0
      (201 / 2, [2, 4]) 4 = [.line p' "" name, t'] :=
  C112_legend num4 _ 0 3 4 (100, [1, 3]) (201 / 2, [2, 4]) (by norm_num) (by norm_num) (by norm_num)

end Ghedt.Plots
