import Verif.Props.Compare
import Verif.Props.TownExample

/-!
# Scripts that compare exchangers (C143): the concrete case
-/

namespace Ghedt.Compare
open Ghedt.GHE Ghedt.Search Ghedt.WholeSearch Ghedt.Script

noncomputable section

/-- the borehole of the examples -/
def exBore : Bhe.Borehole := exTown.borehole

/-- a design of the building of C106, from a list of fields -/
def exSaved (T t : ℝ) (routine : String) (d : List Field) : Saved := ⟨exTown.limits T t, routine, .flat d⟩

/-- A list of candidates of which the first is too hot and the last is within the limits: a field is found, sized and
reported. -/
theorem exSaved_block {T t : ℝ} {d : List Field} {g : Field} {e : ℝ} {routine : String}
    (hr : routine = "near-square" ∨ routine = "rectangle")
    (hfive : ∀ f ∈ d, Five f ∧ f.Nodup)
    (hnot : ∀ f ∈ d, ∀ H, H = 50 ∨ H = 100 → ¬ Outside (exTown.limits T t) f H 0)
    (hnot' : ∀ f ∈ d, ¬ SizingAtLimit (exTown.limits T t) f)
    (hhot : ∀ H, H = 50 ∨ H = 100 → ∃ e, Outside (exTown.limits T t) [(0, 0)] H e ∧ 0 < e)
    (h0 : d.head? = some [(0, 0)]) (hl : d.getLast? = some g) (hg : Outside (exTown.limits T t) g 100 e) (he : e < 0) :
    ∃ s : Summary, block exBore (exSaved T t routine d) = .ok (s, { exBore with H := s.height }) ∧
      (s.height = 75 ∨ s.height = 100) := by
  set p := exTown.limits T t with hp
  have hbi : routine ≠ "bi-zoned" := by rcases hr with rfl | rfl <;> decide
  have hne : ∀ f ∈ d, f ≠ [] ∧ f.Nodup := fun f hf => by
    obtain ⟨h5, hn⟩ := hfive f hf
    exact ⟨by rcases h5 with rfl | ⟨r, rfl⟩ <;> simp, hn⟩
  have hD : Designable p d := exTown_fine T t fun f hf => (hfive f hf).1.spacing
  obtain ⟨hi0, lo0, hi1, lo1, hi2, lo2, a, b, c, e0, ea, e1, eb, e2, ec, -, -, -, -, t5⟩ :=
    C96_search (p := p) routine hr d [(0, 0)] g h0 hl (hD.usable hne (List.mem_of_mem_head? h0)).1
      (fun f hf => (hD.usable hne hf).2)
  have ha : 0 < a := by
    obtain ⟨u, ⟨x, y, q1, q2⟩, q3⟩ := hhot 50 (.inl rfl)
    obtain ⟨rfl, rfl⟩ := q1.unique e0
    rw [ea, ← q2]; exact q3
  have hb : 0 < b := by
    obtain ⟨u, ⟨x, y, q1, q2⟩, q3⟩ := hhot 100 (.inr rfl)
    obtain ⟨rfl, rfl⟩ := q1.unique e1
    rw [eb, ← q2]; exact q3
  have hc : c < 0 := by
    obtain ⟨x, y, q1, q2⟩ := hg
    obtain ⟨rfl, rfl⟩ := q1.unique e2
    rw [ec, ← q2]; exact he
  have hd : ∃ r, (findDesign p routine (.flat d) {}).1 = .ok r := by
    rcases t5 (mul_pos ha hb) (mul_neg_of_pos_of_neg hb hc) with ⟨k, f, hi, lo, -, -, -, h⟩ | ⟨k, f, hi, lo, -, -, hk, h1, h2, -⟩
    · exact ⟨_, h⟩
    · exact absurd ⟨hi, lo, h1, h2.symm⟩ (hnot f (List.mem_of_getElem? hk) _ (.inr rfl))
  obtain ⟨r, hd⟩ := hd
  rcases hq : findDesign p routine (.flat d) {} with ⟨r', c'⟩
  rw [hq] at hd
  change r' = _ at hd
  subst hd
  obtain ⟨k, f, x, hi, lo, -, hcand, hx, hheld, -⟩ := C93_returned routine hbi (.flat d) c' _ hq
  have hf : f ∈ d := List.mem_of_getElem? hcand
  obtain ⟨g5, gd⟩ := hfive f hf
  obtain ⟨x1, y, hx1, hy, e', a', b', ea', eb', hsim, ho⟩ := C115_size (exTown_sensible T t) (hne f hf).1 gd
    (exTown_sizing T t g5.spacing) "hybrid" (exTown_period T t _ (le_refl (50 : ℝ))).2
  rw [hx] at hx1
  cases hx1
  have hG := computeG_books hheld hy
  have hat : ∀ H, H = 50 ∨ H = 100 → e' H ≠ 0 := by
    intro H hH h
    obtain ⟨u, w, q1, q2⟩ := hsim H (by
      rcases hH with rfl | rfl
      · exact List.mem_cons_self
      · exact List.mem_cons_of_mem _ List.mem_cons_self)
    exact hnot' f hf ⟨x, y, H, u, w, hx, hy, hH, q1, by rw [← q2, h]⟩
  obtain ⟨-, o2, -, o4⟩ := ho [] (by simp) _ rfl
  rw [List.foldl_nil] at o2 o4
  have hsize : ∃ w s', Whole.size y.env "hybrid" y.state = (.ok w, s') ∧
      ((Whole.borehole s'.bhe).H = 75 ∨ (Whole.borehole s'.bhe).H = 100) := by
    rcases lt_trichotomy (a' * b') 0 with h | h | h
    · obtain ⟨w', s', q1, q2, -⟩ := o4 h ((50 + 100) / 2) rfl
      refine ⟨w', s', q1, .inl ?_⟩
      rw [q2]
      show ([((50 : ℝ) + 100) / 2].getLast?).getD 100 = 75
      norm_num
    · rcases mul_eq_zero.1 h with h | h
      · exact absurd (ea'.symm.trans h) (hat 50 (.inl rfl))
      · exact absurd (eb'.symm.trans h) (hat 100 (.inr rfl))
    · obtain ⟨s', q1, q2⟩ := o2 h
      exact ⟨_, s', q1, .inr q2⟩
  obtain ⟨w, st, hw, hH⟩ := hsize
  have hfs : findAndSize { exSaved T t routine d with problem := { (exSaved T t routine d).problem with borehole := exBore } } {} =
      (.ok r, { c' with held := some ⟨y.env, st⟩ }) := by
    show findAndSize ⟨p, routine, .flat d⟩ {} = _
    unfold findAndSize
    dsimp only
    rw [St.bind_ok hq, St.bind_ok hG, St.bind_ok (s' := { c' with held := some ⟨y.env, st⟩ }) (a := w) (by
      unfold onHeld
      dsimp only
      rw [hw])]
    rfl
  refine ⟨_, by rw [block, hfs], hH⟩

/-- C143 applies: a script with two designs of the building on one borehole object; both are found and sized,
and in either order what is printed about each is what a script with it alone prints. -/
theorem exCompare : ∃ i j : Saved, i.candidates ≠ j.candidates ∧ i.routine ≠ j.routine ∧ ∃ s s' : Summary,
    compare exBore [i] = ([s], none) ∧ compare exBore [j] = ([s'], none) ∧
    compare exBore [i, j] = ([s, s'], none) ∧ compare exBore [j, i] = ([s', s], none) ∧
    (compare exBore [j, i]).1.Perm (compare exBore [i, j]).1 ∧
    ∃ (p : Problem) (k : ℤ) (f : Field) (c' : WholeSearch.State), p = { i.problem with borehole := exBore } ∧
      findDesign p i.routine i.candidates {} = (.ok (some (k, f)), c') ∧
      50 ≤ s.height ∧ s.height ≤ 100 ∧ s.boreholes = f.length ∧ s.drilling = s.height * f.length := by
  obtain ⟨N, T, t, n, -, -, -, -, -, hfive, -, -, -, -, -, hnot, hnot', hhot, d, g, e, hd, h0, hl, hg, he⟩ := exTownDesign_limits
  have hmem : ∀ f ∈ d, f ∈ n.flatten := fun f hf => List.mem_flatten.2 ⟨d, hd, hf⟩
  have hgd : g ∈ d := List.mem_of_getLast? hl
  have hg1 : g ≠ [(0, 0)] := by
    rintro rfl
    obtain ⟨u, ⟨x, y, q1, q2⟩, q3⟩ := hhot 100 (.inr rfl)
    obtain ⟨x', y', q4, q5⟩ := hg
    obtain ⟨rfl, rfl⟩ := q1.unique q4
    linarith
  have h0d : [(0, 0)] ∈ d := List.mem_of_mem_head? h0
  -- the candidates as they are, with the last field once more; and the first and the last field only
  have hsub1 : ∀ f ∈ d ++ [g], f ∈ n.flatten := by
    intro f hf
    rcases List.mem_append.1 hf with hf | hf
    · exact hmem f hf
    · rw [List.mem_singleton.1 hf]; exact hmem g hgd
  have hsub2 : ∀ f ∈ [[(0, 0)], g], f ∈ n.flatten := by
    intro f hf
    rcases List.mem_pair.1 hf with rfl | rfl
    · exact hmem _ h0d
    · exact hmem _ hgd
  obtain ⟨s, hs, hH⟩ := exSaved_block (T := T) (t := t) (d := d ++ [g]) (g := g) (routine := "near-square") (.inl rfl)
    (fun f hf => hfive f (hsub1 f hf)) (fun f hf => hnot f (hsub1 f hf)) (fun f hf => hnot' f (hsub1 f hf)) hhot
    (by cases d with
      | nil => cases h0
      | cons a d => exact h0) (by simp) hg he
  obtain ⟨s', hs', hH'⟩ := exSaved_block (T := T) (t := t) (d := [[(0, 0)], g]) (g := g) (routine := "rectangle") (.inr rfl)
    (fun f hf => hfive f (hsub2 f hf)) (fun f hf => hnot f (hsub2 f hf)) (fun f hf => hnot' f (hsub2 f hf)) hhot rfl rfl hg he
  set i := exSaved T t "near-square" (d ++ [g]) with hi
  set j := exSaved T t "rectangle" [[(0, 0)], g] with hj
  have c1 : compare exBore [i] = ([s], none) := by rw [compare_one, hs]
  have c2 : compare exBore [j] = ([s'], none) := by rw [compare_one, hs']
  have hmade : ∀ a ∈ [i, j], ∃ f, ∀ h, Met exBore [i, j] h → Starts exBore a f h := by
    intro a ha
    refine ⟨[(0, 0)], fun h hm => ⟨?_, ?_⟩⟩
    · rcases List.mem_pair.1 ha with rfl | rfl
      · show (d ++ [g]).head? = some [(0, 0)]
        cases d with
        | nil => cases h0
        | cons a d => exact h0
      · rfl
    · have hh : h = 50 ∨ h = 75 ∨ h = 100 := by
        rcases hm with rfl | ⟨k, hk, z, hz, rfl⟩
        · exact .inr (.inr rfl)
        · rcases List.mem_pair.1 hk with rfl | rfl
          · rw [c1, List.mem_singleton] at hz
            subst hz
            exact .inr hH
          · rw [c2, List.mem_singleton] at hz
            subst hz
            exact .inr hH'
      obtain ⟨x, hx⟩ := exTown_fresh T t (.inl rfl) (by simp) hh
      refine ⟨x, ?_⟩
      rcases List.mem_pair.1 ha with rfl | rfl <;> exact hx
  have hok : ∀ a ∈ [i, j], (compare exBore [a]).2 = none := by
    intro a ha
    rcases List.mem_pair.1 ha with rfl | rfl
    · rw [c1]
    · rw [c2]
  have hall := (C143_alone exBore [i, j] hmade).1 hok
  have hback := (C143_alone exBore [j, i] (fun a ha => by
    obtain ⟨f, hf⟩ := hmade a (by rw [List.mem_pair] at ha ⊢; tauto)
    refine ⟨f, fun h hm => hf h ?_⟩
    rcases hm with rfl | ⟨k, hk, z, hz⟩
    · exact .inl rfl
    · exact .inr ⟨k, by rw [List.mem_pair] at hk ⊢; tauto, z, hz⟩)).1 (fun a ha => hok a (by rw [List.mem_pair] at ha ⊢; tauto))
  obtain ⟨k, f, c', y, w, st, r1, -, -, -, r2, r3, r4, r5⟩ := C143_report exBore i
    ⟨show (50 : ℝ) ≤ 100 by norm_num, inside_of_bracketed ((exTown_sensible T t).brent _ _ (show (50 : ℝ) ≤ 100 by norm_num))⟩ _ rfl s c1
  refine ⟨i, j, ?_, (show "near-square" ≠ "rectangle" by decide), s, s', c1, c2, ?_, ?_, (C143_order exBore [i, j] [j, i] (List.Perm.swap _ _ _) hmade hok).1,
    _, k, f, c', rfl, r1, r2, r3, r4, r5⟩
  · intro h
    have h : d ++ [g] = [[(0, 0)], g] := by
      injection h
    have h : d = [[(0, 0)]] := by
      have : d ++ [g] = [[(0, 0)]] ++ [g] := h
      exact List.append_cancel_right this
    rw [h] at hgd
    exact hg1 (List.mem_singleton.1 hgd)
  · rw [hall, List.map_cons, List.map_cons, c1, c2]; rfl
  · rw [hback, List.map_cons, List.map_cons, c1, c2]; rfl

end

end Ghedt.Compare
