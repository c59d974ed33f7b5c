import Verif.Lemmas.Alike
import Verif.Lemmas.MirrorLoads

/-!
# What multiplying all loads by a factor changes
-/

namespace Ghedt.Scaled
open Ghedt.GHE Ghedt.Bhe Ghedt.Whole Ghedt.Utilities Ghedt.Alike

noncomputable section

/-- A temperature whose difference from `Tg` is multiplied by `a`. -/
def about (a Tg T : ℝ) : ℝ := Tg + a * (T - Tg)

theorem dot_smul (a : ℝ) (w : List ℝ) (g : List (Num ℝ)) : Num.dot (w.map (a * ·)) g = (Num.dot w g).map (a * ·) := by
  unfold Num.dot Num.dotBy
  split_ifs
  · rfl
  · show some _ = some _
    congr 1
    generalize g.filterMap id = v
    induction w generalizing v with
    | nil => simp
    | cons x w ih =>
      cases v with
      | nil => simp
      | cons b v =>
        simp only [List.map_cons, List.zipWith_cons_cons, List.sum_cons, ih v]
        ring

theorem zipWith_smul (a : ℝ) (l m : List ℝ) : List.zipWith (· - ·) (l.map (a * ·)) (m.map (a * ·)) =
    (List.zipWith (· - ·) l m).map (a * ·) := by
  induction l generalizing m with
  | nil => simp
  | cons x l ih =>
    cases m with
    | nil => simp
    | cons b m =>
      simp only [List.map_cons, List.zipWith_cons_cons, ih m]
      congr 1
      ring

theorem perHole (a : ℝ) (Q : List ℝ) (n : ℝ) : (0 : ℝ) :: (Q.map (a * ·)).map (· / n) = (0 :: Q.map (· / n)).map (a * ·) := by
  simp only [List.map_cons, List.map_map, mul_zero]
  congr 1
  refine List.map_congr_left fun x _ => ?_
  show a * x / n = a * (x / n)
  ring

theorem stepAt_scaled (a : ℝ) (th : Thermal ℝ) (Q t : List ℝ) (Tg : ℝ) (i : ℤ) :
    stepAt th (Q.map (a * ·)) t Tg i =
      (stepAt th Q t Tg i).map (Prod.map (Option.map (about a Tg)) (Option.map (a * ·))) := by
  have hb : ∀ {α β : Type} (a : α) (k : α → Py β), (Except.ok a >>= k) = k a := fun _ _ => rfl
  unfold stepAt
  dsimp only
  rw [perHole]
  generalize ((0 : ℝ) :: Q.map (· / th.nbh)) = Qb
  rw [← List.map_tail, zipWith_smul]
  cases pyGet (0 :: t) i with
  | error e => rfl
  | ok ti =>
    simp only [hb]
    cases List.mapM (m := Py) (fun τ => th.answer (ti - τ)) (List.take i.toNat (0 :: t)) with
    | error e => rfl
    | ok gv =>
      simp only [hb, ← List.map_take, List.map_map]
      have hw : (List.take i.toNat (List.zipWith (· - ·) Qb.tail Qb)).map
          ((fun q => q / th.H / th.twoPiK) ∘ (a * ·)) =
          ((List.take i.toNat (List.zipWith (· - ·) Qb.tail Qb)).map fun q => q / th.H / th.twoPiK).map (a * ·) := by
        rw [List.map_map]
        refine List.map_congr_left fun x _ => ?_
        simp only [Function.comp]
        ring
      rw [hw, dot_smul, List.length_map]
      generalize ((List.take i.toNat (List.zipWith (· - ·) Qb.tail Qb)).map fun q => q / th.H / th.twoPiK) = w
      split_ifs
      · rfl
      · rw [Mirror.pyGet_map]
        cases pyGet Qb i with
        | error e => rfl
        | ok q =>
          show Except.ok _ = Except.ok _
          congr 1
          show (_, _) = (_, _)
          congr 1
          simp only [Option.map_map]
          congr 1
          funext x
          simp only [Function.comp, about]
          ring

theorem simulateDetailed_scaled (a : ℝ) (th : Thermal ℝ) (Q t : List ℝ) :
    simulateDetailed th (Q.map (a * ·)) t =
      (simulateDetailed th Q t).map (Prod.map (List.map (Option.map (about a th.Tg))) (List.map (Option.map (a * ·)))) := by
  have h1 : simulateDetailed th (Q.map (a * ·)) t =
      ((pyRange 1 (((Q.map (a * ·)).length : ℤ) + 1)).mapM (stepAt th (Q.map (a * ·)) t th.Tg) >>=
      fun out => pure (out.map Prod.fst, out.map Prod.snd)) := rfl
  have h2 : simulateDetailed th Q t = ((pyRange 1 ((Q.length : ℤ) + 1)).mapM (stepAt th Q t th.Tg) >>=
      fun out => pure (out.map Prod.fst, out.map Prod.snd)) := rfl
  rw [h1, h2, List.length_map, mapM_map _ (stepAt_scaled a th Q t th.Tg)]
  cases List.mapM (stepAt th Q t th.Tg) (pyRange 1 ((Q.length : ℤ) + 1)) with
  | error e => rfl
  | ok out =>
    show Except.ok _ = Except.ok _
    simp [Function.comp_def]

variable {a : ℝ}

theorem gt_scaled (ha : 0 < a) (Tg : ℝ) (x y : Num ℝ) : Num.gt (x.map (about a Tg)) (y.map (about a Tg)) = Num.gt x y := by
  cases x <;> cases y <;> simp [Num.gt, about, ha]

theorem number_scaled (Tg : ℝ) (x : Num ℝ) : Num.number (x.map (about a Tg)) = (Num.number x).map (about a Tg) := by
  cases x <;> rfl

theorem maxNumber_scaled (ha : 0 < a) (Tg : ℝ) (l : List (Num ℝ)) :
    maxNumber (l.map (Option.map (about a Tg))) = (maxNumber l).map (about a Tg) := by
  cases l with
  | nil => rfl
  | cons b l =>
    show Num.number ((l.map (Option.map (about a Tg))).foldl _ _) = Except.map _ (Num.number (l.foldl _ b))
    have : ∀ (l : List (Num ℝ)) (b : Num ℝ), (l.map (Option.map (about a Tg))).foldl
        (fun m x => if Num.gt x m then x else m) (b.map (about a Tg)) =
        (l.foldl (fun m x => if Num.gt x m then x else m) b).map (about a Tg) := by
      intro l
      induction l with
      | nil => intro b; rfl
      | cons y l ih =>
        intro b
        simp only [List.map_cons, List.foldl_cons, gt_scaled ha] at ih ⊢
        rw [← ih]
        congr 1
        split <;> rfl
    rw [this, number_scaled]

theorem minNumber_scaled (ha : 0 < a) (Tg : ℝ) (l : List (Num ℝ)) :
    minNumber (l.map (Option.map (about a Tg))) = (minNumber l).map (about a Tg) := by
  cases l with
  | nil => rfl
  | cons b l =>
    show Num.number ((l.map (Option.map (about a Tg))).foldl _ _) = Except.map _ (Num.number (l.foldl _ b))
    have : ∀ (l : List (Num ℝ)) (b : Num ℝ), (l.map (Option.map (about a Tg))).foldl
        (fun m x => if Num.gt m x then x else m) (b.map (about a Tg)) =
        (l.foldl (fun m x => if Num.gt m x then x else m) b).map (about a Tg) := by
      intro l
      induction l with
      | nil => intro b; rfl
      | cons y l ih =>
        intro b
        simp only [List.map_cons, List.foldl_cons, gt_scaled ha] at ih ⊢
        rw [← ih]
        congr 1
        split <;> rfl
    rw [this, number_scaled]

/-- The object with all hourly loads multiplied by `a` and any hybrid load. -/
def reloaded (a : ℝ) (load hour : List ℝ) (e : Whole.Env) : Whole.Env :=
  { e with hourly := e.hourly.map (a * ·), load := load, hour := hour }

theorem input_scaled (load hour : List ℝ) (e : Whole.Env) (th : ℝ → Py (Thermal ℝ)) :
    simulationInput (gheEnv (reloaded a load hour e) th) "hourly" =
      (simulationInput (gheEnv e th) "hourly").map (Prod.map (List.map (a * ·)) id) := by
  unfold simulationInput
  rw [if_neg (by decide), if_pos rfl, if_neg (by decide), if_pos rfl]
  show Except.ok _ = Except.ok _
  simp only [gheEnv, reloaded, Prod.map, id, List.map_map]
  congr 2
  rw [← List.map_replicate (f := List.map (a * · : ℝ → ℝ)), ← List.map_flatten, List.map_map]
  refine List.map_congr_left fun x _ => ?_
  simp

/-- where the first half of `simulate` gives the ground temperature `Tg`, the temperatures returned differ from it by `a` times as
much -/
theorem simulate_scaled (ha : 0 < a) (load hour : List ℝ) (e : Whole.Env) (s : Whole.State) (Tg u w : ℝ)
    (hg : ∀ th s', prepare e s = (.ok th, s') → th.Tg = Tg) (h : (Whole.simulate e "hourly" s).1 = .ok (u, w)) :
    (Whole.simulate (reloaded a load hour e) "hourly" s).1 = .ok (about a Tg u, about a Tg w) := by
  have hp : prepare (reloaded a load hour e) = prepare e := rfl
  unfold Whole.simulate at h ⊢
  rw [hp]
  rcases h1 : prepare e s with ⟨th | th, s'⟩
  · rw [St.bind_error h1] at h
    cases h
  · rw [St.bind_ok h1] at h ⊢
    have hTg := hg th s' h1
    rw [input_scaled]
    cases h2 : simulationInput (gheEnv e fun _ => .error .valueError) "hourly" with
    | error er => rw [h2] at h; cases h
    | ok q =>
      rw [h2] at h
      change ((St.lift (simulateDetailed th q.1 q.2) >>= _) s').1 = _ at h
      change ((St.lift (simulateDetailed th (q.1.map (a * ·)) q.2) >>= _) s').1 = _
      rw [simulateDetailed_scaled]
      cases h3 : simulateDetailed th q.1 q.2 with
      | error er => rw [h3] at h; cases h
      | ok r =>
        rw [h3] at h
        rw [hTg]
        cases h4 : maxNumber r.1 with
        | error er =>
          exfalso
          change ((St.lift (maxNumber r.1) >>= _) _).1 = _ at h
          rw [h4] at h
          cases h
        | ok hi =>
          cases h5 : minNumber r.1 with
          | error er =>
            exfalso
            change ((St.lift (maxNumber r.1) >>= fun hi => St.lift (minNumber r.1) >>= _) _).1 = _ at h
            rw [h4, h5] at h
            cases h
          | ok lo =>
            change ((St.lift (maxNumber r.1) >>= fun hi => St.lift (minNumber r.1) >>= _) _).1 = _ at h
            rw [h4, h5] at h
            cases h
            change ((St.lift (maxNumber (r.1.map (Option.map (about a Tg)))) >>=
              fun hi => St.lift (minNumber (r.1.map (Option.map (about a Tg)))) >>= _) _).1 = _
            rw [maxNumber_scaled ha, minNumber_scaled ha, h4, h5]
            rfl

end

end Ghedt.Scaled
