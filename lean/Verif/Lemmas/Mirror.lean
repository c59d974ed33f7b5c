import Verif.Lemmas.MirrorLoads
import Verif.Lemmas.WholeMake
import Verif.Spec.Mirror

/-!
# What exchanging heating and cooling changes
-/

namespace Ghedt.Mirror
open Ghedt.GHE Ghedt.Bhe Ghedt.Whole Ghedt.Utilities Ghedt.WholeSearch Ghedt.Ground Ghedt.Alike

noncomputable section

theorem dot_neg (w : List ℝ) (g : List (Num ℝ)) : Num.dot (w.map fun x => -x) g = (Num.dot w g).map fun x => -x := by
  unfold Num.dot Num.dotBy
  split_ifs
  · rfl
  · show some _ = some _
    congr 1
    generalize g.filterMap id = v
    induction w generalizing v with
    | nil => simp
    | cons a w ih =>
      cases v with
      | nil => simp
      | cons b v =>
        simp only [List.map_cons, List.zipWith_cons_cons, List.sum_cons, ih v]
        ring

theorem zipWith_neg (l m : List ℝ) : List.zipWith (· - ·) (l.map fun x => -x) (m.map fun x => -x) =
    (List.zipWith (· - ·) l m).map fun x => -x := by
  induction l generalizing m with
  | nil => simp
  | cons a l ih =>
    cases m with
    | nil => simp
    | cons b m =>
      simp only [List.map_cons, List.zipWith_cons_cons, ih m]
      congr 1
      ring

theorem perHole (Q : List ℝ) (n : ℝ) : (0 : ℝ) :: (loads Q).map (· / n) = (0 :: Q.map (· / n)).map fun x => -x := by
  simp only [loads, List.map_cons, List.map_map, neg_zero]
  congr 1
  refine List.map_congr_left fun x _ => ?_
  show -x / n = -(x / n)
  ring

theorem stepAt_mirror (a : ℝ) (th : Thermal ℝ) (Q t : List ℝ) (Tg : ℝ) (i : ℤ) :
    stepAt th (loads Q) t (a - Tg) i =
      (stepAt th Q t Tg i).map (Prod.map (Option.map (a - ·)) (Option.map fun x => -x)) := by
  have hb : ∀ {α β : Type} (a : α) (k : α → Py β), (Except.ok a >>= k) = k a := fun _ _ => rfl
  unfold stepAt
  dsimp only
  rw [perHole]
  generalize ((0 : ℝ) :: Q.map (· / th.nbh)) = Qb
  rw [← List.map_tail, zipWith_neg]
  cases pyGet (0 :: t) i with
  | error e => rfl
  | ok ti =>
    simp only [hb]
    cases List.mapM (m := Py) (fun τ => th.answer (ti - τ)) (List.take i.toNat (0 :: t)) with
    | error e => rfl
    | ok gv =>
      simp only [hb, ← List.map_take, List.map_map]
      have hw : (List.take i.toNat (List.zipWith (· - ·) Qb.tail Qb)).map
          ((fun q => q / th.H / th.twoPiK) ∘ fun x => -x) =
          ((List.take i.toNat (List.zipWith (· - ·) Qb.tail Qb)).map fun q => q / th.H / th.twoPiK).map fun x => -x := by
        rw [List.map_map]
        refine List.map_congr_left fun x _ => ?_
        simp only [Function.comp]
        ring
      rw [hw, dot_neg, List.length_map]
      generalize ((List.take i.toNat (List.zipWith (· - ·) Qb.tail Qb)).map fun q => q / th.H / th.twoPiK) = w
      split_ifs
      · rfl
      · rw [pyGet_map]
        cases pyGet Qb i with
        | error e => rfl
        | ok q =>
          show Except.ok _ = Except.ok _
          congr 1
          show (_, _) = (_, _)
          congr 1
          simp only [Option.map_map]
          congr 1
          funext x
          simp only [Function.comp]
          ring

theorem simulateDetailed_mirror (a : ℝ) (th : Thermal ℝ) (Q t : List ℝ) :
    simulateDetailed (thermal (a - ·) th) (loads Q) t = (simulateDetailed th Q t).map (Prod.map (temps a) changes) := by
  have h1 : simulateDetailed (thermal (a - ·) th) (loads Q) t =
      ((pyRange 1 (((loads Q).length : ℤ) + 1)).mapM (stepAt th (loads Q) t (a - th.Tg)) >>=
      fun out => pure (out.map Prod.fst, out.map Prod.snd)) := rfl
  have h2 : simulateDetailed th Q t = ((pyRange 1 ((Q.length : ℤ) + 1)).mapM (stepAt th Q t th.Tg) >>=
      fun out => pure (out.map Prod.fst, out.map Prod.snd)) := rfl
  have h3 : (loads Q).length = Q.length := by simp [loads]
  rw [h1, h2, h3, mapM_map _ (stepAt_mirror a th Q t th.Tg)]
  cases List.mapM (stepAt th Q t th.Tg) (pyRange 1 ((Q.length : ℤ) + 1)) with
  | error e => rfl
  | ok out =>
    show Except.ok _ = Except.ok _
    simp [temps, changes, Function.comp_def]

theorem gt_mirror (a : ℝ) (x y : Num ℝ) : Num.gt (x.map (a - ·)) (y.map (a - ·)) = Num.gt y x := by
  cases x <;> cases y <;> simp [Num.gt]

theorem number_mirror (a : ℝ) (x : Num ℝ) : Num.number (x.map (a - ·)) = (Num.number x).map (a - ·) := by
  cases x <;> rfl

theorem maxNumber_mirror (a : ℝ) (l : List (Num ℝ)) : maxNumber (temps a l) = (minNumber l).map (a - ·) := by
  cases l with
  | nil => rfl
  | cons b l =>
    show Num.number ((temps a l).foldl _ _) = Except.map _ (Num.number (l.foldl _ b))
    have : ∀ (l : List (Num ℝ)) (b : Num ℝ), (temps a l).foldl (fun m x => if Num.gt x m then x else m) (b.map (a - ·)) =
        (l.foldl (fun m x => if Num.gt m x then x else m) b).map (a - ·) := by
      intro l
      induction l with
      | nil => intro b; rfl
      | cons y l ih =>
        intro b
        simp only [temps, List.map_cons, List.foldl_cons, gt_mirror] at ih ⊢
        rw [← ih]
        congr 1
        split <;> rfl
    rw [this, number_mirror]

theorem minNumber_mirror (a : ℝ) (l : List (Num ℝ)) : minNumber (temps a l) = (maxNumber l).map (a - ·) := by
  cases l with
  | nil => rfl
  | cons b l =>
    show Num.number ((temps a l).foldl _ _) = Except.map _ (Num.number (l.foldl _ b))
    have : ∀ (l : List (Num ℝ)) (b : Num ℝ), (temps a l).foldl (fun m x => if Num.gt m x then x else m) (b.map (a - ·)) =
        (l.foldl (fun m x => if Num.gt x m then x else m) b).map (a - ·) := by
      intro l
      induction l with
      | nil => intro b; rfl
      | cons y l ih =>
        intro b
        simp only [temps, List.map_cons, List.foldl_cons, gt_mirror] at ih ⊢
        rw [← ih]
        congr 1
        split <;> rfl
    rw [this, number_mirror]

theorem onlyValue_number (x : Num ℝ) : OnlyValue (Num.number x) := by
  cases x with
  | none => intro e h; cases h; rfl
  | some x => exact OnlyValue.ok _

theorem onlyValue_max (l : List (Num ℝ)) : OnlyValue (maxNumber l) := by
  unfold maxNumber
  refine OnlyValue.bind ?_ fun _ _ => onlyValue_number _
  cases l with
  | nil => intro e h; cases h; rfl
  | cons => exact OnlyValue.ok _

theorem onlyValue_min (l : List (Num ℝ)) : OnlyValue (minNumber l) := by
  unfold minNumber
  refine OnlyValue.bind ?_ fun _ _ => onlyValue_number _
  cases l with
  | nil => intro e h; cases h; rfl
  | cons => exact OnlyValue.ok _

/-- The two extremes of the mirrored temperatures. -/
def ends (a : ℝ) (r : ℝ × ℝ) : ℝ × ℝ := (a - r.2, a - r.1)

theorem cost_mirror (a x y hi lo : ℝ) : cost (a - y) (a - x) (a - lo) (a - hi) = cost x y hi lo := by
  simp only [cost]
  rw [max_comm]
  congr 1 <;> ring

theorem input_mirror (a : ℝ) (e : Whole.Env) (th : ℝ → Py (Thermal ℝ)) (method : String) :
    simulationInput (gheEnv (env a e) th) method =
      (simulationInput (gheEnv e th) method).map (Prod.map loads id) := by
  unfold simulationInput
  split_ifs
  · show Except.ok _ = Except.ok _
    simp only [gheEnv, env, loads, ← List.map_drop, List.map_map, Prod.map, id]
    congr 2
    refine List.map_congr_left fun x _ => ?_
    simp
  · show Except.ok _ = Except.ok _
    simp only [gheEnv, env, loads, Prod.map, id, List.map_map]
    congr 2
    rw [← List.map_replicate (f := List.map fun q : ℝ => -q), ← List.map_flatten, List.map_map]
    refine List.map_congr_left fun x _ => ?_
    simp
  · rfl

theorem objects (a : ℝ) : Objects (env a) :=
  ⟨fun _ => rfl, fun _ _ => rfl, fun _ => rfl, fun _ => rfl, fun _ => rfl, fun _ => rfl, fun _ => rfl, fun _ => rfl, fun _ => rfl,
    fun _ => rfl⟩

theorem commutes_simulate (e : Whole.Env) (a : ℝ) (method : String) :
    Commutes Proper (state a) (ends a) (Whole.simulate e method) (Whole.simulate (env a e) method) := by
  unfold Whole.simulate
  refine Commutes.bind (commutes_prepare (ft := temps a) (fd := changes) (objects a) e) fun th =>
    Commutes.bind (Commutes.lift (input_mirror a e _ method))
    fun q => Commutes.bind (Commutes.lift (simulateDetailed_mirror a th _ _)) fun r =>
    Commutes.bind (Commutes.modify (fun s _ => rfl) fun s hs => hs) fun _ => ?_
  intro s hs
  have h1 := onlyValue_max r.1
  have h2 := onlyValue_min r.1
  simp only [Prod.map_fst, maxNumber_mirror, minNumber_mirror]
  rcases e1 : maxNumber r.1 with x | hi <;> rcases e2 : minNumber r.1 with y | lo
  · rw [h1 x e1, h2 y e2]; exact ⟨rfl, hs⟩
  · rw [h1 x e1]; exact ⟨rfl, hs⟩
  · rw [h2 y e2]; exact ⟨rfl, hs⟩
  · exact ⟨rfl, hs⟩

theorem split_mirror (l : List ℝ) :
    GL.splitHeatAndCool (loads l) "W" = (GL.splitHeatAndCool l "W").map Prod.swap := by
  rw [split_eq, split_eq]
  show Except.ok _ = Except.ok _
  simp [loads, Function.comp_def]

theorem finishGhe_mirror (p : Problem) (a B : ℝ) (db : GF.DB ℝ) (x : UTube × Exchanger) :
    finishGhe (problem a p) B db (Prod.map (tube (a - ·)) (exchanger (a - ·)) x) = (finishGhe p B db x).map (held a) := by
  have h1 : radialTube p.ext (tube (a - ·) x.1) = radialTube p.ext x.1 := rfl
  unfold finishGhe
  simp only [problem, Prod.map_fst, Prod.map_snd, h1, split_mirror]
  cases Radial.calcSts p.solve (radialTube p.ext x.1) none false p.fuel with
  | error e => rfl
  | ok sts =>
    rw [split_eq]
    simp only [Except.ok_bind, Except.map, Prod.swap]
    rw [mkHybrid_swap (rejection := (p.hourly.map fun x => max (-x) 0).map (· / 1000))
      (extraction := (p.hourly.map fun x => max x 0).map (· / 1000)) (fun t => OnlyValue.interp1d _ _ _) (by simp)]
    cases GL.mkHybrid _ ((p.hourly.map fun x => max (-x) 0).map (· / 1000)) ((p.hourly.map fun x => max x 0).map (· / 1000))
      p.startMonth p.endMonth 2019 <;> rfl

/-- The searches take the same course. -/
theorem same {p : Problem} {a : ℝ} (hgf : ∀ m d f H rb D, p.gf m (media (a - ·) d) f H rb D = p.gf m d f H rb D) :
    Same p (problem a p) (a - ·) (env a) (temps a) changes (ends a) where
  objects := objects a
  flow := rfl
  V := rfl
  media := rfl
  borehole := rfl
  method := rfl
  maxIter := rfl
  minHeight := rfl
  maxHeight := rfl
  fmt := rfl
  toFloat := rfl
  gf := hgf
  gfOther := fun _ _ _ _ _ _ _ => rfl
  ext := rfl
  brent := rfl
  finish := finishGhe_mirror p a
  simulate := fun e m => commutes_simulate e a m
  cost := fun _ _ => cost_mirror a _ _ _ _

end

end Ghedt.Mirror
