import Verif.Lemmas.Alike
import Verif.Spec.Warm

/-!
# What a warmer ground changes
-/

namespace Ghedt.Warm
open Ghedt.GHE Ghedt.Bhe Ghedt.Whole Ghedt.Utilities Ghedt.WholeSearch Ghedt.Ground Ghedt.Alike

noncomputable section

theorem stepAt_warm (th : Thermal ℝ) (Q t : List ℝ) (Tg c : ℝ) (i : ℤ) :
    stepAt th Q t (Tg + c) i = (stepAt th Q t Tg i).map (Prod.map (Option.map (· + c)) id) := by
  have hb : ∀ {α β : Type} (a : α) (k : α → Py β), (Except.ok a >>= k) = k a := fun _ _ => rfl
  unfold stepAt
  dsimp only
  cases pyGet (0 :: t) i with
  | error e => rfl
  | ok ti =>
    simp only [hb]
    cases List.mapM (m := Py) (fun τ => th.answer (ti - τ)) (List.take i.toNat (0 :: t)) with
    | error e => rfl
    | ok gv =>
      simp only [hb]
      split_ifs
      · rfl
      · cases pyGet (0 :: Q.map (· / th.nbh)) i with
        | error e => rfl
        | ok q =>
          show Except.ok _ = Except.ok _
          congr 1
          show (_, _) = (_, _)
          congr 1
          simp only [Option.map_map]
          congr 1
          funext x
          simp only [Function.comp]
          ring

theorem simulateDetailed_warm (c : ℝ) (th : Thermal ℝ) (Q t : List ℝ) :
    simulateDetailed (thermal (· + c) th) Q t = (simulateDetailed th Q t).map (Prod.map (temps c) id) := by
  have h1 : simulateDetailed (thermal (· + c) th) Q t = ((pyRange 1 ((Q.length : ℤ) + 1)).mapM (stepAt th Q t (th.Tg + c)) >>=
      fun out => pure (out.map Prod.fst, out.map Prod.snd)) := rfl
  have h2 : simulateDetailed th Q t = ((pyRange 1 ((Q.length : ℤ) + 1)).mapM (stepAt th Q t th.Tg) >>=
      fun out => pure (out.map Prod.fst, out.map Prod.snd)) := rfl
  rw [h1, h2, mapM_map _ (stepAt_warm th Q t th.Tg c)]
  cases List.mapM (stepAt th Q t th.Tg) (pyRange 1 ((Q.length : ℤ) + 1)) with
  | error e => rfl
  | ok out =>
    show Except.ok _ = Except.ok _
    simp [temps, Function.comp_def]

/-- comparing is not changed by adding the same to both -/
theorem gt_warm (c : ℝ) (x y : Num ℝ) : Num.gt (x.map (· + c)) (y.map (· + c)) = Num.gt x y := by
  cases x <;> cases y <;> simp [Num.gt]

theorem number_warm (c : ℝ) (x : Num ℝ) : Num.number (x.map (· + c)) = (Num.number x).map (· + c) := by
  cases x <;> rfl

theorem maxNumber_warm (c : ℝ) (l : List (Num ℝ)) : maxNumber (temps c l) = (maxNumber l).map (· + c) := by
  cases l with
  | nil => rfl
  | cons a l =>
    show Num.number ((temps c l).foldl _ (a.map (· + c))) = _
    have : ∀ (l : List (Num ℝ)) (a : Num ℝ), (temps c l).foldl (fun m x => if Num.gt x m then x else m) (a.map (· + c)) =
        (l.foldl (fun m x => if Num.gt x m then x else m) a).map (· + c) := by
      intro l
      induction l with
      | nil => intro a; rfl
      | cons b l ih =>
        intro a
        simp only [temps, List.map_cons, List.foldl_cons, gt_warm] at ih ⊢
        rw [← ih]
        congr 1
        split <;> rfl
    rw [this, number_warm]
    rfl

theorem minNumber_warm (c : ℝ) (l : List (Num ℝ)) : minNumber (temps c l) = (minNumber l).map (· + c) := by
  cases l with
  | nil => rfl
  | cons a l =>
    show Num.number ((temps c l).foldl _ (a.map (· + c))) = _
    have : ∀ (l : List (Num ℝ)) (a : Num ℝ), (temps c l).foldl (fun m x => if Num.gt m x then x else m) (a.map (· + c)) =
        (l.foldl (fun m x => if Num.gt m x then x else m) a).map (· + c) := by
      intro l
      induction l with
      | nil => intro a; rfl
      | cons b l ih =>
        intro a
        simp only [temps, List.map_cons, List.foldl_cons, gt_warm] at ih ⊢
        rw [← ih]
        congr 1
        split <;> rfl
    rw [this, number_warm]
    rfl

theorem cost_warm (c a b x y : ℝ) : cost (a + c) (b + c) (x + c) (y + c) = cost a b x y := by
  simp only [cost]; congr 1 <;> ring

theorem objects (c : ℝ) : Objects (env c) :=
  ⟨fun _ => rfl, fun _ _ => rfl, fun _ => rfl, fun _ => rfl, fun _ => rfl, fun _ => rfl, fun _ => rfl, fun _ => rfl, fun _ => rfl,
    fun _ => rfl⟩

theorem commutes_simulate (e : Whole.Env) (c : ℝ) (method : String) :
    Commutes Proper (state c) (Prod.map (· + c) (· + c)) (Whole.simulate e method) (Whole.simulate (env c e) method) := by
  unfold Whole.simulate
  refine Commutes.bind (commutes_prepare (ft := temps c) (fd := id) (objects c) e) fun th => Commutes.bind (Commutes.same _)
    fun q => Commutes.bind (Commutes.lift (simulateDetailed_warm c th _ _)) fun r =>
    Commutes.bind (Commutes.modify (fun s _ => rfl) fun s hs => hs) fun _ =>
    Commutes.bind (Commutes.lift (maxNumber_warm c _)) fun hi => Commutes.bind (Commutes.lift (minNumber_warm c _)) fun lo =>
    Commutes.pure _ rfl

theorem finishGhe_warm (p : Problem) (c B : ℝ) (db : GF.DB ℝ) (a : UTube × Exchanger) :
    finishGhe (problem c p) B db (Prod.map (tube (· + c)) (exchanger (· + c)) a) = (finishGhe p B db a).map (held c) := by
  have h1 : radialTube p.ext (tube (· + c) a.1) = radialTube p.ext a.1 := rfl
  unfold finishGhe
  simp only [problem, Prod.map_fst, Prod.map_snd, h1]
  cases Radial.calcSts p.solve (radialTube p.ext a.1) none false p.fuel with
  | error e => rfl
  | ok sts =>
    show (GL.splitHeatAndCool p.hourly "W" >>= _) = Except.map _ (GL.splitHeatAndCool p.hourly "W" >>= _)
    cases GL.splitHeatAndCool p.hourly "W" with
    | error e => rfl
    | ok l =>
      show (GL.mkHybrid _ l.1 l.2 p.startMonth p.endMonth 2019 >>= _) =
        Except.map _ (GL.mkHybrid _ l.1 l.2 p.startMonth p.endMonth 2019 >>= _)
      cases GL.mkHybrid _ l.1 l.2 p.startMonth p.endMonth 2019 <;> rfl

/-- The searches take the same course. -/
theorem same {p : Problem} {c : ℝ} (hgf : ∀ m d f H rb D, p.gf m (media (· + c) d) f H rb D = p.gf m d f H rb D) :
    Same p (problem c p) (· + c) (env c) (temps c) id (Prod.map (· + c) (· + c)) where
  objects := objects c
  flow := rfl
  V := rfl
  media := rfl
  borehole := rfl
  method := rfl
  maxIter := rfl
  minHeight := rfl
  maxHeight := rfl
  fmt := rfl
  toFloat := rfl
  gf := hgf
  gfOther := fun _ _ _ _ _ _ _ => rfl
  ext := rfl
  brent := rfl
  finish := finishGhe_warm p c
  simulate := fun e m => commutes_simulate e c m
  cost := fun _ _ => cost_warm c _ _ _ _

end

end Ghedt.Warm
