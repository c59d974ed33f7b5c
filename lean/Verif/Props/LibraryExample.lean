import Verif.Props.Library
import Verif.Props.CompareExample

/-!
# Concrete cases for C144
-/

set_option linter.unusedSectionVars false

namespace Ghedt.Library
open Real Ghedt.GHE Ghedt.Bhe Ghedt.Radial Ghedt.Whole Ghedt.Search Ghedt.WholeSearch Ghedt.Utilities Ghedt.Spec
  Ghedt.Network

noncomputable section

/-- two boreholes, five metres apart -/
def exPair : Field := [(0, 0), (5, 0)]

theorem exPair_spacing : boreholeSpacing (3 / 40) exPair = .ok 5 := by
  show Except.ok (max (3 / 40 : ℝ) √((5 - 0) ^ 2 + (0 - 0) ^ 2)) = .ok 5
  have : √((5 - 0 : ℝ) ^ 2 + (0 - 0) ^ 2) = 5 := by
    rw [Real.sqrt_eq_iff_mul_self_eq] <;> norm_num
  rw [this, max_eq_right (by norm_num)]

theorem exPair_live (T t : ℝ) : LiveFine (exTown.limits T t) 5 exPair [50, 75, 100] 50 100 := by
  have hz : SizingFine (exTown.limits T t) exPair := exTown_sizing T t (Five.spacing (.inr ⟨[], rfl⟩))
  refine ⟨by simp [exPair], by norm_num [exPair], by norm_num, by simp, by norm_num, ?_, ?_, ?_, ?_, ?_, ?_, ?_, hz.spline,
    hz.constants, ?_, hz.asked⟩
  · intro a ha b hb hab
    simp only [List.mem_cons, List.not_mem_nil, or_false] at ha hb
    rcases ha with rfl | rfl | rfl <;> rcases hb with rfl | rfl | rfl <;> first | exact absurd rfl hab | norm_num [abs_of_pos, abs_of_neg]
  · intro H hH
    simp only [List.mem_cons, List.not_mem_nil, or_false] at hH
    rcases hH with rfl | rfl | rfl <;> norm_num
  · refine ⟨by simp, by simp, ?_⟩
    intro H hH
    simp only [List.mem_cons, List.not_mem_nil, or_false] at hH
    rcases hH with rfl | rfl | rfl <;> norm_num
  · show (50 : ℝ) < 100
    norm_num
  · exact ⟨le_refl (50 : ℝ), le_refl (100 : ℝ)⟩
  · show (100 : ℝ) ∈ _
    simp
  · intro x hx
    show exProblem.toFloat (exProblem.fmt x) = .ok x
    apply exProblem_text
    have hx' : x ∈ [(5 : ℝ), 3 / 40, 2, 50, 75, 100] := hx
    unfold exNumbers
    simp only [List.mem_cons, List.not_mem_nil, or_false] at hx' ⊢
    tauto
  · intro H hH
    have hH : H ∈ [(50 : ℝ), 100, 100] := hH
    simp only [List.mem_cons, List.not_mem_nil, or_false, or_self] at hH
    refine ⟨exHeightFine _ rfl rfl _ hH, exTown_converts T t _ _ ?_⟩
    rcases hH with rfl | rfl <;> norm_num

/-- the exchanger with other limits -/
theorem make_limits (p : Problem) (T t B : ℝ) (db : GF.DB ℝ) :
    make (p.limits T t) B db = (make p B db).map fun x => x.limits T t := by
  unfold make mkGhe
  show (retrieveFlow p.flow p.V p.media.fluid.rho db.locations.length >>= _) = _
  cases retrieveFlow p.flow p.V p.media.fluid.rho db.locations.length with
  | error e => rfl
  | ok flows =>
    rw [Except.ok_bind, Except.ok_bind]
    show (gheFlow flows.1 p.media.fluid.rho db.locations.length >>= _) =
      Except.map _ (gheFlow flows.1 p.media.fluid.rho db.locations.length >>= _)
    cases gheFlow flows.1 p.media.fluid.rho db.locations.length with
    | error e => rfl
    | ok v =>
      rw [Except.ok_bind, Except.ok_bind]
      dsimp only
      show (makeExchanger p.ext v.2 p.media p.borehole >>= _) = Except.map _ (makeExchanger p.ext v.2 p.media p.borehole >>= _)
      cases makeExchanger p.ext v.2 p.media p.borehole with
      | error e => rfl
      | ok b =>
        rw [Except.ok_bind, Except.ok_bind]
        show (computeEquivalent p.ext p.brent b >>= _) = Except.map _ _
        cases computeEquivalent p.ext p.brent b with
        | error e => rfl
        | ok q =>
          rw [Except.ok_bind, Except.ok_bind]
          show (calcSts p.solve (radialTube p.ext q.1) none false p.fuel >>= _) = Except.map _ _
          cases calcSts p.solve (radialTube p.ext q.1) none false p.fuel with
          | error e => rfl
          | ok sts =>
            rw [Except.ok_bind, Except.ok_bind]
            show (GL.splitHeatAndCool p.hourly "W" >>= _) = Except.map _ _
            cases GL.splitHeatAndCool p.hourly "W" with
            | error e => rfl
            | ok l =>
              rw [Except.ok_bind, Except.ok_bind]
              show (GL.mkHybrid (respOf (radialTube p.ext q.1) sts.1 sts.2.1 sts.2.2) l.1 l.2
                p.startMonth p.endMonth 2019 >>= _) = Except.map _ _
              cases GL.mkHybrid (respOf (radialTube p.ext q.1) sts.1 sts.2.1 sts.2.2) l.1 l.2
                p.startMonth p.endMonth 2019 with
              | error e => rfl
              | ok y => rfl

/-- C144 applies to two boreholes, with the g-functions of 50, 75 and 100 metres and a borehole of 100 metres.  With wide
limits the script prints temperatures within them, the same that a search would find, and the maximum height; and so does the
one that reads the same g-functions from a file. -/
theorem exLibrary : ∃ (T t u w : ℝ) (data : GF.RawDB ℝ),
    live (exTown.limits T t) 5 exPair [50, 75, 100] = .ok ((u, w), 100) ∧ u < T ∧ t < w ∧
      Extremes { exTown.limits T t with method := "hybrid" } exPair 100 u w ∧
      computed (exTown.limits T t) 5 data = .ok 100 := by
  have hp : ∀ T t, PeriodFine { exTown.limits T t with method := "hybrid" } (exTown.limits T t).minHeight ∧
      PeriodFine { exTown.limits T t with method := "hybrid" } (exTown.limits T t).borehole.H := fun T t =>
    ⟨(exTown_period T t _ (le_refl (50 : ℝ))).2, (exTown_period T t _ (show (50 : ℝ) ≤ 100 by norm_num)).2⟩
  obtain ⟨db, y, e, u, w, h1, h2, h3, h4, -⟩ := C144_live (exTown_sensible 0 0) (exPair_live 0 0) (hp 0 0).1 (hp 0 0).2
  obtain ⟨u0, w0, a1, -⟩ := h3 50 (by exact List.mem_cons_self)
  obtain ⟨u1, w1, b1, -⟩ := h3 100 (by exact List.mem_cons_of_mem _ List.mem_cons_self)
  rw [make_limits] at h2
  cases hx : make exTown 5 db with
  | error e => rw [hx] at h2; cases h2
  | ok x =>
  rw [hx] at h2
  cases h2
  let T := max u (max u0 u1) + 1
  let t := min w (min w0 w1) - 1
  have hT : u < T ∧ u0 < T ∧ u1 < T := by
    have := le_max_left u (max u0 u1)
    have := le_max_right u (max u0 u1)
    have := le_max_left u0 u1
    have := le_max_right u0 u1
    refine ⟨?_, ?_, ?_⟩ <;> show _ < max u (max u0 u1) + 1 <;> linarith
  have ht : t < w ∧ t < w0 ∧ t < w1 := by
    have := min_le_left w (min w0 w1)
    have := min_le_right w (min w0 w1)
    have := min_le_left w0 w1
    have := min_le_right w0 w1
    refine ⟨?_, ?_, ?_⟩ <;> show min w (min w0 w1) - 1 < _ <;> linarith
  clear_value T t
  have hm : make (exTown.limits T t) 5 db = .ok (x.limits T t) := by rw [make_limits, hx]; rfl
  have neg : ∀ e : ℝ → ℝ, (∀ H ∈ (exTown.limits T t).minHeight :: (exTown.limits T t).maxHeight ::
      asked e ((exTown.limits T t).brent (exTown.limits T t).minHeight (exTown.limits T t).maxHeight), ∃ u w,
        (Whole.simulate (x.limits T t).env "hybrid" ((x.limits T t).state.at H)).1 = .ok (u, w) ∧
          e H = excess (exTown.limits T t) u w) → 0 < e 50 * e 100 := by
    intro e he
    obtain ⟨v0, z0, c1, c2⟩ := he 50 (by exact List.mem_cons_self)
    obtain ⟨v1, z1, d1, d2⟩ := he 100 (by exact List.mem_cons_of_mem _ List.mem_cons_self)
    have c3 := a1.symm.trans c1
    have d3 := b1.symm.trans d1
    cases c3
    cases d3
    have e0 : e 50 < 0 := by
      rw [c2]
      exact max_lt (sub_neg.2 hT.2.1) (sub_neg.2 ht.2.1)
    have e1 : e 100 < 0 := by
      rw [d2]
      exact max_lt (sub_neg.2 hT.2.2) (sub_neg.2 ht.2.2)
    exact mul_pos_of_neg_of_neg e0 e1
  obtain ⟨db', y', e', u', w', g1, g2, g3, g4, r, g5, g6⟩ := C144_live (exTown_sensible T t) (exPair_live T t) (hp T t).1
    (hp T t).2
  have hdb : db' = db := by
    have := g1.symm.trans h1
    cases this
    rfl
  subst hdb
  rw [hm] at g2
  cases g2
  have huw := h4.symm.trans g4
  cases huw
  have hr : r = .ok 100 := g5.2.1 (neg e' g3)
  subst hr
  obtain ⟨data, hdata⟩ : ∃ data, GF.importDB (exTown.limits T t).toFloat data = .ok db' := by
    have := h1
    unfold GF.computeLive at this
    rw [bind_eq_ok] at this
    obtain ⟨a, -, this⟩ := this
    exact ⟨_, this⟩
  obtain ⟨db2, k1, k2, k3, -⟩ := library_of (exTown_sensible T t) (exPair_live T t)
  have hk : db2 = db' := by
    have := k1.symm.trans g1
    cases this
    rfl
  subst hk
  obtain ⟨y2, e2, l1, l2, l3⟩ := C144_computed (exTown_sensible T t) data hdata k3 (hp T t).1
  rw [hm] at l1
  cases l1
  refine ⟨T, t, u, w, data, g6, hT.1, ht.1, C144_search exPair_spacing u w 100 g6, l3.2.1 (neg e2 l2)⟩

end

end Ghedt.Library
