import Verif.Model.Report
import Verif.Lemmas.WholeGhe

/-!
# Printing and exporting an exchanger: lemmas
-/

set_option linter.unusedSectionVars false

namespace Ghedt.Report
open Real Ghedt.GHE Ghedt.Bhe Ghedt.Radial Ghedt.Whole

noncomputable section

variable {env : Whole.Env} {lo hi : ℝ} {x : Exchanger}

/-- asking for the g-function changes nothing but the interpolation table -/
theorem grabG_state (q : ℝ) (s : Whole.State) :
    (grabG env q s).2 = { s with table := (GF.request env.spl env.db q "default" s.table).2 } := by
  unfold grabG
  rcases hr : requestG env q s with ⟨r, s'⟩
  have hs' : s' = { s with table := (GF.request env.spl env.db q "default" s.table).2 } := by
    unfold requestG at hr
    exact (Prod.mk.inj hr).2.symm
  cases r with
  | error e => rw [St.bind_error hr, hs']
  | ok a =>
    rw [St.bind_ok hr, St.get_bind]
    cases hc : GF.radiusCorrection log a.g a.rb (borehole s'.bhe).rb with
    | error e => rw [St.lift_error rfl, hs']
    | ok c => rw [St.lift_ok rfl, hs']; rfl

theorem report_state (tx : Text) (s : Whole.State) : (report tx env s).2 = s ∨
    (report tx env s).2 = { s with table :=
      (GF.request env.spl env.db (env.bSpacing / (borehole s.bhe).H) "default" s.table).2 } := by
  unfold report
  rw [St.get_bind]
  cases h1 : results tx env s with
  | error e => rw [St.lift_error rfl]; exact Or.inl rfl
  | ok t =>
    rw [St.lift_ok rfl]
    cases h2 : (pyRange 0 env.db.locations.length).mapM (fun i : ℤ => pyGet env.db.locations i) with
    | error e => rw [St.lift_error rfl]; exact Or.inl rfl
    | ok p =>
      rw [St.lift_ok rfl]
      cases h3 : pyDiv env.bSpacing (borehole s.bhe).H with
      | error e => rw [St.lift_error rfl]; exact Or.inl rfl
      | ok q =>
        rw [St.lift_ok rfl]
        have hq : q = env.bSpacing / (borehole s.bhe).H := by
          unfold pyDiv at h3
          split at h3
          · cases h3
          · cases h3; rfl
        subst hq
        right
        have hg := grabG_state (env := env) (env.bSpacing / (borehole s.bhe).H) s
        rcases hr : grabG env (env.bSpacing / (borehole s.bhe).H) s with ⟨r, s'⟩
        rw [hr] at hg
        cases r with
        | error e => rw [St.bind_error hr]; exact hg
        | ok p =>
          obtain ⟨a, b⟩ := p
          rw [St.bind_ok hr]
          dsimp only
          cases Export.reprPairs a b with
          | error e => rw [St.lift_error rfl]; exact hg
          | ok _ => rw [St.lift_ok rfl]; exact hg

theorem oakRidge_state (sel : List (ℝ × ℝ)) (s : Whole.State) : (oakRidge sel env s).2 = s ∨
    (oakRidge sel env s).2 = { s with table :=
      (GF.request env.spl env.db (env.bSpacing / (borehole s.bhe).H) "default" s.table).2 } := by
  unfold oakRidge
  rw [St.get_bind]
  cases h3 : pyDiv env.bSpacing (borehole s.bhe).H with
  | error e => rw [St.lift_error rfl]; exact Or.inl rfl
  | ok q =>
    rw [St.lift_ok rfl]
    have hq : q = env.bSpacing / (borehole s.bhe).H := by
      unfold pyDiv at h3
      split at h3
      · cases h3
      · cases h3; rfl
    subst hq
    right
    have hg := grabG_state (env := env) (env.bSpacing / (borehole s.bhe).H) s
    rcases hr : grabG env (env.bSpacing / (borehole s.bhe).H) s with ⟨r, s'⟩
    rw [hr] at hg
    cases r with
    | error e => rw [St.bind_error hr]; exact hg
    | ok p =>
      obtain ⟨a, b⟩ := p
      rw [St.bind_ok hr]
      dsimp only
      cases Export.exportPairs a b with
      | error e => rw [St.lift_error rfl]; exact hg
      | ok _ => rw [St.lift_ok rfl]; exact hg

/-- printing and exporting keep the object in the states it can be in -/
theorem used_of_asked (hk : Known x) (hv : GF.Valid env.db) (hr : GF.Range env.db lo hi) {s s' : Whole.State}
    (hs : Used env lo hi x s) (h : s' = s ∨ s' = { s with table :=
      (GF.request env.spl env.db (env.bSpacing / (borehole s.bhe).H) "default" s.table).2 }) :
    Used env lo hi x s' := by
  rcases h with rfl | rfl
  · exact hs
  · obtain ⟨⟨y, hy, hw⟩, ht⟩ := hs
    refine ⟨⟨y, hy, hw⟩, Or.inr ?_⟩
    dsimp only
    rw [hy, borehole_setHeight hk, request_within hv hr hw s.table ht]

end

end Ghedt.Report
