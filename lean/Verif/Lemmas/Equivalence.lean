import Verif.Model.Equivalence
import Verif.Props.GroundHeatExchangers
import Verif.Props.Pipes

/-!
# Lemmas on the equivalence of borehole heat exchangers
-/

set_option linter.unusedSectionVars false

namespace Ghedt.Bhe
open Real Ghedt.GHE

noncomputable section

/-- what a root finder ends with on an objective without exceptions -/
def outcome (f : ℝ → ℝ) : Finder ℝ → Py ℝ
  | .done x => .ok x
  | .fail e => .error e
  | .ask x next => outcome f (next (f x))

/-- run of a root finder on an objective that overwrites the state -/
theorem run_overwrite {σ : Type} (f : ℝ → ℝ) (S : ℝ → σ) (obj : ℝ → St σ ℝ)
    (h : ∀ x y, obj y (S x) = (.ok (f y), S y)) (p : Finder ℝ) (x : ℝ) :
    p.run obj (S x) = (outcome f p, S ((asked f p).getLast?.getD x)) := by
  induction p generalizing x with
  | done y => rfl
  | fail e => rfl
  | ask y next ih =>
    show ((obj y >>= fun v => (next v).run obj) (S x)) = _
    rw [St.bind_ok (h x y), ih]
    show _ = (outcome f (next (f y)), S (((y :: asked f (next (f y)))).getLast?.getD x))
    rw [List.getLast?_cons]
    rfl

theorem signNp_eq (v : ℝ) : signNp v =
    if v = 0 then .error .valueError else if 0 < v then .ok 1 else .ok (-1) := by
  unfold signNp
  rw [signDiv_eq]
  split <;> simp_all

/-- `solve_root` on an objective that overwrites the state. -/
theorem solveRootNp_overwrite {σ : Type} (brent : ℝ → ℝ → Finder ℝ) (x0 lo hi : ℝ) (f : ℝ → ℝ)
    (S : ℝ → σ) (obj : ℝ → St σ ℝ) (s : σ) (h0 : ∀ y, obj y s = (.ok (f y), S y))
    (h : ∀ x y, obj y (S x) = (.ok (f y), S y)) :
    (f lo = 0 ∨ f hi = 0 → solveRootNp brent x0 obj lo hi s = (.error .valueError, S hi)) ∧
    (f lo * f hi < 0 → solveRootNp brent x0 obj lo hi s =
      (outcome f (brent lo hi), S ((asked f (brent lo hi)).getLast?.getD hi))) ∧
    (f lo < 0 → f hi < 0 → solveRootNp brent x0 obj lo hi s = (.ok hi, S hi)) ∧
    (0 < f lo → 0 < f hi → solveRootNp brent x0 obj lo hi s = (.ok lo, S hi)) := by
  have hrun : solveRootNp brent x0 obj lo hi s = (do
      let minusSign ← St.lift (signNp (f lo))
      let plusSign ← St.lift (signNp (f hi))
      if plusSign ≠ minusSign then (brent lo hi).run obj
      else if plusSign = -1 ∧ minusSign = -1 then return hi
      else if plusSign = 1 ∧ minusSign = 1 then return lo
      else return x0 : St σ ℝ) (S hi) := by
    unfold solveRootNp
    rw [St.bind_ok (h0 lo), St.bind_ok (h lo hi)]
  rw [hrun]
  refine ⟨?_, ?_, ?_, ?_⟩
  · rintro (h1 | h1)
    · rw [signNp_eq (f lo), if_pos h1]; rfl
    · by_cases h' : f lo = 0
      · rw [signNp_eq (f lo), if_pos h']; rfl
      · rw [signNp_eq (f lo), signNp_eq (f hi), if_neg h', if_pos h1]
        split <;> rfl
  · intro h1
    rw [← run_overwrite f S obj h]
    rcases mul_neg_iff.1 h1 with ⟨h1, h2⟩ | ⟨h1, h2⟩
    · rw [signNp_eq, signNp_eq, if_neg h1.ne', if_neg h2.ne, if_pos h1, if_neg (not_lt.2 h2.le)]
      rfl
    · rw [signNp_eq, signNp_eq, if_neg h1.ne, if_neg h2.ne', if_neg (not_lt.2 h1.le), if_pos h2]
      rfl
  · intro h1 h2
    rw [signNp_eq, signNp_eq, if_neg h1.ne, if_neg h2.ne, if_neg (not_lt.2 h1.le),
      if_neg (not_lt.2 h2.le)]
    rfl
  · intro h1 h2
    rw [signNp_eq, signNp_eq, if_neg h1.ne', if_neg h2.ne', if_pos h1, if_pos h2]
    rfl

/-! ### the tube after an update -/

/-- convective resistance of one pipe, from the present flow and fluid -/
def convRes (ext : Ext) (t : UTube) : ℝ :=
  1 / (ext.hPipe t.mPipe t.pipe.rIn t.fluid t.pipe.eps * 2 * π * t.pipe.rIn)

/-- the tube with all its resistances recomputed -/
def refresh (ext : Ext) (t : UTube) : UTube :=
  { t with
    hf := ext.hPipe t.mPipe t.pipe.rIn t.fluid t.pipe.eps
    Rp := rConduction t.pipe.rIn t.pipe.rOut t.pipe.k
    Rf := convRes ext t
    circuit := { t.circuit with Rfp := convRes ext t + rConduction t.pipe.rIn t.pipe.rOut t.pipe.k } }

/-- effective borehole resistance of a tube as it is -/
def rbOf (ext : Ext) (t : UTube) : ℝ := ext.rbStar t.circuit t.b t.mBorehole t.fluid.cp

theorem updateThermal_eq (ext : Ext) (m : Option ℝ) (fl : Option Fluid) (t : UTube) :
    updateThermal ext m fl t =
      (.ok (rbOf ext (refresh ext { t with mBorehole := m.getD t.mBorehole, fluid := fl.getD t.fluid })),
        refresh ext { t with mBorehole := m.getD t.mBorehole, fluid := fl.getD t.fluid }) := rfl

theorem updateThermal_none (ext : Ext) (t : UTube) :
    updateThermal ext none none t = (.ok (rbOf ext (refresh ext t)), refresh ext t) := rfl

theorem updateThermalMultiple_eq (ext : Ext) (m : Option ℝ) (fl : Option Fluid) (t : UTube) :
    updateThermalMultiple ext m fl t = updateThermal ext m fl t := rfl

theorem refresh_refresh (ext : Ext) (t : UTube) : refresh ext (refresh ext t) = refresh ext t := rfl

theorem computeEffective_none (ext : Ext) (t : UTube) :
    computeEffective ext none none t = (.ok (rbOf ext t), t) := rfl

/-- the tube after the pipe conductivity was set to `k` -/
def withK (ext : Ext) (t : UTube) (k : ℝ) : UTube := refresh ext { t with pipe := { t.pipe with k := k } }

/-- the tube after the grout conductivity was set to `k` -/
def withKg (ext : Ext) (t : UTube) (k : ℝ) : UTube :=
  refresh ext { t with circuit := { t.circuit with kg := k }, grout := { t.grout with k := k } }

theorem pipeObjective_eq (ext : Ext) (target k : ℝ) (t : UTube) :
    pipeObjective ext target k t =
      (.ok (convRes ext t + rConduction t.pipe.rIn t.pipe.rOut k - target), withK ext t k) := rfl

theorem withK_withK (ext : Ext) (t : UTube) (a b : ℝ) : withK ext (withK ext t a) b = withK ext t b := rfl
theorem withKg_withKg (ext : Ext) (t : UTube) (a b : ℝ) :
    withKg ext (withKg ext t a) b = withKg ext t b := rfl

theorem groutObjective_eq {ρ : Type} (ext : Ext) (refRb : St ρ ℝ) (ref : ρ) (R k : ℝ) (t : UTube)
    (h : refRb ref = (.ok R, ref)) :
    groutObjective ext refRb k (ref, t) = (.ok (R - rbOf ext (withKg ext t k)), (ref, withKg ext t k)) := by
  unfold groutObjective
  dsimp only
  rw [updateThermal_none]
  dsimp only
  rw [h]
  rfl

/-- The search for the pipe conductivity, with everything it can end in. -/
theorem equivalentSingle_eq (ext : Ext) (brent : ℝ → ℝ → Finder ℝ) (c : Common) (v : Volumes) (t : UTube)
    (ht : initialTube ext c v = .ok t) (f : ℝ → ℝ)
    (hf : f = fun k => convRes ext t + rConduction t.pipe.rIn t.pipe.rOut k - (v.Rconv + v.Rpipe)) :
    (f (t.pipe.k / 100) = 0 ∨ f (t.pipe.k * 10) = 0 →
      equivalentSingle ext brent c v = .error .valueError) ∧
    (f (t.pipe.k / 100) * f (t.pipe.k * 10) < 0 → equivalentSingle ext brent c v =
      (outcome f (brent (t.pipe.k / 100) (t.pipe.k * 10))).bind fun _ =>
        .ok (withK ext t ((asked f (brent (t.pipe.k / 100) (t.pipe.k * 10))).getLast?.getD
          (t.pipe.k * 10)))) ∧
    (0 < f (t.pipe.k / 100) * f (t.pipe.k * 10) →
      equivalentSingle ext brent c v = .ok (withK ext t (t.pipe.k * 10))) := by
  obtain ⟨h1, h2, h3, h4⟩ := solveRootNp_overwrite brent t.pipe.k (t.pipe.k / 100) (t.pipe.k * 10) f
    (withK ext t) (pipeObjective ext (v.Rconv + v.Rpipe)) t
    (by intro y; rw [pipeObjective_eq, hf]) (by intro x y; rw [pipeObjective_eq, hf]; rfl)
  have hun : equivalentSingle ext brent c v =
      match (do
        let _ ← solveRootNp brent t.pipe.k (pipeObjective ext (v.Rconv + v.Rpipe)) (t.pipe.k / 100)
          (t.pipe.k * 10)
        updateThermal ext none none : St UTube ℝ) t with
      | (.ok _, t') => .ok t'
      | (.error e, _) => .error e := by
    unfold equivalentSingle
    rw [ht, Except.ok_bind]
    rfl
  rw [hun]
  refine ⟨?_, ?_, ?_⟩
  · intro h
    rw [St.bind_error (h1 h)]
  · intro h
    have h2' := h2 h
    generalize outcome f _ = r at h2' ⊢
    cases r with
    | error e => rw [St.bind_error h2']; rfl
    | ok x => rw [St.bind_ok h2']; rfl
  · intro h
    rcases mul_pos_iff.1 h with ⟨a, b⟩ | ⟨a, b⟩
    · rw [St.bind_ok (h4 a b)]; rfl
    · rw [St.bind_ok (h3 a b)]; rfl

/-- Whatever happens, a tube that is returned is the initial one with some pipe conductivity. -/
theorem equivalentSingle_form (ext : Ext) (brent : ℝ → ℝ → Finder ℝ) (c : Common) (v : Volumes) (t' : UTube)
    (h : equivalentSingle ext brent c v = .ok t') :
    ∃ t k, initialTube ext c v = .ok t ∧ t' = withK ext t k := by
  have h0 := h
  unfold equivalentSingle at h0
  rw [bind_eq_ok] at h0
  obtain ⟨t, ht, -⟩ := h0
  refine ⟨t, ?_⟩
  obtain ⟨h1, h2, h3⟩ := equivalentSingle_eq ext brent c v t ht _ rfl
  rcases lt_trichotomy ((convRes ext t + rConduction t.pipe.rIn t.pipe.rOut (t.pipe.k / 100) -
      (v.Rconv + v.Rpipe)) * (convRes ext t + rConduction t.pipe.rIn t.pipe.rOut (t.pipe.k * 10) -
      (v.Rconv + v.Rpipe))) 0 with hs | hs | hs
  · have := h2 hs
    rw [h] at this
    generalize outcome _ _ = r at this
    cases r with
    | error e => cases this
    | ok x => cases this; exact ⟨_, ht, rfl⟩
  · have := h1 (mul_eq_zero.1 hs)
    rw [h] at this; cases this
  · have := h3 hs
    rw [h] at this; cases this; exact ⟨_, ht, rfl⟩

/-- The search for the grout conductivity, with everything it can end in. -/
theorem matchResistance_eq {ρ : Type} (ext : Ext) (brent : ℝ → ℝ → Finder ℝ) (refRb : St ρ ℝ) (ref : ρ)
    (R : ℝ) (t : UTube) (hR : refRb ref = (.ok R, ref)) (f : ℝ → ℝ)
    (hf : f = fun k => R - rbOf ext (withKg ext t k)) :
    (f (1 / 100) = 0 ∨ f 7 = 0 →
      (matchResistance ext brent refRb (ref, t)).1 = .error .valueError) ∧
    (f (1 / 100) * f 7 < 0 →
      (∃ e, outcome f (brent (1 / 100) 7) = .error e ∧
        (matchResistance ext brent refRb (ref, t)).1 = .error e) ∨
      ∃ k, outcome f (brent (1 / 100) 7) = .ok k ∧
        matchResistance ext brent refRb (ref, t) = (.ok (), (ref, withKg ext t k))) ∧
    (f (1 / 100) < 0 → f 7 < 0 →
      matchResistance ext brent refRb (ref, t) = (.ok (), (ref, withKg ext t 7))) ∧
    (0 < f (1 / 100) → 0 < f 7 →
      matchResistance ext brent refRb (ref, t) = (.ok (), (ref, withKg ext t (1 / 100)))) := by
  obtain ⟨h1, h2, h3, h4⟩ := solveRootNp_overwrite brent t.grout.k (1 / 100) 7 f
    (fun k => (ref, withKg ext t k)) (groutObjective ext refRb) (ref, t)
    (by intro y; rw [groutObjective_eq ext refRb ref R y t hR, hf])
    (by intro x y; rw [groutObjective_eq ext refRb ref R y _ hR, hf]; rfl)
  unfold matchResistance
  simp only [St.get_bind]
  refine ⟨?_, ?_, ?_, ?_⟩
  · intro h; rw [St.bind_error (h1 h)]
  · intro h
    have h2' := h2 h
    generalize outcome f _ = r at h2' ⊢
    cases r with
    | error e => left; exact ⟨e, rfl, by rw [St.bind_error h2']⟩
    | ok x => right; exact ⟨x, rfl, by rw [St.bind_ok h2']; rfl⟩
  · intro a b; rw [St.bind_ok (h3 a b)]; rfl
  · intro a b; rw [St.bind_ok (h4 a b)]; rfl

theorem matchResistance_form {ρ : Type} (ext : Ext) (brent : ℝ → ℝ → Finder ℝ) (refRb : St ρ ℝ) (ref : ρ)
    (R : ℝ) (t : UTube) (hR : refRb ref = (.ok R, ref)) (s : ρ × UTube)
    (h : matchResistance ext brent refRb (ref, t) = (.ok (), s)) :
    ∃ k, s = (ref, withKg ext t k) := by
  obtain ⟨h1, h2, h3, h4⟩ := matchResistance_eq ext brent refRb ref R t hR _ rfl
  rcases lt_trichotomy (R - rbOf ext (withKg ext t (1 / 100))) 0 with a | a | a
  · rcases lt_trichotomy (R - rbOf ext (withKg ext t 7)) 0 with b | b | b
    · have := h3 a b; rw [h] at this; cases this; exact ⟨_, rfl⟩
    · have := h1 (Or.inr b); rw [h] at this; cases this
    · rcases h2 (mul_neg_of_neg_of_pos a b) with ⟨e, -, he⟩ | ⟨k, -, hk⟩
      · rw [h] at he; cases he
      · rw [h] at hk; cases hk; exact ⟨_, rfl⟩
  · have := h1 (Or.inl a); rw [h] at this; cases this
  · rcases lt_trichotomy (R - rbOf ext (withKg ext t 7)) 0 with b | b | b
    · rcases h2 (mul_neg_of_pos_of_neg a b) with ⟨e, -, he⟩ | ⟨k, -, hk⟩
      · rw [h] at he; cases he
      · rw [h] at hk; cases hk; exact ⟨_, rfl⟩
    · have := h1 (Or.inr b); rw [h] at this; cases this
    · have := h4 a b; rw [h] at this; cases this; exact ⟨_, rfl⟩

/-- The initial tube in closed form. -/
theorem initialTube_eq (ext : Ext) (c : Common) (v : Volumes) :
    ∃ t, initialTube ext c v = .ok t ∧ t.pipe.rIn = √(v.fluid / (2 * π)) ∧
      t.pipe.rOut = √((v.fluid + v.pipe) / (2 * π)) ∧
      t.pipe.s = (fitBorehole c.b.rb (√((v.fluid + v.pipe) / (2 * π)))).2 / 3 ∧
      t.b = { c.b with rb := (fitBorehole c.b.rb (√((v.fluid + v.pipe) / (2 * π)))).1 } ∧
      t.pipe.pos = [(-(t.pipe.s / 2 + t.pipe.rOut), 0), (t.pipe.s / 2 + t.pipe.rOut, 0)] ∧
      t.pipe.k = log (t.pipe.rOut / t.pipe.rIn) / (2 * π * 2 * v.Rpipe) ∧
      t.pipe.eps = c.eps ∧ t.pipe.rhoCp = c.rhoCp ∧ t.mBorehole = c.m ∧ t.mPipe = c.m ∧
      t.fluid = c.fluid ∧ t.grout = c.grout ∧ t.soil = c.soil ∧
      t.circuit.pos = t.pipe.pos ∧ t.circuit.rIn = t.pipe.rIn ∧ t.circuit.rOut = t.pipe.rOut ∧
      t.circuit.ks = c.soil.k ∧ t.circuit.kg = c.grout.k ∧ t.circuit.nPipes = 1 ∧
      t.circuit.config = none := by
  unfold initialTube
  dsimp only
  obtain ⟨p, q, hpq, rfl, rfl, -⟩ := C75_legs
    ((fitBorehole c.b.rb (√((v.fluid + v.pipe) / (2 * π)))).2 / 3) (√((v.fluid + v.pipe) / (2 * π)))
  rw [hpq, Except.ok_bind]
  unfold mkSingle mkUTube
  rw [show massFlowRatePipe c.m none = .ok c.m from (C83_flow c.m none).1 (Or.inl rfl), Except.ok_bind]
  exact ⟨_, rfl, rfl, rfl, rfl, rfl, rfl, rfl, rfl, rfl, rfl, rfl, rfl, rfl, rfl, rfl, rfl, rfl, rfl, rfl,
    rfl, rfl⟩

end

end Ghedt.Bhe
