import Verif.Lemmas.Scaling
import Verif.Spec.Sizing
import Verif.Props.WholeSize
import Verif.Props.CoaxialExample

/-!
# How sized heights compare (C138)
-/

set_option linter.unusedSectionVars false

namespace Ghedt.Whole
open Real Ghedt.GHE Ghedt.Bhe Ghedt.Radial Ghedt.Spec Ghedt.Scaled

noncomputable section

theorem lastAsked_eq (e : ℝ → ℝ) (d : ℝ) (F : Finder ℝ) : lastAsked e d F = (asked e F).getLast?.getD d := by
  induction F generalizing d with
  | done x => rfl
  | fail x => rfl
  | ask x next ih =>
    unfold lastAsked asked
    rw [ih (e x) x, List.getLast?_cons]
    rfl

theorem run_returns (env : GheEnv ℝ) (method : String) (f : ℝ → ℝ) {lo hi : ℝ}
    (hf : ∀ H, lo ≤ H → H ≤ hi → Excess env method H (f H)) (p : Finder ℝ) (hp : Inside lo hi p)
    (s s' : GheState ℝ) (r : ℝ) (h : p.run (GHE.localObjective env method) s = (.ok r, s')) : Returns f p := by
  induction hp generalizing s s' r with
  | done x => trivial
  | fail e => cases h
  | ask x next hx1 hx2 _ ih =>
    unfold Finder.run at h
    obtain ⟨s1, h1, -⟩ := hf x hx1 hx2 s
    rw [St.bind_ok h1] at h
    exact ih (f x) s1 s' r h

variable {env : Env} {lo hi : ℝ} {x : Exchanger} {s0 : State} {method : String} {δ : ℝ}

/-- how far outside the limits the temperatures are -/
def beyond (env : Env) (u w : ℝ) : ℝ := max (u - env.maxEFT) (env.minEFT - w)

theorem beyond_nonpos (env : Env) (u w : ℝ) : beyond env u w ≤ 0 ↔ u ≤ env.maxEFT ∧ env.minEFT ≤ w := by
  unfold beyond
  rw [max_le_iff, sub_nonpos, sub_nonpos]

theorem beyond_neg (env : Env) (u w : ℝ) : beyond env u w < 0 ↔ u < env.maxEFT ∧ env.minEFT < w := by
  unfold beyond
  rw [max_lt_iff, sub_neg, sub_neg]

/-- the function whose root sizing looks for -/
theorem simulates_function (h : Simulates env method s0) : ∃ e : ℝ → ℝ, ∀ H, env.minHeight ≤ H → H ≤ env.maxHeight →
    (∃ u w, Gives env method s0 H u w ∧ e H = beyond env u w) ∧ (e H ≤ 0 ↔ WithinAt env method s0 H) ∧
    (e H < 0 ↔ InsideAt env method s0 H) := by
  classical
  have key : ∀ H, ∃ v, env.minHeight ≤ H → H ≤ env.maxHeight → ∃ u w, Gives env method s0 H u w ∧ v = beyond env u w := by
    intro H
    by_cases hH : env.minHeight ≤ H ∧ H ≤ env.maxHeight
    · obtain ⟨u, w, hu⟩ := h H hH.1 hH.2
      exact ⟨_, fun _ _ => ⟨u, w, hu, rfl⟩⟩
    · exact ⟨0, fun a b => absurd ⟨a, b⟩ hH⟩
  choose e he using key
  refine ⟨e, fun H h1 h2 => ?_⟩
  obtain ⟨u, w, hu, hv⟩ := he H h1 h2
  have same : ∀ {u' w'}, Gives env method s0 H u' w' → u' = u ∧ w' = w := by
    intro u' w' h'
    have := h'.symm.trans hu
    cases this
    exact ⟨rfl, rfl⟩
  refine ⟨⟨u, w, hu, hv⟩, ?_, ?_⟩
  · rw [hv, beyond_nonpos]
    constructor
    · exact fun h => ⟨u, w, hu, h⟩
    · rintro ⟨u', w', h', k⟩
      obtain ⟨rfl, rfl⟩ := same h'
      exact k
  · rw [hv, beyond_neg]
    constructor
    · exact fun h => ⟨u, w, hu, h⟩
    · rintro ⟨u', w', h', k⟩
      obtain ⟨rfl, rfl⟩ := same h'
      exact k

/-- sizing with the same sign at both bounds -/
theorem size_same_sign (hc : Covered env lo hi x s0) (hlt : env.minHeight < env.maxHeight) (ops : List Op)
    (hops : ∀ y, Op.height y ∈ ops → Within env lo hi y) {u0 w0 u1 w1 : ℝ} (h0 : Gives env method s0 env.minHeight u0 w0)
    (h1 : Gives env method s0 env.maxHeight u1 w1) (hz : 0 < beyond env u0 w0 * beyond env u1 w1) :
    ∃ s', size env method (ops.foldl (perform env) s0) = (.ok [.notDeepEnough], s') ∧ (borehole s'.bhe).H = env.maxHeight := by
  have href := (C89_refinement hc ops hops method _ rfl _ rfl).2
  obtain ⟨s', q1, q2⟩ := C44_no_sign_change env.brent (gheEnv env fun z => (prepare env (s0.at z)).1) method hlt _ _
    (WholeSearch.excess_of hc method _ (hc.bounds _ le_rfl hlt.le) u0 w0 h0)
    (WholeSearch.excess_of hc method _ (hc.bounds _ hlt.le le_rfl) u1 w1 h1) hz (view (ops.foldl (perform env) s0))
  rw [href] at q1
  rcases hr : Whole.size env method (ops.foldl (perform env) s0) with ⟨r, t⟩
  rw [hr] at q1
  cases q1
  exact ⟨t, rfl, q2⟩

/-- sizing, in terms of that function -/
theorem size_cases (hc : Covered env lo hi x s0) (hlt : env.minHeight < env.maxHeight) (ops : List Op)
    (hops : ∀ y, Op.height y ∈ ops → Within env lo hi y) (e : ℝ → ℝ)
    (he : ∀ H, env.minHeight ≤ H → H ≤ env.maxHeight → ∃ u w, Gives env method s0 H u w ∧ e H = beyond env u w) :
    (0 < e env.minHeight * e env.maxHeight → ∃ s', size env method (ops.foldl (perform env) s0) = (.ok [.notDeepEnough], s') ∧
      (borehole s'.bhe).H = env.maxHeight) ∧
    ∀ w s', size env method (ops.foldl (perform env) s0) = (.ok w, s') →
      e env.minHeight ≠ 0 ∧ e env.maxHeight ≠ 0 ∧
      (e env.minHeight * e env.maxHeight < 0 → Returns e (env.brent env.minHeight env.maxHeight) ∧
        (borehole s'.bhe).H = lastAsked e env.maxHeight (env.brent env.minHeight env.maxHeight)) := by
  have href := (C89_refinement hc ops hops method _ rfl _ rfl).2
  set E := gheEnv env fun z => (prepare env (s0.at z)).1 with hE
  generalize hst : ops.foldl (perform env) s0 = st at *
  have hf : ∀ H, E.minHeight ≤ H → H ≤ E.maxHeight → Excess E method H (e H) := by
    intro H a1 a2
    obtain ⟨u, v, q1, q2⟩ := he H a1 a2
    rw [q2]
    exact WholeSearch.excess_of hc method H (hc.bounds H a1 a2) u v q1
  refine ⟨fun hz => ?_, fun w s' hs => ?_⟩
  · obtain ⟨u0, w0, g0, v0⟩ := he _ le_rfl hlt.le
    obtain ⟨u1, w1, g1, v1⟩ := he _ hlt.le le_rfl
    rw [v0, v1] at hz
    exact hst ▸ size_same_sign hc hlt ops hops g0 g1 hz
  · rw [hs] at href
    have h0 : ¬ (e env.minHeight = 0 ∨ e env.maxHeight = 0) := by
      intro h0
      have := C44_exact_bound env.brent E method _ _ (hf _ le_rfl hlt.le) (hf _ hlt.le le_rfl) h0 (view st)
      rw [href] at this
      cases this
    push Not at h0
    refine ⟨h0.1, h0.2, fun hz => ?_⟩
    have hb : Inside E.minHeight E.maxHeight (env.brent E.minHeight E.maxHeight) := hc.finder
    constructor
    · unfold GHE.size at href
      rw [St.modify_bind, St.get_bind, St.bind_eq_ok] at href
      obtain ⟨r, s3, h1, -⟩ := href
      generalize ({ view st with H := (E.maxHeight + E.minHeight) / 2 } : GheState ℝ) = t0 at h1
      obtain ⟨s1, e1, -⟩ := hf E.minHeight le_rfl hlt.le t0
      obtain ⟨s2, e2, -⟩ := hf E.maxHeight hlt.le le_rfl s1
      unfold solveRoot at h1
      simp only [Option.getD_some] at h1
      rw [St.bind_ok e1, St.bind_ok e2, signDiv_eq, signDiv_eq] at h1
      have h2 : (env.brent E.minHeight E.maxHeight).run (GHE.localObjective E method) s2 = (.ok r, s3) := by
        rcases mul_neg_iff.1 hz with ⟨p, q⟩ | ⟨p, q⟩
        · change 0 < e E.minHeight at p
          change e E.maxHeight < 0 at q
          rw [if_neg p.ne', if_neg q.ne, if_pos p, if_neg (not_lt.2 q.le)] at h1
          exact h1
        · change e E.minHeight < 0 at p
          change 0 < e E.maxHeight at q
          rw [if_neg p.ne, if_neg q.ne', if_neg (not_lt.2 p.le), if_pos q] at h1
          exact h1
      exact run_returns E method e hf _ hb _ _ _ h2
    · rw [lastAsked_eq]
      exact C44_last_asked env.brent E method e hlt.le hf hb hz _ _ _ href

/-- somewhere no more than `δ` above and below the sized height the limits are kept and not kept with something to spare -/
theorem size_bracket (hc : Covered env lo hi x s0) (hlt : env.minHeight < env.maxHeight) (hsim : Simulates env method s0)
    (hF : Narrows δ env.minHeight env.maxHeight (env.brent env.minHeight env.maxHeight)) (h0 : 0 ≤ δ)
    (hmin : ¬ WithinAt env method s0 env.minHeight) (ops : List Op) (hops : ∀ y, Op.height y ∈ ops → Within env lo hi y)
    (w : List Warning) (s' : State) (hs : size env method (ops.foldl (perform env) s0) = (.ok w, s')) :
    (∃ l, env.minHeight ≤ l ∧ l ≤ env.maxHeight ∧ (borehole s'.bhe).H ≤ l + δ ∧ l ≤ (borehole s'.bhe).H ∧
      ¬ InsideAt env method s0 l) ∧
    ((borehole s'.bhe).H = env.maxHeight ∧ ¬ WithinAt env method s0 env.maxHeight ∨
      ∃ r, env.minHeight ≤ r ∧ r ≤ env.maxHeight ∧ r ≤ (borehole s'.bhe).H + δ ∧ (borehole s'.bhe).H ≤ r ∧
        WithinAt env method s0 r) := by
  obtain ⟨e, he⟩ := simulates_function hsim
  obtain ⟨c1, c2⟩ := size_cases hc hlt ops hops e fun H a b => (he H a b).1
  obtain ⟨n0, n1, c3⟩ := c2 w s' hs
  have p0 : 0 < e env.minHeight := by
    rw [← not_le, (he _ le_rfl hlt.le).2.1]
    exact hmin
  rcases lt_or_gt_of_ne n1 with p1 | p1
  · obtain ⟨b1, b2⟩ := c3 (mul_neg_of_pos_of_neg p0 p1)
    obtain ⟨l, r, k1, k2, k3, k4, k5, k6, k7, k8⟩ := hF e p0 p1 b1
    rw [← b2] at k7 k8
    refine ⟨⟨l, k1, k2.trans k3, by linarith, k7, ?_⟩, .inr ⟨r, k1.trans k2, k3, by linarith, k8, ?_⟩⟩
    · rw [← (he l k1 (k2.trans k3)).2.2, not_lt]
      exact k5
    · rw [← (he r (k1.trans k2) k3).2.1]
      exact k6
  · obtain ⟨t, d1, d2⟩ := c1 (mul_pos p0 p1)
    rw [hs] at d1
    cases d1
    have ho := not_le.2 p1
    rw [(he _ hlt.le le_rfl).2.1] at ho
    refine ⟨⟨env.maxHeight, hlt.le, le_rfl, by rw [d2]; linarith, d2.ge, fun hn => ho ?_⟩, .inl ⟨d2, ho⟩⟩
    obtain ⟨u, v, i1, i2, i3⟩ := hn
    exact ⟨u, v, i1, i2.le, i3.le⟩

theorem run_ok (env : GheEnv ℝ) (method : String) (f : ℝ → ℝ) {lo hi : ℝ}
    (hf : ∀ H, lo ≤ H → H ≤ hi → Excess env method H (f H)) (p : Finder ℝ) (hp : Inside lo hi p) (h : Returns f p)
    (s : GheState ℝ) : ∃ r s', p.run (GHE.localObjective env method) s = (.ok r, s') := by
  induction hp generalizing s with
  | done x => exact ⟨_, _, rfl⟩
  | fail e => cases h
  | ask x next hx1 hx2 _ ih =>
    obtain ⟨s1, h1, -⟩ := hf x hx1 hx2 s
    obtain ⟨r, s', h2⟩ := ih (f x) h s1
    refine ⟨r, s', ?_⟩
    unfold Finder.run
    rw [St.bind_ok h1]
    exact h2

/-- C138: sizing returns if the object can be simulated at all heights between the bounds, the temperatures are not exactly at
a limit at the bounds, and the root finder returns on every function. -/
theorem C138_returns (hc : Covered env lo hi x s0) (hlt : env.minHeight < env.maxHeight) (hsim : Simulates env method s0)
    (hF : ∀ e, Returns e (env.brent env.minHeight env.maxHeight))
    (h0 : WithinAt env method s0 env.minHeight → InsideAt env method s0 env.minHeight)
    (h1 : WithinAt env method s0 env.maxHeight → InsideAt env method s0 env.maxHeight) (ops : List Op)
    (hops : ∀ y, Op.height y ∈ ops → Within env lo hi y) :
    ∃ w s', size env method (ops.foldl (perform env) s0) = (.ok w, s') := by
  obtain ⟨e, he⟩ := simulates_function hsim
  obtain ⟨c1, -⟩ := size_cases hc hlt ops hops e fun H a b => (he H a b).1
  have n0 : e env.minHeight ≠ 0 := fun h => by
    obtain ⟨-, a, b⟩ := he _ le_rfl hlt.le
    exact absurd (b.2 (h0 (a.1 h.le))) (by rw [h]; exact lt_irrefl _)
  have n1 : e env.maxHeight ≠ 0 := fun h => by
    obtain ⟨-, a, b⟩ := he _ hlt.le le_rfl
    exact absurd (b.2 (h1 (a.1 h.le))) (by rw [h]; exact lt_irrefl _)
  rcases lt_or_gt_of_ne (mul_ne_zero n0 n1) with hz | hz
  · have href := (C89_refinement hc ops hops method _ rfl _ rfl).2
    set E := gheEnv env fun z => (prepare env (s0.at z)).1 with hE
    generalize hst : ops.foldl (perform env) s0 = st at *
    have hf : ∀ H, E.minHeight ≤ H → H ≤ E.maxHeight → Excess E method H (e H) := by
      intro H a1 a2
      obtain ⟨u, v, q1, q2⟩ := (he H a1 a2).1
      rw [q2]
      exact WholeSearch.excess_of hc method H (hc.bounds H a1 a2) u v q1
    have hb : Inside E.minHeight E.maxHeight (env.brent E.minHeight E.maxHeight) := hc.finder
    have : ∃ w t, GHE.size env.brent E method (view st) = (.ok w, t) := by
      unfold GHE.size
      rw [St.modify_bind, St.get_bind]
      generalize ({ view st with H := (E.maxHeight + E.minHeight) / 2 } : GheState ℝ) = t0
      obtain ⟨s1, e1, -⟩ := hf E.minHeight le_rfl hlt.le t0
      obtain ⟨s2, e2, -⟩ := hf E.maxHeight hlt.le le_rfl s1
      obtain ⟨r, s3, h2⟩ := run_ok E method e hf _ hb (hF e) s2
      have h3 : solveRoot env.brent t0.H (GHE.localObjective E method) (some E.minHeight) (some E.maxHeight) t0 = (.ok r, s3) := by
        unfold solveRoot
        simp only [Option.getD_some]
        rw [St.bind_ok e1, St.bind_ok e2, signDiv_eq, signDiv_eq]
        rcases mul_neg_iff.1 hz with ⟨p, q⟩ | ⟨p, q⟩
        · change 0 < e E.minHeight at p
          change e E.maxHeight < 0 at q
          rw [if_neg p.ne', if_neg q.ne, if_pos p, if_neg (not_lt.2 q.le)]
          exact h2
        · change e E.minHeight < 0 at p
          change 0 < e E.maxHeight at q
          rw [if_neg p.ne, if_neg q.ne', if_neg (not_lt.2 p.le), if_pos q]
          exact h2
      rw [St.bind_ok h3]
      exact ⟨_, _, rfl⟩
    obtain ⟨w, t, hw⟩ := this
    rw [href] at hw
    rcases hr : Whole.size env method st with ⟨r, t'⟩
    rw [hr] at hw
    cases hw
    exact ⟨w, t', rfl⟩
  · obtain ⟨s', h, -⟩ := c1 hz
    exact ⟨_, s', h⟩

/-- C138: where deeper is better and the minimum height is not enough, sizing finds the least height that is, up to the
tolerance `δ` of the root finder: at no height lower by more than `δ` are the temperatures within the limits, and at every
height greater by more than `δ` they are, with something to spare. -/
theorem C138_least (hc : Covered env lo hi x s0) (hlt : env.minHeight < env.maxHeight) (hsim : Simulates env method s0)
    (himp : Improves env method s0) (h0 : 0 ≤ δ)
    (hF : Narrows δ env.minHeight env.maxHeight (env.brent env.minHeight env.maxHeight))
    (hmin : ¬ WithinAt env method s0 env.minHeight) (ops : List Op) (hops : ∀ y, Op.height y ∈ ops → Within env lo hi y)
    (w : List Warning) (s' : State) (hs : size env method (ops.foldl (perform env) s0) = (.ok w, s')) (z : ℝ)
    (hz0 : env.minHeight ≤ z) (hz1 : z ≤ env.maxHeight) :
    (z < (borehole s'.bhe).H - δ → ¬ WithinAt env method s0 z) ∧
    ((borehole s'.bhe).H + δ < z → InsideAt env method s0 z) := by
  obtain ⟨⟨l, l1, l2, l3, -, l4⟩, b⟩ := size_bracket hc hlt hsim hF h0 hmin ops hops w s' hs
  refine ⟨fun hz hw => l4 (himp z l hz0 (by linarith) l2 hw), fun hz => ?_⟩
  rcases b with ⟨b1, -⟩ | ⟨r, r1, r2, r3, -, r4⟩
  · linarith
  · exact himp r z r1 (by linarith) hz1 r4

/-- of two problems of the same heights of which one is no harder at any height -/
theorem size_le {env' : Env} {x' : Exchanger} {s0' : State} {lo' hi' : ℝ} {method' : String} (hc : Covered env lo hi x s0)
    (hc' : Covered env' lo' hi' x' s0') (hlt : env.minHeight < env.maxHeight) (e1 : env'.minHeight = env.minHeight)
    (e2 : env'.maxHeight = env.maxHeight) (e3 : env'.brent = env.brent) (hsim : Simulates env method s0)
    (hsim' : Simulates env' method' s0') (himp : Improves env method s0) (h0 : 0 ≤ δ)
    (hF : Narrows δ env.minHeight env.maxHeight (env.brent env.minHeight env.maxHeight))
    (heasy : ∀ H, env.minHeight ≤ H → H ≤ env.maxHeight → InsideAt env method s0 H → InsideAt env' method' s0' H)
    (hmin : ¬ WithinAt env method s0 env.minHeight) (hmin' : ¬ WithinAt env' method' s0' env.minHeight) (ops ops' : List Op)
    (hops : ∀ y, Op.height y ∈ ops → Within env lo hi y) (hops' : ∀ y, Op.height y ∈ ops' → Within env' lo' hi' y)
    (w w' : List Warning) (s s' : State) (hs : size env method (ops.foldl (perform env) s0) = (.ok w, s))
    (hs' : size env' method' (ops'.foldl (perform env') s0') = (.ok w', s')) :
    (borehole s'.bhe).H ≤ (borehole s.bhe).H + 2 * δ := by
  obtain ⟨⟨l, l1, l2, l3, -, l4⟩, -⟩ := size_bracket (δ := δ) hc' (by rw [e1, e2]; exact hlt) hsim' (by rw [e1, e2, e3]; exact hF) h0
    (by rw [e1]; exact hmin') ops' hops' w' s' hs'
  rw [e1] at l1
  rw [e2] at l2
  have := (C138_least hc hlt hsim himp h0 hF hmin ops hops w s hs l l1 l2).2
  have : ¬ (borehole s.bhe).H + δ < l := fun h => l4 (heasy l l1 l2 (this h))
  linarith

/-- the object with other temperature limits -/
def relimited (M m : ℝ) (env : Env) : Env := { env with maxEFT := M, minEFT := m }

theorem relimited_covered (M m : ℝ) (hc : Covered env lo hi x s0) : Covered (relimited M m env) lo hi x s0 :=
  ⟨hc.made, hc.settled, hc.db, hc.range, ⟨hc.height.height, hc.height.spacing, hc.height.above, hc.height.below⟩, hc.order,
    fun h a b => ⟨(hc.bounds h a b).height, (hc.bounds h a b).spacing, (hc.bounds h a b).above, (hc.bounds h a b).below⟩, hc.finder⟩

/-- C138: with looser temperature limits the sized height is no greater, up to twice the tolerance of the root finder —
provided that the minimum height is still not enough (see `C138_oversized` for what happens otherwise). -/
theorem C138_limits (hc : Covered env lo hi x s0) (hlt : env.minHeight < env.maxHeight) (hsim : Simulates env method s0)
    (himp : Improves env method s0) (h0 : 0 ≤ δ)
    (hF : Narrows δ env.minHeight env.maxHeight (env.brent env.minHeight env.maxHeight)) (M m : ℝ) (hM : env.maxEFT ≤ M)
    (hm : m ≤ env.minEFT)
    (hmin : ¬ WithinAt { env with maxEFT := M, minEFT := m } method s0 env.minHeight) (ops ops' : List Op)
    (hops : ∀ y, Op.height y ∈ ops → Within env lo hi y) (hops' : ∀ y, Op.height y ∈ ops' → Within env lo hi y)
    (w w' : List Warning) (s s' : State) (hs : size env method (ops.foldl (perform env) s0) = (.ok w, s))
    (hs' : size { env with maxEFT := M, minEFT := m } method
      (ops'.foldl (perform { env with maxEFT := M, minEFT := m }) s0) = (.ok w', s')) :
    (borehole s'.bhe).H ≤ (borehole s.bhe).H + 2 * δ := by
  have hg : ∀ H u w, Gives env method s0 H u w ↔ Gives (relimited M m env) method s0 H u w := by
    intro H u w
    unfold Gives
    have : Whole.simulate (relimited M m env) method (s0.at H) = Whole.simulate env method (s0.at H) := by
      unfold Whole.simulate
      rfl
    rw [this]
  refine size_le (env' := relimited M m env) hc (relimited_covered M m hc) hlt rfl rfl rfl hsim (fun H a b => ?_) himp h0 hF
    ?_ ?_ hmin ops ops' hops (fun y hy => ?_) w w' s s' hs hs'
  · obtain ⟨u, w, h⟩ := hsim H a b
    exact ⟨u, w, (hg _ _ _).1 h⟩
  · rintro H - - ⟨u, w, a, b, c⟩
    exact ⟨u, w, (hg _ _ _).1 a, b.trans_le hM, hm.trans_lt c⟩
  · rintro ⟨u, w, a, b, c⟩
    exact hmin ⟨u, w, (hg _ _ _).1 a, b.trans hM, hm.trans c⟩
  · have := hops' y hy
    exact ⟨this.height, this.spacing, this.above, this.below⟩

theorem reloaded_covered (a : ℝ) (load hour : List ℝ) (hc : Covered env lo hi x s0) : Covered (reloaded a load hour env) lo hi x s0 :=
  ⟨hc.made, hc.settled, hc.db, hc.range, ⟨hc.height.height, hc.height.spacing, hc.height.above, hc.height.below⟩, hc.order,
    fun h a b => ⟨(hc.bounds h a b).height, (hc.bounds h a b).spacing, (hc.bounds h a b).above, (hc.bounds h a b).below⟩, hc.finder⟩

theorem gives_scaled {a : ℝ} (ha : 0 < a) (load hour : List ℝ) (hc : Covered env lo hi x s0) {H u w : ℝ}
    (hH : Within env lo hi H) (h : Gives env "hourly" s0 H u w) :
    Gives (reloaded a load hour env) "hourly" s0 H (about a (soilOf x).ugt u) (about a (soilOf x).ugt w) := by
  obtain ⟨hk, hx, ht, -⟩ := hc.facts
  refine simulate_scaled ha load hour env _ _ u w (fun th s' hp => ?_) h
  obtain ⟨e, st, tb, hp', -⟩ := prepare_eq hc.settled hk hc.db hc.range hH (s0.at H)
    (by show setHeight H _ = _; rw [hx]) ht
  rw [hp'] at hp
  have hth := congrArg Prod.fst hp
  dsimp only at hth
  have hsoil : soilOf (setHeight H x) = soilOf x := by cases x <;> rfl
  unfold thermalOf at hth
  rw [bind_eq_ok] at hth
  obtain ⟨_, -, hth⟩ := hth
  rw [bind_eq_ok] at hth
  obtain ⟨_, -, hth⟩ := hth
  rw [bind_eq_ok] at hth
  obtain ⟨_, -, hth⟩ := hth
  rw [bind_eq_ok] at hth
  obtain ⟨_, -, hth⟩ := hth
  rw [bind_eq_ok] at hth
  obtain ⟨_, -, hth⟩ := hth
  cases hth
  exact congrArg Soil.ugt hsoil

/-- C138: with all hourly loads multiplied by a factor of at most 1 (and any hybrid load), where the ground itself is within
the limits, the height sized with the hourly method is no greater, up to twice the tolerance of the root finder — provided
that the minimum height is still not enough. -/
theorem C138_loads (hc : Covered env lo hi x s0) (hlt : env.minHeight < env.maxHeight) (hsim : Simulates env "hourly" s0)
    (himp : Improves env "hourly" s0) (h0 : 0 ≤ δ)
    (hF : Narrows δ env.minHeight env.maxHeight (env.brent env.minHeight env.maxHeight)) (a : ℝ) (ha : 0 < a) (ha1 : a ≤ 1)
    (hg0 : env.minEFT ≤ (soilOf x).ugt) (hg1 : (soilOf x).ugt ≤ env.maxEFT) (env' : Env) (load hour : List ℝ)
    (henv : env' = { env with hourly := env.hourly.map (a * ·), load := load, hour := hour })
    (hmin : ¬ WithinAt env' "hourly" s0 env.minHeight) (ops ops' : List Op)
    (hops : ∀ y, Op.height y ∈ ops → Within env lo hi y) (hops' : ∀ y, Op.height y ∈ ops' → Within env lo hi y)
    (w w' : List Warning) (s s' : State) (hs : size env "hourly" (ops.foldl (perform env) s0) = (.ok w, s))
    (hs' : size env' "hourly" (ops'.foldl (perform env') s0) = (.ok w', s')) :
    (borehole s'.bhe).H ≤ (borehole s.bhe).H + 2 * δ := by
  have hsame : env' = reloaded a load hour env := henv
  subst hsame
  have key : ∀ u, u ≤ env.maxEFT → about a (soilOf x).ugt u ≤ env.maxEFT := by
    intro u hu
    unfold about
    nlinarith
  have key' : ∀ u, u < env.maxEFT → about a (soilOf x).ugt u < env.maxEFT := by
    intro u hu
    unfold about
    nlinarith
  have low : ∀ u, env.minEFT ≤ u → env.minEFT ≤ about a (soilOf x).ugt u := by
    intro u hu
    unfold about
    nlinarith
  have low' : ∀ u, env.minEFT < u → env.minEFT < about a (soilOf x).ugt u := by
    intro u hu
    unfold about
    nlinarith
  refine size_le hc (reloaded_covered a load hour hc) hlt rfl rfl rfl hsim (fun H a b => ?_) himp h0 hF ?_ ?_ hmin ops ops'
    hops (fun y hy => ?_) w w' s s' hs hs'
  · obtain ⟨u, w, h⟩ := hsim H a b
    exact ⟨_, _, gives_scaled ha load hour hc (hc.bounds H a b) h⟩
  · rintro H k1 k2 ⟨u, w, a, b, c⟩
    exact ⟨_, _, gives_scaled ha load hour hc (hc.bounds H k1 k2) a, key' u b, low' w c⟩
  · rintro ⟨u, w, a, b, c⟩
    exact hmin ⟨_, _, gives_scaled ha load hour hc (hc.bounds _ le_rfl hlt.le) a, key u b, low w c⟩
  · have := hops' y hy
    exact ⟨this.height, this.spacing, this.above, this.below⟩

/-- C138: if the object can be simulated at both bounds and the ground temperature is strictly between the limits, there is a
factor below which the opposite of C138_loads happens: with all hourly loads multiplied by it, or by any smaller positive
number, the sized height is the *maximum*, with the warning that it is not deep enough. -/
theorem C138_oversized (hc : Covered env lo hi x s0) (hlt : env.minHeight < env.maxHeight) {u0 w0 u1 w1 : ℝ}
    (hs0 : Gives env "hourly" s0 env.minHeight u0 w0) (hs1 : Gives env "hourly" s0 env.maxHeight u1 w1)
    (hg0 : env.minEFT < (soilOf x).ugt) (hg1 : (soilOf x).ugt < env.maxEFT) (load hour : List ℝ) :
    ∃ a₀ > 0, ∀ a, 0 < a → a ≤ a₀ → ∀ ops : List Op, (∀ y, Op.height y ∈ ops → Within env lo hi y) → ∀ env' : Env,
      env' = { env with hourly := env.hourly.map (a * ·), load := load, hour := hour } →
      ∃ s', size env' "hourly" (ops.foldl (perform env') s0) = (.ok [.notDeepEnough], s') ∧
        (borehole s'.bhe).H = env.maxHeight := by
  set g := (soilOf x).ugt with hg
  set m := min (g - env.minEFT) (env.maxEFT - g) with hm
  have hm0 : 0 < m := lt_min (sub_pos.2 hg0) (sub_pos.2 hg1)
  set B := |u0 - g| + |w0 - g| + |u1 - g| + |w1 - g| + 1 with hB
  have a0 := abs_nonneg (u0 - g)
  have a1 := abs_nonneg (w0 - g)
  have a2 := abs_nonneg (u1 - g)
  have a3 := abs_nonneg (w1 - g)
  have hB0 : 0 < B := by linarith
  refine ⟨m / B, div_pos hm0 hB0, fun a ha hle ops hops env' henv => ?_⟩
  have hsame : env' = reloaded a load hour env := henv
  subst hsame
  rw [le_div_iff₀ hB0] at hle
  have near : ∀ v, |v - g| < B → env.minEFT < about a g v ∧ about a g v < env.maxEFT := by
    intro v hv
    have h1 : |a * (v - g)| < m := by
      rw [abs_mul, abs_of_pos ha]
      nlinarith
    have h2 := abs_lt.1 h1
    have h3 : m ≤ g - env.minEFT := min_le_left _ _
    have h4 : m ≤ env.maxEFT - g := min_le_right _ _
    unfold about
    constructor <;> linarith
  refine size_same_sign (reloaded_covered a load hour hc) hlt ops (fun y hy => ?_)
    (gives_scaled ha load hour hc (hc.bounds _ le_rfl hlt.le) hs0) (gives_scaled ha load hour hc (hc.bounds _ hlt.le le_rfl) hs1)
    (mul_pos_of_neg_of_neg ?_ ?_)
  · have := hops y hy
    exact ⟨this.height, this.spacing, this.above, this.below⟩
  · exact (beyond_neg _ _ _).2 ⟨(near u0 (by linarith)).2, (near w0 (by linarith)).1⟩
  · exact (beyond_neg _ _ _).2 ⟨(near u1 (by linarith)).2, (near w1 (by linarith)).1⟩

/-! ## a concrete case -/

/-- bisection, for a function that is positive on the left -/
def bisect : ℕ → ℝ → ℝ → Finder ℝ
  | 0, l, r => .done ((l + r) / 2)
  | n + 1, l, r => .ask ((l + r) / 2) fun v => if 0 < v then bisect n ((l + r) / 2) r else bisect n l ((l + r) / 2)

theorem bisect_inside (n : ℕ) (a b l r : ℝ) (h1 : a ≤ l) (h2 : l ≤ r) (h3 : r ≤ b) : Inside a b (bisect n l r) := by
  induction n generalizing l r with
  | zero => exact .done _
  | succ n ih =>
    refine .ask _ _ (by linarith) (by linarith) fun v => ?_
    split
    · exact ih _ _ (by linarith) (by linarith) h3
    · exact ih _ _ h1 (by linarith) (by linarith)

theorem bisect_returns (n : ℕ) (l r : ℝ) (e : ℝ → ℝ) : Returns e (bisect n l r) := by
  induction n generalizing l r with
  | zero => trivial
  | succ n ih =>
    show Returns e (if _ then _ else _)
    split <;> exact ih _ _

theorem bisect_narrows (n : ℕ) (l r : ℝ) (hlr : l ≤ r) : Narrows ((r - l) / 2 ^ n) l r (bisect n l r) := by
  have key : ∀ (e : ℝ → ℝ) (n : ℕ) (l r d : ℝ), 0 ≤ e l → e r ≤ 0 → l ≤ d → d ≤ r → ∃ l' r', l ≤ l' ∧ l' ≤ r' ∧ r' ≤ r ∧
      r' - l' ≤ (r - l) / 2 ^ n ∧ 0 ≤ e l' ∧ e r' ≤ 0 ∧ l' ≤ lastAsked e d (bisect n l r) ∧ lastAsked e d (bisect n l r) ≤ r' := by
    intro e n
    induction n with
    | zero =>
      intro l r d h1 h2 h3 h4
      exact ⟨l, r, le_rfl, h3.trans h4, le_rfl, by simp, h1, h2, h3, h4⟩
    | succ n ih =>
      intro l r d h1 h2 h3 h4
      have hlr := h3.trans h4
      have hw : (r - l) / 2 ^ (n + 1) = ((r - l) / 2) / 2 ^ n := by rw [pow_succ]; field_simp
      rw [show lastAsked e d (bisect (n + 1) l r) = lastAsked e ((l + r) / 2) (if 0 < e ((l + r) / 2) then
        bisect n ((l + r) / 2) r else bisect n l ((l + r) / 2)) from rfl]
      by_cases hv : 0 < e ((l + r) / 2)
      · rw [if_pos hv]
        obtain ⟨l', r', a1, a2, a3, a4, a5⟩ := ih ((l + r) / 2) r ((l + r) / 2) hv.le h2 le_rfl (by linarith)
        exact ⟨l', r', by linarith, a2, a3, by rw [hw]; convert a4 using 2; ring, a5⟩
      · rw [if_neg hv]
        obtain ⟨l', r', a1, a2, a3, a4, a5⟩ := ih l ((l + r) / 2) ((l + r) / 2) h1 (not_lt.1 hv) (by linarith) le_rfl
        exact ⟨l', r', a1, a2, by linarith, by rw [hw]; convert a4 using 2; ring, a5⟩
  intro e h1 h2 _
  exact key e n l r r h1.le h2.le hlr le_rfl

/-- a level response: from the first of the long times on -/
theorem polyline_level {l : List (ℝ × ℝ)} {ts c : List ℝ} {a g v y : ℝ} (left : ∀ q ∈ l, q.1 ≤ a) (hc : ∀ z ∈ c, z = g)
    (hh : ts.head? = some a) (hv : a < v) (h : OnPolyline (l ++ ts.zip c) v y) : y = g := by
  have right : ∀ q ∈ ts.zip c, q.2 = g := fun q hq => hc _ (List.of_mem_zip (a := q.1) (b := q.2) hq).2
  have head : ∀ q : ℝ × ℝ, (ts.zip c)[0]? = some q → q.1 = a := by
    intro q hq
    rw [List.getElem?_zip_eq_some] at hq
    have := hq.1
    rw [← List.head?_eq_getElem?, hh] at this
    exact (Option.some.inj this).symm
  generalize ts.zip c = m at *
  rcases h with h | ⟨k, p, b, h1, h2, h3, h4, rfl⟩
  · rcases List.mem_append.1 h with h | h
    · have := left _ h
      dsimp only at this
      linarith
    · exact right _ h
  · have hb : ¬ k + 1 < l.length := by
      intro hk
      rw [List.getElem?_append_left hk] at h2
      have := left _ (List.mem_of_getElem? h2)
      linarith
    rw [List.getElem?_append_right (by omega)] at h2
    have ha : ¬ k < l.length := by
      intro hk
      rw [show k + 1 - l.length = 0 by omega] at h2
      have := head _ h2
      linarith
    rw [List.getElem?_append_right (by omega)] at h1
    rw [right _ (List.mem_of_getElem? h1), right _ (List.mem_of_getElem? h2)]
    ring

/-- a single U-tube of height `h` -/
def exLone (h : ℝ) : UTube where
  mBorehole := 2
  mPipe := 2
  fluid := exWater
  b := ⟨h, 2, 3 / 40⟩
  pipe := ⟨[(-3 / 100, 0), (3 / 100, 0)], 1 / 100, 13 / 1000, 4 / 100, 0, 10 * log (13 / 10) / (2 * π), 1542000⟩
  grout := ⟨1, 3901000⟩
  soil := ⟨2, 1800000, 18⟩
  hf := 50 / (π * (1 / 100))
  Rp := 1 / 10
  Rf := 1 / 100
  circuit := ⟨[(-3 / 100, 0), (3 / 100, 0)], 1 / 100, 13 / 1000, 2, 1, 11 / 100, 1, none⟩

theorem exLone_made (h : ℝ) : mkSingle exExt 2 exWater ⟨h, 2, 3 / 40⟩
    ⟨[(-3 / 100, 0), (3 / 100, 0)], 1 / 100, 13 / 1000, 4 / 100, 0, 10 * log (13 / 10) / (2 * π), 1542000⟩
    ⟨1, 3901000⟩ ⟨2, 1800000, 18⟩ = .ok (exLone h) := by
  have e1 : (1 / (50 / (π * (1 / 100)) * 2 * π * (1 / 100)) : ℝ) = 1 / 100 := exConv (1 / 100) (by norm_num)
  unfold mkSingle mkUTube
  show Except.ok _ = Except.ok _
  unfold exLone exExt
  dsimp only
  rw [e1, exDouble_Rp]
  norm_num

theorem exLone_sound (h : ℝ) (hh : 0 < h) : (radialTube exExt (exLone h)).Sound ∧ charTime (exLone h) = 100000 * h ^ 2 := by
  have hl : 0 < log (13 / 10 : ℝ) := log_pos (by norm_num)
  have hp := Real.pi_pos
  have hs1 : (1 : ℝ) ≤ √2 := Real.one_le_sqrt.2 (by norm_num)
  refine ⟨(C88_single exExt exBrent 2 exWater ⟨h, 2, 3 / 40⟩ _ ⟨1, 3901000⟩ ⟨2, 1800000, 18⟩ (exLone h) (exLone h) _ (exLone_made h) rfl
    ?_ ?_ ?_ ?_ ?_ ?_ ?_ ?_ ?_ ?_).1, ?_⟩
  · show (0 : ℝ) < 1 / 100; norm_num
  · show (1 / 100 : ℝ) < 13 / 1000; norm_num
  · show 2 * ((13 / 1000 : ℝ) - 1 / 100) < √2 * (13 / 1000)
    linarith
  · show (2 : ℝ) * (13 / 1000) < 3 / 40; norm_num
  · show (3 / 40 : ℝ) < 5; norm_num
  · show 0 < 10 * log (13 / 10) / (2 * π)
    positivity
  · refine ⟨?_, ?_, ?_, ?_, ?_, ?_⟩ <;> norm_num [exWater]
  · exact hh
  · show 0 < 50 / (π * (1 / 100))
    positivity
  · show (11 / 100 : ℝ) / 2 ≤ 11 / 100 / (2 * ((1 : ℤ) : ℝ)) + 1 / (10 * 1)
    norm_num
  · show h ^ 2 / (9 * (2 / 1800000)) = _
    ring

def exFlat : GF.DB ℝ := { exDB with g := [(50, [20, 20, 20]), (200, [20, 20, 20])], logTime := [log (1 / 100000000), 0, log 10] }

/-- `q` watts rejected all year by three single U-tubes; a level g-function; 20 bisections -/
def exLevel (q : ℝ) : Env := { exEnv 1416 with
  brent := bisect 20
  db := exFlat
  hourly := List.replicate 8760 (-q) }

variable {q : ℝ}

theorem exLevel_within (h : ℝ) (h1 : 50 ≤ h) (h2 : h ≤ 200) : Within (exLevel q) 50 200 h :=
  ⟨(exWithin 1416 h h1 h2).height, (exWithin 1416 h h1 h2).spacing, (exWithin 1416 h h1 h2).above, (exWithin 1416 h h1 h2).below⟩

theorem exFlat_valid : GF.Valid exFlat where
  two := by decide
  nodup := by norm_num [exFlat, PyDict.keys]
  len := by simp [exFlat]
  rb := rfl
  D := rfl

theorem exFlat_range : GF.Range exFlat 50 200 where
  lo_mem := by norm_num [exFlat, PyDict.keys]
  hi_mem := by norm_num [exFlat, PyDict.keys]
  bounds := by norm_num [exFlat, PyDict.keys]

theorem exLevel_ready (h : ℝ) (h1 : 50 ≤ h) (h2 : h ≤ 200) : Ready (exLevel q) 50 200 (.single (exLone 100)) h (exLone h) := by
  obtain ⟨hsound, hct⟩ := exLone_sound h (by linarith)
  refine ⟨⟨by linarith, rfl, hsound, exSolver_exact.sized, ?_⟩, exLevel_within h h1 h2, ?_⟩
  · rw [hct]
    have e0 : exp (-(86 / 10)) ≤ 1 := exp_le_one_iff.2 (by norm_num)
    have e1 : 100000 * h ^ 2 * exp (-(86 / 10)) ≤ 10 ^ 11 := by
      have : h ^ 2 ≤ 1000 ^ 2 := pow_le_pow_left₀ (by linarith) (by linarith) 2
      have := exp_pos (-(86 / 10 : ℝ))
      nlinarith [sq_nonneg h]
    have e2 : max (100000 * h ^ 2 * exp (-(86 / 10))) (49 * 3600) ≤ 10 ^ 11 := max_le e1 (by norm_num)
    show _ ≤ ((10 ^ 9 : ℕ) : ℝ)
    push_cast
    linarith
  · intro a tb h
    obtain ⟨y, w, rfl⟩ := answer_form exFlat_valid exFlat_range (by show (5 : ℝ) / _ ≠ 0; positivity) h
    show (3 / 40 : ℝ) + (3 / 40 - 3 / 40) / (200 - 50) * (y - 50) ≠ 0
    norm_num

theorem exLevel_times (h : ℝ) (h1 : 50 ≤ h) (h2 : h ≤ 200) : Times (exLevel q) (exLone h) (log (1 / 100000000)) (log 10) := by
  obtain ⟨-, hct⟩ := exLone_sound h (by linarith)
  have hl : log (1 / 100000000 : ℝ) < 0 := log_neg (by norm_num) (by norm_num)
  have hl2 : 0 < log (10 : ℝ) := log_pos (by norm_num)
  have e : charTime (exLone h) * exp (log (1 / 100000000)) = h ^ 2 / 1000 := by
    rw [exp_log (by norm_num), hct]; ring
  have hlow : (2 : ℝ) ≤ h ^ 2 / 1000 := by nlinarith
  have hhigh : h ^ 2 / 1000 ≤ 40 := by nlinarith
  refine ⟨?_, rfl, rfl, ?_, ?_⟩
  · show List.Pairwise (· < ·) [log (1 / 100000000 : ℝ), 0, log 10]
    refine List.Pairwise.cons ?_ (List.Pairwise.cons ?_ (List.pairwise_singleton _ _))
    · intro y hy
      rcases List.mem_cons.1 hy with rfl | hy
      · exact hl
      · rw [List.mem_singleton] at hy; rw [hy]; exact hl.trans hl2
    · intro y hy
      rw [List.mem_singleton] at hy; rw [hy]; exact hl2
  · rw [e]; linarith
  · intro j hj
    rw [e] at hj
    rcases Nat.eq_zero_or_pos j with rfl | hj0
    · rw [hj] at hlow
      norm_num at hlow
    · have : (1 : ℝ) ≤ j := by exact_mod_cast hj0
      have : (0 : ℝ) < 1 / 10 ^ 12 := by positivity
      linarith

theorem exLevel_covered : ∃ s0, ∀ q, Covered (exLevel q) 50 200 (.single (exLone 100)) s0 := by
  obtain ⟨N, r, ys, -, -, -, hsts⟩ := calcSts_ok (exLevel_ready (q := 0) 100 (by norm_num) (by norm_num)).toWorks
  refine ⟨⟨.single (exLone 100), exLone 100, (r, (List.range N).map (fun j => log (sampleTime j / charTime (exLone 100))), ys), {}, [],
    []⟩, fun q => ⟨?_, ?_, exFlat_valid, exFlat_range, exLevel_within 100 (by norm_num) (by norm_num), ?_,
    fun h h1 h2 => exLevel_within h ?_ ?_, bisect_inside _ _ _ _ _ le_rfl ?_ le_rfl⟩⟩
  · unfold construct
    show (Except.ok _ >>= _) = _
    rw [Except.ok_bind]
    dsimp only
    change (calcSts (exLevel 0).solve (radialTube (exLevel 0).ext (exLone 100)) none false (exLevel 0).fuel >>= _) = _
    rw [hsts]
    rfl
  · exact (settled_made exExt 2 exWater ⟨100, 2, 3 / 40⟩ _ { rInner := (0, 0), rOuter := (0, 0), eps := 0, k := (0, 0), rhoCp := 0 } ⟨1, 3901000⟩ ⟨2, 1800000, 18⟩ (some "parallel") (exLone 100)
      _ (exLone_made 100) rfl).1
  · show (60 : ℝ) ≤ 150; norm_num
  · have : (60 : ℝ) ≤ h := h1
    linarith
  · have : h ≤ (150 : ℝ) := h2
    linarith
  · show (60 : ℝ) ≤ 150; norm_num

theorem exLevel_hourly : (exLevel q).hourly.length = 8760 := by
  show (List.replicate 8760 (-q)).length = 8760
  rw [List.length_replicate]

/-- the temperature of the water all year -/
def exTemp (q H : ℝ) : ℝ := 18 + q / 3 / H * (5 / π + 31 / 200) - q / 50184

theorem exLevel_gives {s0 : State} (hc : Covered (exLevel q) 50 200 (.single (exLone 100)) s0) (H : ℝ) (h1 : 60 ≤ H) (h2 : H ≤ 150) :
    Gives (exLevel q) "hourly" s0 H (exTemp q H) (exTemp q H) := by
  have hR := exLevel_ready (q := q) H (by linarith) (by linarith)
  have hT := exLevel_times (q := q) H (by linarith) (by linarith)
  obtain ⟨-, hct⟩ := exLone_sound H (by linarith)
  obtain ⟨⟨u, w⟩, s', k1, -⟩ := C90_hourly hc [] (by simp) H (exLone H) hR _ _ hT 1 le_rfl rfl exLevel_hourly
    (by rw [hct, exp_log (by norm_num)]; norm_num; nlinarith)
  obtain ⟨rad, lt, gs, ans, tb, G, -, e2, e3, e4, -⟩ := C92_hourly hc [] (by simp) H (exLone H) hR _ _ hT 1 rfl exLevel_hourly
    (fun i => if i = 0 then 0 else q) rfl (by
      intro k
      show (List.replicate 8760 (-q : ℝ))[k % 8760]? = _
      rw [List.getElem?_replicate, if_pos (Nat.mod_lt _ (by norm_num))]
      simp) _ s' k1
  have hG : ∀ i : ℕ, 1 ≤ i → i ≤ 8760 → G i = 20 := by
    intro i i1 i2
    obtain ⟨y, b, rfl⟩ := answer_form exFlat_valid exFlat_range (by show (5 : ℝ) / _ ≠ 0; positivity) e2
    refine polyline_level (fun q hq => of_decide_eq_true (List.mem_filter.1 hq).2) ?_ hT.first ?_ (e3 i i1 (by omega))
    · intro z hz
      obtain ⟨v, hv, rfl⟩ := List.mem_map.1 hz
      have h3 : v = 20 := by
        have h5 : v ∈ [exSpl "" [50, 200] [20, 20] y, exSpl "" [50, 200] [20, 20] y, exSpl "" [50, 200] [20, 20] y] := hv
        simp only [List.mem_cons, List.not_mem_nil, or_false, or_self] at h5
        rw [h5]
        show (20 : ℝ) + (20 - 20) / (200 - 50) * (y - 50) = 20
        norm_num
      have h4 : log ((3 / 40 : ℝ) / (3 / 40 + (3 / 40 - 3 / 40) / (200 - 50) * (y - 50))) = 0 := by norm_num
      rw [h3]
      show 20 - log ((3 / 40 : ℝ) / (3 / 40 + (3 / 40 - 3 / 40) / (200 - 50) * (y - 50))) = 20
      rw [h4, sub_zero]
    · rw [hct]
      apply log_lt_log (by norm_num)
      rw [div_lt_div_iff₀ (by norm_num) (by positivity)]
      have : (1 : ℝ) ≤ i := by exact_mod_cast i1
      nlinarith
  have hval : ∀ k, k + 1 ≤ 8760 → exitTemp ⟨(exLevel q).db.locations.length, H, (soilOf (.single (exLone 100))).k,
      (soilOf (.single (exLone 100))).ugt, effectiveRb (exLevel q).ext (setHeight H (.single (exLone 100))),
      flowOf (.single (exLone 100)), cpOf (.single (exLone 100))⟩ G (fun i => if i = 0 then 0 else q) (fun i => i) (k + 1) =
      exTemp q H := by
    intro k hk
    have hrb : effectiveRb (exLevel q).ext (setHeight H (.single (exLone 100))) = 31 / 200 := by
      show (11 / 100 : ℝ) / (2 * ((1 : ℤ) : ℝ)) + 1 / (10 * 1) = 31 / 200
      norm_num
    rw [hrb]
    unfold exitTemp wallRise
    rw [Finset.sum_eq_single 0]
    · show 18 + _ / (((3 : ℕ) : ℝ) * H) / (2 * π * 2) * _ + _ / (((3 : ℕ) : ℝ) * H) * (31 / 200) - _ / ((3 : ℕ) : ℝ) / (2 * 2 * 4182) = _
      simp only [Nat.cast_zero, sub_zero, if_true, if_neg (Nat.succ_ne_zero _)]
      rw [hG (k + 1) (by omega) hk]
      have := Real.pi_ne_zero
      have hH : H ≠ 0 := by linarith
      unfold exTemp
      field_simp
      push_cast
      ring
    · intro j _ hj
      simp [hj]
    · intro h
      simp at h
  obtain ⟨hk, hx, -⟩ := hc.facts
  have hr := (C89_refinement hc [.height H] (by
    intro z hz
    cases List.mem_singleton.1 hz
    exact hR.within) "hourly" _ rfl _ rfl).1
  change GHE.simulate _ "hourly" (view (s0.at H)) = ((Whole.simulate _ "hourly" (s0.at H)).1, view (Whole.simulate _ "hourly" (s0.at H)).2) at hr
  change Whole.simulate _ "hourly" (s0.at H) = _ at k1
  rw [k1] at hr
  obtain ⟨-, m1, m2, -⟩ := C43_extremes _ _ _ _ _ _ hr
  change some u ∈ s'.HPEFT at m1
  change some w ∈ s'.HPEFT at m2
  have all : ∀ v, some v ∈ s'.HPEFT → v = exTemp q H := by
    intro v hv
    rw [e4] at hv
    obtain ⟨k, hk, hkv⟩ := List.mem_map.1 hv
    rw [← Option.some.inj hkv]
    exact hval k (by have := List.mem_range.1 hk; omega)
  unfold Gives
  rw [k1, all u m1, all w m2]

theorem exTemp_anti (hq : 0 < q) {H H' : ℝ} (h0 : 0 < H) (h : H < H') : exTemp q H' < exTemp q H := by
  have hpi := Real.pi_pos
  unfold exTemp
  gcongr

theorem exLevel_simulates {s0 : State} (hc : Covered (exLevel q) 50 200 (.single (exLone 100)) s0) : Simulates (exLevel q) "hourly" s0 :=
  fun H h1 h2 => ⟨_, _, exLevel_gives hc H h1 h2⟩

theorem exLevel_at {s0 : State} (hc : Covered (exLevel q) 50 200 (.single (exLone 100)) s0) (M m : ℝ) (H : ℝ) (h1 : 60 ≤ H)
    (h2 : H ≤ 150) : (WithinAt { exLevel q with maxEFT := M, minEFT := m } "hourly" s0 H ↔ exTemp q H ≤ M ∧ m ≤ exTemp q H) ∧
    (InsideAt { exLevel q with maxEFT := M, minEFT := m } "hourly" s0 H ↔ exTemp q H < M ∧ m < exTemp q H) := by
  have hg := exLevel_gives hc H h1 h2
  have hg' : Gives { exLevel q with maxEFT := M, minEFT := m } "hourly" s0 H (exTemp q H) (exTemp q H) := hg
  constructor <;> constructor
  · rintro ⟨u, w, a, b⟩
    cases a.symm.trans hg'
    exact b
  · exact fun b => ⟨_, _, hg', b⟩
  · rintro ⟨u, w, a, b⟩
    cases a.symm.trans hg'
    exact b
  · exact fun b => ⟨_, _, hg', b⟩

theorem exTemp_above (hq : 0 ≤ q) {H : ℝ} (h0 : 0 < H) (h : H ≤ 150) : 5 < exTemp q H := by
  have hpi := Real.pi_pos
  have h1 : q / 3 / 150 ≤ q / 3 / H := by gcongr
  have h2 : q / 3 / H * (31 / 200) ≤ q / 3 / H * (5 / π + 31 / 200) := by
    have : 0 ≤ 5 / π := by positivity
    gcongr
    linarith
  unfold exTemp
  nlinarith

theorem exLevel_improves (hq : 0 < q) {s0 : State} (hc : Covered (exLevel q) 50 200 (.single (exLone 100)) s0) :
    Improves (exLevel q) "hourly" s0 := by
  intro H H' h1 h2 h3 hw
  have h1' : (60 : ℝ) ≤ H := h1
  have h3' : H' ≤ (150 : ℝ) := h3
  have := ((exLevel_at hc 35 5 H h1' (by linarith)).1.1 hw).1
  have := exTemp_anti hq (by linarith) h2
  exact (exLevel_at hc 35 5 H' (by linarith) h3').2.2 ⟨by linarith, exTemp_above hq.le (by linarith) h3'⟩

theorem exTemp_bounds (hq : 0 < q) : 18 + q * (96 / 10000) < exTemp q 60 ∧ exTemp q 150 < 18 + q * (41 / 10000) := by
  have hpi := Real.pi_pos
  have h1 : (158 / 100 : ℝ) < 5 / π := by
    rw [lt_div_iff₀ hpi]
    linarith [Real.pi_lt_d2]
  have h2 : 5 / π < 167 / 100 := by
    rw [div_lt_iff₀ hpi]
    linarith [Real.pi_gt_three]
  unfold exTemp
  constructor <;> nlinarith

theorem exLevel_at_own {s0 : State} (hc : Covered (exLevel q) 50 200 (.single (exLone 100)) s0) (H : ℝ) (h1 : 60 ≤ H)
    (h2 : H ≤ 150) : (WithinAt (exLevel q) "hourly" s0 H ↔ exTemp q H ≤ 35 ∧ 5 ≤ exTemp q H) ∧
    (InsideAt (exLevel q) "hourly" s0 H ↔ exTemp q H < 35 ∧ 5 < exTemp q H) := exLevel_at hc 35 5 H h1 h2

theorem exLevel_narrows : Narrows (90 / 2 ^ 20) (exLevel q).minHeight (exLevel q).maxHeight
    ((exLevel q).brent (exLevel q).minHeight (exLevel q).maxHeight) := by
  have := bisect_narrows 20 60 150 (by norm_num)
  rw [show (150 : ℝ) - 60 = 90 by norm_num] at this
  exact this

/-- 4 kW with limits that are kept at 150 m and not at 60 m: sizing returns -/
theorem exLevel_sized {s0 : State} (hc : ∀ q, Covered (exLevel q) 50 200 (.single (exLone 100)) s0) (q : ℝ) (h1 : 2000 ≤ q)
    (h2 : q ≤ 4000) : ¬ WithinAt (exLevel q) "hourly" s0 60 ∧ ∃ w s', size (exLevel q) "hourly" s0 = (.ok w, s') := by
  obtain ⟨b1, b2⟩ := exTemp_bounds (q := q) (by linarith)
  have out : ¬ WithinAt (exLevel q) "hourly" s0 60 := by
    rw [(exLevel_at_own (hc q) 60 le_rfl (by norm_num)).1]
    rintro ⟨a, -⟩
    linarith
  refine ⟨out, C138_returns (hc q) (by show (60 : ℝ) < 150; norm_num) (exLevel_simulates (hc q)) (fun e => bisect_returns _ _ _ e)
    (fun h => absurd h out) (fun _ => ?_) [] (by simp)⟩
  exact (exLevel_at_own (hc q) 150 (by norm_num) le_rfl).2.2 ⟨by linarith, exTemp_above (by linarith) (by norm_num) le_rfl⟩

/-- C138_returns and C138_least apply: the height found for 4 kW is the least one, up to a tenth of a millimetre -/
example : ∃ s0 w s', construct (exLevel 4000) (.single (exLone 100)) = .ok s0 ∧ size (exLevel 4000) "hourly" s0 = (.ok w, s') ∧
    ∀ z, 60 ≤ z → z ≤ 150 → (z < (borehole s'.bhe).H - 90 / 2 ^ 20 → 35 < exTemp 4000 z) ∧
      ((borehole s'.bhe).H + 90 / 2 ^ 20 < z → exTemp 4000 z < 35) := by
  obtain ⟨s0, hc⟩ := exLevel_covered
  obtain ⟨out, w, s', hs⟩ := exLevel_sized hc 4000 (by norm_num) le_rfl
  refine ⟨s0, w, s', (hc _).made, hs, fun z h1 h2 => ?_⟩
  obtain ⟨k1, k2⟩ := C138_least (hc _) (by show (60 : ℝ) < 150; norm_num) (exLevel_simulates (hc _))
    (exLevel_improves (by norm_num) (hc _)) (by positivity) exLevel_narrows out [] (by simp) w s' hs z h1 h2
  rw [(exLevel_at_own (hc _) z h1 h2).1] at k1
  rw [(exLevel_at_own (hc _) z h1 h2).2] at k2
  refine ⟨fun h => ?_, fun h => (k2 h).1⟩
  by_contra hn
  exact k1 h ⟨not_lt.1 hn, (exTemp_above (by norm_num) (by linarith) h2).le⟩

/-- C138_limits applies: limits of 0 and 40 degrees instead of 5 and 35 -/
example : ∃ s0 w s w' s', size (exLevel 4000) "hourly" s0 = (.ok w, s) ∧
    size { exLevel 4000 with maxEFT := 40, minEFT := 0 } "hourly" s0 = (.ok w', s') ∧
    (borehole s'.bhe).H ≤ (borehole s.bhe).H + 2 * (90 / 2 ^ 20) := by
  obtain ⟨s0, hc⟩ := exLevel_covered
  obtain ⟨out, w, s, hs⟩ := exLevel_sized hc 4000 (by norm_num) le_rfl
  obtain ⟨b1, b2⟩ := exTemp_bounds (q := 4000) (by norm_num)
  have out' : ¬ WithinAt { exLevel 4000 with maxEFT := 40, minEFT := 0 } "hourly" s0 60 := by
    rw [(exLevel_at (hc 4000) 40 0 60 le_rfl (by norm_num)).1]
    rintro ⟨a, -⟩
    linarith
  obtain ⟨w', s', hs'⟩ := C138_returns (env := { exLevel 4000 with maxEFT := 40, minEFT := 0 }) (method := "hourly")
    (relimited_covered 40 0 (hc 4000)) (by show (60 : ℝ) < 150; norm_num)
    (fun H h1 h2 => ⟨_, _, exLevel_gives (hc 4000) H h1 h2⟩) (fun e => bisect_returns _ _ _ e)
    (fun h => absurd h out') (fun _ => (exLevel_at (hc 4000) 40 0 150 (by norm_num) le_rfl).2.2 ⟨by linarith,
      by linarith [exTemp_above (q := 4000) (H := 150) (by norm_num) (by norm_num) le_rfl]⟩) [] (by simp)
  exact ⟨s0, w, s, w', s', hs, hs', C138_limits (hc 4000) (by show (60 : ℝ) < 150; norm_num) (exLevel_simulates (hc _))
    (exLevel_improves (by norm_num) (hc _)) (by positivity) exLevel_narrows 40 0 (by show (35 : ℝ) ≤ 40; norm_num)
    (by show (0 : ℝ) ≤ 5; norm_num) out' [] [] (by simp) (by simp) w w' s s' hs hs'⟩

/-- C138_loads applies: 2 kW instead of 4 kW -/
example : ∃ s0 w s w' s', size (exLevel 4000) "hourly" s0 = (.ok w, s) ∧ size (exLevel 2000) "hourly" s0 = (.ok w', s') ∧
    (borehole s'.bhe).H ≤ (borehole s.bhe).H + 2 * (90 / 2 ^ 20) := by
  obtain ⟨s0, hc⟩ := exLevel_covered
  obtain ⟨out, w, s, hs⟩ := exLevel_sized hc 4000 (by norm_num) le_rfl
  obtain ⟨out', w', s', hs'⟩ := exLevel_sized hc 2000 le_rfl (by norm_num)
  refine ⟨s0, w, s, w', s', hs, hs', C138_loads (hc 4000) (by show (60 : ℝ) < 150; norm_num) (exLevel_simulates (hc _))
    (exLevel_improves (by norm_num) (hc _)) (by positivity) exLevel_narrows (1 / 2) (by norm_num) (by norm_num)
    (by show (5 : ℝ) ≤ 18; norm_num) (by show (18 : ℝ) ≤ 35; norm_num) (exLevel 2000) (exLevel 4000).load (exLevel 4000).hour ?_
    out' [] [] (by simp) (by simp) w w' s s' hs hs'⟩
  have : (exLevel 2000).hourly = (exLevel 4000).hourly.map (1 / 2 * ·) := by
    show List.replicate 8760 (-2000 : ℝ) = (List.replicate 8760 (-4000)).map _
    rw [List.map_replicate]
    norm_num
  rw [← this]
  rfl

/-- C138_oversized applies: with little enough of the same load the greatest height is left -/
example : ∃ s0, ∃ a₀ > 0, ∀ a, 0 < a → a ≤ a₀ → ∃ s',
    size { exLevel 4000 with hourly := (exLevel 4000).hourly.map (a * ·) } "hourly" s0 = (.ok [.notDeepEnough], s') ∧
      (borehole s'.bhe).H = 150 := by
  obtain ⟨s0, hc⟩ := exLevel_covered
  obtain ⟨a₀, h0, h⟩ := C138_oversized (hc 4000) (by show (60 : ℝ) < 150; norm_num) (exLevel_gives (hc 4000) 60 le_rfl (by norm_num))
    (exLevel_gives (hc 4000) 150 (by norm_num) le_rfl) (by show (5 : ℝ) < 18; norm_num) (by show (18 : ℝ) < 35; norm_num)
    (exLevel 4000).load (exLevel 4000).hour
  exact ⟨s0, a₀, h0, fun a ha hle => h a ha hle [] (by simp) _ rfl⟩

end

end Ghedt.Whole
