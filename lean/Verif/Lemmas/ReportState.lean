import Verif.Props.WholeValue
import Verif.Props.Export

/-!
# What the object holds when it is printed or exported: lemmas
-/

set_option linter.unusedSectionVars false

namespace Ghedt.Report
open Real Ghedt.GHE Ghedt.Bhe Ghedt.Radial Ghedt.Whole

noncomputable section

variable {env : Whole.Env} {lo hi h : ℝ} {x : Exchanger}

/-- The equivalent tube and the short-time response held belong to the height the exchanger has. -/
structure Coherent (env : Whole.Env) (s : UTube) (st : Whole.State) : Prop where
  converts : computeEquivalent env.ext env.brent st.bhe = .ok (s, st.bhe)
  held : st.bheEq = s
  response : calcSts env.solve (radialTube env.ext s) none false env.fuel = .ok st.sts

theorem Coherent.tube {s : UTube} {st : Whole.State} (h : Coherent env s st) : tubeOf st = s := by
  have h1 := h.converts
  have h2 := h.held
  obtain ⟨bhe, e, q, t, hp, d⟩ := st
  unfold tubeOf
  dsimp only at h1 h2 ⊢
  cases bhe with
  | single t => cases h1; rfl
  | _ => exact h2

theorem prepare_coherent {st st' : Whole.State} {th : Thermal ℝ} (h : prepare env st = (.ok th, st')) :
    ∃ s, Coherent env s st' := by
  unfold prepare at h
  rw [St.get_bind, St.lift_eq_ok] at h
  obtain ⟨q, -, h⟩ := h
  rw [St.modify_bind, St.get_bind, St.lift_eq_ok] at h
  obtain ⟨⟨eq, y⟩, h1, h⟩ := h
  dsimp only at h h1
  obtain rfl := computeEquivalent_same _ _ _ _ _ h1
  rw [St.modify_bind, St.lift_eq_ok] at h
  obtain ⟨sts, h2, h⟩ := h
  rw [St.modify_bind, St.bind_eq_ok] at h
  obtain ⟨⟨xs, ys⟩, s1, h3, h⟩ := h
  dsimp only at h
  rw [St.get_bind] at h
  obtain ⟨-, rfl⟩ := Prod.mk.inj h
  have e := grabG_state (env := env) q _ ▸ congrArg Prod.snd h3
  dsimp only at e
  subst e
  exact ⟨eq, h1, rfl, h2⟩

/-- a simulation that returns leaves what it prepared and the temperatures whose extremes it returns -/
theorem simulate_left {st st' : Whole.State} {m : String} {r : ℝ × ℝ} (h : Whole.simulate env m st = (.ok r, st')) :
    (∃ s, Coherent env s st') ∧ maxNumber st'.HPEFT = .ok r.1 ∧ minNumber st'.HPEFT = .ok r.2 := by
  unfold Whole.simulate at h
  rw [St.bind_eq_ok] at h
  obtain ⟨th, s1, h1, h⟩ := h
  obtain ⟨s, c1, c2, c3⟩ := prepare_coherent h1
  rw [St.lift_eq_ok] at h
  obtain ⟨⟨Q, t⟩, -, h⟩ := h
  dsimp only at h
  rw [St.lift_eq_ok] at h
  obtain ⟨⟨T, d⟩, -, h⟩ := h
  dsimp only at h
  rw [St.modify_bind, St.lift_eq_ok] at h
  obtain ⟨u, hu, h⟩ := h
  rw [St.lift_eq_ok] at h
  obtain ⟨w, hw, h⟩ := h
  cases h
  exact ⟨⟨s, c1, c2, c3⟩, hu, hw⟩

theorem run_keeps {σ : Type} {I : σ → Prop} {obj : ℝ → St σ ℝ}
    (ho : ∀ y s v s', obj y s = (.ok v, s') → I s → I s') (p : Finder ℝ) :
    ∀ s v s', p.run obj s = (.ok v, s') → I s → I s' := by
  induction p with
  | done y =>
    intro s v s' h hs
    cases h
    exact hs
  | fail e => intro s v s' h hs; cases h
  | ask y next ih =>
    intro s v s' h hs
    unfold Finder.run at h
    rw [St.bind_eq_ok] at h
    obtain ⟨u, s1, h1, h2⟩ := h
    exact ih u s1 v s' h2 (ho y s u s1 h1 hs)

/-- sizing that returns leaves what a simulation that returned left -/
theorem size_left {st st' : Whole.State} {m : String} {w : List Warning} (h : Whole.size env m st = (.ok w, st')) :
    ∃ st0 r, Whole.simulate env m st0 = (.ok r, st') := by
  have ho : ∀ y s v s', Whole.localObjective env m y s = (.ok v, s') →
      ∃ st0 r, Whole.simulate env m st0 = (.ok r, s') := by
    intro y s v s' h
    unfold Whole.localObjective at h
    rw [St.modify_bind, St.bind_eq_ok] at h
    obtain ⟨r, s1, h1, h2⟩ := h
    obtain ⟨a, b⟩ := r
    cases h2
    exact ⟨_, _, h1⟩
  unfold Whole.size at h
  rw [St.modify_bind, St.get_bind, St.bind_eq_ok] at h
  obtain ⟨v, s1, h1, h2⟩ := h
  rw [St.get_bind] at h2
  obtain ⟨-, rfl⟩ := Prod.mk.inj h2
  unfold solveRoot at h1
  rw [St.bind_eq_ok] at h1
  obtain ⟨a, s2, -, h1⟩ := h1
  rw [St.bind_eq_ok] at h1
  obtain ⟨b, s3, h3, h1⟩ := h1
  have hs3 := ho _ _ _ _ h3
  rw [St.lift_eq_ok] at h1
  obtain ⟨c, -, h1⟩ := h1
  rw [St.lift_eq_ok] at h1
  obtain ⟨d, -, h1⟩ := h1
  split_ifs at h1
  · exact run_keeps (fun y s v s' h _ => ho y s v s' h) _ _ _ _ h1 hs3
  all_goals
    obtain ⟨-, rfl⟩ := Prod.mk.inj h1
    exact hs3

/-- the same for the exchanger as a function of the height -/
theorem size_left_abs {brent : ℝ → ℝ → Finder ℝ} {e : GheEnv ℝ} {st st' : GheState ℝ} {m : String}
    {w : List Warning} (h : GHE.size brent e m st = (.ok w, st')) :
    ∃ st0 r, GHE.simulate e m st0 = (.ok r, st') := by
  have ho : ∀ y s v s', GHE.localObjective e m y s = (.ok v, s') →
      ∃ st0 r, GHE.simulate e m st0 = (.ok r, s') := by
    intro y s v s' h
    unfold GHE.localObjective at h
    rw [St.modify_bind, St.bind_eq_ok] at h
    obtain ⟨r, s1, h1, h2⟩ := h
    obtain ⟨a, b⟩ := r
    cases h2
    exact ⟨_, _, h1⟩
  unfold GHE.size at h
  rw [St.modify_bind, St.get_bind, St.bind_eq_ok] at h
  obtain ⟨v, s1, h1, h2⟩ := h
  rw [St.get_bind] at h2
  obtain ⟨-, rfl⟩ := Prod.mk.inj h2
  unfold solveRoot at h1
  rw [St.bind_eq_ok] at h1
  obtain ⟨a, s2, -, h1⟩ := h1
  rw [St.bind_eq_ok] at h1
  obtain ⟨b, s3, h3, h1⟩ := h1
  have hs3 := ho _ _ _ _ h3
  rw [St.lift_eq_ok] at h1
  obtain ⟨c, -, h1⟩ := h1
  rw [St.lift_eq_ok] at h1
  obtain ⟨d, -, h1⟩ := h1
  split_ifs at h1
  · exact run_keeps (fun y s v s' h _ => ho y s v s' h) _ _ _ _ h1 hs3
  all_goals
    obtain ⟨-, rfl⟩ := Prod.mk.inj h1
    exact hs3

/-! ### the number of short-time values -/

theorem count_below {p : ℕ → Prop} [DecidablePred p] (hd : ∀ i j, i ≤ j → p j → p i) (N m : ℕ) (hm : m < N) :
    m + 1 ≤ ((List.range N).filter fun j => decide (p j)).length ↔ p m := by
  have hnd := (List.nodup_range (n := N)).filter fun j => decide (p j)
  constructor
  · intro h
    by_contra hp
    have hsub : ((List.range N).filter fun j => decide (p j)) ⊆ List.range m := by
      intro j hj
      rw [List.mem_filter] at hj
      rw [List.mem_range]
      by_contra hge
      exact hp (hd m j (by omega) (by simpa using hj.2))
    have := (hnd.subperm hsub).length_le
    rw [List.length_range] at this
    omega
  · intro hp
    have hsub : List.range (m + 1) ⊆ ((List.range N).filter fun j => decide (p j)) := by
      intro j hj
      rw [List.mem_range] at hj
      rw [List.mem_filter, List.mem_range]
      exact ⟨by omega, by simpa using hd j m (by omega) hp⟩
    have := (List.nodup_range.subperm hsub).length_le
    rwa [List.length_range] at this

theorem zip_filter_length {lt gs : List ℝ} (hl : gs.length = lt.length) (q : ℝ → Bool) :
    ((lt.zip gs).filter fun p => q p.1).length = (lt.filter q).length := by
  have : lt.filter q = ((lt.zip gs).filter fun p => q p.1).map Prod.fst := by
    conv_lhs => rw [← List.map_fst_zip (l₁ := lt) (l₂ := gs) hl.ge]
    rw [List.filter_map]
    rfl
  rw [this, List.length_map]

/-- what `grab_g_function` returns when the response held is that of the height `h` and the height is `h'` -/
theorem grab_points {h' : ℝ} {s : UTube} {a b : ℝ} (hk : Known x) (hR : Works env x h s) (hT : Times env s a b)
    (st : Whole.State) (hb : st.bhe = setHeight h' x)
    (hsts : calcSts env.solve (radialTube env.ext s) none false env.fuel = .ok st.sts) (ans : GF.Answer ℝ)
    (tb : GF.Table ℝ)
    (hreq : GF.request env.spl env.db (env.bSpacing / h') "default" st.table = (.ok ans, tb)) (hrb : ans.rb ≠ 0)
    (hansl : ans.g.length = env.db.logTime.length) :
    ∃ xs ys, grabG env (env.bSpacing / h') st = (.ok (xs, ys), { st with table := tb }) ∧ xs.length = ys.length ∧
      xs.zip ys = responsePoints env (borehole x).rb a st.sts.2.1 st.sts.2.2 ans ∧
      xs.Pairwise (· < ·) ∧
      env.db.logTime.length ≤ xs.length ∧
      ∀ m < 1470, m + 1 + env.db.logTime.length ≤ xs.length ↔ 1 / 10 ^ 12 + 120 * (m : ℝ) ≤ charTime s * exp a := by
  have hts := charTime_pos hR.sound
  obtain ⟨N, rad, gs, h0, hgs, hrts, hsts'⟩ := calcSts_ok hR
  rw [hsts] at hsts'
  have hsts'' : st.sts = (rad, (List.range N).map (fun j => log (sampleTime j / charTime s)), gs) := by
    exact Except.ok.inj hsts'
  have hrbx : (borehole (setHeight h' x)).rb = (borehole x).rb := by cases x <;> rfl
  have hc : GF.radiusCorrection log ans.g ans.rb (borehole st.bhe).rb =
      .ok (ans.g.map fun v => v - log ((borehole x).rb / ans.rb)) := by
    unfold GF.radiusCorrection
    refine mapM_ok fun v _ => ?_
    rw [pyDiv_ok hrb, hb, hrbx]
    rfl
  set c := ans.g.map fun v => v - log ((borehole x).rb / ans.rb) with hcd
  have hcl : c.length = env.db.logTime.length := by rw [hcd, List.length_map, hansl]
  set sts := (List.range N).map (fun j => log (sampleTime j / charTime s)) with hstsd
  have hspos : ∀ j : ℕ, 0 < sampleTime j / charTime s := fun j => div_pos (by unfold sampleTime; positivity) hts
  have hst_lt : sts.Pairwise (· < ·) := by
    rw [hstsd, List.pairwise_map]
    refine List.Pairwise.imp ?_ List.pairwise_lt_range
    intro i j hij
    have hij' : (i : ℝ) < j := by exact_mod_cast hij
    apply log_lt_log (hspos i)
    apply div_lt_div_of_pos_right _ hts
    unfold sampleTime
    linarith
  have hlast : sts.getLast? = some (log (sampleTime (N - 1) / charTime s)) := by
    obtain ⟨M, rfl⟩ : ∃ M, N = M + 1 := ⟨N - 1, by omega⟩
    rw [hstsd, List.range_succ, List.map_append]
    simp
  have hne : ∀ j : ℕ, log (sampleTime j / charTime s) ≠ a := by
    intro j e
    have := congrArg exp e
    rw [exp_log (hspos j), div_eq_iff hts.ne', mul_comm] at this
    exact hT.seam j this.symm
  have hgl : gs.length = sts.length := by
    rw [hgs, hstsd, List.length_map, List.length_range]
  obtain ⟨xs, ys, hcomb, hx, hzip, hlen, -, hsort⟩ := (C46_combine env.db.logTime c sts _ hT.increasing hst_lt hcl hgl
    a _ hT.first hlast).2 (hne _)
  have hxl : xs.length = ((List.range N).filter fun j => decide (log (sampleTime j / charTime s) ≤ a)).length +
      env.db.logTime.length := by
    rw [hx, List.length_append, hstsd, List.filter_map, List.length_map]
    rfl
  refine ⟨xs, ys, ?_, hlen, ?_, ?_, by omega, ?_⟩
  · unfold grabG
    have hrq : requestG env (env.bSpacing / h') st = (.ok ans, { st with table := tb }) := by
      unfold requestG
      dsimp only
      rw [hreq]
    rw [St.bind_ok hrq, St.get_bind]
    dsimp only
    rw [St.lift_ok hc, hsts'']
    dsimp only
    rw [hcomb]
    rfl
  · rw [hzip, hsts'']
    rfl
  · rw [hsort]
    intro hm
    obtain ⟨j, -, e⟩ := List.mem_map.1 hm
    exact hne j e
  · intro m hm
    have hiff : ∀ j : ℕ, log (sampleTime j / charTime s) ≤ a ↔ 1 / 10 ^ 12 + 120 * (j : ℝ) ≤ charTime s * exp a := by
      intro j
      rw [← log_exp a, log_le_log_iff (hspos j) (exp_pos a), div_le_iff₀ hts, mul_comm, log_exp]
      rfl
    rw [← hiff, hxl, ← count_below (p := fun j : ℕ => log (sampleTime j / charTime s) ≤ a) ?_ N m (by omega)]
    · omega
    · intro i j hij hp
      rw [hiff] at hp ⊢
      have : (i : ℝ) ≤ j := by exact_mod_cast hij
      linarith

/-- pairs selected at increasing indices are a sublist -/
theorem pairs_sublist {xs ys : List ℝ} {pairs : List (ℝ × ℝ)} {idx : List ℕ} (hl : pairs.length = idx.length)
    (hp : ∀ j i : ℕ, idx[j]? = some i → ∃ p, pairs[j]? = some p ∧ xs[i]? = some p.1 ∧ ys[i]? = some p.2)
    (hi : idx.Pairwise (· < ·)) : pairs.Sublist (xs.zip ys) := by
  have hlt : ∀ i ∈ idx, i < (xs.zip ys).length := by
    intro i him
    obtain ⟨j, hj, rfl⟩ := List.getElem_of_mem him
    obtain ⟨p, -, h2, h3⟩ := hp j _ (List.getElem?_eq_getElem hj)
    rw [List.length_zip]
    exact lt_min (List.getElem?_eq_some_iff.1 h2).1 (List.getElem?_eq_some_iff.1 h3).1
  have hsub := List.map_getElem_sublist (l := xs.zip ys) (is := idx.pmap (fun i h => (⟨i, h⟩ : Fin _)) hlt) (by
    rw [List.pairwise_pmap]
    exact hi.imp fun h _ _ => h)
  convert hsub using 1
  apply List.ext_getElem
  · simp [hl]
  · intro j h1 h2
    obtain ⟨p, e1, e2, e3⟩ := hp j _ (List.getElem?_eq_getElem (by omega))
    rw [List.getElem?_eq_getElem h1] at e1
    obtain ⟨q1, e2⟩ := List.getElem?_eq_some_iff.1 e2
    obtain ⟨q2, e3⟩ := List.getElem?_eq_some_iff.1 e3
    simp only [List.getElem_map, List.getElem_pmap, Fin.getElem_fin, List.getElem_zip]
    rw [e2, e3]
    cases e1
    rfl

/-- … that ends with the last 27 -/
theorem pairs_suffix {xs ys : List ℝ} {pairs A B : List (ℝ × ℝ)} {idx pre : List ℕ} (hl : pairs.length = idx.length)
    (hp : ∀ j i : ℕ, idx[j]? = some i → ∃ p, pairs[j]? = some p ∧ xs[i]? = some p.1 ∧ ys[i]? = some p.2)
    (he : idx = pre ++ List.range' (xs.length - 27) 27) (hxy : xs.length = ys.length) (hB : B.length = 27)
    (hz : xs.zip ys = A ++ B) : B <:+ pairs := by
  have hlen : xs.length = A.length + 27 := by
    have := congrArg List.length hz
    rw [List.length_zip, List.length_append, hB] at this
    omega
  refine ⟨pairs.take pre.length, ?_⟩
  have hil : idx.length = pre.length + 27 := by rw [he]; simp
  have hd : pairs.drop pre.length = B := by
    apply List.ext_getElem
    · rw [List.length_drop, hl, hil, hB]; omega
    · intro j h1 h2
      have hj : j < 27 := by omega
      obtain ⟨p, e1, e2, e3⟩ := hp (pre.length + j) (xs.length - 27 + j) (by
        rw [he, List.getElem?_append_right (by omega), Nat.add_sub_cancel_left, List.getElem?_range' hj]
        simp)
      have e4 : (xs.zip ys)[xs.length - 27 + j]? = some p := by
        rw [List.getElem?_zip_eq_some]
        exact ⟨e2, e3⟩
      rw [hz, show xs.length - 27 + j = A.length + j by omega, List.getElem?_append_right (by omega),
        Nat.add_sub_cancel_left, List.getElem?_eq_getElem h2] at e4
      rw [List.getElem_drop]
      rw [List.getElem?_eq_getElem (by omega)] at e1
      exact (Option.some.inj e1).trans (Option.some.inj e4).symm
  rw [← hd, List.take_append_drop]

end

end Ghedt.Report
