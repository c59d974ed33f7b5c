import Verif.Props.HybridFits
import Verif.Props.WholeValue

/-!
# C129: temperatures that are not numbers

The response at a negative time difference is `nan` (`log` of a negative number; the interpolation lets `nan` pass), so
a load whose hour lies before the hour of an earlier load gets `nan` as its temperature (C40, C43, C90, C92 give the
value of every entry).  `max` and `min`, and with them `simulate`, `size` and the searches, skip it.
-/

set_option linter.unusedSectionVars false

namespace Ghedt.GL
open Spec Search
variable {K : Type} [Field K] [LinearOrder K] [IsStrictOrderedRing K]

theorem side_duration {L : Loads K} (hL : Full L) (hd : ∀ x ∈ L.duration, 0 ≤ x) {m : ℕ} (hm : m ≤ 12) :
    0 ≤ (L.side m).duration := by
  have := hL.duration
  simp only [Loads.side]
  rw [List.getD_eq_getElem?_getD, List.getElem?_eq_getElem (by omega), Option.getD_some]
  exact hd _ (List.getElem_mem _)

theorem peakStart_nonneg (i : ℕ) (s : Side K) : 0 ≤ peakStart i s := by
  unfold peakStart
  split
  · norm_num
  · rename_i h; exact not_lt.1 h

/-- C129: the hours of a hybrid load sequence are never negative. -/
theorem C129_hours {cl hl : Loads K} (hc : Full cl) (hh : Full hl) (hz : NonZero cl hl)
    (dc : ∀ x ∈ cl.duration, 0 ≤ x) (dh : ∀ x ∈ hl.duration, 0 ≤ x) {start finish : ℕ} (hs : 1 ≤ start)
    (hsf : start ≤ finish) {H : Hybrid K} (h : processMonthlyLoads cl hl (start : ℤ) (finish : ℤ) = .ok H) :
    ∀ u ∈ H.hour, 0 ≤ u := by
  rw [process_eq hc hh hz hs hsf] at h
  cases h
  dsimp only
  intro u hu
  obtain ⟨⟨l, u⟩, hp, rfl⟩ := List.mem_map.1 hu
  unfold allEntries at hp
  rcases List.mem_append.1 hp with hp | hp
  · simp only [List.mem_cons, List.not_mem_nil, or_false, Prod.mk.injEq] at hp
    rcases hp with ⟨-, rfl⟩ | ⟨-, rfl⟩
    · exact le_rfl
    · exact Nat.cast_nonneg _
  · obtain ⟨k, -, hk⟩ := List.mem_flatMap.1 hp
    have c := side_duration hc dc (m := calMonth (start + k)) (by unfold calMonth; omega)
    have e := side_duration hh dh (m := calMonth (start + k)) (by unfold calMonth; omega)
    have key : ∀ (rate sg : K) (s : Side K), 0 ≤ s.duration → (l, u) ∈ peakBlock rate sg (start + k) s → 0 ≤ u := by
      intro rate sg s hd hm
      have h0 := peakStart_nonneg (start + k) s
      unfold peakBlock at hm
      split at hm
      · simp only [List.mem_cons, List.not_mem_nil, or_false, Prod.mk.injEq] at hm
        rcases hm with ⟨-, rfl⟩ | ⟨-, rfl⟩
        · exact h0
        · linarith
      · cases hm
    have hend : (0 : K) ≤ (hoursOf (start + k) : K) := Nat.cast_nonneg _
    unfold monthBlock at hk
    rcases List.mem_append.1 hk with hk | hk
    · split at hk
      · rcases List.mem_append.1 hk with hk | hk
        · exact key _ _ _ c hk
        · exact key _ _ _ e hk
      · split at hk
        · rcases List.mem_append.1 hk with hk | hk
          · exact key _ _ _ e hk
          · exact key _ _ _ c hk
        · cases hk
    · rw [List.mem_singleton, Prod.mk.injEq] at hk
      rw [hk.2]
      exact hend

/-- C129: where a peak attributed to day 0 of a month appears in the sequence, if the other peak of the month is
attributed to a later day: its middle is eleven hours before the end of the month before, although it comes after that
end in the sequence. -/
theorem C129_peak {cl hl : Loads K} (hc : Full cl) (hh : Full hl) (hz : NonZero cl hl)
    {start finish : ℕ} (hs : 1 ≤ start) (hsf : start ≤ finish) {H : Hybrid K}
    (h : processMonthlyLoads cl hl (start : ℤ) (finish : ℤ) = .ok H) {i : ℕ} (h1 : start ≤ i)
    (h2 : i ≤ finish) (hi : 2 ≤ i) (hr : i < start + 12 ∨ finish < i + 12) {c e : Side K} {σ : K}
    (hce : (cl.side (calMonth i) = c ∧ hl.side (calMonth i) = e ∧ σ = 1) ∨
      (hl.side (calMonth i) = c ∧ cl.side (calMonth i) = e ∧ σ = -1))
    (hd : c.day = 0) (hp : 0 < c.peak) (hd0 : 0 ≤ c.duration) (hd48 : c.duration ≤ 48) (he : 0 < e.day) :
    ∃ k, 1 ≤ k ∧ (start < i → 2 ≤ k) ∧ H.hour[k]? = some (hoursOf (i - 1) : K) ∧
      H.hour[k + 1]? = some ((hoursOf (i - 1) : K) - 11 - c.duration / 2) ∧
      H.hour[k + 2]? = some ((hoursOf (i - 1) : K) - 11 + c.duration / 2) ∧
      H.load[k + 2]? = some (σ * c.peak) := by
  obtain ⟨ends, e0, -⟩ := C63_ends hc hh hz hs hsf h
  have hend := ends (i - 1) (by omega) (by omega)
  have hm := month_entries hc hh hz hs hsf h h1 h2
  have hP : (744 : K) ≤ (hoursOf (i - 1) : K) := by
    have : 744 ≤ hoursOf (i - 1) := by
      obtain ⟨n, hn⟩ : ∃ n, i - 1 = n + 1 := ⟨i - 2, by omega⟩
      rw [hn]
      clear hn
      induction n with
      | zero => decide
      | succ n ih => rw [hoursOf_succ]; omega
    exact_mod_cast this
  have hr' : Retained start finish i := hr
  have hst : peakStart i c = (hoursOf (i - 1) : K) - 11 - c.duration / 2 := by
    unfold peakStart
    rw [hd]
    push_cast
    rw [if_neg (by linarith)]
    ring
  have hb : ∃ rate l, monthBlock (Retained start finish i) i (cl.side (calMonth i)) (hl.side (calMonth i)) =
      (rate, (hoursOf (i - 1) : K) - 11 - c.duration / 2) ::
        (σ * c.peak, (hoursOf (i - 1) : K) - 11 + c.duration / 2) :: l := by
    unfold monthBlock
    rcases hce with ⟨rfl, rfl, rfl⟩ | ⟨rfl, rfl, rfl⟩
    · generalize rateOf (Retained start finish i) (calMonth i) (cl.side (calMonth i)) (hl.side (calMonth i)) = rate
      rw [if_pos ⟨hr', by omega⟩]
      unfold peakBlock
      rw [if_pos hp, hst]
      refine ⟨rate, ?_, ?_⟩
      rotate_left
      rw [show (hoursOf (i - 1) : K) - 11 - (cl.side (calMonth i)).duration / 2 + (cl.side (calMonth i)).duration =
        (hoursOf (i - 1) : K) - 11 + (cl.side (calMonth i)).duration / 2 by ring]
      rfl
    · generalize rateOf (Retained start finish i) (calMonth i) (cl.side (calMonth i)) (hl.side (calMonth i)) = rate
      rw [if_neg (fun h => by omega), if_pos ⟨hr', by omega⟩]
      unfold peakBlock
      rw [if_pos hp, hst]
      refine ⟨rate, ?_, ?_⟩
      rotate_left
      rw [show (hoursOf (i - 1) : K) - 11 - (hl.side (calMonth i)).duration / 2 + (hl.side (calMonth i)).duration =
        (hoursOf (i - 1) : K) - 11 + (hl.side (calMonth i)).duration / 2 by ring]
      rfl
  obtain ⟨rate, l, hb⟩ := hb
  rw [hb] at hm
  have pos : ∀ j x, ((rate, (hoursOf (i - 1) : K) - 11 - c.duration / 2) ::
        (σ * c.peak, (hoursOf (i - 1) : K) - 11 + c.duration / 2) :: l)[j]? = some x →
      H.load[monthEndPos start finish cl.side hl.side (i - 1) + 1 + j]? = some x.1 ∧
      H.hour[monthEndPos start finish cl.side hl.side (i - 1) + 1 + j]? = some x.2 := by
    intro j x hx
    rw [← hm, List.getElem?_take] at hx
    split at hx
    · rw [List.getElem?_drop, List.getElem?_zip_eq_some] at hx
      exact hx
    · cases hx
  refine ⟨_, ?_, ?_, hend, (pos 0 _ rfl).2, (pos 1 _ rfl).2, (pos 1 _ rfl).1⟩
  · unfold monthEndPos; omega
  · intro hlt
    unfold monthEndPos
    rw [show i - 1 + 1 = i by omega, show i = (i - 1) + 1 by omega, Finset.sum_Ico_succ_top (by omega)]
    omega

end Ghedt.GL

namespace Ghedt.Whole
open Real Ghedt.GHE Ghedt.Bhe Ghedt.Radial Ghedt.Spec Ghedt.Search

noncomputable section

variable {env : Env}

/-- a response at time 0 is never available -/
theorem prepare_zero {st s1 : State} {th : Thermal ℝ} (h : prepare env st = (.ok th, s1)) :
    th.g 0 = .error .valueError := by
  unfold prepare at h
  rw [St.get_bind, St.lift_eq_ok] at h
  obtain ⟨q, -, h⟩ := h
  rw [St.modify_bind, St.get_bind, St.lift_eq_ok] at h
  obtain ⟨⟨eq, y⟩, -, h⟩ := h
  dsimp only at h
  rw [St.modify_bind, St.lift_eq_ok] at h
  obtain ⟨sts, -, h⟩ := h
  rw [St.modify_bind, St.bind_eq_ok] at h
  obtain ⟨⟨xs, ys⟩, s2, -, h⟩ := h
  dsimp only at h
  rw [St.get_bind] at h
  obtain ⟨e, -⟩ := Prod.mk.inj h
  cases e
  exact if_pos le_rfl

/-- what is known of a hybrid simulation that returns -/
theorem hybrid_returned {st : State} {r : ℝ × ℝ} {s' : State} (hsim : simulate env "hybrid" st = (.ok r, s')) :
    ∃ th : Thermal ℝ, th.g 0 = .error .valueError ∧
      env.load.length - 2 ≤ env.hour.length - 2 ∧ Responds th (env.hour.drop 2) (env.load.length - 2) ∧
      s'.HPEFT = (List.range (env.load.length - 2)).map (fun k => tempN th (resp th)
        ((env.load.drop 2).map (· * 1000)) (env.hour.drop 2) (k + 1)) ∧
      maxNumber s'.HPEFT = .ok r.1 ∧ minNumber s'.HPEFT = .ok r.2 := by
  unfold simulate at hsim
  rw [St.bind_eq_ok] at hsim
  obtain ⟨th, s1, h0, h⟩ := hsim
  rw [show simulationInput (gheEnv env fun _ => .error .valueError) "hybrid" =
    .ok ((env.load.drop 2).map (· * 1000), env.hour.drop 2) from rfl, St.lift_ok rfl] at h
  dsimp only at h
  rw [St.lift_eq_ok] at h
  obtain ⟨⟨T, d⟩, hd, h⟩ := h
  dsimp only at h
  rw [St.modify_bind, St.lift_eq_ok] at h
  obtain ⟨u1, m1, h⟩ := h
  rw [St.lift_eq_ok] at h
  obtain ⟨u2, m2, h⟩ := h
  obtain ⟨e, rfl⟩ := Prod.mk.inj h
  cases e
  obtain ⟨⟨hl, hresp⟩, rfl, -⟩ := simulateDetailed_eq_ok.1 hd
  have hlen : ((env.load.drop 2).map (· * 1000)).length = env.load.length - 2 := by simp
  rw [hlen] at hl hresp
  refine ⟨th, prepare_zero h0, by rw [List.length_drop] at hl; exact hl, hresp, ?_, m1, m2⟩
  dsimp only
  rw [hlen]

theorem at0_hour (j : ℕ) : at0 (env.hour.drop 2) (j + 1) = env.hour[j + 2]?.getD 0 := by
  rw [at0_succ, List.getD_eq_getElem?_getD, List.getElem?_drop, add_comm 2 j]

/-- C129: whenever a simulation of the hybrid loads returns, whatever the object was used for before: the hour of a load is neither 0
nor that of a load before it, and its temperature is a number if and only if the hour is not negative and not
before the hour of a load before it.  (The first two entries of the sequence are no loads.) -/
theorem C129_entries (st : State) (r : ℝ × ℝ) (s' : State) (hsim : simulate env "hybrid" st = (.ok r, s')) (k : ℕ) (u : ℝ)
    (hk : k + 2 < env.load.length) (hu : env.hour[k + 2]? = some u) :
    u ≠ 0 ∧ (∀ j < k, env.hour[j + 2]? ≠ some u) ∧
    ∃ T, s'.HPEFT[k]? = some T ∧
      (T = none ↔ u < 0 ∨ ∃ j v, j < k ∧ env.hour[j + 2]? = some v ∧ u < v) := by
  obtain ⟨th, h0, hl, hresp, hT, -⟩ := hybrid_returned hsim
  have ne : ∀ j < k + 1, at0 (env.hour.drop 2) j ≠ u := by
    intro j hj he
    obtain ⟨v, hv⟩ := hresp (k + 1) (by omega) j hj (by rw [he, at0_hour, hu]; rfl)
    rw [he, at0_hour, hu, Option.getD_some, sub_self, h0] at hv
    cases hv
  refine ⟨fun h => ne 0 (by omega) h.symm, fun j hj he => ne (j + 1) (by omega) (by rw [at0_hour, he]; rfl),
    tempN th (resp th) ((env.load.drop 2).map (· * 1000)) (env.hour.drop 2) (k + 1), ?_, ?_⟩
  · rw [hT, List.getElem?_map, List.getElem?_range (by omega)]
    rfl
  · have hlate : tempN th (resp th) ((env.load.drop 2).map (· * 1000)) (env.hour.drop 2) (k + 1) = none ↔
        Late (env.hour.drop 2) (k + 1) := by
      unfold tempN
      split <;> simp_all
    rw [hlate]
    unfold Late
    rw [at0_hour, hu, Option.getD_some]
    constructor
    · rintro ⟨j, hj, hlt⟩
      cases j with
      | zero => exact .inl hlt
      | succ j =>
        right
        rw [at0_hour] at hlt
        refine ⟨j, _, by omega, ?_, hlt⟩
        rw [List.getElem?_eq_getElem (by omega), Option.getD_some]
    · rintro (hlt | ⟨j, v, hj, hv, hlt⟩)
      · exact ⟨0, by omega, hlt⟩
      · exact ⟨j + 1, by omega, by rw [at0_hour, hv, Option.getD_some]; exact hlt⟩

/-- C129: whenever a simulation returns, the two numbers it returns are the largest and the smallest of the temperatures
that are numbers. -/
theorem C129_extremes (method : String) (st : State) (hi lo : ℝ) (s' : State)
    (hsim : simulate env method st = (.ok (hi, lo), s')) :
    (some hi ∈ s'.HPEFT ∧ ∀ T, some T ∈ s'.HPEFT → T ≤ hi) ∧ (some lo ∈ s'.HPEFT ∧ ∀ T, some T ∈ s'.HPEFT → lo ≤ T) := by
  unfold simulate at hsim
  rw [St.bind_eq_ok] at hsim
  obtain ⟨th, s1, -, h⟩ := hsim
  rw [St.lift_eq_ok] at h
  obtain ⟨⟨Q, t⟩, -, h⟩ := h
  dsimp only at h
  rw [St.lift_eq_ok] at h
  obtain ⟨⟨T, d⟩, -, h⟩ := h
  dsimp only at h
  rw [St.modify_bind, St.lift_eq_ok] at h
  obtain ⟨u1, h1, h⟩ := h
  rw [St.lift_eq_ok] at h
  obtain ⟨u2, h2, h⟩ := h
  obtain ⟨e, rfl⟩ := Prod.mk.inj h
  cases e
  exact ⟨maxNumber_eq_ok h1, minNumber_eq_ok h2⟩

/-- C129: a peak attributed to day 0 of a month after the first simulated one, when the other peak of the month is attributed to a
later day: whenever a simulation of such hybrid loads returns, the temperature at the start of the peak is not a number;
if the peak lasts less than 22 hours the temperature at its end is not a number either; and it does not last exactly 22
hours (the simulation would raise). -/
theorem C129_lost {cl hl : GL.Loads ℝ} (hc : GL.Full cl) (hh : GL.Full hl) (hz : GL.NonZero cl hl)
    {start finish : ℕ} (hs : 1 ≤ start) (hsf : start ≤ finish) {H : GL.Hybrid ℝ}
    (h : GL.processMonthlyLoads cl hl (start : ℤ) (finish : ℤ) = .ok H) {i : ℕ} (h1 : start < i)
    (h2 : i ≤ finish) (hr : i < start + 12 ∨ finish < i + 12) {c e : Side ℝ} {σ : ℝ}
    (hce : (cl.side (calMonth i) = c ∧ hl.side (calMonth i) = e ∧ σ = 1) ∨
      (hl.side (calMonth i) = c ∧ cl.side (calMonth i) = e ∧ σ = -1))
    (hd : c.day = 0) (hp : 0 < c.peak) (hd0 : 0 ≤ c.duration) (hd48 : c.duration ≤ 48) (he : 0 < e.day) :
    ∃ k, H.load[k + 3]? = some (σ * c.peak) ∧
      H.hour[k + 2]? = some ((hoursOf (i - 1) : ℝ) - 11 - c.duration / 2) ∧
      H.hour[k + 3]? = some ((hoursOf (i - 1) : ℝ) - 11 + c.duration / 2) ∧
      ∀ (env : Env) (st : State) (r : ℝ × ℝ) (s' : State), env.load = H.load → env.hour = H.hour →
        simulate env "hybrid" st = (.ok r, s') →
        s'.HPEFT[k]? = some none ∧ (c.duration < 22 → s'.HPEFT[k + 1]? = some none) ∧ c.duration ≠ 22 := by
  obtain ⟨k, k1, k2, g1, g2, g3, g4⟩ := GL.C129_peak hc hh hz hs hsf h h1.le h2 (by omega) hr hce hd hp hd0 hd48 he
  have k2 := k2 h1
  obtain ⟨k, rfl⟩ : ∃ j, k = j + 2 := ⟨k - 2, by omega⟩
  have l1 := (GL.C63_aligned hc hh hz hs hsf h).1
  have lt := (List.getElem?_eq_some_iff.1 g4).1
  refine ⟨k + 1, g4, g2, g3, ?_⟩
  intro env st r s' hload hhour hsim
  obtain ⟨-, -, T1, a1, b1⟩ := C129_entries st r s' hsim (k + 1) _ (by rw [hload]; omega) (by rw [hhour]; exact g2)
  obtain ⟨-, n2, T2, a2, b2⟩ := C129_entries st r s' hsim (k + 2) _ (by rw [hload]; omega) (by rw [hhour]; exact g3)
  refine ⟨?_, ?_, ?_⟩
  · rw [a1, b1.2 (.inr ⟨k, _, by omega, by rw [hhour]; exact g1, by linarith⟩)]
  · intro hd22
    rw [a2, b2.2 (.inr ⟨k, _, by omega, by rw [hhour]; exact g1, by linarith⟩)]
  · intro hd22
    apply n2 k (by omega)
    rw [hhour, g1, hd22]
    norm_num

end

end Ghedt.Whole

namespace Ghedt.WholeSearch
open Real Ghedt.GHE Ghedt.Bhe Ghedt.Radial Ghedt.Whole Ghedt.Search Ghedt.Utilities Ghedt.Spec

noncomputable section

variable {p : Problem} {f : Field} {H : ℝ} {bhe : Exchanger} {s : UTube}

/-- C129: the hours of the hybrid load of a new exchanger are never negative. -/
theorem C129_fresh (h : Usable p f H bhe s) (x : Held) (hx : fresh p f H = .ok x) : ∀ u ∈ x.env.hour, 0 ≤ u := by
  obtain ⟨B, c, sts, cl, hl, hy, hB, hc, hcl, h1, h2, h3, h4, h5, hf⟩ := fresh_ok h
  rw [hx] at hf
  cases hf
  obtain ⟨m1, m2⟩ := h.months
  obtain ⟨a, ha⟩ : ∃ a : ℕ, p.startMonth = a := ⟨p.startMonth.toNat, by omega⟩
  obtain ⟨b, hb⟩ : ∃ b : ℕ, p.endMonth = b := ⟨p.endMonth.toNat, by omega⟩
  obtain ⟨f1, f2, f3, hy', h4', h6⟩ := GL.C63_hybrid h2 h3 (start := a) (finish := b) (by omega) (by omega)
  rw [← ha, ← hb, h4] at h4'
  cases h4'
  exact GL.C129_hours f1 f2 f3 (fun x hx => ((GL.mkLoads_full h2).2 x hx).1)
    (fun x hx => ((GL.mkLoads_full h3).2 x hx).1) (by omega) (by omega) h6

/-- C129: for usable input, if no two of the hours of the hybrid load (from 0 on, without its first two entries) are closer than 10⁻¹² s, and none is
later than the g-function reaches, the hybrid simulation of a new exchanger returns, also where the hours go
backwards.  The temperature at an hour before an earlier one is not a number; the others are those of the
superposition formula; and the two numbers returned are the largest and the smallest of those. -/
theorem C129_hybrid (h : Usable p f H bhe s) (hs : Seam s) (x : Held) (hx : fresh p f H = .ok x)
    (hgap : (0 :: x.env.hour.drop 2).Pairwise (fun u v => 1 / 10 ^ 12 ≤ 3600 * |v - u|))
    (hend : ∀ u ∈ x.env.hour, 3600 * u ≤ charTime s * exp (3003 / 1000)) (Q t : ℕ → ℝ) (hQ0 : Q 0 = 0)
    (ht0 : t 0 = 0) (hQ : ∀ k, k + 2 < x.env.load.length → x.env.load[k + 2]? = some (Q (k + 1) / 1000))
    (ht : ∀ k, k + 2 < x.env.load.length → x.env.hour[k + 2]? = some (t (k + 1))) :
    ∃ hi lo s' rad lt gs c G, Whole.simulate x.env "hybrid" x.state = (.ok (hi, lo), s') ∧
      calcSts p.solve (radialTube p.ext s) none false p.fuel = .ok (rad, lt, gs) ∧
      p.gf (massFlow p f) p.media f H p.borehole.rb p.borehole.D = .ok c ∧
      (∀ i ≤ x.env.load.length - 2, ∀ j < i, t j ≤ t i → OnPolyline
        ((lt.zip gs).filter (fun q => decide (q.1 ≤ -(85 / 10))) ++ (eskilsonLogTimes : List ℝ).zip c)
        (log (3600 * (t i - t j) / charTime s)) (G (t i - t j))) ∧
      s'.HPEFT = (List.range (x.env.load.length - 2)).map (fun k => if ∃ j < k + 1, t (k + 1) < t j then none else
        some (exitTemp ⟨f.length, H, p.media.soil.k, p.media.soil.ugt, effectiveRb p.ext bhe, massFlow p f,
          p.media.fluid.cp⟩ G Q t (k + 1))) ∧
      (some hi ∈ s'.HPEFT ∧ ∀ T, some T ∈ s'.HPEFT → T ≤ hi) ∧
      (some lo ∈ s'.HPEFT ∧ ∀ T, some T ∈ s'.HPEFT → lo ≤ T) := by
  have hnn := C129_fresh h x hx
  obtain ⟨B, c, sts, cl, hl, hy, hB, hc, hcl, h1, h2, h3, h4, h5, hf⟩ := fresh_ok h
  rw [hx] at hf
  cases hf
  dsimp only at *
  obtain ⟨m1, m2⟩ := h.months
  obtain ⟨a, ha⟩ : ∃ a : ℕ, p.startMonth = a := ⟨p.startMonth.toNat, by omega⟩
  obtain ⟨b, hb⟩ : ∃ b : ℕ, p.endMonth = b := ⟨p.endMonth.toNat, by omega⟩
  obtain ⟨f1, f2, f3, hy', h4', h6⟩ := GL.C63_hybrid h2 h3 (start := a) (finish := b) (by omega) (by omega)
  rw [← ha, ← hb, h4] at h4'
  cases h4'
  obtain ⟨l1, -, l3, l4, l2⟩ := GL.C63_aligned f1 f2 f3 (by omega) (by omega) h6
  obtain ⟨-, -, e3⟩ := GL.C63_ends f1 f2 f3 (by omega) (by omega) h6
  change hy.load.length = hy.hour.length at l1
  change ∀ u ∈ hy.hour, 0 ≤ u at hnn
  change ∀ u ∈ hy.hour, _ at hend
  change (0 :: hy.hour.drop 2).Pairwise _ at hgap
  have hlen3 : 2 < hy.hour.length := by
    rw [← e3]
    unfold monthEndPos
    rw [Finset.sum_Ico_succ_top (by omega)]
    omega
  have hQl : ((hy.load.drop 2).map (· * 1000)).length = hy.load.length - 2 := by simp
  have et : ∀ i ≤ hy.load.length - 2, at0 (hy.hour.drop 2) i = t i := by
    intro i hi
    cases i with
    | zero => rw [ht0]; rfl
    | succ i =>
      rw [at0_succ, List.getD_eq_getElem?_getD, List.getElem?_drop, add_comm 2 i]
      rw [show hy.hour[i + 2]? = _ from ht i (by show i + 2 < hy.load.length; omega)]
      rfl
  have ht1 : 0 ≤ at0 (hy.hour.drop 2) 1 := by
    rw [et 1 (by omega)]
    exact hnn _ (List.mem_of_getElem? (ht 0 (by show 0 + 2 < hy.load.length; omega)))
  obtain ⟨hi, lo, s', rad, lt, gs, c', G, k1, k2, k3, k4, k5, k6, k7⟩ := simulate_fresh h hs hx (method := "hybrid")
    (Ql := (hy.load.drop 2).map (· * 1000)) (tl := hy.hour.drop 2) rfl
    (by rw [hQl, List.length_drop, l1]) (by
      intro h0
      rw [h0, List.length_nil] at hQl
      omega) (by
      have h0 : ∀ u ∈ (0 :: hy.hour.drop 2), 0 ≤ u := by
        intro u hu
        rcases List.mem_cons.1 hu with rfl | hu
        · exact le_rfl
        · exact hnn u (List.mem_of_mem_drop hu)
      have h1 : ∀ u ∈ (0 :: hy.hour.drop 2), 3600 * u ≤ charTime s * exp (3003 / 1000) := by
        intro u hu
        rcases List.mem_cons.1 hu with rfl | hu
        · have := charTime_pos (env := envOf p f H B c (cl, hl, hy)) (h.works B c (cl, hl, hy)).sound
          rw [mul_zero]
          positivity
        · exact hend u (List.mem_of_mem_drop hu)
      rw [List.pairwise_iff_getElem] at hgap ⊢
      intro i j hi hj hij hle
      have a1 := hgap i j hi hj hij
      rw [abs_of_nonneg (sub_nonneg.2 hle)] at a1
      have a2 := h0 _ (List.getElem_mem hi)
      have a3 := h1 _ (List.getElem_mem hj)
      exact ⟨a1, by linarith⟩) ht1
  have eQ : ∀ i ≤ hy.load.length - 2, at0 ((hy.load.drop 2).map (· * 1000)) i = Q i := by
    intro i hi
    cases i with
    | zero => rw [hQ0]; rfl
    | succ i =>
      rw [at0_succ, List.getD_eq_getElem?_getD, List.getElem?_map, List.getElem?_drop, add_comm 2 i]
      rw [show hy.load[i + 2]? = _ from hQ i (by show i + 2 < hy.load.length; omega)]
      simp
  rw [hQl] at k4 k5
  refine ⟨hi, lo, s', rad, lt, gs, c', G, k1, k2, k3, ?_, ?_, k6, k7⟩
  · intro i hi j hj
    change i ≤ hy.load.length - 2 at hi
    rw [← et i hi, ← et j (by omega)]
    exact k4 i hi j hj
  · rw [k5]
    refine List.map_congr_left fun k hk => ?_
    have hk := List.mem_range.1 hk
    refine if_congr ?_ rfl (congrArg some ?_)
    · unfold Late
      refine exists_congr fun j => and_congr_right fun hj => ?_
      rw [et (k + 1) hk, et j (by omega)]
    unfold exitTemp wallRise
    rw [eQ _ hk, Finset.sum_congr rfl fun j hj => by
      rw [eQ (j + 1) (by have := Finset.mem_range.1 hj; omega), eQ j (by have := Finset.mem_range.1 hj; omega),
        et (k + 1) hk, et j (by have := Finset.mem_range.1 hj; omega)]]

/-- C129, from the user's hourly loads: let one of the two kinds of load of a calendar month (rejected, `σ = 1`, or
extracted, `σ = -1`; `P` in W) be highest in the very first hour of the month and the other kind be highest later.  Let
simulation month `i`, not the first, be that calendar month, and be one of the first or last twelve.  Then the
hybrid load of a new exchanger contains the peak, with its middle eleven hours before the end of the month *before*, and
whenever a simulation of it returns the temperature at its start is not a number, and that at its end is not if the
peak lasts less than 22 hours: the peak is left out when the extreme temperatures are taken. -/
theorem C129_first_hour (h : Usable p f H bhe s) (x : Held) (hx : fresh p f H = .ok x) {w w' : List ℝ} {σ : ℝ}
    (hw : (w = (p.hourly.map fun x => max (-x) 0) ∧ w' = (p.hourly.map fun x => max x 0) ∧ σ = 1) ∨
      (w = (p.hourly.map fun x => max x 0) ∧ w' = (p.hourly.map fun x => max (-x) 0) ∧ σ = -1))
    {i : ℕ} (h1 : p.startMonth < i) (h2 : (i : ℤ) ≤ p.endMonth)
    (hr : (i : ℤ) < p.startMonth + 12 ∨ p.endMonth < (i : ℤ) + 12) {P P' : ℝ} {j : ℕ}
    (hP : PeaksAt (monthLoads false w (calMonth i)) 0 P) (hP0 : 0 < P)
    (hP' : PeaksAt (monthLoads false w' (calMonth i)) j P') (hj : 0 < j) :
    ∃ k d, 0 ≤ d ∧ d ≤ 48 ∧ x.env.load[k + 3]? = some (σ * (P / 1000)) ∧
      x.env.hour[k + 2]? = some ((hoursOf (i - 1) : ℝ) - 11 - d / 2) ∧
      x.env.hour[k + 3]? = some ((hoursOf (i - 1) : ℝ) - 11 + d / 2) ∧
      ∀ (st : Whole.State) (r : ℝ × ℝ) (s' : Whole.State), Whole.simulate x.env "hybrid" st = (.ok r, s') →
        s'.HPEFT[k]? = some none ∧ (d < 22 → s'.HPEFT[k + 1]? = some none) ∧ d ≠ 22 := by
  have hleap : decide (LeapYear 2019) = false := by decide
  obtain ⟨B, c, sts, cl, hl, hy, hB, hc, hcl, e1, e2, e3, e4, e5, hf⟩ := fresh_ok h
  rw [hx] at hf
  cases hf
  obtain ⟨m1, m2⟩ := h.months
  obtain ⟨a, ha⟩ : ∃ a : ℕ, p.startMonth = a := ⟨p.startMonth.toNat, by omega⟩
  obtain ⟨b, hb⟩ : ∃ b : ℕ, p.endMonth = b := ⟨p.endMonth.toNat, by omega⟩
  obtain ⟨f1, f2, f3, hy', h4', h6⟩ := GL.C63_hybrid e2 e3 (start := a) (finish := b) (by omega) (by omega)
  rw [← ha, ← hb, e4] at h4'
  cases h4'
  have c1 : 1 ≤ calMonth i := by unfold calMonth; omega
  have c2 : calMonth i ≤ 12 := by unfold calMonth; omega
  -- what is recorded for the month
  have side : ∀ (v : List ℝ) (L : GL.Loads ℝ),
      GL.mkLoads (respOf (radialTube p.ext s) sts.1 sts.2.1 sts.2.2) (v.map (· / 1000)) 2019 = .ok L →
      ∀ (k : ℕ) (R : ℝ), PeaksAt (monthLoads false v (calMonth i)) k R →
      (L.side (calMonth i)).peak = R / 1000 ∧ (L.side (calMonth i)).day = dayOf k ∧
        0 ≤ (L.side (calMonth i)).duration ∧ (L.side (calMonth i)).duration ≤ 48 := by
    intro v L hL k R hR
    obtain ⟨k', hk', hd⟩ := GL.side_facts hL c1 c2
    rw [hleap, monthLoads_map] at hk'
    obtain ⟨rfl, e⟩ := GL.PeaksAt.unique hR (peaksAt_scale hk')
    obtain ⟨g1, g2⟩ := GL.mkLoads_full hL
    have hmem : (L.side (calMonth i)).duration ∈ L.duration := by
      have := g1.duration
      simp only [GL.Loads.side]
      rw [List.getD_eq_getElem?_getD, List.getElem?_eq_getElem (by omega), Option.getD_some]
      exact List.getElem_mem _
    exact ⟨by rw [e]; ring, hd, (g2 _ hmem).1, (g2 _ hmem).2⟩
  have hdj : 0 < dayOf j := by unfold dayOf; omega
  have fin : ∀ c e : Side ℝ, ((cl.side (calMonth i) = c ∧ hl.side (calMonth i) = e ∧ σ = 1) ∨
      (hl.side (calMonth i) = c ∧ cl.side (calMonth i) = e ∧ σ = -1)) → c.peak = P / 1000 → c.day = dayOf 0 →
      0 ≤ c.duration → c.duration ≤ 48 → e.day = dayOf j → _ := fun c e hce q1 q2 q3 q4 q5 =>
    Whole.C129_lost f1 f2 f3 (start := a) (finish := b) (by omega) (by omega) h6 (i := i) (by omega) (by omega) (by omega)
      hce q2 (by rw [q1]; positivity) q3 q4 (by rw [q5]; exact_mod_cast hdj)
  rcases hw with ⟨rfl, rfl, rfl⟩ | ⟨rfl, rfl, rfl⟩
  · obtain ⟨q1, q2, q3, q4⟩ := side _ _ e2 _ _ hP
    obtain ⟨-, q5, -⟩ := side _ _ e3 _ _ hP'
    obtain ⟨k, r1, r2, r3, r4⟩ := fin _ _ (.inl ⟨rfl, rfl, rfl⟩) q1 q2 q3 q4 q5
    exact ⟨k, _, q3, q4, by rw [← q1]; exact r1, r2, r3, fun st r s' hsim => r4 _ st r s' rfl rfl hsim⟩
  · obtain ⟨q1, q2, q3, q4⟩ := side _ _ e3 _ _ hP
    obtain ⟨-, q5, -⟩ := side _ _ e2 _ _ hP'
    obtain ⟨k, r1, r2, r3, r4⟩ := fin _ _ (.inr ⟨rfl, rfl, rfl⟩) q1 q2 q3 q4 q5
    exact ⟨k, _, q3, q4, by rw [← q1]; exact r1, r2, r3, fun st r s' hsim => r4 _ st r s' rfl rfl hsim⟩

/-! ### examples -/

/-- a building that rejects 1 kW in every hour, except for one hour a month in which it extracts 30 kW -/
@[irreducible] def flatLoads : List ℝ := (List.range 8760).map fun h => if h ∈ coldHours then 30000 else -1000

theorem flatLoads_eq : flatLoads = (List.range 8760).map fun h => if h ∈ coldHours then 30000 else -1000 := by
  unfold flatLoads; rfl

theorem flatLoads_month (g : ℝ → ℝ) {m : ℕ} (m1 : 1 ≤ m) (m2 : m ≤ 12) :
    monthLoads false (flatLoads.map g) m = (List.range (24 * monthLength false m)).map fun k =>
      g (if k = 468 then 30000 else -1000) := by
  have hstart : monthStart false m + 24 * monthLength false m ≤ 8760 := by
    have := GL.monthStart_le false (show m + 1 ≤ 13 by omega)
    rw [GL.monthStart_succ] at this
    simpa [yearHours] using this
  apply List.ext_getElem?
  intro k
  unfold monthLoads
  by_cases hk : k < 24 * monthLength false m
  · rw [List.getElem?_take_of_lt hk, List.getElem?_drop, List.getElem?_map, List.getElem?_map, flatLoads_eq, List.getElem?_map,
      List.getElem?_range (by omega), List.getElem?_range hk]
    simp only [Option.map_some]
    congr 2
    have key : (monthStart false m + k ∈ coldHours ↔ k = 468) := by
      have hs : monthStart false m = [0, 0, 744, 1416, 2160, 2880, 3624, 4344, 5088, 5832, 6552, 7296, 8016].getD m 0 := by
        interval_cases m <;> decide
      have hl : monthLength false m = [0, 31, 28, 31, 30, 31, 30, 31, 31, 30, 31, 30, 31].getD m 0 := by
        interval_cases m <;> rfl
      rw [hl] at hk
      rw [hs]
      simp only [coldHours, List.mem_cons, List.not_mem_nil, or_false]
      interval_cases m <;> simp only [List.getD_cons_succ, List.getD_cons_zero] at hk ⊢ <;> omega
    simp only [key]
  · rw [List.getElem?_eq_none (by rw [List.length_take]; omega),
      List.getElem?_eq_none (by rw [List.length_map, List.length_range]; omega)]

theorem flatLoads_separated (g : ℝ → ℝ) (i : ℕ) (hi : i = 0 ∨ i = 468) (P : ℝ)
    (hP : g (if i = 468 then 30000 else -1000) = P) (h2 : g 30000 ≤ P) (h3 : g (-1000) ≤ P) :
    Separated (flatLoads.map g) := by
  refine ClearPeaks.of_all ?_
  intro m m1 m2 pk hpk hmax x hx
  have hml := (GL.monthLength_bounds false m1 m2).1
  rw [flatLoads_month g m1 m2] at hmax
  have hPk := hmax P (List.mem_map.2 ⟨i, List.mem_range.2 (by omega), hP⟩)
  left
  obtain ⟨y, hy, rfl⟩ := List.mem_map.1 hx
  rw [flatLoads_eq] at hy
  obtain ⟨k, -, rfl⟩ := List.mem_map.1 hy
  refine le_trans ?_ hPk
  split_ifs
  · exact h2
  · exact h3

def exFlat : Problem := { exProblem with hourly := flatLoads, method := "hybrid" }

theorem exFlat_usable (f : Field) (hf : f ≠ []) (H : ℝ) (hH : H = 50 ∨ H = 75 ∨ H = 100)
    (hB : ∀ B, boreholeSpacing (3 / 40) f = .ok B → B = 3 / 40 ∨ B = 5) :
    ∃ s, Usable exFlat f H (.multiple (exDouble H)) s := by
  obtain ⟨s, h, hct⟩ := exUsable f hf H hH hB
  obtain ⟨c1, c2, c3, c4, c5, c6, c7, c8, c9, c10, c11, -, -, -, c15⟩ := h
  unfold massFlow at c5 c11
  refine ⟨s, ?_⟩
  constructor
  case year => show flatLoads.length = 8760; rw [flatLoads_eq, List.length_map, List.length_range]
  case heating => refine flatLoads_separated (fun x => max x 0) 468 (.inr rfl) 30000 ?_ ?_ ?_ <;> norm_num
  case cooling => refine flatLoads_separated (fun x => max (-x) 0) 0 (.inl rfl) 1000 ?_ ?_ ?_ <;> norm_num
  all_goals (try unfold exFlat); (try unfold massFlow); (try dsimp only); assumption

/-- The hypotheses of `C129_first_hour` are met for every month but the first of a steady heat rejection: the 1 kW are
first reached in the first hour of the month. -/
example (i : ℕ) (h1 : 1 < i) (h2 : i ≤ 12) : ∃ x, fresh exFlat [(0, 0)] 100 = .ok x ∧
    ∃ k d, 0 ≤ d ∧ d ≤ 48 ∧ x.env.load[k + 3]? = some (1 * (1000 / 1000)) ∧
      x.env.hour[k + 2]? = some ((hoursOf (i - 1) : ℝ) - 11 - d / 2) ∧
      x.env.hour[k + 3]? = some ((hoursOf (i - 1) : ℝ) - 11 + d / 2) ∧
      ∀ (st : Whole.State) (r : ℝ × ℝ) (s' : Whole.State), Whole.simulate x.env "hybrid" st = (.ok r, s') →
        s'.HPEFT[k]? = some none ∧ (d < 22 → s'.HPEFT[k + 1]? = some none) ∧ d ≠ 22 := by
  obtain ⟨s, h⟩ := exFlat_usable [(0, 0)] (by simp) 100 (by tauto) (fun B hB => by cases hB; exact .inl rfl)
  obtain ⟨x, hx, -⟩ := C95_made h
  have c1 : 1 ≤ calMonth i := by unfold calMonth; omega
  have c2 : calMonth i ≤ 12 := by unfold calMonth; omega
  have hml := (GL.monthLength_bounds false c1 c2).1
  refine ⟨x, hx, C129_first_hour h x hx (.inl ⟨rfl, rfl, rfl⟩) (i := i) (show (1 : ℤ) < i by omega)
    (show (i : ℤ) ≤ 12 by omega) (.inl (show (i : ℤ) < 1 + 12 by omega)) (P := 1000) (P' := 30000) (j := 468) ?_
    (by norm_num) ?_ (by norm_num)⟩
  · show PeaksAt (monthLoads false (flatLoads.map fun x => max (-x) 0) (calMonth i)) 0 1000
    rw [flatLoads_month _ c1 c2]
    refine ⟨?_, by omega, ?_⟩
    · rw [List.getElem?_map, List.getElem?_range (by omega)]
      norm_num
    · intro x hx
      obtain ⟨k, -, rfl⟩ := List.mem_map.1 hx
      split_ifs <;> norm_num
  · show PeaksAt (monthLoads false (flatLoads.map fun x => max x 0) (calMonth i)) 468 30000
    rw [flatLoads_month _ c1 c2]
    refine ⟨?_, ?_, ?_⟩
    · rw [List.getElem?_map, List.getElem?_range (by omega)]
      norm_num
    · intro k hk hcon
      rw [List.getElem?_map, List.getElem?_range (by omega)] at hcon
      simp only [Option.map_some, Option.some_inj, if_neg (show k ≠ 468 by omega)] at hcon
      norm_num at hcon
    · intro x hx
      obtain ⟨k, -, rfl⟩ := List.mem_map.1 hx
      split_ifs <;> norm_num

end

end Ghedt.WholeSearch

namespace Ghedt.Whole
open Spec Search Bhe GHE Real

noncomputable section

/-- monthly data that are the same in every month -/
def sameLoads (total peak duration : ℝ) (day : ℤ) : GL.Loads ℝ :=
  { hourly := [], days := [], total := List.replicate 13 total, peak := List.replicate 13 peak,
    average := [], peakDay := List.replicate 13 day, twoDay := [], tempsNm := [], tempsPk := [],
    duration := List.replicate 13 duration }

theorem sameLoads_full (t p d : ℝ) (k : ℤ) : GL.Full (sameLoads t p d k) := by
  constructor <;> simp [sameLoads]

theorem sameLoads_side (t p d : ℝ) (k : ℤ) {m : ℕ} (hm : m ≤ 12) : (sameLoads t p d k).side m = ⟨t, p, d, k⟩ := by
  have : m < 13 := by omega
  simp only [sameLoads, GL.Loads.side, List.getD_eq_getElem?_getD, List.getElem?_replicate, this, if_true,
    Option.getD_some]

theorem sameLoads_nonZero {t p d t' p' d' : ℝ} {k k' : ℤ} (h : d + d' < 600) :
    GL.NonZero (sameLoads t p d k) (sameLoads t' p' d' k') := by
  intro m m1 m2
  rw [sameLoads_side _ _ _ _ m2, sameLoads_side _ _ _ _ m2]
  have : (28 : ℝ) ≤ (monthLength false m : ℝ) := by exact_mod_cast (GL.monthLength_bounds false m1 m2).1
  dsimp only
  intro h0
  linarith

/-- two months with a rejection peak of four hours on day 0 and an extraction peak of two hours on day 10 -/
theorem exBack : ∃ H, GL.processMonthlyLoads (sameLoads 1000 5 4 0) (sameLoads 600 3 2 10) (1 : ℕ) (2 : ℕ) = .ok H ∧
    H.load.length = 12 ∧ H.hour = [0, 0, 1 / 1000000, 1 / 1000000 + 4, 228, 230, 744, 731, 735, 972, 974, 1416] := by
  have f1 := sameLoads_full 1000 5 4 0
  have f2 := sameLoads_full 600 3 2 10
  have hz : GL.NonZero (sameLoads 1000 5 4 0) (sameLoads 600 3 2 10) := sameLoads_nonZero (by norm_num)
  refine ⟨_, GL.process_eq f1 f2 hz le_rfl (by norm_num), ?_, ?_⟩
  all_goals
    dsimp only
    unfold GL.allEntries
    simp only [sameLoads_side _ _ _ _ (GL.calMonth_le _), show List.range (2 + 1 - 1) = [0, 1] from rfl, List.flatMap_cons,
      List.flatMap_nil, GL.monthBlock, GL.peakBlock, peakStart, Retained,
      show hoursOf (1 - 1) = 0 from rfl, show hoursOf (1 + 0) = 744 by decide, show hoursOf (1 + 1) = 1416 by decide]
    norm_num

/-- the environment of the other examples with these loads -/
def backEnv (load hour : List ℝ) : Env := { exEnv 0 with load := load, hour := hour }

theorem backEnv_ready (load hour : List ℝ) : ∃ s0 s, Covered (backEnv load hour) 50 200 (.multiple (exDouble 100)) s0 ∧
    Ready (backEnv load hour) 50 200 (.multiple (exDouble 100)) 100 s ∧
    Times (backEnv load hour) s (log (1 / 1000000)) (log 10) ∧ charTime s * exp (log 10) = 10 ^ 10 := by
  obtain ⟨s0, c⟩ := exCovered 0
  obtain ⟨s, r, hct⟩ := exReady 0 100 (by norm_num) (by norm_num)
  have t := exTimes 0 s 1000 8 (by rw [hct]; norm_num) (by norm_num) (by norm_num)
  have w : ∀ h, Within (exEnv 0) 50 200 h → Within (backEnv load hour) 50 200 h := fun h w => ⟨w.1, w.2, w.3, w.4⟩
  refine ⟨s0, s, ⟨c.made, c.settled, c.db, c.range, w _ c.height, c.order, fun h h1 h2 => w _ (c.bounds h h1 h2), c.finder⟩,
    ⟨⟨r.nonzero, r.converts, r.sound, r.solver, r.steps⟩, w _ r.within, r.radius⟩,
    ⟨t.increasing, t.first, t.last, t.start, t.seam⟩, ?_⟩
  rw [hct, exp_log (by norm_num)]
  norm_num

/-- `C129_lost`, `C129_entries` and `C129_extremes` apply: the simulation of these two months returns, and the temperatures at
hours 731 and 735, the start and the end of the second month's rejection peak, are not numbers; those at the other
hours are. -/
example : ∃ H s0 r s', GL.processMonthlyLoads (sameLoads 1000 5 4 0) (sameLoads 600 3 2 10) (1 : ℕ) (2 : ℕ) = .ok H ∧
    construct (backEnv H.load H.hour) (.multiple (exDouble 100)) = .ok s0 ∧
    simulate (backEnv H.load H.hour) "hybrid" (s0.at 100) = (.ok r, s') ∧
    s'.HPEFT.map Option.isSome = [true, true, true, true, true, false, false, true, true, true] := by
  obtain ⟨H, hH, hl, hh⟩ := exBack
  obtain ⟨s0, s, c, hR, hT, hct⟩ := backEnv_ready H.load H.hour
  obtain ⟨r, s', h1, h2⟩ := (C90_hybrid c [] (by simp) 100 s hR _ _ hT (by show H.load.length = H.hour.length; rw [hl, hh]; rfl)
    (by show 2 < H.load.length; omega)).2.1
    (by
      show List.Pairwise _ (0 :: H.hour.drop 2)
      rw [hct, hh]
      norm_num) (by
      rintro u hu
      have hu : H.hour[2]? = some u := hu
      rw [hh] at hu
      have : (some (1 / 1000000) : Option ℝ) = some u := hu
      cases this
      norm_num)
  refine ⟨H, s0, r, s', hH, c.made, h1, ?_⟩
  have h2 : s'.HPEFT.length = 10 := by rw [h2]; show H.load.length - 2 = 10; omega
  apply List.ext_getElem? 
  intro k
  by_cases hk : k < 10
  · obtain ⟨u, hu⟩ : ∃ u, H.hour[k + 2]? = some u := ⟨_, List.getElem?_eq_getElem (by rw [hh]; show k + 2 < 12; omega)⟩
    obtain ⟨-, -, T, hT1, hT2⟩ := C129_entries _ r s' h1 k u (by show k + 2 < H.load.length; omega) hu
    change T = none ↔ u < 0 ∨ ∃ j v, j < k ∧ H.hour[j + 2]? = some v ∧ u < v at hT2
    rw [List.getElem?_map, hT1, Option.map_some]
    have hT3 : T = none ↔ u < 0 ∨ ∃ v ∈ (H.hour.drop 2).take k, u < v := by
      rw [hT2]
      refine or_congr Iff.rfl ⟨?_, ?_⟩
      · rintro ⟨j, v, hj, hv, huv⟩
        exact ⟨v, List.mem_of_getElem? (i := j) (by rw [List.getElem?_take_of_lt hj, List.getElem?_drop, add_comm]; exact hv), huv⟩
      · rintro ⟨v, hv, huv⟩
        obtain ⟨j, hj⟩ := List.getElem?_of_mem hv
        rcases Nat.lt_or_ge j k with hjk | hjk
        · rw [List.getElem?_take_of_lt hjk, List.getElem?_drop, add_comm] at hj
          exact ⟨j, v, hjk, hj, huv⟩
        · rw [List.getElem?_eq_none (by rw [List.length_take]; omega)] at hj
          cases hj
    have hT4 : T.isSome = true ↔ ¬ (u < 0 ∨ ∃ v ∈ (H.hour.drop 2).take k, u < v) := by
      rw [← hT3]; cases T <;> simp
    rw [hh] at hT4 hu
    interval_cases k <;> (simp at hu; subst hu; simp at hT4 ⊢; norm_num at hT4; simp [hT4])
  · rw [List.getElem?_eq_none (by rw [List.length_map]; omega), List.getElem?_eq_none (by simpa using hk)]

end

end Ghedt.Whole
