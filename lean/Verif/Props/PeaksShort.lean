import Verif.Props.GapsExact
import Verif.Props.HoursSlow
import Verif.Props.HybridFits
import Verif.Spec.Lasting
import Mathlib.Algebra.BigOperators.Field

/-!
# C104: peaks on the first and the last day of a month
-/

set_option linter.unusedSectionVars false

namespace Ghedt.GL
open Spec Search
open Ghedt.WholeSearch (monthLoads_map)
variable {K : Type} [Field K] [LinearOrder K] [IsStrictOrderedRing K]

/-- C104, one month: let the response slow down.  Then a positive peak that is `Lasting` (loads in W, `Loads` in kW) lasts at least
a millionth of an hour; and at most 21 hours unless it is neither on the first nor on the last day of its month. -/
theorem C104_lasting {r : Resp K} {G : ℕ → K} (hr : ∀ t : ℕ, 1 ≤ t → t ≤ 48 → r.g (t : ℤ) = .ok (G t)) (hk : 0 < r.twoPiK)
    (hs : Slows r G) {hourly : List K} (hlen : hourly.length = 8760) {L : Loads K}
    (h : mkLoads r (hourly.map (· / 1000)) 2019 = .ok L) (hpos : ∀ x ∈ hourly, 0 ≤ x) {m : ℕ} (m1 : 1 ≤ m) (m2 : m ≤ 12)
    (hl : Lasting hourly m) {i : ℕ} {P : K} (hP : PeaksAt (monthLoads false hourly m) i P) (hP0 : 0 < P) :
    ∃ d, L.duration[m]? = some d ∧ 1 / 1000000 ≤ d ∧ d ≤ 48 ∧ (d ≤ 21 ∨ 2 ≤ dayOf i ∧ dayOf i + 1 ≤ monthLength false m) := by
  have hleap : decide (LeapYear 2019) = false := by decide
  obtain ⟨s1, s2, l1, q2, q3⟩ := mkLoads_entry h m1 m2
  obtain ⟨hM, -⟩ := mkLoads_inv h
  obtain ⟨hfull, hdur⟩ := mkLoads_full h
  obtain ⟨t, p, a', day, w, e1, e2, e3, e4, e5, f, g⟩ := hM.month m m1 m2
  rw [hleap] at f g
  obtain ⟨i', d1, d2, d3⟩ := f.day_eq
  have hscale : PeaksAt (monthLoads false (hourly.map (· / 1000)) m) i (P / 1000) := by
    rw [monthLoads_map]
    obtain ⟨p1, p2, p3⟩ := hP
    refine ⟨by rw [List.getElem?_map, p1]; rfl, fun j hj he => p2 j hj ?_, fun x hx => ?_⟩
    · rw [List.getElem?_map] at he
      obtain ⟨y, hy, hyP⟩ := Option.map_eq_some_iff.1 he
      rw [hy]
      congr 1
      field_simp at hyP
      exact hyP
    · obtain ⟨y, hy, rfl⟩ := List.mem_map.1 hx
      exact div_le_div_of_nonneg_right (p3 y hy) (by norm_num)
  obtain ⟨rfl, rfl⟩ := PeaksAt.unique hscale ⟨d1, d2, f.peak_max⟩
  rw [ceil_dayOf] at d3
  subst d3
  obtain ⟨c0, c1, c2, c3, c4⟩ := hl i P hP hP0
  have ha : a' = averageOf (monthLoads false hourly m) / 1000 := by
    rw [f.average_eq, monthLoads_map, List.length_map]
    unfold averageOf
    have : ∀ l : List K, (l.map (· / 1000)).sum = l.sum / 1000 := by
      intro l
      induction l with
      | nil => simp
      | cons x l ih => rw [List.map_cons, List.sum_cons, List.sum_cons, ih]; ring
    rw [this]
    ring
  set a := averageOf (monthLoads false hourly m) with hadef
  subst ha
  have hlen' : (hourly.map (· / 1000)).length = 8760 := by rw [List.length_map, hlen]
  -- the two days
  have hwk : ∀ k < 48, w[k]? = some (lookedAt hourly m i k / 1000) := by
    intro k hk
    rw [g.2 k hk, hlen', List.getElem?_map]
    have e : (((monthStart false m : ℤ) + ((dayOf i : ℤ) - 1) * 24 + k) % ((8760 : ℕ) : ℤ)).toNat =
        (monthStart false m + 24 * dayOf i + 8760 - 24 + k) % 8760 := by
      have : (monthStart false m : ℤ) + ((dayOf i : ℤ) - 1) * 24 + k =
          ((monthStart false m + 24 * dayOf i - 24 + k : ℕ) : ℤ) := by omega
      rw [this, ← Int.natCast_mod, Int.toNat_natCast]
      omega
    rw [e]
    unfold lookedAt
    rw [hlen, List.getD_eq_getElem?_getD, List.getElem?_eq_getElem (by rw [hlen]; exact Nat.mod_lt _ (by norm_num))]
    rfl
  have hx0 : ∀ k < 48, 0 ≤ lookedAt hourly m i k := by
    intro k _
    unfold lookedAt
    rw [hlen, List.getD_eq_getElem?_getD, List.getElem?_eq_getElem (by rw [hlen]; exact Nat.mod_lt _ (by norm_num))]
    exact hpos _ (List.getElem_mem _)
  have hx : ∀ x ∈ w, 0 ≤ x ∧ x ≤ P / 1000 := by
    intro x hx
    obtain ⟨j, hj, rfl⟩ := List.mem_iff_getElem.mp hx
    rw [g.1] at hj
    have := hwk j hj
    rw [List.getElem?_eq_getElem (by rw [g.1]; exact hj)] at this
    rw [Option.some_inj.1 this]
    exact ⟨div_nonneg (hx0 j hj) (by norm_num), div_le_div_of_nonneg_right (c2 j hj) (by norm_num)⟩
  have hi24 : i < 24 * monthLength false m := by
    have hll : (monthLoads false hourly m).length = 24 * monthLength false m := monthLoads_length (by rw [hlen]; rfl) m2
    rw [← hll]
    by_contra hcon
    have h0 := hP.1
    rw [List.getElem?_eq_none (by omega)] at h0
    cases h0
  have b1 : 24 * dayOf i < i + 24 := by unfold dayOf; omega
  have b2 : i ≤ 24 * dayOf i := by unfold dayOf; omega
  have hj48 : i - 24 * (dayOf i - 1) < 48 := by omega
  have hjP : w[i - 24 * (dayOf i - 1)]? = some (P / 1000) := by
    rw [hwk _ hj48]
    congr 2
    have hms : monthStart false m + 24 * monthLength false m ≤ 8760 := by
      have := monthStart_le false (show m + 1 ≤ 13 by omega)
      rw [monthStart_succ] at this
      simpa [yearHours] using this
    have hpi := hP.1
    unfold monthLoads at hpi
    rw [List.getElem?_take_of_lt hi24, List.getElem?_drop] at hpi
    unfold lookedAt
    rw [hlen, show monthStart false m + 24 * dayOf i + 8760 - 24 + (i - 24 * (dayOf i - 1)) = monthStart false m + i + 8760 by omega,
      Nat.add_mod_right, Nat.mod_eq_of_lt (by omega), List.getD_eq_getElem?_getD, hpi]
    rfl
  have hP1 : 0 < P / 1000 := by positivity
  obtain ⟨M, hMx⟩ := pyMax_ok_of_ne_nil (l := 0 :: w) (by simp)
  obtain ⟨hMm, hMle⟩ := pyMax_eq_ok hMx
  have hMP : M = P / 1000 := by
    apply le_antisymm
    · rcases List.mem_cons.1 hMm with h | h
      · rw [h]; exact hP1.le
      · exact (hx M h).2
    · exact hMle _ (List.mem_cons_of_mem _ (List.mem_of_getElem? hjP))
  subst hMP
  rw [durationStep_eq (by omega) e5 e2 e3 hMx, sub_self, abs_zero, ite_self, if_pos hP1.ne', bind_eq_ok] at q2
  obtain ⟨⟨d, x, y⟩, q4, q5⟩ := q2
  cases q5
  rw [List.getElem?_set_self (by omega)] at q3
  have hq : ∀ k < 48, qNm w (P / 1000) (a / 1000) (k + 1) =
      (lookedAt hourly m i k - a) * lookedAt hourly m i k / (1000 * P) := by
    intro k hk
    unfold qNm
    rw [if_neg (Nat.succ_ne_zero k), List.getD_cons_succ, List.getD_eq_getElem?_getD, hwk k hk, Option.getD_some]
    field_simp
  have hmaxp : ∀ v x : K, 0 ≤ x → max (v * x / (1000 * P)) 0 = max v 0 * x / (1000 * P) := by
    intro v x hx
    rcases le_total v 0 with h | h
    · rw [max_eq_right h, max_eq_right (div_nonpos_of_nonpos_of_nonneg (mul_nonpos_of_nonpos_of_nonneg h hx) (by positivity))]
      simp
    · rw [max_eq_left h, max_eq_left (by positivity)]
  obtain ⟨hup, hlow⟩ := month_span hr hk hs g.1 hP1 (show a / 1000 < P / 1000 by linarith) hx q4
  refine ⟨d, q3, hlow _ hjP ?_, (hdur d (List.mem_of_getElem? q3)).2, ?_⟩
  · have : ∀ k ∈ Finset.range (i - 24 * (dayOf i - 1)), max (-qNm w (P / 1000) (a / 1000) (k + 1)) 0 =
        max (a - lookedAt hourly m i k) 0 * lookedAt hourly m i k / (1000 * P) := by
      intro k hk
      have hk := Finset.mem_range.1 hk
      rw [hq k (by omega), ← neg_div, ← neg_mul, neg_sub, hmaxp _ _ (hx0 k (by omega))]
    rw [Finset.sum_congr rfl this, ← Finset.sum_div, ← mul_div_assoc, div_le_iff₀ (by positivity)]
    refine c3.trans (le_of_eq ?_)
    ring
  · rcases c4 with c4 | c4
    · exact .inr c4
    · left
      have := hup 19 (by norm_num) ?_
      · refine this.trans (le_of_eq ?_)
        norm_num
      · have : ∀ k ∈ Finset.range 48, max (qNm w (P / 1000) (a / 1000) (k + 1)) 0 =
            max (lookedAt hourly m i k - a) 0 * lookedAt hourly m i k / (1000 * P) := by
          intro k hk
          have hk := Finset.mem_range.1 hk
          rw [hq k (by omega), hmaxp _ _ (hx0 k (by omega))]
        rw [Finset.sum_congr rfl this, ← Finset.sum_div, ← mul_div_assoc, div_le_iff₀ (by positivity)]
        refine c4.trans (le_of_eq ?_)
        push_cast
        ring

end Ghedt.GL

namespace Ghedt.WholeSearch
open Real Ghedt.GHE Ghedt.Bhe Ghedt.Radial Ghedt.Whole Ghedt.Search Ghedt.Utilities Ghedt.Spec

noncomputable section

variable {p : Problem} {f : Field} {H : ℝ} {bhe : Exchanger} {s : UTube}

/-- The hourly loads of the building, in W, extraction positive: in every month the peak of what is rejected and the
peak of what is extracted are `Lasting`, and lie on the same day or at least three days apart. -/
def PeaksLast (hourly : List ℝ) : Prop := ∀ m : ℕ, 1 ≤ m → m ≤ 12 →
  Lasting (hourly.map fun x => max (-x) 0) m ∧ Lasting (hourly.map fun x => max x 0) m ∧
  Apart (monthLoads false (hourly.map fun x => max (-x) 0) m) (monthLoads false (hourly.map fun x => max x 0) m)

/-- C104: for usable input whose peaks last but, on a first or last day of a month, not too long, the times of the hybrid load, from
the start of its first month on, are at least a millionth of an hour apart. -/
theorem C104_ends (h : Usable p f H bhe s) (hp : PeaksLast p.hourly) (x : Held) (hx : fresh p f H = .ok x) :
    (0 :: x.env.hour.drop 2).Pairwise (fun u v => 1 / 1000000 ≤ v - u) := by
  obtain ⟨B, c, sts, cl, hl, hy, hB, hc, hcl, h1, h2, h3, h4, h5, hf⟩ := fresh_ok h
  rw [hx] at hf
  cases hf
  show (0 :: hy.hour.drop 2).Pairwise _
  have hleap : decide (LeapYear 2019) = false := by decide
  obtain ⟨m1, m2⟩ := h.months
  obtain ⟨a, ha⟩ : ∃ a : ℕ, p.startMonth = a := ⟨p.startMonth.toNat, by omega⟩
  obtain ⟨b, hb⟩ : ∃ b : ℕ, p.endMonth = b := ⟨p.endMonth.toNat, by omega⟩
  obtain ⟨f1, f2, f3, hy', h4', h6⟩ := GL.C63_hybrid h2 h3 (start := a) (finish := b) (by omega) (by omega)
  rw [← ha, ← hb, h4] at h4'
  cases h4'
  -- the response at the hours
  obtain ⟨N, r, lt, g, hrun, G, g1, g2⟩ := C131_slows h.sound h.solver
  have hsts : sts = (r, lt, g) := by
    obtain ⟨res, hres⟩ := calcSts_stable h.sound h.solver.sized h.steps
    have e1 := hres _ le_rfl
    rw [h1] at e1
    cases e1
    have e2 := hres (max p.fuel N) (le_max_left _ _)
    rw [hrun _ (le_max_right _ _)] at e2
    cases e2; rfl
  subst hsts
  have hk : 0 < 2 * π * (radialTube p.ext s).kSoil := by have := h.sound.kSoil; positivity
  have side : ∀ (w : List ℝ) (L : GL.Loads ℝ), (∀ y ∈ w, 0 ≤ y) →
      GL.mkLoads (respOf (radialTube p.ext s) r lt g) (w.map (· / 1000)) 2019 = .ok L →
      ∀ m : ℕ, 1 ≤ m → m ≤ 12 → Lasting w m → w.length = 8760 → 0 < (L.side m).peak →
      1 ≤ (L.side m).day ∧ (L.side m).day ≤ monthLength false m ∧ 1 / 1000000 ≤ (L.side m).duration ∧
        (L.side m).duration ≤ 48 ∧ ((L.side m).duration ≤ 21 ∨ 2 ≤ (L.side m).day ∧ (L.side m).day + 1 ≤ monthLength false m) := by
    intro w L hw hL m m1 m2 hpl hlen hpk
    obtain ⟨i, hi, hd⟩ := GL.side_facts hL m1 m2
    rw [hleap, monthLoads_map] at hi
    have hi' := peaksAt_scale hi
    have hll : (monthLoads false w m).length = 24 * monthLength false m := GL.monthLoads_length (by rw [hlen]; rfl) m2
    have hi24 : i < 24 * monthLength false m := by
      rw [← hll]
      by_contra hcon
      have h0 := hi'.1
      rw [List.getElem?_eq_none (by omega)] at h0
      cases h0
    obtain ⟨d, e1, e2, e3, e4⟩ := GL.C104_lasting (fun t a b => g1 t a b) hk g2 hlen hL hw m1 m2 hpl hi' (by linarith)
    have hday := (hpl i _ hi' (by linarith)).1
    have hdur : (L.side m).duration = d := by simp [GL.Loads.side, List.getD_eq_getElem?_getD, e1]
    rw [hd, hdur]
    refine ⟨by omega, ?_, e2, e3, ?_⟩
    · unfold dayOf at *
      omega
    · rcases e4 with e4 | e4
      · exact .inl e4
      · exact .inr ⟨by omega, by omega⟩
  have wl : ∀ w : List ℝ, w = (p.hourly.map fun x => max (-x) 0) ∨ w = (p.hourly.map fun x => max x 0) →
      (∀ y ∈ w, 0 ≤ y) ∧ w.length = 8760 := by
    rintro w (rfl | rfl) <;> refine ⟨?_, by rw [List.length_map, h.year]⟩ <;> intro y hy <;>
      obtain ⟨z, -, rfl⟩ := List.mem_map.1 hy <;> exact le_max_right _ _
  have both : ∀ m : ℕ, 1 ≤ m → m ≤ 12 → ∀ t, t = cl.side m ∨ t = hl.side m → 0 < t.peak →
      1 ≤ t.day ∧ t.day ≤ monthLength false m ∧ 1 / 1000000 ≤ t.duration ∧
        t.duration ≤ 48 ∧ (t.duration ≤ 21 ∨ 2 ≤ t.day ∧ t.day + 1 ≤ monthLength false m) := by
    rintro m m1 m2 t (rfl | rfl) ht
    · exact side _ cl (wl _ (.inl rfl)).1 h2 m m1 m2 (hp m m1 m2).1 (wl _ (.inl rfl)).2 ht
    · exact side _ hl (wl _ (.inr rfl)).1 h3 m m1 m2 (hp m m1 m2).2.1 (wl _ (.inr rfl)).2 ht
  have days : ∀ m : ℕ, 1 ≤ m → m ≤ 12 → 0 < (cl.side m).peak → 0 < (hl.side m).peak →
      (cl.side m).day = (hl.side m).day ∨ (cl.side m).day + 3 ≤ (hl.side m).day ∨ (hl.side m).day + 3 ≤ (cl.side m).day := by
    intro m m1 m2 hP hQ
    obtain ⟨i, hi, hd⟩ := GL.side_facts h2 m1 m2
    obtain ⟨j, hj, he⟩ := GL.side_facts h3 m1 m2
    rw [hleap, monthLoads_map] at hi hj
    have := apart_scale (hp m m1 m2).2.2 i _ j _ hi hj hP hQ
    rw [hd, he]
    omega
  refine (GL.C104_apart f1 f2 f3 (start := a) (finish := b) (by omega) (by omega) h6
    (δ := 1 / 1000000) (by norm_num) (by norm_num) ?_ ?_).2
  · intro m m1 m2 t ht hpk
    obtain ⟨b1, b2, b3, b4, b5⟩ := both m m1 m2 t ht hpk
    have b1' : (1 : ℝ) ≤ t.day := by exact_mod_cast b1
    have b2' : (t.day : ℝ) ≤ (monthLength false m : ℝ) := by exact_mod_cast b2
    refine ⟨?_, ?_, b3⟩
    · rcases b5 with b5 | ⟨b5, -⟩
      · linarith
      · have : (2 : ℝ) ≤ t.day := by exact_mod_cast b5
        linarith
    · rcases b5 with b5 | ⟨-, b5⟩
      · linarith
      · have : (t.day : ℝ) + 1 ≤ (monthLength false m : ℝ) := by exact_mod_cast b5
        linarith
  · intro m m1 m2 s t hst p1 p2 hlt
    have h3d : s.day + 3 ≤ t.day := by
      rcases hst with ⟨rfl, rfl⟩ | ⟨rfl, rfl⟩
      · have := days m m1 m2 p1 p2
        omega
      · have := days m m1 m2 p2 p1
        omega
    have h3' : (s.day : ℝ) + 3 ≤ t.day := by exact_mod_cast h3d
    have k1 := (both m m1 m2 s (by rcases hst with ⟨rfl, rfl⟩ | ⟨rfl, rfl⟩ <;> simp) p1).2.2.2.1
    have k2 := (both m m1 m2 t (by rcases hst with ⟨rfl, rfl⟩ | ⟨rfl, rfl⟩ <;> simp) p2).2.2.2.1
    linarith

/-- the hybrid simulation fits whenever the last hour is covered -/
theorem fits_ends (h : Usable p f H bhe s) (hm : p.method = "hybrid") (hp : PeaksLast p.hourly)
    (hend : 3600 * (hoursOf p.endMonth.toNat : ℝ) ≤ charTime s * exp (3003 / 1000)) : Fits p f H s := by
  refine Or.inr ⟨hm, hend, fun x hx => (C104_ends h hp x hx).imp ?_⟩
  intro u v huv
  have : (1 : ℝ) / 10 ^ 12 ≤ 3600 * (1 / 1000000) := by norm_num
  linarith

end

end Ghedt.WholeSearch
