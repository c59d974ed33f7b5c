import Verif.Props.Refill
import Verif.Props.SharedExample

/-!
# Concrete cases for C142
-/

set_option linter.unusedSectionVars false

namespace Ghedt.Refill
open Real Ghedt.GHE Ghedt.Bhe Ghedt.Radial Ghedt.Spec Ghedt.Whole

noncomputable section

/-- what the exchanger `exLone` is made with -/
def exMedia : Contents := ⟨exWater, ⟨1, 3901000⟩, ⟨2, 1800000, 18⟩, 0, 1542000, 10 * log (13 / 10) / (2 * π), (1, 1)⟩

theorem exMedia_made (h : ℝ) : anew Whole.exExt exMedia (.single (exLone h)) = .ok (.single (exLone h)) := by
  show (mkSingle Whole.exExt 2 exWater ⟨h, 2, 3 / 40⟩ _ _ _ >>= fun t => pure (Exchanger.single t)) = _
  have := exLone_made h
  change mkSingle Whole.exExt 2 exWater ⟨h, 2, 3 / 40⟩ _ _ _ = _ at this
  exact congrArg (fun r : Py UTube => r >>= fun t => pure (Exchanger.single t)) this

/-- the exchanger with other ground temperature and conductivity of the grout -/
def exOther (T k : ℝ) : UTube := { exLone 100 with
  grout := ⟨k, 3901000⟩
  soil := ⟨2, 1800000, T⟩ }

theorem exOther_made {s0 : State} (c : Shared) (hc : Covered (exLevel 4000) 50 200 (.single (exLone 100)) s0) (T k : ℝ) :
    ∃ s1, construct ((exLevel 4000).sharing c) (.single (exOther T k)) = .ok s1 := by
  have hm := hc.made
  unfold construct at hm
  rw [bind_eq_ok] at hm
  obtain ⟨⟨eq, x'⟩, h1, hm⟩ := hm
  dsimp only at hm
  rw [bind_eq_ok] at hm
  obtain ⟨sts, h2, hm⟩ := hm
  cases h1
  refine ⟨⟨.single (exOther T k), exOther T k, sts, {}, [], []⟩, ?_⟩
  show (calcSts (exLevel 4000).solve (radialTube (exLevel 4000).ext (exLone 100)) none false (exLevel 4000).fuel >>= fun sts =>
    pure (⟨.single (exOther T k), exOther T k, sts, {}, [], []⟩ : State)) = _
  rw [h2]
  rfl

theorem exOther_anew (T k : ℝ) : ∃ x1, anew Whole.exExt { exMedia with grout := ⟨k, 3901000⟩, soil := ⟨2, 1800000, T⟩ } (.single (exLone 100)) = .ok x1 ∧
    keeping (.single (exLone 100)) x1 = .single (exOther T k) := by
  refine ⟨_, anew_single _ _ _, ?_⟩
  have := exMedia_made 100
  rw [anew_single] at this
  injection this with this
  injection this with this
  dsimp only [keeping]
  rw [Exchanger.single.injEq]
  unfold exOther
  rw [← this]
  rfl

/-- simulate; brine in place of the water; simulate and size; the water back, other ground temperature and grout -/
def exFilling (T k : ℝ) : List Event :=
  [.use (.simulate "hourly"), .fill { exMedia with fluid := ⟨1 / 500, 1010, 1 / 2, 4000⟩ }, .use (.simulate "hourly"), .use (.height 80),
    .use (.size "hourly"), .change exChange, .fill { exMedia with grout := ⟨k, 3901000⟩, soil := ⟨2, 1800000, T⟩ }]

/-- C142_history applies: ground of 20 °C in place of 18 °C -/
example : ∃ s0 env' s' x1 s1, construct (exLevel 4000) (.single (exLone 100)) = .ok s0 ∧
    (exFilling 20 1).foldl happen (exLevel 4000, s0) = (env', s') ∧
    anew Whole.exExt { exMedia with soil := ⟨2, 1800000, 20⟩ } (.single (exLone 100)) = .ok x1 ∧ construct env' x1 = .ok s1 ∧
    (Whole.simulate env' "hourly" (s'.at 100)).1 = (Whole.simulate env' "hourly" (s1.at 100)).1 ∧
    (Whole.size env' "hourly" s').1 = (Whole.size env' "hourly" s1).1 := by
  obtain ⟨s0, hc⟩ := exLevel_covered
  have hops : ∀ y, Event.use (.height y) ∈ exFilling 20 1 → Within (exLevel 4000) 50 200 y := by
    intro y hy
    have : y = 80 := by simpa [exFilling] using hy
    rw [this]
    exact exLevel_within 80 (by norm_num) (by norm_num)
  have hch : ∀ c, Event.change c ∈ exFilling 20 1 → Allowed (exLevel 4000) 50 200 c := by
    intro c h
    have : c = exChange := by simpa [exFilling] using h
    rw [this]
    exact exChange_allowed
  have hfill : ∀ m, Event.fill m ∈ exFilling 20 1 → Follows (.single (exLone 100)) exMedia m := by
    intro m hm
    have : m = { exMedia with fluid := ⟨1 / 500, 1010, 1 / 2, 4000⟩ } ∨
        m = { exMedia with grout := ⟨1, 3901000⟩, soil := ⟨2, 1800000, 20⟩ } := by simpa [exFilling] using hm
    rcases this with rfl | rfl
    · exact ⟨rfl, rfl, fun t ht => by cases ht⟩
    · exact ⟨rfl, rfl, fun t ht => by cases ht⟩
  obtain ⟨x1, hx1, hk⟩ := exOther_anew 20 1
  have hf : Follows (.single (exLone 100)) exMedia { exMedia with grout := ⟨1, 3901000⟩, soil := ⟨2, 1800000, 20⟩ } :=
    ⟨rfl, rfl, fun t ht => by cases ht⟩
  rw [keeping_follows (exMedia_made 100) hx1 hf] at hk
  obtain ⟨s1, hs1⟩ := exOther_made (lastShared (exLevel 4000).shared (exFilling 20 1)) (hc 4000) 20 1
  rw [← hk] at hs1
  obtain ⟨e, -⟩ := events_ready (x := .single (exLone 100)) trivial (hc 4000).db (hc 4000).range (exFilling 20 1) (exLevel 4000).shared
    (hc 4000).allowed exMedia s0 (by rw [refilled_self (ext := (exLevel 4000).ext) (exMedia_made 100)]; exact used_ready (hc 4000).settled (hc 4000).start)
    hops hch
  change ((exFilling 20 1).foldl happen (exLevel 4000, s0)).1 = _ at e
  rw [← e] at hs1
  obtain ⟨-, k1, -, k2, -⟩ := C142_history (hc 4000) exMedia (exMedia_made 100) (exFilling 20 1) hops hch hfill _ rfl _ rfl x1 hx1 _ _ rfl
    s1 hs1 100 (exLevel_within 100 (by norm_num) (by norm_num)) "hourly"
  exact ⟨s0, _, _, x1, s1, (hc 4000).made, rfl, hx1, hs1, k1, k2⟩

/-- C142_conductivities applies: grout of 5 W/(m K) in place of 1 -/
example : ∃ s0 env' s' x1 s1, construct (exLevel 4000) (.single (exLone 100)) = .ok s0 ∧
    (exFilling 18 5).foldl happen (exLevel 4000, s0) = (env', s') ∧
    anew Whole.exExt { exMedia with grout := ⟨5, 3901000⟩ } (.single (exLone 100)) = .ok x1 ∧
    construct env' (keeping (.single (exLone 100)) x1) = .ok s1 ∧
    (Whole.simulate env' "hourly" (s'.at 100)).1 = (Whole.simulate env' "hourly" (s1.at 100)).1 := by
  obtain ⟨s0, hc⟩ := exLevel_covered
  have hops : ∀ y, Event.use (.height y) ∈ exFilling 18 5 → Within (exLevel 4000) 50 200 y := by
    intro y hy
    have : y = 80 := by simpa [exFilling] using hy
    rw [this]
    exact exLevel_within 80 (by norm_num) (by norm_num)
  have hch : ∀ c, Event.change c ∈ exFilling 18 5 → Allowed (exLevel 4000) 50 200 c := by
    intro c h
    have : c = exChange := by simpa [exFilling] using h
    rw [this]
    exact exChange_allowed
  obtain ⟨x1, hx1, hk⟩ := exOther_anew 18 5
  obtain ⟨s1, hs1⟩ := exOther_made (lastShared (exLevel 4000).shared (exFilling 18 5)) (hc 4000) 18 5
  rw [← hk] at hs1
  obtain ⟨e, -⟩ := events_ready (x := .single (exLone 100)) trivial (hc 4000).db (hc 4000).range (exFilling 18 5) (exLevel 4000).shared
    (hc 4000).allowed exMedia s0 (by rw [refilled_self (ext := (exLevel 4000).ext) (exMedia_made 100)]; exact used_ready (hc 4000).settled (hc 4000).start)
    hops hch
  change ((exFilling 18 5).foldl happen (exLevel 4000, s0)).1 = _ at e
  rw [← e] at hs1
  obtain ⟨k1, -⟩ := C142_conductivities (hc 4000) (fun t ht => by cases ht) exMedia (exMedia_made 100) (exFilling 18 5) hops hch _ rfl x1 hx1
    _ _ rfl s1 hs1 100 (exLevel_within 100 (by norm_num) (by norm_num)) "hourly"
  exact ⟨s0, _, _, x1, s1, (hc 4000).made, rfl, hx1, hs1, k1⟩

/-- C142_resistance applies, and the two resistances differ: 0.155 and 0.075 m K/W -/
example : (updateThermal Whole.exExt none none (exOther 18 5)).1 = .ok (31 / 200) ∧
    ∃ t1, anew Whole.exExt { exMedia with grout := ⟨5, 3901000⟩ } (.single (exLone 100)) = .ok (.single t1) ∧
      (updateThermal Whole.exExt none none t1).1 = .ok (3 / 40) := by
  obtain ⟨h1, -, -, h2, -⟩ := C142_resistance Whole.exExt exMedia (exLone 100) (.inl (exMedia_made 100)) ⟨2, 1800000, 18⟩ ⟨5, 3901000⟩
    (exOther 18 5) rfl
  constructor
  · rw [h1]
    show Except.ok ((11 / 100 : ℝ) / (2 * (1 : ℤ)) + 1 / (10 * 1)) = _
    norm_num
  · have h3 := anew_single Whole.exExt { exMedia with grout := ⟨5, 3901000⟩ } (exLone 100)
    refine ⟨_, h3, ?_⟩
    rw [h2 _ h3 (exMedia_made 100)]
    show Except.ok ((11 / 100 : ℝ) / (2 * (1 : ℤ)) + 1 / (10 * 5)) = _
    norm_num

end

end Ghedt.Refill
