import Verif.Props.Office
import Verif.Props.WorkflowExample

/-!
# C154: the shipped building and materials can be sized
-/

set_option linter.unusedSectionVars false

namespace Ghedt.Office
open Real Ghedt.Design Ghedt.GHE Ghedt.Bhe Ghedt.Radial Ghedt.Whole Ghedt.Search Ghedt.Utilities Ghedt.Spec Ghedt.Network Ghedt.WholeSearch

noncomputable section

/-- between the limits of the scripts a height is fine unless the long-time curve begins within a picosecond of a sample -/
theorem height_between {p : Problem} (hp : p.media.soil = ⟨2, 2343493 / 1000 * 1000, 183 / 10⟩) (hfuel : 4100 ≤ p.fuel) {H : ℝ}
    (h1 : 60 ≤ H) (h2 : H ≤ 135) (hs : ∀ k : ℕ, soilTime p H * exp (-(85 / 10)) ≠ 1 / 10 ^ 12 + 120 * k) : HeightFine p H := by
  obtain ⟨e1, e2⟩ := exp_bounds
  have hfuel' : (4100 : ℝ) ≤ p.fuel := by exact_mod_cast hfuel
  have he : exp (-(86 / 10 : ℝ)) ≤ exp (-(85 / 10)) := exp_le_exp.2 (by norm_num)
  have hT := soilTime_eq hp H
  have h0 : 0 < H := by linarith
  have hT0 : 0 ≤ soilTime p H := by rw [hT]; positivity
  refine ⟨h0, ?_, ?_, hs⟩
  · have hb : soilTime p H ≤ 135 ^ 2 * (2343493 / 18) := by
      rw [hT]
      have : H ^ 2 ≤ 135 ^ 2 := pow_le_pow_left₀ h0.le h2 2
      linarith
    have h1 : soilTime p H * exp (-(86 / 10)) ≤ 135 ^ 2 * (2343493 / 18) * (2034683692 / 10 ^ 13) :=
      mul_le_mul hb (he.trans e2.le) (exp_pos _).le (by norm_num)
    have h2 : max (soilTime p H * exp (-(86 / 10))) (49 * 3600) ≤ 482788 := by
      refine max_le (h1.trans ?_) ?_ <;> norm_num
    linarith
  · have hb : 60 ^ 2 * (2343493 / 18) ≤ soilTime p H := by
      rw [hT]
      have : (60 : ℝ) ^ 2 ≤ H ^ 2 := pow_le_pow_left₀ (by norm_num) h1 2
      linarith
    have h1 : (60 : ℝ) ^ 2 * (2343493 / 18) * (2034683688 / 10 ^ 13) ≤ soilTime p H * exp (-(85 / 10)) :=
      mul_le_mul hb e1.le (by norm_num) hT0
    refine lt_of_lt_of_le ?_ h1
    norm_num

theorem asked_between {lo hi : ℝ} {q : Finder ℝ} (h : Inside lo hi q) (e : ℝ → ℝ) : ∀ H ∈ asked e q, lo ≤ H ∧ H ≤ hi := by
  induction h with
  | done x => simp [asked]
  | fail er => simp [asked]
  | ask x next h1 h2 _ ih =>
    intro H hH
    simp only [asked, List.mem_cons] at hH
    rcases hH with rfl | hH
    · exact ⟨h1, h2⟩
    · exact ih _ H hH

/-- C154: the hybrid simulation of the newly made exchanger, at the height of the scripts' borehole or a limit, returns the highest and
the lowest of the temperatures it leaves, one for each load from the third on; and all of them are numbers, so that no peak is passed
over as in C129. -/
theorem C154_simulated {world : Problem} (hw : LibraryFine world) (hfuel : 4100 ≤ world.fuel) {h : Hardware} (hh : Shipped h)
    {f : Field} (hf : f ≠ []) (hd : f.Nodup) {H : ℝ} (hH : H = 60 ∨ H = 96 ∨ H = 135) (ht : TextFine (problem world h) f H)
    (hc : Converts (problem world h) f H) :
    ∃ x hi lo s', fresh (problem world h) f H = .ok x ∧ Whole.simulate x.env "hybrid" x.state = (.ok (hi, lo), s') ∧
      s'.HPEFT.length = x.env.load.length - 2 ∧ none ∉ s'.HPEFT ∧
      (some hi ∈ s'.HPEFT ∧ ∀ T, some T ∈ s'.HPEFT → T ≤ hi) ∧ (some lo ∈ s'.HPEFT ∧ ∀ T, some T ∈ s'.HPEFT → lo ≤ T) := by
  obtain ⟨bhe, s, hu, hs, hct, -⟩ := C105_usable (sensible_of_shipped hw hh) hf hd (height_fine (p := problem world h) rfl hfuel hH)
    ht hc
  obtain ⟨x, hx, -, -, -, -, -, -, -, -, -, -, -, -, hlen, -⟩ := C95_made hu
  have h60 : 60 ≤ H := by rcases hH with rfl | rfl | rfl <;> norm_num
  have hend : 3600 * (hoursOf (problem world h).endMonth.toNat : ℝ) ≤ charTime s * exp (3003 / 1000) := by
    rw [hct]
    rcases period_fine (world := world) (h := h) (method := "hybrid") (.inl rfl) H h60 with ⟨hm, -⟩ | ⟨-, -, k⟩
    · exact absurd (show "hybrid" = "hourly" from hm) (by decide)
    · exact k
  obtain ⟨hi, lo, s', -, -, -, -, G, h1, -, -, -, h2, h3, h4⟩ := C96_hybrid hu hs x hx
    ((C104_ends hu C154_lasting x hx).imp fun {u v} huv => by
      have : (1 : ℝ) / 10 ^ 12 ≤ 3600 * (1 / 1000000) := by norm_num
      linarith) hend
    (fun i => if i = 0 then 0 else 1000 * (x.env.load.getD (i + 1) 0))
    (fun i => if i = 0 then 0 else x.env.hour.getD (i + 1) 0) rfl rfl (by
      intro k hk
      simp [List.getD_eq_getElem?_getD, hk]) (by
      intro k hk
      have hk' : k + 2 < x.env.hour.length := by omega
      simp [List.getD_eq_getElem?_getD, hk'])
  refine ⟨x, hi, lo, s', hx, h1, ?_, ?_, h3, h4⟩
  · rw [h2]; simp
  · rw [h2]; simp

/-- What sizing asks of the library for a field: the interpolation passes through its points and keeps constants constant, the
numbers naming the g-functions of the three heights are read back as written, and the exchanger has an equivalent at the limits
and at the heights the root finder asks for, where the long-time curve does not begin within a picosecond of a sample. -/
structure SizeHandled (world : Problem) (h : Hardware) (f : Field) : Prop where
  spline : GF.Reproduces world.spl
  constants : ∀ kind x y c v, 2 ≤ x.length → x.length = y.length → x.Nodup → (∀ z ∈ y, z = c) → world.spl kind x y v = c
  text : ∀ H ∈ [60, 195 / 2, 135], TextFine (problem world h) f H
  converts : Converts (problem world h) f 60 ∧ Converts (problem world h) f 135
  asked : ∀ e : ℝ → ℝ, ∀ H ∈ asked e (world.brent 60 135), Converts (problem world h) f H ∧
    ∀ k : ℕ, soilTime (problem world h) H * exp (-(85 / 10)) ≠ 1 / 10 ^ 12 + 120 * k

theorem SizeHandled.sizing {world : Problem} {h : Hardware} {f : Field} (hz : SizeHandled world h f) (hw : LibraryFine world)
    (hfuel : 4100 ≤ world.fuel) : SizingFine (problem world h) f := by
  refine ⟨?_, ⟨?_, ?_⟩, hz.converts, ?_, hz.spline, hz.constants, ?_⟩
  · show (60 : ℝ) + 2 / 1000000 ≤ 135
    norm_num
  · exact height_fine (p := problem world h) rfl hfuel (.inl rfl)
  · exact height_fine (p := problem world h) rfl hfuel (.inr (.inr rfl))
  · intro H hH
    have hH : H ∈ [(60 : ℝ), (60 + 135) / 2, 135] := hH
    refine hz.text H ?_
    rwa [show ((60 : ℝ) + 135) / 2 = 195 / 2 by norm_num] at hH
  · intro e H hH
    have hH : H ∈ GHE.asked e (world.brent 60 135) := hH
    obtain ⟨h1, h2⟩ := hz.asked e H hH
    obtain ⟨b1, b2⟩ := asked_between (inside_of_bracketed (hw.brent 60 135 (by norm_num))) e H hH
    exact ⟨height_between (p := problem world h) rfl hfuel b1 b2 h2, h1⟩

/-- C154: the exchanger of every field of different boreholes, with each of the three exchangers of the scripts, can be covered with
g-functions and sized between 60 and 135 m by either method: nothing is raised but what C115 says. -/
theorem C154_size {world : Problem} (hw : LibraryFine world) (hfuel : 4100 ≤ world.fuel) {h : Hardware} (hh : Shipped h)
    {f : Field} (hf : f ≠ []) (hd : f.Nodup) (hz : SizeHandled world h f) {method : String}
    (hm : method = "hybrid" ∨ method = "hourly") :
    ∃ x y, fresh (problem world h) f 135 = .ok x ∧ computeG (problem world h) { held := some x } = (.ok (), { held := some y }) ∧
      SizeOutcome (problem world h) method y :=
  C115_size (sensible_of_shipped hw hh) hf hd (hz.sizing hw hfuel) method (period_fine hm 60 le_rfl)

/-- the fields of the near-square, rectangle and bi-rectangle scripts are not empty and have no borehole twice -/
theorem fields_of_script {fuel : ℕ} {set : FindScripts.Setting}
    (hset : set ∈ [FindScripts.nearSquare, FindScripts.rectangle, FindScripts.biRectangle]) {c : Candidates ℝ}
    (hc : designInit fuel set.constraints set.routine = .ok c) : ∀ k f, Candidate c k f → f ≠ [] ∧ f.Nodup := by
  simp only [List.mem_cons, List.not_mem_nil, or_false] at hset
  rcases hset with rfl | rfl | rfl
  · have hL : 0 < lengthOfSide 32 (5 : ℝ) := by norm_num [lengthOfSide]
    obtain ⟨n, d, hn, hd, hi⟩ := (C77_available fuel FindScripts.nearSquare.constraints hL hL (by norm_num : (0 : ℝ) < 5) hL hL hL
      rfl).1 rfl
    have hc : designInit fuel FindScripts.nearSquare.constraints "near-square" = .ok c := hc
    rw [hi] at hc
    cases hc
    have hne : n = ⌊lengthOfSide 32 (5 : ℝ) / 5⌋ + 1 := by
      simp only [numberOfBoreholes, pyDiv_ok (show (5 : ℝ) ≠ 0 by norm_num), Except.ok_bind, Except.pure_eq] at hn
      exact (Except.ok.inj hn).symm
    have hfl : 0 ≤ ⌊lengthOfSide 32 (5 : ℝ) / 5⌋ := Int.floor_nonneg.2 (div_nonneg hL.le (by norm_num))
    obtain ⟨d', hd', hlen, hfields, -⟩ := Domains.C07_nearSquare_fields (lower := 1) (upper := n) (by omega) (by omega)
      (by norm_num : (0 : ℝ) < 5)
    rw [hd] at hd'
    cases hd'
    intro key f hf
    have hf : d[key]? = some f := hf
    have hk : key < d.length := by
      by_contra hcon
      rw [List.getElem?_eq_none (by omega)] at hf
      cases hf
    obtain ⟨f1, g1, e1, e2, e3, e4⟩ := hfields (key / 2) (by omega)
    rcases Nat.even_or_odd' key with ⟨c, hc | hc⟩
    · rw [show 2 * (key / 2) = key by omega, hf] at e1
      cases e1
      exact ⟨isGrid_ne e3, e3.distinct⟩
    · rw [show 2 * (key / 2) + 1 = key by omega, hf] at e2
      cases e2
      exact ⟨isGrid_ne e4, e4.distinct⟩
  · obtain ⟨d, hd, hi⟩ := ((C77_available fuel FindScripts.rectangle.constraints (X := 85) (Y := 365 / 10) (B := 1) (Bmin := 3)
      (BX := 10) (BY := 1) (by norm_num) (by norm_num) (by norm_num) (by norm_num) (by norm_num) (by norm_num) rfl).2 rfl rfl rfl).1
    have hc : designInit fuel FindScripts.rectangle.constraints "rectangle" = .ok c := hc
    rw [hi] at hc
    cases hc
    intro k f hf
    obtain ⟨nx, ny, B, hG, -⟩ := Domains.C10_rectangular_spacing (X := 85) (Y := 365 / 10) (Bmin := 3) (by norm_num) (by norm_num)
      (by norm_num) (by norm_num) hd f (List.mem_of_getElem? (i := k) hf)
    exact ⟨isGrid_ne hG, hG.distinct⟩
  · obtain ⟨n, hn', hi⟩ := (((C77_available fuel FindScripts.biRectangle.constraints (X := 85) (Y := 365 / 10) (B := 1)
      (Bmin := 445 / 100) (BX := 10) (BY := 12) (by norm_num) (by norm_num) (by norm_num) (by norm_num) (by norm_num)
      (by norm_num) rfl).2 rfl rfl rfl).2 rfl).1
    have hc : designInit fuel FindScripts.biRectangle.constraints "bi-rectangle" = .ok c := hc
    rw [hi] at hc
    cases hc
    obtain ⟨m, hm, -, hall, -⟩ := Domains.C13_nested (X := (85 : ℝ)) (Y := 365 / 10) (Bmin := 445 / 100) (BX := 10) (BY := 12)
      (by norm_num) (by norm_num) (by norm_num) (by norm_num) (by norm_num) (.inl ⟨by norm_num, rfl, rfl, rfl, rfl⟩)
    rw [hn'] at hm
    cases hm
    rintro k f ⟨d, hd, hf⟩
    obtain ⟨nx, ny, bx, bY, hG, -⟩ := (hall d hd).2.2.2.2 f (List.mem_of_getElem? (i := k) hf)
    exact ⟨isGrid_ne hG, hG.distinct⟩

/-- C154: whatever field `find_design` returns in the land of the near-square, rectangle and bi-rectangle scripts, with the hybrid
method they use, its g-functions can be computed and it can be sized; and at 135 m its temperatures are within 5 and 35 °C, unless it
is the first field and within them at 60 m. -/
theorem C154_found {world : Problem} (hw : LibraryFine world) (hfuel : 4100 ≤ world.fuel) {h : Hardware} (hh : Shipped h)
    {fuel : ℕ} {set : FindScripts.Setting} (hset : set ∈ [FindScripts.nearSquare, FindScripts.rectangle, FindScripts.biRectangle])
    {c : Candidates ℝ} (hc : designInit fuel set.constraints set.routine = .ok c)
    (hz : ∀ k f, Candidate c k f → SizeHandled world h f) (r : Option (ℤ × Field)) (c' : WholeSearch.State)
    (hr : design (problem world h) fuel set.constraints set.routine {} = (.ok r, c')) :
    ∃ (k : ℕ) (f : Field) (y : Held) (u w : ℝ), r = some ((k : ℤ), f) ∧ Candidate c k f ∧
      computeG (problem world h) c' = (.ok (), { c' with held := some y }) ∧ SizeOutcome (problem world h) "hybrid" y ∧
      (Whole.simulate y.env "hybrid" (y.state.at 135)).1 = .ok (u, w) ∧
      (u ≤ 35 ∧ 5 ≤ w ∨ k = 0 ∧ ∃ u0 w0, Extremes (problem world h) f 60 u0 w0 ∧ u0 ≤ 35 ∧ 5 ≤ w0) := by
  rw [design_eq hc] at hr
  have hne : set.routine ≠ "bi-zoned" := by
    simp only [List.mem_cons, List.not_mem_nil, or_false] at hset
    rcases hset with rfl | rfl | rfl <;> decide
  obtain ⟨k, f, y, h1, h2, h3, h4, h5⟩ := C115_design set.routine hne c (sensible_of_shipped hw hh) "hybrid"
    (period_fine (.inl rfl) 60 le_rfl) (fun k f hk => ⟨(fields_of_script hset hc k f hk).1, (fields_of_script hset hc k f hk).2,
      (hz k f hk).sizing hw hfuel⟩) r c' hr
  obtain ⟨u, w, h6, h7⟩ := h5 rfl
  exact ⟨k, f, y, u, w, h1, h2, h3, h4, h6, h7⟩

/-- C154: the bi-zoned script sizes every list's field inside the search: nothing is raised there but what C115 says. -/
theorem C154_zoned {world : Problem} (hw : LibraryFine world) (hfuel : 4100 ≤ world.fuel) {h : Hardware} (hh : Shipped h)
    (fuel : ℕ) (hf : 40 ≤ fuel) :
    ∃ n dl fl, designInit fuel FindScripts.biZoned.constraints "bi-zoned" = .ok (.nested n) ∧ n.getLast? = some dl ∧
      dl.getLast? = some fl ∧ (Handled world h n.flatten → (∀ f ∈ n.flatten, SizeHandled world h f) →
        ZonedSized (problem world h) n (design (problem world h) fuel FindScripts.biZoned.constraints "bi-zoned" {}).1 ∨
        (design (problem world h) fuel FindScripts.biZoned.constraints "bi-zoned" {}).1 = .error .valueError) := by
  obtain ⟨⟨h1, h2⟩, h3⟩ := FindScripts.zoned_counts
  obtain ⟨n, dl, fl, g1, g2, g3, g4⟩ := C115_biZoned (p := problem world h) fuel FindScripts.biZoned.constraints (X := 85)
    (Y := 365 / 10) (Bmin := 445 / 100) (BX := 10) (BY := 12) (by norm_num) (by norm_num) (by norm_num) (by norm_num)
    (by norm_num) rfl rfl rfl rfl rfl (by
      have : (40 : ℤ) ≤ fuel := by exact_mod_cast hf
      omega) h1 h2 (by norm_num) (by norm_num)
  refine ⟨n, dl, fl, g1, g2, g3, fun hc hz => ?_⟩
  obtain ⟨c, -, q, -⟩ := g4 (designable hw hfuel hh hc (.inl rfl)) (period_fine (.inl rfl) 60 le_rfl)
    fun f hf => (hz f hf).sizing hw hfuel
  exact q

/-- A library that can size every field of a list. -/
theorem sizer_exists (candidates : List Field) : ∃ world, LibraryFine world ∧ 4100 ≤ world.fuel ∧
    ∀ h, single = .ok h → Handled world h candidates ∧ ∀ f ∈ candidates, SizeHandled world h f := by
  obtain ⟨world, hw, hfuel, ⟨w1, w2⟩, hr⟩ := library_reads candidates [96, 60, 195 / 2, 135]
  refine ⟨world, hw, hfuel, fun h e1 => ⟨fun f hf H hH => ⟨(hr h e1 f hf).1 H ?_, (hr h e1 f hf).2 H⟩, fun f hf => ?_⟩⟩
  · simp only [List.mem_cons, List.not_mem_nil, or_false] at hH ⊢
    tauto
  obtain ⟨r1, r2⟩ := hr h e1 f hf
  refine ⟨by rw [w1]; exact GF.lagrangeSpl_reproduces, by rw [w1]; exact lagrangeSpl_constant,
    fun H hH => r1 H (List.mem_cons_of_mem _ hH), ⟨r2 _, r2 _⟩, ?_⟩
  intro e H hH
  rw [w2] at hH
  have hH : H ∈ asked e (Bhe.exBrent 60 135) := hH
  simp only [Bhe.exBrent, asked, List.mem_cons, List.not_mem_nil, or_false] at hH
  subst hH
  refine ⟨r2 _, fun k hk => ?_⟩
  rw [soilTime_eq (p := problem world h) rfl] at hk
  obtain ⟨b1, b2⟩ := exp_bounds
  generalize exp (-(85 / 10 : ℝ)) = z at *
  rcases Nat.lt_or_ge k 2099 with hlt | hge
  · have : (k : ℝ) ≤ 2098 := by exact_mod_cast Nat.lt_succ_iff.1 hlt
    norm_num at hk b1; linarith
  · have : (2099 : ℝ) ≤ k := by exact_mod_cast hge
    norm_num at hk b2; linarith

/-- C154_simulated applies: one borehole at 60 m -/
example : ∃ world h x hi lo s', single = .ok h ∧ fresh (problem world h) [(0, 0)] 60 = .ok x ∧
    Whole.simulate x.env "hybrid" x.state = (.ok (hi, lo), s') ∧ none ∉ s'.HPEFT := by
  obtain ⟨h, -, -, e1, -⟩ := pipes_ok
  obtain ⟨world, hw, hfuel, hr⟩ := sizer_exists [[(0, 0)]]
  obtain ⟨k1, k2⟩ := (hr h e1).1 [(0, 0)] (by simp) 60 (by simp)
  obtain ⟨x, hi, lo, s', h1, h2, -, h3, -⟩ := C154_simulated hw hfuel (.inl e1) (by simp) (by simp) (.inl rfl) k1 k2
  exact ⟨world, h, x, hi, lo, s', e1, h1, h2, h3⟩

/-- C154_zoned applies: the bi-zoned script with its single U-tube -/
example : ∃ world h n, single = .ok h ∧
    (ZonedSized (problem world h) n (design (problem world h) 40 FindScripts.biZoned.constraints "bi-zoned" {}).1 ∨
      (design (problem world h) 40 FindScripts.biZoned.constraints "bi-zoned" {}).1 = .error .valueError) := by
  obtain ⟨h, -, -, e1, -⟩ := pipes_ok
  obtain ⟨w0, hw0, hf0, -⟩ := sizer_exists []
  obtain ⟨n, dl, fl, h1, -⟩ := C154_zoned hw0 hf0 (.inl e1) 40 le_rfl
  obtain ⟨world, hw, hfuel, hh⟩ := sizer_exists n.flatten
  obtain ⟨n', dl', fl', h1', -, -, h2⟩ := C154_zoned hw hfuel (.inl e1) 40 le_rfl
  rw [h1] at h1'
  cases h1'
  exact ⟨world, h, n, e1, h2 (hh h e1).1 (hh h e1).2⟩

/-- C154_found applies, to the rectangle script: all that is left open is whether a field is returned -/
example : ∃ world h c, single = .ok h ∧ designInit 40 FindScripts.rectangle.constraints "rectangle" = .ok c ∧
    ∀ r c', design (problem world h) 40 FindScripts.rectangle.constraints "rectangle" {} = (.ok r, c') →
      ∃ (k : ℕ) (f : Field) (y : Held), r = some ((k : ℤ), f) ∧
        computeG (problem world h) c' = (.ok (), { c' with held := some y }) ∧ SizeOutcome (problem world h) "hybrid" y := by
  obtain ⟨h, -, -, e1, -⟩ := pipes_ok
  obtain ⟨w0, hw0, hf0, -⟩ := sizer_exists []
  obtain ⟨-, ⟨d, fl, h1, -⟩, -⟩ := C154_design hw0 hf0 (.inl e1) (.inl rfl) 40 le_rfl
  obtain ⟨world, hw, hfuel, hh⟩ := sizer_exists d
  refine ⟨world, h, .flat d, e1, h1, fun r c' hr => ?_⟩
  obtain ⟨k, f, y, u, w, g1, -, g3, g4, -⟩ := C154_found hw hfuel (.inl e1) (set := FindScripts.rectangle) (by simp) h1
    (fun k f hk => (hh h e1).2 f (List.mem_of_getElem? hk)) r c' hr
  exact ⟨k, f, y, g1, g3, g4⟩

/-- C154_size applies: twelve boreholes in a row with the single U-tube, sized by the hybrid method -/
example : ∃ world h x y, single = .ok h ∧ fresh (problem world h) (exRow 12) 135 = .ok x ∧
    computeG (problem world h) { held := some x } = (.ok (), { held := some y }) ∧ SizeOutcome (problem world h) "hybrid" y := by
  obtain ⟨h, -, -, e1, -⟩ := pipes_ok
  obtain ⟨world, hw, hfuel, hr⟩ := sizer_exists [exRow 12]
  obtain ⟨x, y, g⟩ := C154_size hw hfuel (.inl e1) (exRow_ne (by norm_num)) (exRow_nodup 12) ((hr h e1).2 _ (by simp)) (.inl rfl)
  exact ⟨world, h, x, y, e1, g⟩

end

end Ghedt.Office
