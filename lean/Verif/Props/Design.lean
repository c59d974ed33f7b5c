import Verif.Model.Design
import Verif.Props.Domains
import Verif.Props.NestedSearch

/-!
# Properties of `Design` (C08, C77, C79)
-/

set_option linter.unusedSectionVars false

namespace Ghedt.Design
open Search Domains Utilities Spec
variable {K : Type} [Field K] [LinearOrder K] [FloorRing K] [IsStrictOrderedRing K]

/-! ## C08 — the near-square design and the land -/

/-- C08: with `n = floor(length/B) + 1`, the candidates of a near-square `Design` are `2n` fields;
the last one is the `n × (n+1)` grid whose sides are `(n-1)B ≤ length` and `nB > length`, so it
always contains a borehole off the land; every other candidate lies in the square
`[0,length] × [0,length]`. -/
theorem C08_nearSquare_overshoot (fuel : ℕ) (gc : Constraints K) {L B : K} (hL : gc.length = some L)
    (hB : gc.B = some B) (hL0 : 0 ≤ L) (hB0 : 0 < B) :
    ∃ (init : List (List (K × K))) (last : List (K × K)) (n : ℤ),
      designInit fuel gc "near-square" = .ok (.flat (init ++ [last])) ∧
      n = ⌊L / B⌋ + 1 ∧ (init.length : ℤ) + 1 = 2 * n ∧
      IsGrid n (n + 1) B B last ∧ ((n : K) - 1) * B ≤ L ∧ L < (n : K) * B ∧
      (∃ p ∈ last, L < p.2) ∧ DomainInLand L L init := by
  have hq : 0 ≤ L / B := div_nonneg hL0 hB0.le
  have hf : 0 ≤ ⌊L / B⌋ := Int.floor_nonneg.2 hq
  obtain ⟨d, hd, hlen, hfields, -⟩ := C07_nearSquare_fields (lower := 1) (upper := ⌊L / B⌋ + 1)
    (by omega) (by omega) hB0
  have hrun : designInit fuel gc "near-square" = .ok (.flat d) := by
    unfold designInit checkInputs
    simp only [if_true, hL, hB]
    simp only [pyAssert, arg, Option.isSome_some, if_true, Except.ok_bind, numberOfBoreholes,
      pyDiv_ok hB0.ne', Except.pure_eq]
    rw [hd]; rfl
  have hne : d ≠ [] := by rintro rfl; simp at hlen; omega
  have hin : ∀ (k : ℤ), 0 ≤ k → k ≤ ⌊L / B⌋ → (k : K) * B ≤ L := by
    intro k _ h2
    have : (k : K) ≤ L / B := Int.le_floor.1 h2
    rwa [le_div_iff₀ hB0] at this
  set n := ⌊L / B⌋ + 1 with hn
  have hlast : L < (n : K) * B := by
    have := Int.lt_floor_add_one (L / B)
    rw [div_lt_iff₀ hB0] at this
    rw [hn]; push_cast; exact this
  obtain ⟨f, g, hf1, hg1, hf2, hg2⟩ := hfields (n - 1).toNat (by omega)
  have e1 : (1 : ℤ) + ((n - 1).toNat : ℕ) = n := by omega
  rw [e1] at hf2 hg2
  have e2 : 2 * (n - 1).toNat + 1 = d.length - 1 := by omega
  have hgl : d.getLast hne = g := by
    rw [List.getLast_eq_getElem]
    rw [e2] at hg1
    exact (List.getElem?_eq_some_iff.1 hg1).2
  refine ⟨d.dropLast, g, n, ?_, rfl, ?_, hg2, ?_, hlast, ?_, ?_⟩
  · rw [hrun, ← hgl, List.dropLast_append_getLast hne]
  · rw [List.length_dropLast]; omega
  · have := hin (n - 1) (by omega) (by omega)
    push_cast at this; exact this
  · refine ⟨((0 : ℤ) * B, (n : ℤ) * B), (hg2.points _).2 ⟨0, n, by omega, by omega, rfl⟩, hlast⟩
  · intro f' hf' p hp
    obtain ⟨i, hi, rfl⟩ := List.mem_iff_getElem.1 hf'
    rw [List.length_dropLast] at hi
    rw [List.getElem_dropLast] at hp
    obtain ⟨f1, g1, h1, h2, h3, h4⟩ := hfields (i / 2) (by omega)
    have hcase : d[i]? = some d[i] := List.getElem?_eq_getElem (by omega)
    have key : ∃ (a b : ℤ), a ≤ n ∧ b ≤ n ∧ IsGrid a b B B d[i] := by
      rcases Nat.even_or_odd' i with ⟨c, hc | hc⟩
      · have : i / 2 = c := by omega
        rw [this, ← hc] at h1
        rw [h1] at hcase
        cases hcase
        refine ⟨_, _, ?_, ?_, h3⟩ <;> omega
      · have : i / 2 = c := by omega
        rw [this, ← hc] at h2
        rw [h2] at hcase
        cases hcase
        refine ⟨_, _, ?_, ?_, h4⟩ <;> omega
    obtain ⟨a, b, ha, hb, hG⟩ := key
    obtain ⟨x, y, hx, hy, rfl⟩ := (hG.points p).1 hp
    refine ⟨⟨?_, hin x hx.1 (by omega)⟩, ⟨?_, hin y hy.1 (by omega)⟩⟩
    · exact mul_nonneg (by exact_mod_cast hx.1) hB0.le
    · exact mul_nonneg (by exact_mod_cast hy.1) hB0.le

/-- 12 m of land at 5 m: the largest candidate is 3 × 4, 15 m long -/
example : (designInit 0 { length := some (12 : ℚ), B := some 5 } "near-square") =
    .ok (.flat [[(0, 0)], [(0, 0), (0, 5)], [(0, 0), (0, 5), (5, 0), (5, 5)],
      [(0, 0), (0, 5), (0, 10), (5, 0), (5, 5), (5, 10)],
      [(0, 0), (0, 5), (0, 10), (5, 0), (5, 5), (5, 10), (10, 0), (10, 5), (10, 10)],
      [(0, 0), (0, 5), (0, 10), (0, 15), (5, 0), (5, 5), (5, 10), (5, 15),
       (10, 0), (10, 5), (10, 10), (10, 15)]]) := by decide +kernel

/-! ## C77 — input checks and dispatch -/

/-- What each routine needs (specification). -/
def Complete (gc : Constraints K) (routine : String) : Prop :=
  if routine = "near-square" then gc.B ≠ none ∧ gc.length ≠ none
  else if routine = "rectangle" then
    gc.length ≠ none ∧ gc.width ≠ none ∧ gc.Bmin ≠ none ∧ gc.BmaxX ≠ none
  else gc.length ≠ none ∧ gc.width ≠ none ∧ gc.Bmin ≠ none ∧ gc.BmaxX ≠ none ∧ gc.BmaxY ≠ none

theorem checkInputs_eq (gc : Constraints K) (routine : String) :
    (Complete gc routine → checkInputs gc routine = .ok ()) ∧
    (¬ Complete gc routine → checkInputs gc routine = .error .assertionError) := by
  obtain ⟨l, w, b, bm, bx, bY⟩ := gc
  unfold Complete checkInputs
  split
  · cases l <;> cases b <;> simp [pyAssert]
  · split
    · cases l <;> cases w <;> cases bm <;> cases bx <;> simp [pyAssert]
    · cases l <;> cases w <;> cases bm <;> cases bx <;> cases bY <;> simp [pyAssert]

/-- C77: a missing constraint makes `Design` raise `AssertionError`, whatever the routine and the
other constraints. -/
theorem C77_missing (fuel : ℕ) (gc : Constraints K) (routine : String)
    (h : ¬ Complete gc routine) : designInit fuel gc routine = .error .assertionError := by
  unfold designInit
  rw [(checkInputs_eq gc routine).2 h]; rfl

/-- C77: an unknown routine is refused: `ValueError` if the bi-rectangle constraints are all given,
`AssertionError` otherwise. -/
theorem C77_unknown (fuel : ℕ) (gc : Constraints K) (routine : String)
    (hr : routine ∉ ["near-square", "rectangle", "bi-rectangle", "bi-zoned"]) :
    (designInit fuel gc routine = .error .valueError ↔
      gc.length ≠ none ∧ gc.width ≠ none ∧ gc.Bmin ≠ none ∧ gc.BmaxX ≠ none ∧ gc.BmaxY ≠ none) ∧
    (designInit fuel gc routine = .error .assertionError ↔
      ¬ (gc.length ≠ none ∧ gc.width ≠ none ∧ gc.Bmin ≠ none ∧ gc.BmaxX ≠ none ∧
        gc.BmaxY ≠ none)) := by
  simp only [List.mem_cons, List.not_mem_nil, or_false, not_or] at hr
  obtain ⟨h1, h2, h3, h4⟩ := hr
  have hC : Complete gc routine ↔ gc.length ≠ none ∧ gc.width ≠ none ∧ gc.Bmin ≠ none ∧
      gc.BmaxX ≠ none ∧ gc.BmaxY ≠ none := by
    unfold Complete; rw [if_neg h1, if_neg h2]
  rw [← hC]
  by_cases h : Complete gc routine
  · have : designInit fuel gc routine = .error .valueError := by
      unfold designInit
      rw [(checkInputs_eq gc routine).1 h, Except.ok_bind, if_neg h1, if_neg h2, if_neg h3,
        if_neg h4]
      rfl
    rw [this]; simp [h]
  · rw [C77_missing fuel gc routine h]; simp [h]

/-- C77: with positive constraints, all those required, `Design` succeeds for `near-square`,
`rectangle` and `bi-rectangle`, with the domain of that routine. -/
theorem C77_available (fuel : ℕ) (gc : Constraints K) {X Y B Bmin BX BY : K} (hX : 0 < X)
    (hY : 0 < Y) (hB : 0 < B) (hBmin : 0 < Bmin) (hBX : 0 < BX) (hBY : 0 < BY)
    (h1 : gc.length = some X) :
    (gc.B = some B → ∃ n d, numberOfBoreholes X B (fun q => ⌊q⌋) = .ok n ∧
      squareAndNearSquare 1 n B = .ok d ∧ designInit fuel gc "near-square" = .ok (.flat d)) ∧
    (gc.width = some Y → gc.Bmin = some Bmin → gc.BmaxX = some BX →
      (∃ d, rectangular X Y Bmin BX = .ok d ∧ designInit fuel gc "rectangle" = .ok (.flat d)) ∧
      (gc.BmaxY = some BY →
        (∃ d, biRectangleNested X Y Bmin BX BY = .ok d ∧
          designInit fuel gc "bi-rectangle" = .ok (.nested d)) ∧
        designInit fuel gc "bi-zoned" =
          (biRectangleZonedNested fuel X Y Bmin BX BY).map .nested)) := by
  refine ⟨?_, ?_⟩
  · intro h2
    obtain ⟨d, hd, -⟩ := C07_nearSquare_fields (lower := 1) (upper := ⌊X / B⌋ + 1)
      (by omega) (by have := Int.floor_nonneg.2 (div_nonneg hX.le hB.le); omega) hB
    refine ⟨⌊X / B⌋ + 1, d, ?_, hd, ?_⟩
    · simp [numberOfBoreholes, pyDiv_ok hB.ne']
    · unfold designInit checkInputs
      simp only [if_true, h1, h2]
      simp only [pyAssert, arg, Option.isSome_some, if_true, Except.ok_bind, numberOfBoreholes,
        pyDiv_ok hB.ne', Except.pure_eq]
      rw [hd]; rfl
  · intro h2 h3 h4
    refine ⟨?_, ?_⟩
    · obtain ⟨d, hd, -⟩ := C09_rectangular_in_land hX hY hBmin hBX
      refine ⟨d, hd, ?_⟩
      unfold designInit checkInputs
      rw [if_neg (by decide), if_pos rfl, if_neg (by decide), if_pos rfl]
      simp [h1, h2, h3, h4, pyAssert, arg, hd]
    · intro h5
      refine ⟨?_, ?_⟩
      · obtain ⟨Ll, Ls, Bl, Bs, hL⟩ : ∃ Ll Ls Bl Bs : K,
            (Y ≤ X ∧ Ll = X ∧ Ls = Y ∧ Bl = BX ∧ Bs = BY) ∨
            (X < Y ∧ Ll = Y ∧ Ls = X ∧ Bl = BY ∧ Bs = BX) := by
          rcases le_or_gt Y X with h | h
          · exact ⟨X, Y, BX, BY, .inl ⟨h, rfl, rfl, rfl, rfl⟩⟩
          · exact ⟨Y, X, BY, BX, .inr ⟨h, rfl, rfl, rfl, rfl⟩⟩
        obtain ⟨d, hd, -⟩ := C13_nested hX hY hBmin hBX hBY hL
        refine ⟨d, hd, ?_⟩
        unfold designInit checkInputs
        rw [if_neg (by decide), if_neg (by decide), if_neg (by decide), if_neg (by decide),
          if_pos rfl]
        simp [h1, h2, h3, h4, h5, pyAssert, arg, hd]
      · unfold designInit checkInputs
        rw [if_neg (by decide), if_neg (by decide), if_neg (by decide), if_neg (by decide),
          if_neg (by decide), if_pos rfl]
        simp only [h1, h2, h3, h4, h5, pyAssert, arg, Option.isSome_some, if_true, Except.ok_bind,
          Except.pure_eq]
        cases biRectangleZonedNested fuel X Y Bmin BX BY <;> rfl

/-- C77: `find_design` runs the one-dimensional search for `near-square` and `rectangle`, the
two-dimensional one for `bi-rectangle`, the zoned one for `bi-zoned`, on the candidates made by the
constructor; a design made by the constructor never lacks the candidates. -/
theorem C77_dispatch (fuel : ℕ) (env : Env (List (K × K)) K) (gc : Constraints K)
    (routine : String) (c : Candidates K) (hc : designInit fuel gc routine = .ok c)
    (s : State (List (K × K)) K) :
    ((routine = "near-square" ∨ routine = "rectangle") ∧ ∃ d, c = .flat d ∧
      findDesign env routine c s = bisection1D env d s) ∨
    (routine = "bi-rectangle" ∧ ∃ d, c = .nested d ∧
      findDesign env routine c s = bisection2D env d s) ∨
    (routine = "bi-zoned" ∧ ∃ d, c = .nested d ∧
      findDesign env routine c s = (bisectionZD env d >>= fun r => pure (some r)) s) := by
  unfold designInit at hc
  rw [bind_eq_ok] at hc
  obtain ⟨_, -, hc⟩ := hc
  unfold findDesign
  split at hc
  · rename_i h; subst h
    simp only [bind_eq_ok] at hc
    obtain ⟨_, -, _, -, _, -, d, -, hd⟩ := hc
    cases hd
    exact .inl ⟨.inl rfl, d, rfl, by rw [if_pos rfl]; rfl⟩
  · rename_i h0
    split at hc
    · rename_i h; subst h
      simp only [bind_eq_ok] at hc
      obtain ⟨_, -, _, -, _, -, _, -, d, -, hd⟩ := hc
      cases hd
      exact .inl ⟨.inr rfl, d, rfl, by rw [if_neg h0, if_pos rfl]; rfl⟩
    · rename_i h1
      split at hc
      · rename_i h; subst h
        simp only [bind_eq_ok] at hc
        obtain ⟨_, -, _, -, _, -, _, -, _, -, d, -, hd⟩ := hc
        cases hd
        exact .inr (.inl ⟨rfl, d, rfl, by rw [if_neg h0, if_neg h1, if_pos rfl]; rfl⟩)
      · rename_i h2
        split at hc
        · rename_i h; subst h
          simp only [bind_eq_ok] at hc
          obtain ⟨_, -, _, -, _, -, _, -, _, -, d, -, hd⟩ := hc
          cases hd
          exact .inr (.inr ⟨rfl, d, rfl, by
            rw [if_neg h0, if_neg h1, if_neg h2, if_pos rfl]; rfl⟩)
        · cases hc

/-- C77: a design whose `routine` attribute is changed after it was made keeps its candidates.  `find_design` then raises, with
nothing simulated, `ValueError` for an unknown routine and `AttributeError` for one that searches candidates of the other kind;
between `near-square` and `rectangle` the change makes no difference. -/
theorem C77_changed (fuel : ℕ) (env : Env (List (K × K)) K) (gc : Constraints K)
    (routine routine' : String) (c : Candidates K) (hc : designInit fuel gc routine = .ok c)
    (s : State (List (K × K)) K) :
    (routine' ∉ ["near-square", "rectangle", "bi-rectangle", "bi-zoned"] →
      findDesign env routine' c s = (.error .valueError, s)) ∧
    (routine ∈ ["near-square", "rectangle"] → routine' ∈ ["bi-rectangle", "bi-zoned"] →
      findDesign env routine' c s = (.error .attributeError, s)) ∧
    (routine ∈ ["bi-rectangle", "bi-zoned"] → routine' ∈ ["near-square", "rectangle"] →
      findDesign env routine' c s = (.error .attributeError, s)) ∧
    (routine ∈ ["near-square", "rectangle"] → routine' ∈ ["near-square", "rectangle"] →
      findDesign env routine' c s = findDesign env routine c s) := by
  have hk := C77_dispatch fuel env gc routine c hc s
  have flat : routine ∈ ["near-square", "rectangle"] → ∃ d, c = .flat d := by
    intro h
    rcases hk with ⟨-, d, hd, -⟩ | ⟨rfl, -⟩ | ⟨rfl, -⟩
    · exact ⟨d, hd⟩
    · simp at h
    · simp at h
  have nested : routine ∈ ["bi-rectangle", "bi-zoned"] → ∃ d, c = .nested d := by
    intro h
    rcases hk with ⟨rfl | rfl, -⟩ | ⟨-, d, hd, -⟩ | ⟨-, d, hd, -⟩
    · simp at h
    · simp at h
    · exact ⟨d, hd⟩
    · exact ⟨d, hd⟩
  refine ⟨fun h => ?_, fun h h' => ?_, fun h h' => ?_, fun h h' => ?_⟩
  · simp only [List.mem_cons, List.not_mem_nil, or_false, not_or] at h
    unfold findDesign
    rw [if_neg h.1, if_neg h.2.1, if_neg h.2.2.1, if_neg h.2.2.2]
    rfl
  · obtain ⟨d, rfl⟩ := flat h
    simp only [List.mem_cons, List.not_mem_nil, or_false] at h'
    rcases h' with rfl | rfl <;> rfl
  · obtain ⟨d, rfl⟩ := nested h
    simp only [List.mem_cons, List.not_mem_nil, or_false] at h'
    rcases h' with rfl | rfl <;> rfl
  · obtain ⟨d, rfl⟩ := flat h
    simp only [List.mem_cons, List.not_mem_nil, or_false] at h h'
    rcases h with rfl | rfl <;> rcases h' with rfl | rfl <;> rfl

/-- a near-square design changed to bi-rectangle -/
example (env : Env (List (ℚ × ℚ)) ℚ) : ∃ c, designInit 0 ({ length := some 5, B := some 5 } : Constraints ℚ) "near-square" = .ok c ∧
    findDesign env "bi-rectangle" c {} = (.error .attributeError, {}) := by
  obtain ⟨n, d, -, -, h⟩ := (C77_available (K := ℚ) 0 { length := some 5, B := some 5 } (X := 5) (Y := 1) (B := 5) (Bmin := 1) (BX := 1)
    (BY := 1) (by norm_num) (by norm_num) (by norm_num) (by norm_num) (by norm_num) (by norm_num) rfl).1 rfl
  exact ⟨_, h, (C77_changed 0 env _ _ _ _ h {}).2.1 (by simp) (by simp)⟩

example : designInit 0 ({ length := some 5 } : Constraints ℚ) "near-square" =
      .error .assertionError ∧
    designInit 0 (⟨some 5, some 5, none, some 1, some 2, some 2⟩ : Constraints ℚ) "hexagon" = .error .valueError ∧
    designInit 0 ({ length := some 5 } : Constraints ℚ) "hexagon" = .error .assertionError := by
  decide +kernel

/-! ## C79 — the design a user receives -/

theorem pyGet_mem {α : Type} {l : List α} {i : ℤ} {a : α} (h : pyGet l i = .ok a) : a ∈ l := by
  unfold pyGet at h
  generalize (if i < 0 then i + (l.length : ℤ) else i) = j at h
  dsimp only at h
  split at h
  · cases h
  · split at h
    · rename_i b hb
      cases h
      exact List.mem_of_getElem? hb
    · cases h

theorem setup_temps {F : Type} {env : Env F K} {d : List F} {s s' : State F K} {u : Unit}
    (h : setup env d s = (.ok u, s')) : s'.temps = [] := by
  unfold setup at h
  rw [St.lift_eq_ok] at h
  obtain ⟨c, -, h⟩ := h
  rw [St.bind_eq_ok] at h
  obtain ⟨u', s2, -, h⟩ := h
  simp only [St.modify_apply, Prod.mk.injEq] at h
  rw [← h.2]

theorem bisection1D_ok {F : Type} {env : Env F K} {d : List F} {s s' : State F K}
    {r : Option (ℤ × F)} (h : bisection1D env d s = (.ok r, s')) :
    ∃ (key : ℕ) (f : F) (v : K), r = some ((key : ℤ), f) ∧ d[key]? = some f ∧
      s'.ghe = some (f, env.maxHeight) ∧ env.sim f env.maxHeight = .ok v ∧
      (v ≤ 0 ∨ key = 0 ∧ ∃ a, env.sim f env.minHeight = .ok a ∧ a * v < 0) := by
  unfold bisection1D at h
  rw [St.bind_eq_ok] at h
  obtain ⟨u, s0, hset, h⟩ := h
  have h0 := setup_temps hset
  obtain ⟨key, f, v, rfl, hf, hv, hc⟩ := C30_feasible env d s0 s' h0 r h
  obtain ⟨key', f', v', e, hg, -⟩ := C33_configured env d s0 s' h0 _ h
  cases e
  exact ⟨key, f, v, rfl, hf, hg, hv, hc⟩

/-- C79, rectangle: whatever the simulation does, a design that is returned is a grid on the land,
with one spacing between the given bounds, held at maximum height, and it meets the temperature
limits there — unless it is the single borehole accepted by the shortcut. -/
theorem C79_rectangle (fuel : ℕ) (env : Env (List (K × K)) K) (gc : Constraints K)
    {X Y Bmin BX : K} (hX : 0 < X) (hY : 0 < Y) (hBmin : 0 < Bmin) (hBX : 0 < BX)
    (h1 : gc.length = some X) (h2 : gc.width = some Y) (h3 : gc.Bmin = some Bmin)
    (h4 : gc.BmaxX = some BX) (s' : State (List (K × K)) K) (r : Option (ℤ × List (K × K)))
    (h : design fuel env gc "rectangle" {} = (.ok r, s')) :
    ∃ key f v, r = some (key, f) ∧ s'.ghe = some (f, env.maxHeight) ∧ (∀ p ∈ f, InLand X Y p) ∧
      (∃ (nx ny : ℤ) (B : K), IsGrid nx ny B B f ∧ Bmin ≤ B ∧ B ≤ BX) ∧
      env.sim f env.maxHeight = .ok v ∧
      (v ≤ 0 ∨ f = [(0, 0)] ∧ ∃ a, env.sim f env.minHeight = .ok a ∧ a * v < 0) := by
  obtain ⟨d, hd, hi⟩ := ((C77_available fuel gc hX hY hX hBmin hBX hX h1).2 h2 h3 h4).1
  unfold design at h
  rw [St.lift_ok hi] at h
  have h : bisection1D env d {} = (.ok r, s') := h
  obtain ⟨key, f, v, rfl, hf, hg, hv, hc⟩ := bisection1D_ok h
  have hm := List.mem_of_getElem? hf
  obtain ⟨d', hd', hland⟩ := C09_rectangular_in_land hX hY hBmin hBX
  rw [hd] at hd'; cases hd'
  refine ⟨key, f, v, rfl, hg, hland f hm, C10_rectangular_spacing hX hY hBmin hBX hd f hm, hv, ?_⟩
  rcases hc with hc | ⟨rfl, hc⟩
  · exact .inl hc
  · have := (C11_rectangular_sizes hX hY hBmin hBX hd).2.2 (List.ne_nil_of_mem hm)
    rw [List.head?_eq_getElem?, hf] at this
    exact .inr ⟨Option.some.inj this, hc⟩

/-- C79, near-square: the returned design is an `n × n` or `n × (n+1)` grid at the given spacing
whose short side fits the given length; the long side exceeds it by at most one spacing. -/
theorem C79_nearSquare (fuel : ℕ) (env : Env (List (K × K)) K) (gc : Constraints K)
    {L B : K} (hL : 0 < L) (hB : 0 < B) (h1 : gc.length = some L) (h2 : gc.B = some B)
    (s' : State (List (K × K)) K) (r : Option (ℤ × List (K × K)))
    (h : design fuel env gc "near-square" {} = (.ok r, s')) :
    ∃ key f v, r = some (key, f) ∧ s'.ghe = some (f, env.maxHeight) ∧
      (∀ p ∈ f, InLand L (L + B) p) ∧
      (∃ n m : ℤ, IsGrid n m B B f ∧ (m = n ∨ m = n + 1)) ∧
      env.sim f env.maxHeight = .ok v ∧
      (v ≤ 0 ∨ f = [(0, 0)] ∧ ∃ a, env.sim f env.minHeight = .ok a ∧ a * v < 0) := by
  obtain ⟨n, d, hn, hd, hi⟩ := (C77_available fuel gc hL hL hB hL hL hL h1).1 h2
  unfold design at h
  rw [St.lift_ok hi] at h
  have h : bisection1D env d {} = (.ok r, s') := h
  obtain ⟨key, f, v, rfl, hf, hg, hv, hc⟩ := bisection1D_ok h
  have hne : n = ⌊L / B⌋ + 1 := by
    simp only [numberOfBoreholes, pyDiv_ok hB.ne', Except.ok_bind, Except.pure_eq] at hn
    exact (Except.ok.inj hn).symm
  have hfl : 0 ≤ ⌊L / B⌋ := Int.floor_nonneg.2 (div_nonneg hL.le hB.le)
  obtain ⟨d', hd', hlen, hfields, -⟩ := C07_nearSquare_fields (lower := 1) (upper := n)
    (by omega) (by omega) hB
  rw [hd] at hd'; cases hd'
  have hklt : key < d.length := (List.getElem?_eq_some_iff.1 hf).1
  obtain ⟨f1, g1, e1, e2, e3, e4⟩ := hfields (key / 2) (by omega)
  have hgrid : ∃ a b : ℤ, IsGrid a b B B f ∧ (b = a ∨ b = a + 1) ∧ a ≤ n ∧
      (key = 0 → a = 1 ∧ b = 1) := by
    rcases Nat.even_or_odd' key with ⟨c, hc | hc⟩
    · have : key / 2 = c := by omega
      rw [this, ← hc, hf] at e1
      cases e1
      exact ⟨_, _, e3, .inl rfl, by omega, by omega⟩
    · have : key / 2 = c := by omega
      rw [this, ← hc, hf] at e2
      cases e2
      exact ⟨_, _, e4, .inr rfl, by omega, by omega⟩
  obtain ⟨a, b, hG, hab, han, h0⟩ := hgrid
  have hin : ∀ (k : ℤ), k ≤ ⌊L / B⌋ → (k : K) * B ≤ L := by
    intro k h2
    have : (k : K) ≤ L / B := Int.le_floor.1 h2
    rwa [le_div_iff₀ hB] at this
  refine ⟨key, f, v, rfl, hg, ?_, ⟨a, b, hG, hab⟩, hv, ?_⟩
  · intro p hp
    obtain ⟨i, j, hi, hj, rfl⟩ := (hG.points p).1 hp
    refine ⟨⟨mul_nonneg (by exact_mod_cast hi.1) hB.le, hin i (by omega)⟩,
      mul_nonneg (by exact_mod_cast hj.1) hB.le, ?_⟩
    have := hin (j - 1) (by omega)
    push_cast at this
    show (j : K) * B ≤ L + B
    linarith
  · rcases hc with hc | ⟨hk, hc⟩
    · exact .inl hc
    · obtain ⟨rfl, rfl⟩ := h0 hk
      refine .inr ⟨?_, hc⟩
      have hl := hG.count
      obtain ⟨q, hq⟩ := List.length_eq_one_iff.1 (by omega : f.length = 1)
      have hz := (hG.points (0, 0)).2 ⟨0, 0, by omega, by omega, by simp⟩
      rw [hq] at hz ⊢
      simp only [List.mem_singleton] at hz
      rw [hz]

/-- C79, bi-rectangle: as for rectangle, with separate spacing bounds along the two sides. -/
theorem C79_biRectangle (fuel : ℕ) (env : Env (List (K × K)) K) (gc : Constraints K)
    {X Y Bmin BX BY : K} (hX : 0 < X) (hY : 0 < Y) (hBmin : 0 < Bmin) (hBX : 0 < BX) (hBY : 0 < BY)
    (h1 : gc.length = some X) (h2 : gc.width = some Y) (h3 : gc.Bmin = some Bmin)
    (h4 : gc.BmaxX = some BX) (h5 : gc.BmaxY = some BY)
    (s' : State (List (K × K)) K) (r : Option (ℤ × List (K × K)))
    (h : design fuel env gc "bi-rectangle" {} = (.ok r, s')) :
    ∃ key f v, r = some (key, f) ∧ s'.ghe = some (f, env.maxHeight) ∧ (∀ p ∈ f, InLand X Y p) ∧
      (∃ (nx ny : ℤ) (bx bY : K), IsGrid nx ny bx bY f ∧ Bmin ≤ bx ∧ bx ≤ BX ∧ Bmin ≤ bY ∧
        bY ≤ BY) ∧
      env.sim f env.maxHeight = .ok v ∧
      (v ≤ 0 ∨ f = [(0, 0)] ∧ ∃ a, env.sim f env.minHeight = .ok a ∧ a * v < 0) := by
  obtain ⟨d, hd, hi⟩ := (((C77_available fuel gc hX hY hX hBmin hBX hBY h1).2 h2 h3 h4).2 h5).1
  unfold design at h
  rw [St.lift_ok hi] at h
  have h : bisection2D env d {} = (.ok r, s') := h
  obtain ⟨outer, key, g, inner, k, f, v, -, -, hin, hf, rfl, hv, hg, hc⟩ :=
    C36_returned_field env d _ _ _ h
  have hm := pyGet_mem hin
  have hfm := List.mem_of_getElem? hf
  obtain ⟨Ll, Ls, Bl, Bs, hL⟩ : ∃ Ll Ls Bl Bs : K,
      (Y ≤ X ∧ Ll = X ∧ Ls = Y ∧ Bl = BX ∧ Bs = BY) ∨
      (X < Y ∧ Ll = Y ∧ Ls = X ∧ Bl = BY ∧ Bs = BX) := by
    rcases le_or_gt Y X with h | h
    · exact ⟨X, Y, BX, BY, .inl ⟨h, rfl, rfl, rfl, rfl⟩⟩
    · exact ⟨Y, X, BY, BX, .inr ⟨h, rfl, rfl, rfl, rfl⟩⟩
  obtain ⟨d', hd', -, hall, -⟩ := C13_nested hX hY hBmin hBX hBY hL
  rw [hd] at hd'; cases hd'
  obtain ⟨hland, -, -, hhead, hgrid⟩ := hall inner hm
  refine ⟨k, f, v, rfl, hg, hland f hfm, hgrid f hfm, hv, ?_⟩
  rcases hc with hc | ⟨rfl, hc⟩
  · exact .inl hc
  · have := hhead (List.ne_nil_of_mem hfm)
    rw [List.head?_eq_getElem?, hf] at this
    exact .inr ⟨Option.some.inj this, hc⟩

/-- C79, bi-zoned (land at least as long as wide): the returned design lies on the land, meets the
limits at maximum height without exception, and is held at the height it was sized to. -/
theorem C79_biZoned (fuel : ℕ) (env : Env (List (K × K)) K) (gc : Constraints K)
    {X Y Bmin BX BY : K} (hY : 0 < Y) (hXY : Y ≤ X) (hBmin : 0 < Bmin) (hBX : 0 < BX) (hBY : 0 < BY)
    (hX' : BX < X) (hY' : BY < Y) (hc1 : ⌈X / BX + 1⌉ ≤ ⌊X / Bmin + 1⌋)
    (hc2 : ⌈Y / BY + 1⌉ ≤ ⌊Y / Bmin + 1⌋) (hfuel : ⌊X / Bmin + 1⌋ + ⌊Y / Bmin + 1⌋ ≤ fuel)
    (h1 : gc.length = some X) (h2 : gc.width = some Y) (h3 : gc.Bmin = some Bmin)
    (h4 : gc.BmaxX = some BX) (h5 : gc.BmaxY = some BY)
    (s' : State (List (K × K)) K) (r : Option (ℤ × List (K × K)))
    (h : design fuel env gc "bi-zoned" {} = (.ok r, s')) :
    ∃ key f v H, r = some (key, f) ∧ (∀ p ∈ f, InLand X Y p) ∧
      env.sim f env.maxHeight = .ok v ∧ v ≤ 0 ∧
      env.sizeH f env.maxHeight = .ok H ∧ s'.ghe = some (f, H) := by
  have hX : 0 < X := hY.trans_le hXY
  have hi := (((C77_available fuel gc hX hY hX hBmin hBX hBY h1).2 h2 h3 h4).2 h5).2
  obtain ⟨d0, ds, hd, hall, -⟩ := C17_zonedNested_in_land hY hXY hBmin hBX hBY hX' hY' hc1 hc2 hfuel
  rw [hd] at hi
  unfold design at h
  rw [St.lift_ok hi] at h
  have h : (bisectionZD env (d0 :: ds) >>= fun r => pure (some r)) {} = (.ok r, s') := h
  rw [St.bind_eq_ok] at h
  obtain ⟨⟨key, f⟩, s1, hz, e⟩ := h
  simp only [St.pure_apply, Prod.mk.injEq, Except.ok.injEq] at e
  obtain ⟨rfl, rfl⟩ := e
  obtain ⟨outer, k, g, s0, s2, s3, -, -, -, hk, hh, hn, h⟩ := C37_start env _ _ _ rfl _ hz
  obtain ⟨totals, m, best, d, temps, v, H, -, -, -, -, -, -, -, -, -, -, hd', hk0, hf, hv, -, hv0, -,
    hs, hg⟩ := C37_successive env _ _ (by split <;> omega) _ _ hh hn key f h
  exact ⟨key, f, v, H, rfl, (hall d (pyGet_mem hd')).1 f (pyGet_mem hf), hv, hv0, hs, hg⟩

/-- a 20 m × 30 m land: with an excess of `30 - 2·(boreholes)` at full height the search returns a
24-borehole design -/
def exDesignEnv : Env (List (ℚ × ℚ)) ℚ where
  build _ _ := .ok ()
  sim f H := .ok (if H = 50 then 60 else 31 - 2 * f.length)
  sizeH _ H := .ok H
  nbh f := f.length
  minHeight := 50
  maxHeight := 100
  boreholeH := 80
  maxIter := 15

example : ((design 0 exDesignEnv ⟨some 20, some 30, none, some 5, some 10, some 10⟩
    "rectangle" {}).1.map (fun r => r.map fun q => (q.1, q.2.length))) = .ok (some (6, 24)) ∧
  ((design 0 exDesignEnv ⟨some 20, some 30, none, some 5, some 10, some 10⟩
    "bi-rectangle" {}).1.map (fun r => r.map fun q => (q.1, q.2.length))) = .ok (some (7, 18)) ∧
  ((design 30 exDesignEnv ⟨some 30, some 20, none, some 5, some 9, some 9⟩
    "bi-zoned" {}).1.map (fun r => r.map fun q => (q.1, q.2.length))) = .ok (some (15, 16)) ∧
  ((design 0 exDesignEnv ⟨some 20, none, some 5, none, none, none⟩
    "near-square" {}).1.map (fun r => r.map fun q => (q.1, q.2.length))) = .ok (some (6, 16)) := by
  decide +kernel

/-! ### The theorems applied to concrete constraints -/

example := C08_nearSquare_overshoot 0 ({ length := some (12 : ℚ), B := some 5 } : Constraints ℚ) rfl rfl (by norm_num)
  (by norm_num)
example := C77_missing 0 ({ length := some (5 : ℚ) } : Constraints ℚ) "near-square" (by simp [Complete])
example := C77_unknown 0 (⟨some 5, some 5, none, some 1, some 2, some 2⟩ : Constraints ℚ) "hexagon" (by decide)
example : ∃ c, designInit 0 ({ length := some (12 : ℚ), B := some 5 } : Constraints ℚ) "near-square" = .ok c ∧
    ∃ d, c = .flat d ∧ findDesign exDesignEnv "near-square" c {} = bisection1D exDesignEnv d {} := by
  obtain ⟨init, last, n, h, -⟩ := C08_nearSquare_overshoot 0 ({ length := some (12 : ℚ), B := some 5 } : Constraints ℚ)
    rfl rfl (by norm_num) (by norm_num)
  refine ⟨_, h, ?_⟩
  rcases C77_dispatch 0 exDesignEnv _ _ _ h {} with ⟨-, h⟩ | ⟨h, -⟩ | ⟨h, -⟩
  · exact h
  · exact absurd h (by decide)
  · exact absurd h (by decide)
/-- a completed design for the cases below -/
theorem exDesign_ok {routine : String} {x : ℤ × ℕ}
    (h : ((design 0 exDesignEnv ⟨some 20, some 30, none, some 5, some 10, some 10⟩ routine {}).1.map
      (fun r => r.map fun q => (q.1, q.2.length))) = .ok (some x)) :
    ∃ r s, design 0 exDesignEnv ⟨some 20, some 30, none, some 5, some 10, some 10⟩ routine {} = (.ok r, s) := by
  generalize design 0 exDesignEnv ⟨some 20, some 30, none, some 5, some 10, some 10⟩ routine {} = q at h ⊢
  obtain ⟨r | r, s⟩ := q
  · cases h
  · exact ⟨r, s, rfl⟩
example : ∃ key f s, design 0 exDesignEnv ⟨some 20, some 30, none, some 5, some 10, some 10⟩ "rectangle" {} =
    (.ok (some (key, f)), s) ∧ (∀ p ∈ f, InLand 20 30 p) ∧ (∃ (nx ny : ℤ) (B : ℚ), IsGrid nx ny B B f ∧ 5 ≤ B ∧ B ≤ 10) := by
  obtain ⟨r, s, h⟩ := exDesign_ok (routine := "rectangle") (x := (6, 24)) (by decide +kernel)
  obtain ⟨key, f, v, rfl, -, h1, h2, -⟩ := C79_rectangle 0 exDesignEnv
    ⟨some 20, some 30, none, some 5, some 10, some 10⟩ (by norm_num) (by norm_num) (by norm_num) (by norm_num) rfl rfl rfl
    rfl s r h
  exact ⟨key, f, s, h, h1, h2⟩
example : ∃ key f s, design 0 exDesignEnv ⟨some 20, some 30, none, some 5, some 10, some 10⟩ "bi-rectangle" {} =
    (.ok (some (key, f)), s) ∧ (∀ p ∈ f, InLand 20 30 p) := by
  obtain ⟨r, s, h⟩ := exDesign_ok (routine := "bi-rectangle") (x := (7, 18)) (by decide +kernel)
  obtain ⟨key, f, v, rfl, -, h1, -⟩ := C79_biRectangle 0 exDesignEnv
    ⟨some 20, some 30, none, some 5, some 10, some 10⟩ (by norm_num) (by norm_num) (by norm_num) (by norm_num)
    (by norm_num) rfl rfl rfl rfl rfl s r h
  exact ⟨key, f, s, h, h1⟩

end Ghedt.Design
