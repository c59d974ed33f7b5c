import Verif.Lemmas.RoundedZoned
import Verif.Props.Domains

/-!
# Zoned domains in double precision (C120, C121)
-/

set_option linter.unusedSectionVars false

namespace Ghedt.Rounded
open Coordinates Domains Spec

variable {K : Type} [Field K] [LinearOrder K] [IsStrictOrderedRing K]

theorem near_length {f g : List (K × K)} (h : Near f g) : f.length = g.length := h.length_eq

theorem near_inLand {f g : List (K × K)} (h : Near f g) {X Y : K} (hg : ∀ p ∈ g, InLand X Y p) :
    ∀ p ∈ f, InLand ((1 + tiny) * X) ((1 + tiny) * Y) p := by
  have t0 : (0 : K) < tiny := by rw [tiny_eq]; norm_num
  have t1 : (tiny : K) < 1 := by rw [tiny_eq]; norm_num
  have key : ∀ {a b L : K}, |a - b| ≤ tiny * |b| → 0 ≤ b → b ≤ L → 0 ≤ a ∧ a ≤ (1 + tiny) * L := by
    intro a b L h h0 h1
    rw [abs_of_nonneg h0, abs_le] at h
    have : tiny * b ≤ tiny * L := mul_le_mul_of_nonneg_left h1 t0.le
    constructor
    · nlinarith [h.1]
    · linarith [h.2]
  intro p hp
  obtain ⟨q, hq, hpq⟩ := forall₂_mem_right h.flip p hp
  have hl := hg q hq
  exact ⟨key hpq.1 hl.1.1 hl.1.2, key hpq.2 hl.2.1 hl.2.2⟩

/-- a chain of a step that has only one outcome is determined by its first element and its length -/
theorem chain_unique {α : Type} {S : α → α → Prop} (hS : ∀ a b c, S a b → S a c → b = c) :
    ∀ {l m : List α} {a : α}, (a :: l).IsChain S → (a :: m).IsChain S → l.length = m.length → l = m := by
  intro l
  induction l with
  | nil => intro m a _ _ h; exact (List.eq_nil_of_length_eq_zero h.symm).symm
  | cons b l ih =>
    intro m a h1 h2 h
    cases m with
    | nil => simp at h
    | cons c m =>
      rw [List.isChain_cons_cons] at h1 h2
      have := hS a b c h1.1 h2.1
      subst this
      rw [ih h1.2 h2.2 (by simpa using h)]

theorem isChain_of_imp_mem {α : Type} {S T : α → α → Prop} {l : List α} (h : l.IsChain S)
    (hi : ∀ a ∈ l, ∀ b ∈ l, S a b → T a b) : l.IsChain T := by
  induction l with
  | nil => exact List.IsChain.nil
  | cons a l ih =>
    cases l with
    | nil => exact List.IsChain.singleton _
    | cons b l =>
      rw [List.isChain_cons_cons] at h ⊢
      exact ⟨hi a (by simp) b (by simp) h.1, ih h.2 fun x hx y hy => hi x (by simp [hx]) y (by simp [hy])⟩

variable [FloorRing K]

/-- everything about a zoned domain in double precision, for the sides in the order the function sorts them -/
theorem zoned_core {X Y : K} (hX : 0 < X) (hY : 0 < Y) (rX : double X = X) (rY : double Y = Y) {nx ny : ℤ}
    (hnx : 3 ≤ nx) (hny : 3 ≤ ny) (hP : nx * ny ≤ 10 ^ 15) (t : Bool) {n1 n2 : ℤ} {L1 L2 : K}
    (hn : (Y ≤ X ∧ n1 = nx ∧ n2 = ny ∧ L1 = X ∧ L2 = Y) ∨ (X < Y ∧ n1 = ny ∧ n2 = nx ∧ L1 = Y ∧ L2 = X)) :
    ∃ (path : List (ℤ × ℤ)) (d : List (List (K × K))) (g : List (K × K)) (gs : List (List (K × K))),
      (∀ fuel : ℕ, nx + ny ≤ fuel → zonedRectangleDomain Rounding.double fuel X Y nx ny t = .ok d) ∧
      UnitPath (1, 1) (n1 - 2, n2 - 2) path ∧ path.IsChain (RoundedStep n1 n2) ∧
      List.Forall₂ (fun q f => Coordinates.zonedRectangle n1 n2 (L1 / ((n1 - 1 : ℤ) : K)) (L2 / ((n2 - 1 : ℤ) : K))
        q.1 q.2 = .ok f) path (g :: gs) ∧
      NearDomain d (g :: gs.map (maybeTranspose t)) ∧ ∀ f ∈ d, f.Nodup := by
  have hsel : (L1, L2, n1, n2) = (if X ≥ Y then (X, Y, nx, ny) else (Y, X, ny, nx)) := by
    rcases hn with ⟨h, rfl, rfl, rfl, rfl⟩ | ⟨h, rfl, rfl, rfl, rfl⟩
    · rw [if_pos h]
    · rw [if_neg (not_le.mpr h)]
  have hb : 3 ≤ n1 ∧ 3 ≤ n2 ∧ n1 * n2 ≤ 10 ^ 15 ∧ n1 + n2 = nx + ny ∧ 0 < L1 ∧ 0 < L2 ∧ double L1 = L1 ∧
      double L2 = L2 := by
    rcases hn with ⟨h, rfl, rfl, rfl, rfl⟩ | ⟨h, rfl, rfl, rfl, rfl⟩
    · exact ⟨hnx, hny, hP, rfl, hX, hY, rX, rY⟩
    · exact ⟨hny, hnx, by linarith [mul_comm n1 n2], by ring, hY, hX, rY, rX⟩
  obtain ⟨h1, h2, hP', hsum, hL1, hL2, r1, r2⟩ := hb
  have b1 : n1 ≤ 10 ^ 15 := by nlinarith
  have b2 : n2 ≤ 10 ^ 15 := by nlinarith
  have p1 : (0 : K) < ((n1 - 1 : ℤ) : K) := by exact_mod_cast (by omega : 0 < n1 - 1)
  have p2 : (0 : K) < ((n2 - 1 : ℤ) : K) := by exact_mod_cast (by omega : 0 < n2 - 1)
  have s1 := div_pos hL1 p1
  have s2 := div_pos hL2 p2
  obtain ⟨path, hp, hi, hrun⟩ := zonedRectangleDomain_path Rounding.double hX hY t hsel h1 h2 hP'
    (rBi_double hL1 r1 (by omega) (by omega)) (rBi_double hL2 r2 (by omega) (by omega))
  have hbd := unitPath_bounds hp
  have hex : ∀ q ∈ (1, 1) :: path, ∃ g, Coordinates.zonedRectangle n1 n2 (L1 / ((n1 - 1 : ℤ) : K))
      (L2 / ((n2 - 1 : ℤ) : K)) q.1 q.2 = .ok g ∧ Near (rZoned Rounding.double n1 n2
        (Rounding.double.fl (L1 / ((n1 - 1 : ℤ) : K))) (Rounding.double.fl (L2 / ((n2 - 1 : ℤ) : K))) q.1 q.2) g := by
    intro q hq
    have := hbd q hq
    dsimp only at this
    exact near_rZoned Rounding.double (by omega) (by omega) (by omega) (by omega) s1 s2
  have hnd : ∀ q ∈ (1, 1) :: path, (rZoned Rounding.double n1 n2
        (Rounding.double.fl (L1 / ((n1 - 1 : ℤ) : K))) (Rounding.double.fl (L2 / ((n2 - 1 : ℤ) : K))) q.1 q.2).Nodup := by
    intro q hq
    have := hbd q hq
    dsimp only at this
    exact nodup_rZoned Rounding.double (by omega) (by omega) (by omega) (by omega) (by omega) (by omega)
      (fl_pos _ s1) (fl_pos _ s2)
  -- collect the exact fields
  have hcol : ∀ l : List (ℤ × ℤ), (∀ q ∈ l, q ∈ (1, 1) :: path) → ∃ gs : List (List (K × K)),
      List.Forall₂ (fun q f => Coordinates.zonedRectangle n1 n2 (L1 / ((n1 - 1 : ℤ) : K)) (L2 / ((n2 - 1 : ℤ) : K))
        q.1 q.2 = .ok f) l gs ∧
      List.Forall₂ Near (l.map fun q : ℤ × ℤ => maybeTranspose t (rZoned Rounding.double n1 n2
        (Rounding.double.fl (L1 / ((n1 - 1 : ℤ) : K))) (Rounding.double.fl (L2 / ((n2 - 1 : ℤ) : K))) q.1 q.2))
        (gs.map (maybeTranspose t)) := by
    intro l
    induction l with
    | nil => intro _; exact ⟨[], List.Forall₂.nil, List.Forall₂.nil⟩
    | cons q l ih =>
      intro hl
      obtain ⟨gs, a, b⟩ := ih fun q hq => hl q (by simp [hq])
      obtain ⟨g, c, d⟩ := hex q (hl q (by simp))
      exact ⟨g :: gs, List.Forall₂.cons c a, List.Forall₂.cons (near_maybeTranspose t d) b⟩
  obtain ⟨g, hg, hgn⟩ := hex (1, 1) (by simp)
  obtain ⟨gs, hgs, hgsn⟩ := hcol path fun q hq => by simp [hq]
  refine ⟨(1, 1) :: path, _, g, gs, fun fuel hf => hrun fuel (by omega), hp, hi, List.Forall₂.cons hg hgs,
    List.Forall₂.cons hgn hgsn, ?_⟩
  intro f hf
  rw [List.mem_cons, List.mem_map] at hf
  rcases hf with rfl | ⟨q, hq, rfl⟩
  · exact hnd (1, 1) (by simp)
  · exact nodup_maybeTranspose t (hnd q (by simp [hq]))

theorem nearDomain_sizes {d d' : List (List (K × K))} (h : NearDomain d d') :
    d.map List.length = d'.map List.length := by
  unfold NearDomain at h
  induction h with
  | nil => rfl
  | cons h _ ih => rw [List.map_cons, List.map_cons, near_length h, ih]

theorem map_length_transpose (t : Bool) (gs : List (List (K × K))) :
    (gs.map (maybeTranspose t)).map List.length = gs.map List.length := by
  rw [List.map_map]
  apply List.map_congr_left
  intro f _
  exact length_maybeTranspose t f

theorem forall₂_getLast {α β : Type} {S : α → β → Prop} {l : List α} {m : List β} (h : List.Forall₂ S l m) :
    ∀ a b, l.getLast? = some a → m.getLast? = some b → S a b := by
  induction h with
  | nil => intro a b h; simp at h
  | @cons x y l m hxy h ih =>
    intro a b ha hb
    cases l with
    | nil =>
      cases h
      simp at ha hb
      subst ha hb; exact hxy
    | cons u l =>
      cases h with
      | cons huv h =>
        rw [List.getLast?_cons_cons] at ha hb
        exact ih a b ha hb

/-- the same with sizes, for either order of the coordinates -/
theorem zoned_facts {X Y : K} (hX : 0 < X) (hY : 0 < Y) (rX : double X = X) (rY : double Y = Y) {nx ny : ℤ}
    (hnx : 3 ≤ nx) (hny : 3 ≤ ny) (hP : nx * ny ≤ 10 ^ 15) (t : Bool) {n1 n2 : ℤ} {L1 L2 : K}
    (hn : (Y ≤ X ∧ n1 = nx ∧ n2 = ny ∧ L1 = X ∧ L2 = Y) ∨ (X < Y ∧ n1 = ny ∧ n2 = nx ∧ L1 = Y ∧ L2 = X)) :
    ∃ (path : List (ℤ × ℤ)) (d : List (List (K × K))) (g : List (K × K)) (gs : List (List (K × K))),
      (∀ fuel : ℕ, nx + ny ≤ fuel → zonedRectangleDomain Rounding.double fuel X Y nx ny t = .ok d) ∧
      UnitPath (1, 1) (n1 - 2, n2 - 2) path ∧ path.IsChain (RoundedStep n1 n2) ∧
      List.Forall₂ (fun q f => Coordinates.zonedRectangle n1 n2 (L1 / ((n1 - 1 : ℤ) : K)) (L2 / ((n2 - 1 : ℤ) : K))
        q.1 q.2 = .ok f) path (g :: gs) ∧
      NearDomain d (g :: gs.map (maybeTranspose t)) ∧
      (d.length : ℤ) = nx + ny - 5 ∧ SizesStrictlyIncrease d ∧
      (∃ f, d.getLast? = some f ∧ (f.length : ℤ) = nx * ny) ∧
      ∀ f ∈ d, f.Nodup ∧ 2 * nx + 2 * ny - 4 < (f.length : ℤ) ∧
        (t = false → ∀ p ∈ f, InLand ((1 + tiny) * L1) ((1 + tiny) * L2) p) := by
  obtain ⟨path, d, g, gs, hrun, hp, hi, hF, hN, hnd⟩ := zoned_core hX hY rX rY hnx hny hP t hn
  have hb : 3 ≤ n1 ∧ 3 ≤ n2 ∧ n1 * n2 = nx * ny ∧ n1 + n2 = nx + ny ∧ 0 < L1 ∧ 0 < L2 := by
    rcases hn with ⟨h, rfl, rfl, rfl, rfl⟩ | ⟨h, rfl, rfl, rfl, rfl⟩
    · exact ⟨hnx, hny, rfl, rfl, hX, hY⟩
    · exact ⟨hny, hnx, mul_comm _ _, by ring, hY, hX⟩
  obtain ⟨h1, h2, hprod, hsum, hL1, hL2⟩ := hb
  have p1 : (0 : K) < ((n1 - 1 : ℤ) : K) := by exact_mod_cast (by omega : 0 < n1 - 1)
  have p2 : (0 : K) < ((n2 - 1 : ℤ) : K) := by exact_mod_cast (by omega : 0 < n2 - 1)
  have hbd := unitPath_bounds hp
  have hlen := unitPath_length hp
  have hsz : d.map List.length = (g :: gs).map List.length := by
    rw [nearDomain_sizes hN, List.map_cons, map_length_transpose, List.map_cons]
  -- sizes of the exact fields
  have hgl : ∀ q ∈ path, ∀ f : List (K × K), Coordinates.zonedRectangle n1 n2 (L1 / ((n1 - 1 : ℤ) : K))
      (L2 / ((n2 - 1 : ℤ) : K)) q.1 q.2 = .ok f → (f.length : ℤ) = 2 * n1 + 2 * n2 - 4 + q.1 * q.2 := by
    intro q hq f hf
    have := hbd q hq
    dsimp only at this
    exact length_zoned (div_pos hL1 p1) (div_pos hL2 p2) (by omega) (by omega) (by omega) (by omega) hf
  have hinc : SizesStrictlyIncrease (g :: gs) := by
    refine forall₂_pairwise hF (unitPath_pairwise hp le_rfl le_rfl) ?_
    intro a b c e ha hb hac hbe hab
    have q1 := hgl a ha c hac
    have q2 := hgl b hb e hbe
    omega
  have hdl : d.length = (g :: gs).length := by
    have := congrArg List.length hsz
    simpa only [List.length_map] using this
  refine ⟨path, d, g, gs, hrun, hp, hi, hF, hN, ?_, ?_, ?_, ?_⟩
  · have := hF.length_eq
    rw [hdl, ← this, hlen]
    dsimp only
    omega
  · unfold SizesStrictlyIncrease at hinc ⊢
    rw [← List.pairwise_map (f := List.length) (R := fun a b => a < b)] at hinc ⊢
    rw [hsz]; exact hinc
  · -- the last field
    have hlast := hp.2.1
    obtain ⟨f, hf⟩ : ∃ f, d.getLast? = some f := by
      cases d with
      | nil => simp at hdl
      | cons a l => exact ⟨_, List.getLast?_eq_some_getLast (by simp)⟩
    refine ⟨f, hf, ?_⟩
    have e1 : (d.map List.length).getLast? = some f.length := by rw [List.getLast?_map, hf]; rfl
    rw [hsz, List.getLast?_map] at e1
    obtain ⟨f', hf', he⟩ : ∃ f', (g :: gs).getLast? = some f' ∧ f'.length = f.length := by
      cases h : (g :: gs).getLast? with
      | none => rw [h] at e1; simp at e1
      | some f' => rw [h] at e1; exact ⟨f', rfl, by simpa using e1⟩
    have hz := forall₂_getLast hF _ _ hlast hf'
    rw [← he, hgl (n1 - 2, n2 - 2) (List.mem_of_getLast? hlast) f' hz, ← hprod]
    ring
  · intro f hf
    refine ⟨hnd f hf, ?_, ?_⟩
    · have hm : f.length ∈ (g :: gs).map List.length := by rw [← hsz]; exact List.mem_map_of_mem hf
      obtain ⟨g', hg', he⟩ := List.mem_map.1 hm
      obtain ⟨q, hq, hz⟩ := forall₂_mem_right hF g' hg'
      have := hbd q hq
      dsimp only at this
      have := hgl q hq g' hz
      have : 1 ≤ q.1 * q.2 := by nlinarith
      omega
    · rintro rfl
      have hid : gs.map (maybeTranspose false) = gs := by
        conv_rhs => rw [← List.map_id gs]
        apply List.map_congr_left
        intro f _
        simp [maybeTranspose]
      rw [hid] at hN
      obtain ⟨g', hg', hn'⟩ := forall₂_mem_right hN.flip f hf
      obtain ⟨q, hq, hz⟩ := forall₂_mem_right hF g' hg'
      have := hbd q hq
      dsimp only at this
      have hin := (inLand_zoned (div_pos hL1 p1) (div_pos hL2 p2) (by omega) (by omega) (by omega) (by omega) hz).1
      rw [mul_div_cancel₀ _ p1.ne', mul_div_cancel₀ _ p2.ne'] at hin
      exact near_inLand hn' hin

/-- C120: in double precision, as in exact arithmetic, `zoned_rectangle_domain` returns `nx + ny - 5` fields for sides of
`nx` and `ny` boreholes (at least three each, at most `10^15` together): the interior grows by one row or one column at
a time from a single borehole to all of them, and no two boreholes of a field coincide.  Each field is the exact zoned
field with these interior counts up to one part in `10^15`, so it keeps to the land up to that.  The decision which count
grows is the exact one, except that where the two ratios compared are equal it may go either way. -/
theorem C120_zoned_domain {X Y : K} (hX : 0 < X) (hY : 0 < Y) (rX : double X = X) (rY : double Y = Y) {nx ny : ℤ}
    (hnx : 3 ≤ nx) (hny : 3 ≤ ny) (hP : nx * ny ≤ 10 ^ 15) {n1 n2 : ℤ} {L1 L2 : K}
    (hn : (Y ≤ X ∧ n1 = nx ∧ n2 = ny ∧ L1 = X ∧ L2 = Y) ∨ (X < Y ∧ n1 = ny ∧ n2 = nx ∧ L1 = Y ∧ L2 = X)) :
    ∃ (d : List (List (K × K))) (path : List (ℤ × ℤ)) (g : List (List (K × K))),
      (∀ fuel : ℕ, nx + ny ≤ fuel → zonedRectangleDomain Rounding.double fuel X Y nx ny false = .ok d) ∧
      UnitPath (1, 1) (n1 - 2, n2 - 2) path ∧ path.IsChain (RoundedStep n1 n2) ∧
      List.Forall₂ (fun q f => Coordinates.zonedRectangle n1 n2 (L1 / (n1 - 1)) (L2 / (n2 - 1)) q.1 q.2 = .ok f)
        path g ∧ NearDomain d g ∧
      (d.length : ℤ) = nx + ny - 5 ∧ SizesStrictlyIncrease d ∧
      (∃ f, d.getLast? = some f ∧ (f.length : ℤ) = nx * ny) ∧
      ∀ f ∈ d, f.Nodup ∧ ∀ p ∈ f, InLand ((1 + tiny) * L1) ((1 + tiny) * L2) p := by
  obtain ⟨path, d, g, gs, hrun, hp, hi, hF, hN, hlen, hinc, hlast, hf⟩ := zoned_facts hX hY rX rY hnx hny hP false hn
  have hid : gs.map (maybeTranspose false) = gs := by
    conv_rhs => rw [← List.map_id gs]
    apply List.map_congr_left
    intro f _
    simp [maybeTranspose]
  rw [hid] at hN
  push_cast at hF
  exact ⟨d, path, g :: gs, hrun, hp, hi, hF, hN, hlen, hinc, hlast, fun f h => ⟨(hf f h).1, (hf f h).2.2 rfl⟩⟩

example : double (20 : ℚ) = 20 ∧ double (15 : ℚ) = 15 ∧ (5 : ℤ) * 5 ≤ 10 ^ 15 := by decide +kernel

/-- C120: where the ratios compared are never equal before the last step, for instance when `nx - 1` and `ny - 1` have no
common factor, the domain computed in double precision is the exact one up to one part in `10^15`. -/
theorem C120_zoned_agrees {X Y : K} (hX : 0 < X) (hY : 0 < Y) (rX : double X = X) (rY : double Y = Y) {nx ny : ℤ}
    (hnx : 3 ≤ nx) (hny : 3 ≤ ny) (hP : nx * ny ≤ 10 ^ 15) (hcop : Int.gcd (nx - 1) (ny - 1) = 1) (t : Bool) :
    ∃ d d', (∀ fuel : ℕ, nx + ny ≤ fuel → zonedRectangleDomain Rounding.double fuel X Y nx ny t = .ok d) ∧
      (∀ fuel : ℕ, nx + ny ≤ fuel → Domains.zonedRectangleDomain fuel X Y nx ny t = .ok d') ∧ NearDomain d d' := by
  obtain ⟨n1, n2, L1, L2, hn⟩ : ∃ (n1 n2 : ℤ) (L1 L2 : K), (Y ≤ X ∧ n1 = nx ∧ n2 = ny ∧ L1 = X ∧ L2 = Y) ∨
      (X < Y ∧ n1 = ny ∧ n2 = nx ∧ L1 = Y ∧ L2 = X) := by
    rcases le_or_gt Y X with h | h
    · exact ⟨_, _, _, _, .inl ⟨h, rfl, rfl, rfl, rfl⟩⟩
    · exact ⟨_, _, _, _, .inr ⟨h, rfl, rfl, rfl, rfl⟩⟩
  have hsel : (L1, L2, n1, n2) = (if X ≥ Y then (X, Y, nx, ny) else (Y, X, ny, nx)) := by
    rcases hn with ⟨h, rfl, rfl, rfl, rfl⟩ | ⟨h, rfl, rfl, rfl, rfl⟩
    · rw [if_pos h]
    · rw [if_neg (not_le.mpr h)]
  have hb : 3 ≤ n1 ∧ 3 ≤ n2 ∧ n1 + n2 = nx + ny ∧ Int.gcd (n1 - 1) (n2 - 1) = 1 := by
    rcases hn with ⟨h, rfl, rfl, rfl, rfl⟩ | ⟨h, rfl, rfl, rfl, rfl⟩
    · exact ⟨hnx, hny, rfl, hcop⟩
    · exact ⟨hny, hnx, by ring, by rw [Int.gcd_comm]; exact hcop⟩
  obtain ⟨h1, h2, hsum, hc⟩ := hb
  obtain ⟨path, d, g, gs, hrun, hp, hi, hF, hN, -⟩ := zoned_core hX hY rX rY hnx hny hP t hn
  obtain ⟨path', z, fields, hp', hi', -, hz, hF', hrun'⟩ := Domains.zonedRectangleDomain_path hX hY t hsel h1 h2
  have hbd := unitPath_bounds hp
  have hi2 : path.IsChain (InteriorStep n1 n2) := by
    refine isChain_of_imp_mem hi ?_
    intro a ha b hb hab
    rcases hab with h | ⟨he, ha1, ha2, -⟩
    · exact h
    · exfalso
      have hba := hbd a ha
      dsimp only at hba
      rw [div_eq_div_iff (by exact_mod_cast (by omega : a.1 + 1 ≠ 0)) (by exact_mod_cast (by omega : a.2 + 2 ≠ 0))] at he
      have he' : (n1 - 1) * (a.2 + 2) = (n2 - 1) * (a.1 + 1) := by exact_mod_cast he
      have hd : (n1 - 1) ∣ (a.1 + 1) := by
        have : (n1 - 1) ∣ (n2 - 1) * (a.1 + 1) := ⟨_, he'.symm⟩
        exact (Int.isCoprime_iff_gcd_eq_one.2 hc).dvd_of_dvd_mul_left this
      have := Int.le_of_dvd (by omega) hd
      omega
  have hpe : path = (1, 1) :: path' := by
    cases path with
    | nil => simp [UnitPath] at hp
    | cons a l =>
      have ha : a = (1, 1) := by simpa using hp.1
      subst ha
      have l1 := unitPath_length hp
      have l2 := unitPath_length hp'
      rw [List.length_cons] at l1 l2
      rw [chain_unique (S := InteriorStep n1 n2) (fun x y z hy hz => by
        unfold InteriorStep at hy hz; rw [hy, hz]) hi2 hi' (by omega)]
  subst hpe
  obtain ⟨hg, hgs⟩ := List.forall₂_cons.1 hF
  dsimp only at hg
  rw [hz] at hg
  cases hg
  have hgf : gs = fields := by
    clear hN hrun' hi2 hi hp hbd hF hp' hi' hrun hz
    induction hgs generalizing fields with
    | nil => cases hF'; rfl
    | cons h _ ih =>
      cases hF' with
      | cons h' ht =>
        rw [h] at h'
        cases h'
        rw [ih _ ht]
  subst hgf
  exact ⟨d, _, hrun, fun fuel hf => hrun' fuel (by omega), hN⟩

example : double (127 / 2 : ℚ) = 127 / 2 ∧ double (48 : ℚ) = 48 ∧ Int.gcd (12 - 1) (9 - 1) = 1 := by decide +kernel

end Ghedt.Rounded
