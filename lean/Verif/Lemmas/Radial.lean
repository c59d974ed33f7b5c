import Verif.Spec.RadialGrid
import Verif.Lemmas.Heat
import Verif.Lemmas.HybridTotal

namespace Ghedt.Radial
open Real Ghedt.Spec Ghedt.GL

noncomputable section

/-- the object -/
def radialOf (u : Tube) (initTemp : ℝ) : Radial where
  numFluid := 3
  numConv := 1
  numPipe := 4
  numGrout := 27
  numSoil := 500
  numCells := 535
  rFarField := 10 - u.rb
  rBorehole := u.rb
  rOutTube := √2 * u.rOut
  tPipe := u.rOut - u.rIn
  rInTube := √2 * u.rOut - (u.rOut - u.rIn)
  rInConv := √2 * u.rOut - 5 / 4 * (u.rOut - u.rIn)
  rFluid := √2 * u.rOut - 2 * (u.rOut - u.rIn)
  tSoil := (10 - 2 * u.rb) / 500
  tGrout := (u.rb - √2 * u.rOut) / 27
  tConv := (u.rOut - u.rIn) / 4
  tFluid := (u.rOut - u.rIn) / 4
  initTemp := initTemp
  c0 := 2 * π * u.kSoil
  ts := u.H ^ 2 / (9 * (u.ks / u.rhoCpSoil))
  calcTime := max (u.H ^ 2 / (9 * (u.ks / u.rhoCpSoil)) * exp (-(86 / 10))) (49 * 3600)

theorem mkRadial_eq {u : Tube} (hu : u.Sound) (T : ℝ) : mkRadial u T = .ok (radialOf u T) := by
  unfold mkRadial
  dsimp only
  rw [pyDiv_ok hu.rhoCpSoil.ne', Except.ok_bind, pyDiv_ok, Except.ok_bind]
  · unfold radialOf
    simp only [Except.pure_eq]
    congr 2 <;> first | rfl | (norm_num; try ring)
  · have := div_pos hu.ks hu.rhoCpSoil
    positivity

theorem ts_pos {u : Tube} (hu : u.Sound) (T : ℝ) : 0 < (radialOf u T).ts := by
  have := div_pos hu.ks hu.rhoCpSoil
  have := hu.H
  unfold radialOf
  dsimp only
  positivity

/-! ### cells -/

def ring (kind : ℕ) (start t k rhoCp T : ℝ) (j : ℕ) : Cell :=
  ⟨kind, start + j * t, start + j * t + t / 2, start + j * t + t, t, k, rhoCp, T,
    π * ((start + j * t + t) ^ 2 - (start + j * t) ^ 2)⟩

/-- heat capacity of the fluid cells -/
def fluidCap (u : Tube) : ℝ :=
  2 * u.rIn ^ 2 * u.rhoFluid * u.cpFluid /
    ((√2 * u.rOut - 5 / 4 * (u.rOut - u.rIn)) ^ 2 - (√2 * u.rOut - 2 * (u.rOut - u.rIn)) ^ 2)

def core (u : Tube) (T : ℝ) (j : ℕ) : Cell :=
  let r := √2 * u.rOut - 2 * (u.rOut - u.rIn)
  let t := (u.rOut - u.rIn) / 4
  let i := if j = 0 then r + j * t else r + j * t - t / 2
  ⟨1, i, r + j * t, r + j * t + t / 2, t, fluidCap u / u.cpFluid, fluidCap u, T,
    π * ((r + j * t + t / 2) ^ 2 - i ^ 2)⟩

/-- the grid -/
def gridCell (u : Tube) (T Rp Rf Rtg : ℝ) (j : ℕ) : Cell :=
  let w := u.rOut - u.rIn
  let R := √2 * u.rOut
  if j < 3 then core u T j
  else if j < 4 then ring 2 (R - 5 / 4 * w) (w / 4) (log ((R - w) / (R - 5 / 4 * w)) / (2 * π * Rf)) 1 T (j - 3)
  else if j < 8 then ring 3 (R - w) w (log (u.rb / (R - w)) / (2 * π * Rp)) u.rhoCpPipe T (j - 4)
  else if j < 35 then
    ring 4 R ((u.rb - R) / 27) (log (u.rb / (R - w)) / (2 * π * Rtg)) u.rhoCpGrout T (j - 8)
  else ring 5 u.rb ((10 - 2 * u.rb) / 500) u.kSoil u.rhoCpSoil T (j - 35)

theorem fold_fill {cell : ℤ → Py Cell} {f : ℕ → Cell} {a m : ℕ} {cells : List Cell}
    (h : a + m ≤ cells.length) (hf : ∀ j, a ≤ j → j < a + m → cell (j : ℤ) = .ok (f j)) :
    ∃ cells', (pyRange (a : ℤ) ((a + m : ℕ) : ℤ)).foldlM (fillStep cell) cells = .ok cells' ∧
      cells'.length = cells.length ∧
      ∀ j : ℕ, cells'[j]? = if a ≤ j ∧ j < a + m then some (f j) else cells[j]? := by
  have key := foldlM_pyRange_inv (f := fillStep cell) (a := (a : ℤ)) (b := ((a + m : ℕ) : ℤ))
    (fun (n : ℤ) (s : List Cell) => s.length = cells.length ∧
      ∀ j : ℕ, s[j]? = if a ≤ j ∧ (j : ℤ) < n then some (f j) else cells[j]?) (by omega) ?_ (s := cells) ?_
  · obtain ⟨s, h1, h2, h3⟩ := key
    refine ⟨s, h1, h2, fun j => ?_⟩
    rw [h3]
    have : (a ≤ j ∧ (j : ℤ) < ((a + m : ℕ) : ℤ)) ↔ (a ≤ j ∧ j < a + m) := by omega
    simp only [this]
  · intro n s n1 n2 ⟨hl, hs⟩
    obtain ⟨k, rfl⟩ : ∃ k : ℕ, n = k := ⟨n.toNat, by omega⟩
    refine ⟨s.set k (f k), ?_, by simpa using hl, fun j => ?_⟩
    · unfold fillStep
      rw [hf k (by omega) (by omega), Except.ok_bind, pySet_ok (by omega)]
    · rw [List.getElem?_set]
      by_cases hjk : k = j
      · subst hjk
        rw [if_pos rfl, if_pos (by omega), if_pos (by omega)]
      · rw [if_neg hjk, hs]
        congr 1
        rw [eq_iff_iff]; constructor <;> rintro ⟨h1, h2⟩ <;> constructor <;> omega
  · refine ⟨rfl, fun j => ?_⟩
    rw [if_neg (by omega)]

variable {u : Tube} {T Rp Rf Rtg : ℝ}

theorem radii (hu : u.Sound) : 0 < √2 * u.rOut - 2 * (u.rOut - u.rIn) ∧ 0 < u.rOut - u.rIn ∧
    √2 * u.rOut - (u.rOut - u.rIn) < u.rb := by
  have := hu.core
  have h2 := hu.wall
  have h3 := hu.fits
  refine ⟨by linarith, by linarith, by linarith⟩

theorem fluidCell_eq (hu : u.Sound) {j : ℕ} :
    fluidCell (radialOf u T) u (j : ℤ) = .ok (core u T j) := by
  obtain ⟨h1, h2, -⟩ := radii hu
  unfold fluidCell
  dsimp only [radialOf]
  rw [pyDiv_ok, Except.ok_bind, pyDiv_ok hu.cpFluid.ne', Except.ok_bind]
  · simp only [Except.pure_eq]
    unfold core fluidCap
    simp
  · apply ne_of_gt
    nlinarith

theorem convCell_eq (hu : u.Sound) (hRf : 0 < Rf) {j : ℕ} :
    convCell (radialOf u T) Rf (j : ℤ) = .ok (ring 2 (√2 * u.rOut - 5 / 4 * (u.rOut - u.rIn))
      ((u.rOut - u.rIn) / 4) (log ((√2 * u.rOut - (u.rOut - u.rIn)) /
        (√2 * u.rOut - 5 / 4 * (u.rOut - u.rIn))) / (2 * π * Rf)) 1 T j) := by
  obtain ⟨h1, h2, -⟩ := radii hu
  unfold convCell
  dsimp only [radialOf]
  have a : 0 < √2 * u.rOut - 5 / 4 * (u.rOut - u.rIn) := by linarith
  have b : 0 < √2 * u.rOut - (u.rOut - u.rIn) := by linarith
  rw [pyDiv_ok a.ne', Except.ok_bind]
  unfold pyLog
  rw [if_pos (div_pos b a), Except.ok_bind, pyDiv_ok (by positivity), Except.ok_bind]
  simp [ring]

theorem pipeCell_eq (hu : u.Sound) (hRp : 0 < Rp) {j : ℕ} :
    pipeCell (radialOf u T) u Rp (j : ℤ) = .ok (ring 3 (√2 * u.rOut - (u.rOut - u.rIn)) (u.rOut - u.rIn)
      (log (u.rb / (√2 * u.rOut - (u.rOut - u.rIn))) / (2 * π * Rp)) u.rhoCpPipe T j) := by
  obtain ⟨h1, h2, h3⟩ := radii hu
  unfold pipeCell
  dsimp only [radialOf]
  have b : 0 < √2 * u.rOut - (u.rOut - u.rIn) := by linarith
  rw [pyDiv_ok b.ne', Except.ok_bind]
  unfold pyLog
  rw [if_pos (div_pos (by linarith) b), Except.ok_bind, pyDiv_ok (by positivity), Except.ok_bind]
  simp [ring]

theorem groutCell_eq (hu : u.Sound) (hRtg : 0 < Rtg) {j : ℕ} :
    groutCell (radialOf u T) u Rtg (j : ℤ) = .ok (ring 4 (√2 * u.rOut) ((u.rb - √2 * u.rOut) / 27)
      (log (u.rb / (√2 * u.rOut - (u.rOut - u.rIn))) / (2 * π * Rtg)) u.rhoCpGrout T j) := by
  obtain ⟨h1, h2, h3⟩ := radii hu
  unfold groutCell
  dsimp only [radialOf]
  have b : 0 < √2 * u.rOut - (u.rOut - u.rIn) := by linarith
  rw [pyDiv_ok b.ne', Except.ok_bind]
  unfold pyLog
  rw [if_pos (div_pos (by linarith) b), Except.ok_bind, pyDiv_ok (by positivity), Except.ok_bind]
  simp [ring]

theorem soilCell_eq {j : ℕ} :
    soilCell (radialOf u T) u (j : ℤ) = .ok (ring 5 u.rb ((10 - 2 * u.rb) / 500) u.kSoil u.rhoCpSoil T j) := by
  unfold soilCell
  dsimp only [radialOf]
  simp [ring]

theorem fill_eq (hu : u.Sound) (hRp : 0 < Rp) (hRf : 0 < Rf) (hRtg : 0 < Rtg) {cells : List Cell}
    (hl : cells.length = 535) :
    fillRadialCell (radialOf u T) u Rp Rf Rtg cells =
      .ok ((List.range 535).map (gridCell u T Rp Rf Rtg)) := by
  unfold fillRadialCell
  obtain ⟨s1, a1, l1, g1⟩ := fold_fill (cell := fluidCell (radialOf u T) u) (f := core u T) (a := 0) (m := 3)
    (cells := cells) (by omega) (fun j _ _ => fluidCell_eq hu)
  obtain ⟨s2, a2, l2, g2⟩ := fold_fill (cell := fun idx : ℤ => convCell (radialOf u T) Rf (idx - 3))
    (f := fun j => gridCell u T Rp Rf Rtg j) (a := 3) (m := 1) (cells := s1) (by omega) (by
      intro j j1 j2
      simp only [gridCell, show ¬ j < 3 by omega, show j < 4 by omega, if_true, if_false]
      rw [← convCell_eq hu hRf]
      congr 1; omega)
  obtain ⟨s3, a3, l3, g3⟩ := fold_fill (cell := fun idx : ℤ => pipeCell (radialOf u T) u Rp (idx - 4))
    (f := fun j => gridCell u T Rp Rf Rtg j) (a := 4) (m := 4) (cells := s2) (by omega) (by
      intro j j1 j2
      simp only [gridCell, show ¬ j < 3 by omega, show ¬ j < 4 by omega, show j < 8 by omega, if_true, if_false]
      rw [← pipeCell_eq hu hRp]
      congr 1; omega)
  obtain ⟨s4, a4, l4, g4⟩ := fold_fill (cell := fun idx : ℤ => groutCell (radialOf u T) u Rtg (idx - 8))
    (f := fun j => gridCell u T Rp Rf Rtg j) (a := 8) (m := 27) (cells := s3) (by omega) (by
      intro j j1 j2
      simp only [gridCell, show ¬ j < 3 by omega, show ¬ j < 4 by omega, show ¬ j < 8 by omega,
        show j < 35 by omega, if_true, if_false]
      rw [← groutCell_eq hu hRtg]
      congr 1; omega)
  obtain ⟨s5, a5, l5, g5⟩ := fold_fill (cell := fun idx : ℤ => soilCell (radialOf u T) u (idx - 35))
    (f := fun j => gridCell u T Rp Rf Rtg j) (a := 35) (m := 500) (cells := s4) (by omega) (by
      intro j j1 j2
      simp only [gridCell, show ¬ j < 3 by omega, show ¬ j < 4 by omega, show ¬ j < 8 by omega,
        show ¬ j < 35 by omega, if_false]
      rw [← soilCell_eq]
      congr 1; omega)
  have n1 : (radialOf u T).numFluid = 3 := rfl
  have n2 : (radialOf u T).numConv = 1 := rfl
  have n3 : (radialOf u T).numPipe = 4 := rfl
  have n4 : (radialOf u T).numGrout = 27 := rfl
  have n5 : (radialOf u T).numSoil = 500 := rfl
  simp only [Nat.cast_ofNat, Nat.cast_zero, Nat.reduceAdd, zero_add] at a1 a2 a3 a4 a5
  simp only [n1, n2, n3, n4, n5]
  norm_num
  rw [a1, Except.ok_bind, a2, Except.ok_bind, a3, Except.ok_bind, a4, Except.ok_bind, a5]
  refine congrArg Except.ok ?_
  apply List.ext_getElem?
  intro j
  rw [g5, g4, g3, g2, g1, List.getElem?_map]
  rcases Nat.lt_or_ge j 535 with hj | hj
  · rw [List.getElem?_range hj, Option.map_some]
    by_cases c5 : 35 ≤ j
    · rw [if_pos ⟨c5, by omega⟩]
    rw [if_neg (by omega)]
    by_cases c4 : 8 ≤ j
    · rw [if_pos ⟨c4, by omega⟩]
    rw [if_neg (by omega)]
    by_cases c3 : 4 ≤ j
    · rw [if_pos ⟨c3, by omega⟩]
    rw [if_neg (by omega)]
    by_cases c2 : 3 ≤ j
    · rw [if_pos ⟨c2, by omega⟩]
    rw [if_neg (by omega), if_pos ⟨by omega, by omega⟩]
    simp only [gridCell, show j < 3 by omega, if_true]
  · rw [if_neg (by omega), if_neg (by omega), if_neg (by omega), if_neg (by omega), if_neg (by omega),
      List.getElem?_eq_none (by omega), List.getElem?_eq_none (by simpa using hj)]
    rfl

/-! ### physical cells -/

theorem ring_phys {kind : ℕ} {start t k rhoCp T : ℝ} (h1 : 0 < start) (h2 : 0 < t) (h3 : 0 < k)
    (h4 : 0 < rhoCp) (j : ℕ) : (ring kind start t k rhoCp T j).Phys ∧
      (ring kind start t k rhoCp T j).inner < (ring kind start t k rhoCp T j).center := by
  have hj : (0 : ℝ) ≤ j * t := by positivity
  unfold ring
  refine ⟨⟨?_, ?_, ?_, h3, h4, ?_⟩, ?_⟩
  · dsimp only; positivity
  · dsimp only; linarith
  · dsimp only; linarith
  · dsimp only
    refine mul_pos pi_pos ?_
    nlinarith
  · dsimp only; linarith

theorem fluidCap_pos (hu : u.Sound) : 0 < fluidCap u := by
  obtain ⟨h1, h2, -⟩ := radii hu
  have := hu.rIn
  have := hu.rhoFluid
  have := hu.cpFluid
  unfold fluidCap
  apply div_pos (by positivity)
  nlinarith

theorem core_phys (hu : u.Sound) (j : ℕ) : (core u T j).Phys ∧
    (j ≠ 0 → (core u T j).inner < (core u T j).center) := by
  obtain ⟨h1, h2, -⟩ := radii hu
  have hc := fluidCap_pos hu
  have hj : j ≠ 0 → (u.rOut - u.rIn) / 4 ≤ (j : ℝ) * ((u.rOut - u.rIn) / 4) := by
    intro h
    have : (1 : ℝ) ≤ j := by exact_mod_cast Nat.one_le_iff_ne_zero.2 h
    nlinarith
  have hj0 : 0 ≤ (j : ℝ) * ((u.rOut - u.rIn) / 4) := by positivity
  unfold core
  dsimp only
  refine ⟨⟨?_, ?_, ?_, div_pos hc hu.cpFluid, hc, ?_⟩, ?_⟩
  · dsimp only; split_ifs with h
    · linarith
    · have := hj h; linarith
  · dsimp only; split_ifs <;> linarith
  · dsimp only; linarith
  · dsimp only
    refine mul_pos pi_pos ?_
    split_ifs with h
    · nlinarith
    · have := hj h
      nlinarith
  · intro h
    rw [if_neg h]; linarith

theorem gridCell_phys (hu : u.Sound) (hRp : 0 < Rp) (hRf : 0 < Rf) (hRtg : 0 < Rtg) (j : ℕ) :
    (gridCell u T Rp Rf Rtg j).Phys ∧
      (j ≠ 0 → (gridCell u T Rp Rf Rtg j).inner < (gridCell u T Rp Rf Rtg j).center) := by
  obtain ⟨h1, h2, h3⟩ := radii hu
  have a : 0 < √2 * u.rOut - 5 / 4 * (u.rOut - u.rIn) := by linarith
  have b : 0 < √2 * u.rOut - (u.rOut - u.rIn) := by linarith
  have l1 : 0 < log ((√2 * u.rOut - (u.rOut - u.rIn)) / (√2 * u.rOut - 5 / 4 * (u.rOut - u.rIn))) := by
    apply log_pos
    rw [lt_div_iff₀ a]; linarith
  have l2 : 0 < log (u.rb / (√2 * u.rOut - (u.rOut - u.rIn))) := by
    apply log_pos
    rw [lt_div_iff₀ b]; linarith
  have := hu.fits
  have := hu.narrow
  unfold gridCell
  dsimp only
  split_ifs with c1 c2 c3 c4
  · exact core_phys hu j
  · obtain ⟨p, q⟩ := ring_phys (kind := 2) (T := T) a (show 0 < (u.rOut - u.rIn) / 4 by linarith)
      (div_pos l1 (show 0 < 2 * π * Rf by positivity)) one_pos (j - 3)
    exact ⟨p, fun _ => q⟩
  · obtain ⟨p, q⟩ := ring_phys (kind := 3) (T := T) b h2
      (div_pos l2 (show 0 < 2 * π * Rp by positivity)) hu.rhoCpPipe (j - 4)
    exact ⟨p, fun _ => q⟩
  · obtain ⟨p, q⟩ := ring_phys (kind := 4) (T := T) (show 0 < √2 * u.rOut by linarith)
      (show 0 < (u.rb - √2 * u.rOut) / 27 by linarith)
      (div_pos l2 (show 0 < 2 * π * Rtg by positivity)) hu.rhoCpGrout (j - 8)
    exact ⟨p, fun _ => q⟩
  · obtain ⟨p, q⟩ := ring_phys (kind := 5) (T := T) (show 0 < u.rb by linarith)
      (show 0 < (10 - 2 * u.rb) / 500 by linarith) hu.kSoil hu.rhoCpSoil (j - 35)
    exact ⟨p, fun _ => q⟩

/-! ### the system of one step -/

def condOf (cells : List Cell) (i : ℕ) : ℝ := aeOf (cells.getD i Cell.zero) (cells.getD (i + 1) Cell.zero)

def capOf (dt : ℝ) (cells : List Cell) (i : ℕ) : ℝ := adOf dt (cells.getD i Cell.zero)

def tempOf (cells : List Cell) (i : ℕ) : ℝ := (cells.getD i Cell.zero).temp

theorem Grid.get {cells : List Cell} (h : Grid cells) {i : ℕ} (hi : i < cells.length) :
    (cells.getD i Cell.zero).Phys ∧
      (i ≠ 0 → (cells.getD i Cell.zero).inner < (cells.getD i Cell.zero).center) := by
  have e := List.getElem?_eq_getElem hi
  have := h.2 i _ e
  rw [List.getD_eq_getElem?_getD, e, Option.getD_some]
  exact this

theorem f1_pos {c : Cell} (h : c.Phys) : 0 < f1 c := by
  unfold f1
  have hc := lt_of_lt_of_le h.inner h.center
  have := h.k
  exact div_pos (log_pos (by rw [lt_div_iff₀ hc]; linarith [h.outer])) (by positivity)

theorem f2_pos {c : Cell} (h : c.Phys) (h' : c.inner < c.center) : 0 < f2 c := by
  unfold f2
  have := h.k
  exact div_pos (log_pos (by rw [lt_div_iff₀ h.inner]; linarith)) (by positivity)

theorem Grid.pos {cells : List Cell} (h : Grid cells) {dt : ℝ} (hdt : 0 < dt) :
    Pos cells.length (condOf cells) (capOf dt cells) := by
  constructor
  · intro i hi
    have a := h.get (show i < cells.length by omega)
    have b := h.get hi
    unfold condOf aeOf
    have := f1_pos a.1
    have := f2_pos b.1 (b.2 (by omega))
    positivity
  · intro i hi
    have a := (h.get (show i < cells.length by omega)).1
    unfold capOf adOf
    have := a.rhoCp
    have := a.volume
    positivity

theorem getD_zipWith {α β γ : Type} (f : α → β → γ) {l : List α} {m : List β} {i : ℕ} (h1 : i < l.length)
    (h2 : i < m.length) (a : α) (b : β) (c : γ) :
    (List.zipWith f l m).getD i c = f (l.getD i a) (m.getD i b) := by
  simp only [List.getD_eq_getElem?_getD, List.getElem?_zipWith, List.getElem?_eq_getElem h1,
    List.getElem?_eq_getElem h2, Option.getD_some]

theorem getD_append_left {α : Type} (l m : List α) (a : α) {i : ℕ} (h : i < l.length) :
    (l ++ m).getD i a = l.getD i a := by
  rw [List.getD_eq_getElem?_getD, List.getElem?_append_left h, ← List.getD_eq_getElem?_getD]

theorem getD_append_right {α : Type} (l m : List α) (a : α) {i : ℕ} (h : l.length ≤ i) :
    (l ++ m).getD i a = m.getD (i - l.length) a := by
  rw [List.getD_eq_getElem?_getD, List.getElem?_append_right h, ← List.getD_eq_getElem?_getD]

theorem getD_map {α β : Type} (f : α → β) {l : List α} {i : ℕ} (h1 : i < l.length) (a : α) (b : β) :
    (l.map f).getD i b = f (l.getD i a) := by
  simp only [List.getD_eq_getElem?_getD, List.getElem?_map, List.getElem?_eq_getElem h1, Option.map_some,
    Option.getD_some]

/-- the assembled system, row by row -/
theorem assemble_eq {cells : List Cell} (h : Grid cells) (q : ℝ) {dt : ℝ} :
    ∃ s, assemble cells q dt = .ok s ∧ s.dl.length + 1 = cells.length ∧ s.d.length = cells.length ∧
      s.du.length + 1 = cells.length ∧ s.b.length = cells.length ∧
      s.dl.getD (cells.length - 2) 0 = 0 ∧ s.d.getD (cells.length - 1) 0 = 1 ∧
      s.b.getD (cells.length - 1) 0 = tempOf cells (cells.length - 1) ∧
      (∀ i, i + 2 < cells.length → s.dl.getD i 0 = condOf cells i / capOf dt cells (i + 1)) ∧
      (∀ i, i + 1 < cells.length → s.du.getD i 0 = condOf cells i / capOf dt cells i) ∧
      (∀ i, i + 1 < cells.length → s.d.getD i 0 = -(if i = 0 then 0 else condOf cells (i - 1)) / capOf dt cells i
        - condOf cells i / capOf dt cells i - 1) ∧
      (∀ i, i + 1 < cells.length → s.b.getD i 0 = -tempOf cells i - (if i = 0 then q else 0) / capOf dt cells i) := by
  have hn := h.1
  have p0 := (h.get (show 0 < cells.length by omega)).1
  have p1 := h.get (show 1 < cells.length by omega)
  unfold assemble
  dsimp only
  rw [show (0 : ℤ) = ((0 : ℕ) : ℤ) from rfl, getD_ok (by omega) Cell.zero, Except.ok_bind,
    show (1 : ℤ) = ((1 : ℕ) : ℤ) from rfl, getD_ok (by omega) Cell.zero, Except.ok_bind,
    show ((cells.length : ℤ) - ((1 : ℕ) : ℤ)) = ((cells.length - 1 : ℕ) : ℤ) by omega,
    getD_ok (by omega) Cell.zero, Except.ok_bind]
  unfold pyLog
  rw [if_pos, Except.ok_bind, if_pos, Except.ok_bind]
  rotate_left
  · exact div_pos (lt_of_lt_of_le p1.1.inner p1.1.center) p1.1.inner
  · have := lt_of_lt_of_le p0.inner p0.center
    exact div_pos (this.trans p0.outer) this
  have hw : ∀ i, i + 2 < cells.length →
      (cells.take (cells.length - 2)).getD i Cell.zero = cells.getD i Cell.zero := by
    intro i hi
    rw [List.getD_eq_getElem?_getD, List.getElem?_take, if_pos (by omega), ← List.getD_eq_getElem?_getD]
  have hc : ∀ i, i + 2 < cells.length →
      ((cells.drop 1).take (cells.length - 2)).getD i Cell.zero = cells.getD (i + 1) Cell.zero := by
    intro i hi
    rw [List.getD_eq_getElem?_getD, List.getElem?_take, if_pos (by omega), List.getElem?_drop, add_comm 1,
      ← List.getD_eq_getElem?_getD]
  have he : ∀ i, (cells.drop 2).getD i Cell.zero = cells.getD (i + 2) Cell.zero := by
    intro i
    rw [List.getD_eq_getElem?_getD, List.getElem?_drop, add_comm 2, ← List.getD_eq_getElem?_getD]
  have lw : (cells.take (cells.length - 2)).length = cells.length - 2 := by
    rw [List.length_take]; omega
  have lc : ((cells.drop 1).take (cells.length - 2)).length = cells.length - 2 := by
    rw [List.length_take, List.length_drop]; omega
  have le : (cells.drop 2).length = cells.length - 2 := by rw [List.length_drop]
  generalize cells.take (cells.length - 2) = W at *
  generalize (cells.drop 1).take (cells.length - 2) = M at *
  generalize cells.drop 2 = X at *
  have la : (List.zipWith aeOf M X).length = cells.length - 2 := by rw [List.length_zipWith]; omega
  have lb : (List.zipWith awOf W M).length = cells.length - 2 := by rw [List.length_zipWith]; omega
  have ld : (M.map (adOf dt)).length = cells.length - 2 := by rw [List.length_map]; omega
  have ga : ∀ i, i + 2 < cells.length → (List.zipWith aeOf M X).getD i 0 = condOf cells (i + 1) := by
    intro i hi
    rw [getD_zipWith _ (by omega) (by omega) Cell.zero Cell.zero, hc i hi, he]
    rfl
  have gb : ∀ i, i + 2 < cells.length → (List.zipWith awOf W M).getD i 0 = -condOf cells i := by
    intro i hi
    rw [getD_zipWith _ (by omega) (by omega) Cell.zero Cell.zero, hc i hi, hw i hi]
    unfold awOf condOf aeOf
    rw [neg_div]
  have gd : ∀ i, i + 2 < cells.length → (M.map (adOf dt)).getD i 0 = capOf dt cells (i + 1) := by
    intro i hi
    rw [getD_map _ (by omega) Cell.zero, hc i hi]
    rfl
  generalize List.zipWith aeOf M X = A at *
  generalize List.zipWith awOf W M = B at *
  generalize hD : M.map (adOf dt) = D at *
  have lz : (B.zip A).length = cells.length - 2 := by rw [List.length_zip]; omega
  refine ⟨_, rfl, ?_, ?_, ?_, ?_, ?_, ?_, ?_, ?_, ?_, ?_, ?_⟩
  · simp only [List.length_append, List.length_zipWith, List.length_cons, List.length_nil]; omega
  · simp only [List.length_append, List.length_zipWith, List.length_cons, List.length_nil, lz]; omega
  · simp only [List.length_zipWith, List.length_cons]; omega
  · simp only [List.length_append, List.length_map, List.length_cons, List.length_nil]; omega
  · dsimp only
    rw [getD_append_right _ _ _ (by rw [List.length_zipWith]; omega), List.length_zipWith]
    rw [show cells.length - 2 - min B.length D.length = 0 by omega]
    rfl
  · dsimp only
    rw [getD_append_right _ _ _ (by rw [List.length_cons, List.length_zipWith, lz]; omega),
      List.length_cons, List.length_zipWith, lz]
    rw [show cells.length - 1 - (min (cells.length - 2) D.length + 1) = 0 by omega]
    rfl
  · dsimp only
    rw [getD_append_right _ _ _ (by rw [List.length_cons, List.length_map]; omega),
      List.length_cons, List.length_map]
    rw [show cells.length - 1 - (M.length + 1) = 0 by omega]
    rfl
  · intro i hi
    dsimp only
    rw [getD_append_left _ _ _ (by rw [List.length_zipWith]; omega),
      getD_zipWith _ (by omega) (by omega) 0 0, gb i hi, gd i hi, neg_neg]
  · intro i hi
    dsimp only
    rcases i with _ | i
    · rfl
    · rw [List.getD_cons_succ, getD_zipWith _ (by omega) (by omega) 0 0, ga i (by omega), gd i (by omega)]
  · intro i hi
    dsimp only
    rcases i with _ | i
    · simp only [List.cons_append, List.getD_cons_zero, if_true, neg_zero, zero_div, zero_sub]
      have : condOf cells 0 = 1 / (log ((cells.getD 0 Cell.zero).outer / (cells.getD 0 Cell.zero).center) /
          (2 * π * (cells.getD 0 Cell.zero).k) + log ((cells.getD 1 Cell.zero).center /
          (cells.getD 1 Cell.zero).inner) / (2 * π * (cells.getD 1 Cell.zero).k)) := rfl
      have h2 : capOf dt cells 0 =
        (cells.getD 0 Cell.zero).rhoCp * (cells.getD 0 Cell.zero).volume / dt := rfl
      rw [this, h2, neg_div]
    · rw [List.cons_append, List.getD_cons_succ,
        getD_append_left _ _ _ (by rw [List.length_zipWith]; omega),
        getD_zipWith _ (by omega) (by omega) (0, 0) 0, gd i (by omega), if_neg (by omega)]
      have : (B.zip A).getD i (0, 0) = (B.getD i 0, A.getD i 0) := by
        unfold List.zip
        exact getD_zipWith _ (by omega) (by omega) 0 0 _
      rw [this, ga i (by omega), gb i (by omega)]
      simp
  · intro i hi
    dsimp only
    rcases i with _ | i
    · rfl
    · rw [List.cons_append, List.getD_cons_succ, getD_append_left _ _ _ (by rw [List.length_map]; omega),
        getD_map _ (by omega) Cell.zero, hc i (by omega), if_neg (by omega), zero_div, sub_zero]
      rfl

/-- the solutions of the assembled system are the heat steps -/
theorem assemble_solves {cells : List Cell} (h : Grid cells) (q : ℝ) {dt : ℝ} (hdt : 0 < dt) {s : System}
    (hs : assemble cells q dt = .ok s) (x : List ℝ) :
    TriSolves s.dl s.d s.du s.b x ↔ x.length = cells.length ∧
      HeatStep cells.length (condOf cells) (capOf dt cells) q (tempOf cells) (fun i => x.getD i 0) := by
  obtain ⟨s', e, l1, l2, l3, l4, r1, r2, r3, r4, r5, r6, r7⟩ := assemble_eq h q (dt := dt)
  rw [hs] at e
  cases e
  have hn := h.1
  have hp := (h.pos hdt).2
  unfold TriSolves HeatStep
  rw [l4]
  refine and_congr_right fun hx => ?_
  have row : ∀ i, i + 1 < cells.length →
      ((if 0 < i then s.dl.getD (i - 1) 0 * x.getD (i - 1) 0 else 0) + s.d.getD i 0 * x.getD i 0 +
        (if i + 1 < cells.length then s.du.getD i 0 * x.getD (i + 1) 0 else 0) = s.b.getD i 0 ↔
      capOf dt cells i * (x.getD i 0 - tempOf cells i) =
        (if i = 0 then q else condOf cells (i - 1) * (x.getD (i - 1) 0 - x.getD i 0)) -
          condOf cells i * (x.getD i 0 - x.getD (i + 1) 0)) := by
    intro i hi
    have hC := (hp i hi).ne'
    rw [if_pos hi, r5 i hi, r6 i hi, r7 i hi]
    rcases i with _ | i
    · simp only [lt_irrefl, if_false, if_true]
      field_simp
      constructor <;> intro h <;> linarith
    · rw [if_pos (by omega), if_neg (by omega), if_neg (by omega), if_neg (by omega)]
      simp only [Nat.add_sub_cancel]
      rw [r4 i (by omega)]
      field_simp
      constructor <;> intro h <;> linarith
  have last : ((if 0 < cells.length - 1 then s.dl.getD (cells.length - 1 - 1) 0 * x.getD (cells.length - 1 - 1) 0 else 0)
      + s.d.getD (cells.length - 1) 0 * x.getD (cells.length - 1) 0 +
        (if cells.length - 1 + 1 < cells.length then s.du.getD (cells.length - 1) 0 * x.getD (cells.length - 1 + 1) 0
          else 0) = s.b.getD (cells.length - 1) 0 ↔
      x.getD (cells.length - 1) 0 = tempOf cells (cells.length - 1)) := by
    rw [if_pos (by omega), if_neg (by omega), r2, r3, show cells.length - 1 - 1 = cells.length - 2 by omega, r1]
    simp
  constructor
  · intro hall
    exact ⟨fun i hi => (row i hi).1 (hall i (by omega)), last.1 (hall _ (by omega))⟩
  · rintro ⟨ha, hb⟩ i hi
    rcases Nat.lt_or_ge (i + 1) cells.length with h1 | h1
    · exact (row i h1).2 (ha i h1)
    · obtain rfl : i = cells.length - 1 := by omega
      exact last.2 hb

/-- exactly one solution -/
theorem assemble_unique {cells : List Cell} (h : Grid cells) (q : ℝ) {dt : ℝ} (hdt : 0 < dt) {s : System}
    (hs : assemble cells q dt = .ok s) : ∃! x, TriSolves s.dl s.d s.du s.b x := by
  obtain ⟨x, hx⟩ := exists_heatStep (h.pos hdt) (by have := h.1; omega) q (tempOf cells)
  have hg : ∀ i < cells.length, ((List.range cells.length).map x).getD i 0 = x i := by
    intro i hi
    rw [List.getD_eq_getElem?_getD, List.getElem?_map, List.getElem?_range hi]
    rfl
  refine ⟨(List.range cells.length).map x, ?_, ?_⟩
  · dsimp only
    rw [assemble_solves h q hdt hs]
    exact ⟨by simp, hx.congr (by have := h.1; omega) (fun _ _ => rfl) hg⟩
  · intro y hy
    rw [assemble_solves h q hdt hs] at hy
    apply List.ext_getElem
    · simp [hy.1]
    · intro i h1 h2
      have hi : i < cells.length := by omega
      have := hy.2.unique (h.pos hdt) hx i hi
      rw [List.getElem_map, List.getElem_range, ← this]
      simp only [List.getD_eq_getElem?_getD, List.getElem?_eq_getElem h1, Option.getD_some]

end

end Ghedt.Radial
