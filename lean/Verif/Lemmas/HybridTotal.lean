import Verif.Lemmas.Hybrid
import Mathlib.Tactic.Linarith

set_option linter.unusedSectionVars false

namespace Ghedt
variable {K : Type} [Field K] [LinearOrder K] [IsStrictOrderedRing K]

theorem interpNodes_range {lo hi : K} (pts : List (K × K)) (hb : ∀ p ∈ pts, lo ≤ p.2 ∧ p.2 ≤ hi)
    {v d : K} (h : interpNodes pts v = .ok d) : lo ≤ d ∧ d ≤ hi := by
  induction pts with
  | nil => cases h
  | cons p pts ih =>
    cases pts with
    | nil =>
      unfold interpNodes at h
      split at h
      · cases h; exact hb p List.mem_cons_self
      · cases h
    | cons q rest =>
      unfold interpNodes at h
      split at h
      · cases h
      · rename_i h1
        split at h
        · rename_i h2
          cases h
          rw [not_lt] at h1
          obtain ⟨a1, a2⟩ := hb p List.mem_cons_self
          obtain ⟨b1, b2⟩ := hb q (by simp)
          have hpos : 0 < q.1 - p.1 := by linarith
          have t0 : 0 ≤ (v - p.1) / (q.1 - p.1) := div_nonneg (by linarith) hpos.le
          have t1 : (v - p.1) / (q.1 - p.1) ≤ 1 := by rw [div_le_one hpos]; linarith
          have e : (q.2 - p.2) / (q.1 - p.1) * (v - p.1) + p.2 =
              (1 - (v - p.1) / (q.1 - p.1)) * p.2 + (v - p.1) / (q.1 - p.1) * q.2 := by
            field_simp; ring
          rw [e]
          generalize (v - p.1) / (q.1 - p.1) = t at t0 t1
          constructor
          · nlinarith [mul_le_mul_of_nonneg_left a1 (show 0 ≤ 1 - t by linarith),
              mul_le_mul_of_nonneg_left b1 t0]
          · nlinarith [mul_le_mul_of_nonneg_left a2 (show 0 ≤ 1 - t by linarith),
              mul_le_mul_of_nonneg_left b2 t0]
        · exact ih (fun x hx => hb x (List.mem_cons_of_mem _ hx)) h

theorem interp1d_range {lo hi : K} {x y : List K} (hb : ∀ p ∈ y, lo ≤ p ∧ p ≤ hi)
    {v d : K} (h : interp1d x y v = .ok d) : lo ≤ d ∧ d ≤ hi := by
  unfold interp1d at h
  split at h
  · cases h
  · refine interpNodes_range _ (fun p hp => ?_) h
    rw [(List.perm_insertionSort _ _).mem_iff] at hp
    exact hb p.2 (List.of_mem_zip hp).2

theorem foldlM_inv_of_ok {σ τ : Type} {f : σ → τ → Py σ} (P : σ → Prop)
    (step : ∀ s a s', P s → f s a = .ok s' → P s') : ∀ (l : List τ) (s s' : σ), P s →
    l.foldlM f s = .ok s' → P s' := by
  intro l
  induction l with
  | nil => intro s s' h e; cases e; exact h
  | cons a l ih =>
    intro s s' h e
    rw [List.foldlM_cons, bind_eq_ok] at e
    obtain ⟨s1, e1, e2⟩ := e
    exact ih s1 s' (step s a s1 h e1) e2

theorem pySet_inv {α : Type} {l l' : List α} {i : ℤ} {v : α} (h : pySet l i v = .ok l') :
    l'.length = l.length ∧ ∀ x ∈ l', x ∈ l ∨ x = v := by
  unfold pySet at h
  dsimp only at h
  generalize (if i < 0 then i + (l.length : ℤ) else i) = j at h
  split at h
  · cases h
  · split at h
    · cases h
      exact ⟨List.length_set .., fun x hx => List.mem_or_eq_of_mem_set hx⟩
    · cases h

end Ghedt

namespace Ghedt.GL
open Spec Search
variable {K : Type} [Field K] [LinearOrder K] [IsStrictOrderedRing K]

theorem performMonth_range {r : Resp K} {w : List K} {p a : K} {x : K × List K × List K}
    (h : performMonth r w p a = .ok x) : 0 ≤ x.1 ∧ x.1 ≤ 48 := by
  unfold performMonth at h
  dsimp only at h
  simp only [bind_eq_ok] at h
  obtain ⟨_, _, _, _, _, _, m, _, d, hd, hx⟩ := h
  cases hx
  split at hd
  · refine interp1d_range ?_ hd
    intro y hy
    rw [List.mem_map] at hy
    obtain ⟨t, ht, rfl⟩ := hy
    rw [mem_pyRange] at ht
    have h1 : (0 : ℤ) ≤ t := by omega
    have h2 : t ≤ 48 := by omega
    exact ⟨by exact_mod_cast h1, by exact_mod_cast h2⟩
  · cases hd
    constructor <;> norm_num

theorem durationStep_range {r : Resp K} {td : List (List K)} {pk av : List K}
    {s s' : List K × List (List K) × List (List K)} {i : ℤ}
    (hs : s.1.length = 13 ∧ ∀ x ∈ s.1, 0 ≤ x ∧ x ≤ 48) (h : durationStep r td pk av s i = .ok s') :
    s'.1.length = 13 ∧ ∀ x ∈ s'.1, 0 ≤ x ∧ x ≤ 48 := by
  unfold durationStep at h
  simp only [bind_eq_ok] at h
  obtain ⟨w, -, p, -, m, -, a, -, h⟩ := h
  generalize (if |p - m| < 1 / 10 then p else m) = used at h
  split at h
  · rw [bind_eq_ok] at h
    obtain ⟨⟨d, x, y⟩, hx, h⟩ := h
    dsimp only at h
    rw [bind_eq_ok] at h
    obtain ⟨l, hl, h⟩ := h
    cases h
    obtain ⟨l1, l2⟩ := pySet_inv hl
    refine ⟨by rw [← hs.1]; exact l1, fun y hy => ?_⟩
    rcases l2 y hy with h | rfl
    · exact hs.2 y h
    · exact performMonth_range hx
  · rw [bind_eq_ok] at h
    obtain ⟨l, hl, h⟩ := h
    cases h
    obtain ⟨l1, l2⟩ := pySet_inv hl
    refine ⟨by rw [← hs.1]; exact l1, fun y hy => ?_⟩
    rcases l2 y hy with h | rfl
    · exact hs.2 y h
    · constructor <;> norm_num

/-- whatever the response: a constructed `Loads` has its twelve durations between 0 and 48 hours -/
theorem mkLoads_full {r : Resp K} {hourly : List K} {year : ℤ} {L : Loads K}
    (h : mkLoads r hourly year = .ok L) : Full L ∧ ∀ x ∈ L.duration, 0 ≤ x ∧ x ≤ 48 := by
  obtain ⟨hM, -, -, hf⟩ := mkLoads_inv h
  have := foldlM_inv_of_ok
    (fun s : List K × List (List K) × List (List K) => s.1.length = 13 ∧ ∀ x ∈ s.1, 0 ≤ x ∧ x ≤ 48)
    (fun s a s' hs e => durationStep_range hs e) _ _ _ ⟨by simp, by
      intro x hx
      rw [List.eq_of_mem_replicate hx]
      constructor <;> norm_num⟩ hf
  exact ⟨⟨hM.total_length, hM.peak_length, this.1, hM.day_length⟩, this.2⟩

theorem nonZero_of_le {cl hl : Loads K} (hc : Full cl) (hh : Full hl)
    (h1 : ∀ x ∈ cl.duration, 0 ≤ x ∧ x ≤ 48) (h2 : ∀ x ∈ hl.duration, 0 ≤ x ∧ x ≤ 48) :
    NonZero cl hl := by
  intro m m1 m2
  have c3 := hc.duration
  have k3 := hh.duration
  have hmem : ∀ {l : List K}, m < l.length → l.getD m 0 ∈ l := by
    intro l hl
    rw [List.getD_eq_getElem?_getD, List.getElem?_eq_getElem hl, Option.getD_some]
    exact List.getElem_mem _
  have a := (h1 _ (hmem (by omega))).2
  have b := (h2 _ (hmem (by omega))).2
  have c := (monthLength_bounds false m1 m2).1
  have c' : (28 : K) ≤ (monthLength false m : K) := by exact_mod_cast c
  simp only [Loads.side]
  intro h
  linarith

end Ghedt.GL
