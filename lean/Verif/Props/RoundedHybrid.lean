import Verif.Lemmas.RoundedHybridBounds
import Verif.Lemmas.RoundedHybridLoads
import Verif.Props.RoundedLoads
import Verif.Props.Gaps

set_option linter.unusedSectionVars false

/-!
# C126 — the hybrid load in floating-point arithmetic

The monthly data (`Loads`) are taken as they are: `H` is the hybrid load of exact arithmetic, `H'` that of floating-point
arithmetic for the same data.
-/

namespace Ghedt.Rounded
open GL Spec Search

variable {K : Type} [Field K] [LinearOrder K] [IsStrictOrderedRing K]

/-- C126: without rounding, and with the exact dot product, the model is that of the other claims. -/
theorem C126_exact (r : Resp K) (rejection extraction : List K) (startMonth endMonth year : ℤ) :
    mkHybrid Rounding.exact (fun w g => (List.zipWith (· * ·) w g).sum) r rejection extraction startMonth endMonth year =
      GL.mkHybrid r rejection extraction startMonth endMonth year := by
  have h1 : peakHourRange (Rounding.exact (K := K)) = GL.peakHourRange := by
    funext L mi t
    unfold peakHourRange GL.peakHourRange
    have e : ∀ f h : ℤ, ((f + h : ℤ) : K) = (f : K) + (h : K) := fun f h => Int.cast_add f h
    unfold sub add Rounding.exact
    simp only [e]
  have h2 : placeStep (Rounding.exact (K := K)) = GL.placeStep := by
    funext a b c d e f
    unfold placeStep GL.placeStep
    rw [h1]
    rfl
  have h3 : placeLoads (Rounding.exact (K := K)) = GL.placeLoads := by
    funext a b c d e f
    unfold placeLoads GL.placeLoads
    rw [h2]
    rfl
  have h4 : monthRate (Rounding.exact (K := K)) = GL.monthRate := by
    funext a b c d
    unfold monthRate GL.monthRate
    have e : ∀ f : ℤ, ((f * 24 : ℤ) : K) = (f : K) * 24 := fun f => by push_cast; ring
    have e2 : peakEnergy (Rounding.exact (K := K)) = GL.peakEnergy := rfl
    have e3 : div (Rounding.exact (K := K)) = pyDiv := rfl
    unfold sub add Rounding.exact at *
    simp only [e, e2, e3]
  have h5 : ∀ cl hl : Loads K, monthStep (Rounding.exact (K := K)) cl hl = GL.monthStep cl hl := by
    intro cl hl
    funext c d e f
    unfold monthStep GL.monthStep
    rw [h3, h4]
    rfl
  have h6 : processMonthlyLoads (Rounding.exact (K := K)) = GL.processMonthlyLoads := by
    funext a b c d
    unfold processMonthlyLoads GL.processMonthlyLoads
    rw [h5]
    rfl
  unfold mkHybrid GL.mkHybrid
  rw [C124_exact, C124_exact, h6]

/-! ### what is constructed meets the hypotheses below -/

/-- C126: in double precision, if the hourly loads are doubles, whatever `Loads` constructs has all its monthly entries,
and each of its months has representable peaks, at most 49 h long, on a day of the month. -/
theorem C126_loads [FloorRing K] {dot : List K → List K → K} {r : Resp K} {hourly : List K} {year : ℤ} {L : Loads K}
    (h : mkLoads Rounding.double dot r hourly year = .ok L) (hx : ∀ x ∈ hourly, double x = x) :
    Full L ∧ ∀ m : ℕ, 1 ≤ m → m ≤ 12 → FloatSide Rounding.double (L.side m) := by
  obtain ⟨hF, hd⟩ := mkLoads_floats Rounding.double h
  refine ⟨hF, fun m m1 m2 => ?_⟩
  have hM := mkLoads_rinv h
  obtain ⟨t, p, a, d, w, e1, e2, e3, e4, e5, f, g⟩ := hM.month m m1 m2
  have hml := monthLoads_length hM.length m2
  have hb := monthLength_bounds (decide (LeapYear year)) m1 m2
  have hp : (L.side m).peak = p := by simp [Loads.side, List.getD_eq_getElem?_getD, e2]
  have hdy : (L.side m).day = d := by simp [Loads.side, List.getD_eq_getElem?_getD, e4]
  have hmem : (L.side m).duration ∈ L.duration := by
    have := hF.duration
    simp only [Loads.side]
    rw [List.getD_eq_getElem?_getD, List.getElem?_eq_getElem (by omega), Option.getD_some]
    exact List.getElem_mem _
  have hpk : double p = p := hx p (by
    have := f.peak_mem
    unfold monthLoads at this
    exact List.mem_of_mem_drop (List.mem_of_mem_take this))
  obtain ⟨i, hi, -, hday⟩ := f.day_eq
  have hil : i < 24 * monthLength (decide (LeapYear year)) m := by
    rw [← hml]
    by_contra hc
    rw [List.getElem?_eq_none (by omega)] at hi
    cases hi
  have hc1 : 0 ≤ d := by
    rw [hday]
    exact Int.ceil_nonneg (by positivity)
  have hc2 : d ≤ 31 := by
    rw [hday]
    refine Int.ceil_le.2 ?_
    rw [div_le_iff₀ (by norm_num)]
    have : i ≤ 31 * 24 := by omega
    exact_mod_cast this
  refine ⟨by rw [hp]; exact hpk, ?_, ?_, (hd _ hmem).2, by rw [hdy]; exact hc1, by rw [hdy]; exact hc2⟩
  · rw [hp]
    show double (-p) = -p
    rw [double_neg, hpk]
  · exact double_half (hd _ hmem).1

/-! ### every entry -/

theorem hoursOf_mono {i j : ℕ} (h : i ≤ j) : hoursOf i ≤ hoursOf j := by
  induction j, h using Nat.le_induction with
  | base => exact le_rfl
  | succ j _ ih => rw [hoursOf_succ]; omega

theorem fl_hours (R : Rounding K) {i : ℕ} (h : (hoursOf i : ℤ) ≤ 2 ^ 52) : R.fl (hoursOf i : K) = hoursOf i := by
  have := R.int (hoursOf i : ℤ) (abs_le.2 ⟨by omega, by omega⟩)
  simpa using this

/-- one month: every load within `τ`, every time within `η` -/
theorem block_close {R : Rounding K} (ret : Prop) [Decidable ret] {i : ℕ} (hi : 1 ≤ i) (hT : (hoursOf i : ℤ) ≤ 2 ^ 52)
    {c h : Side K} (hc : FloatSide R c) (hh : FloatSide R h) {η τ : K} (hη : ur * (5 / 2 * (hoursOf i : K)) ≤ η)
    (hτ : ur * (9 * (turnover c h / restLen ret (calMonth i) c h)) ≤ τ) :
    List.Forall₂ (fun x y : K × K => |x.1 - y.1| ≤ τ ∧ |x.2 - y.2| ≤ η) (rMonthBlock R ret i c h)
      (monthBlock ret i c h) := by
  have m1 : 1 ≤ calMonth i := by unfold calMonth; omega
  have m2 : calMonth i ≤ 12 := by unfold calMonth; omega
  have hr := (rate_bounds ret m1 m2 hc hh).1.trans hτ
  have hτ0 : 0 ≤ τ := (abs_nonneg _).trans hr
  have hη0 : 0 ≤ η := le_trans (mul_nonneg ur_pos.le (mul_nonneg (by norm_num) (Nat.cast_nonneg _))) hη
  unfold rMonthBlock monthBlock
  rw [fl_hours R hT]
  generalize rRate R ret (calMonth i) c h = rate' at *
  generalize rateOf ret (calMonth i) c h = rate at *
  have pk : ∀ {s : Side K}, FloatSide R s → ∀ sg : K, R.fl (sg * s.peak) = sg * s.peak →
      List.Forall₂ (fun x y : K × K => |x.1 - y.1| ≤ τ ∧ |x.2 - y.2| ≤ η) (rPeakBlock R rate' sg i s)
        (peakBlock rate sg i s) := by
    intro s hs sg hsg
    obtain ⟨b1, b2⟩ := start_bounds hi hT hs
    unfold rPeakBlock peakBlock
    split
    · refine .cons ⟨hr, ?_⟩ (.cons ⟨?_, ?_⟩ .nil)
      · refine b1.trans (le_trans (mul_le_mul_of_nonneg_left ?_ ur_pos.le) hη)
        have : (0 : K) ≤ (hoursOf i : K) := Nat.cast_nonneg _
        linarith
      · rw [hsg, sub_self, abs_zero]; exact hτ0
      · dsimp only
        have p := abs_le.1 b1
        have q := abs_le.1 b2
        have e : ur * (5 / 2 * (hoursOf i : K)) = ur * (5 / 4 * (hoursOf i : K)) + ur * (5 / 4 * (hoursOf i : K)) := by ring
        rw [e] at hη
        exact abs_le.2 ⟨by linarith, by linarith⟩
    · exact .nil
  have pc := pk hc 1 (by rw [one_mul, hc.peak])
  have ph := pk hh (-1) (by rw [neg_one_mul, hh.neg])
  refine List.rel_append ?_ (.cons ⟨hr, by rw [sub_self, abs_zero]; exact hη0⟩ .nil)
  split
  · exact List.rel_append pc ph
  · split
    · exact List.rel_append ph pc
    · exact .nil

theorem entries_close {R : Rounding K} {cl hl : Loads K}
    (hf : ∀ m : ℕ, 1 ≤ m → m ≤ 12 → FloatSide R (cl.side m) ∧ FloatSide R (hl.side m)) {start finish : ℕ}
    (hs : 1 ≤ start) {n : ℕ} (hT : (hoursOf (start + n - 1) : ℤ) ≤ 2 ^ 52) {η τ : K}
    (hη : ur * (5 / 2 * (hoursOf (start + n - 1) : K)) ≤ η)
    (hτ : ∀ m : ℕ, 1 ≤ m → m ≤ 12 → ur * (9 * (turnover (cl.side m) (hl.side m) / 574)) ≤ τ) :
    List.Forall₂ (fun x y : K × K => |x.1 - y.1| ≤ τ ∧ |x.2 - y.2| ≤ η) (rEntries R cl hl start finish n)
      (allEntries cl hl start finish n) := by
  have hη0 : 0 ≤ η := le_trans (mul_nonneg ur_pos.le (mul_nonneg (by norm_num) (Nat.cast_nonneg _))) hη
  have hτ0 : 0 ≤ τ := le_trans (mul_nonneg ur_pos.le (mul_nonneg (by norm_num)
    (div_nonneg (turnover_nonneg _ _) (by norm_num)))) (hτ 1 le_rfl (by norm_num))
  induction n with
  | zero =>
    have h0 : (hoursOf (start - 1) : ℤ) ≤ 2 ^ 52 := hT
    unfold rEntries allEntries
    rw [fl_hours R h0]
    refine .cons ?_ (.cons ?_ .nil) <;> simp [hη0, hτ0]
  | succ n ih =>
    have hle : hoursOf (start + n - 1) ≤ hoursOf (start + (n + 1) - 1) := hoursOf_mono (by omega)
    have hleK : (hoursOf (start + n - 1) : K) ≤ (hoursOf (start + (n + 1) - 1) : K) := by exact_mod_cast hle
    rw [rEntries_succ, allEntries_succ]
    have m1 : 1 ≤ calMonth (start + n) := by unfold calMonth; omega
    have m2 : calMonth (start + n) ≤ 12 := by unfold calMonth; omega
    obtain ⟨f1, f2⟩ := hf _ m1 m2
    refine List.rel_append (ih (by omega) ?_) ?_
    · refine le_trans (mul_le_mul_of_nonneg_left ?_ ur_pos.le) hη
      linarith
    · rw [show start + (n + 1) - 1 = start + n by omega] at hT hη
      refine block_close _ (by omega) hT f1 f2 hη ?_
      refine le_trans (mul_le_mul_of_nonneg_left ?_ ur_pos.le) (hτ _ m1 m2)
      refine mul_le_mul_of_nonneg_left ?_ (by norm_num)
      exact div_le_div_of_nonneg_left (turnover_nonneg _ _) (by norm_num) (restLen_ge _ m1 m2 f1 f2)

theorem forall₂_get {α β : Type} {P : α → β → Prop} {l : List α} {l' : List β} (h : List.Forall₂ P l l') :
    ∀ (k : ℕ) (x : α) (y : β), l[k]? = some x → l'[k]? = some y → P x y := by
  induction h with
  | nil => intro k x y hx; simp at hx
  | cons hp _ ih =>
    intro k x y hx hy
    cases k with
    | zero => simp only [List.getElem?_cons_zero, Option.some.injEq] at hx hy; subst hx hy; exact hp
    | succ k => exact ih k x y (by simpa using hx) (by simpa using hy)

theorem nonZero_of_floats {R : Rounding K} {cl hl : Loads K}
    (hf : ∀ m : ℕ, 1 ≤ m → m ≤ 12 → FloatSide R (cl.side m) ∧ FloatSide R (hl.side m)) :
    NonZero cl hl ∧ RNonZero R cl hl := by
  refine ⟨fun m m1 m2 h => ?_, fun m m1 m2 => (rLen_pos m1 m2 (hf m m1 m2).1 (hf m m1 m2).2).ne'⟩
  have := (len_bounds m1 m2 (hf m m1 m2).1 (hf m m1 m2).2).1
  rw [h] at this
  linarith

/-- C126: however the numbers are rounded, the hybrid load is built, with as many entries as in exact arithmetic.  The
months end at the exact hours.  No time is off by more than `2^-51` of the hours simulated (a ten millionth of a second in
a hundred years), and no load by more than `2^-49 T` if in no month the energies add up to more than `574 T`. -/
theorem C126_close (R : Rounding K) {cl hl : Loads K} (hc : Full cl) (hh : Full hl)
    (hf : ∀ m : ℕ, 1 ≤ m → m ≤ 12 → FloatSide R (cl.side m) ∧ FloatSide R (hl.side m)) {start finish : ℕ}
    (hs : 1 ≤ start) (hsf : start ≤ finish) (hF : hoursOf finish ≤ 2 ^ 52) :
    ∃ H H' : Hybrid K, GL.processMonthlyLoads cl hl (start : ℤ) (finish : ℤ) = .ok H ∧
      processMonthlyLoads R cl hl (start : ℤ) (finish : ℤ) = .ok H' ∧
      H'.load.length = H.load.length ∧ H'.hour.length = H.hour.length ∧ H'.sfload.length = H.sfload.length ∧
      (∀ (k : ℕ) (t t' : K), H.hour[k]? = some t → H'.hour[k]? = some t' → |t' - t| ≤ 1 / 2 ^ 51 * (hoursOf finish : K)) ∧
      (∀ i, start ≤ i + 1 → i ≤ finish →
        H'.hour[monthEndPos start finish cl.side hl.side i]? = some (hoursOf i : K)) ∧
      ∀ T, (∀ m : ℕ, 1 ≤ m → m ≤ 12 → turnover (cl.side m) (hl.side m) ≤ 574 * T) →
        ∀ (k : ℕ) (l l' : K), H.load[k]? = some l → H'.load[k]? = some l' → |l' - l| ≤ 1 / 2 ^ 49 * T := by
  obtain ⟨hz, hz'⟩ := nonZero_of_floats hf
  have hT : (hoursOf finish : ℤ) ≤ 2 ^ 52 := by omega
  refine ⟨_, _, GL.process_eq hc hh hz hs hsf, process_eq R hc hh hz' hs hsf, ?_, ?_, ?_, ?_, ?_, ?_⟩
  · simp [rEntries_length]
  · simp [rEntries_length]
  · simp [rEntries_length]
  · intro k t t' ht ht'
    have hfin : start + (finish + 1 - start) - 1 = finish := by omega
    obtain ⟨τ, hτ⟩ : ∃ τ : K, ∀ m : ℕ, 1 ≤ m → m ≤ 12 →
        ur * (9 * (turnover (cl.side m) (hl.side m) / 574)) ≤ τ := by
      refine ⟨∑ m ∈ Finset.range 13, ur * (9 * (turnover (cl.side m) (hl.side m) / 574)), fun m m1 m2 => ?_⟩
      refine Finset.single_le_sum (f := fun m => ur * (9 * (turnover (cl.side m) (hl.side m) / 574)))
        (fun m _ => ?_) (by simp; omega)
      have := turnover_nonneg (cl.side m) (hl.side m)
      have := ur_pos (K := K)
      positivity
    have h := entries_close hf hs (finish := finish) (n := finish + 1 - start) (by rw [hfin]; exact hT)
      (η := 1 / 2 ^ 51 * (hoursOf finish : K)) (by
        rw [hfin]
        have : (0 : K) ≤ (hoursOf finish : K) := Nat.cast_nonneg _
        unfold ur
        linarith) hτ
    dsimp only at ht ht'
    rw [List.getElem?_map, Option.map_eq_some_iff] at ht ht'
    obtain ⟨y, hy, rfl⟩ := ht
    obtain ⟨x, hx, rfl⟩ := ht'
    exact (forall₂_get h k x y hx hy).2
  · intro i h1 h2
    obtain ⟨post, hp⟩ := rEntries_prefix R cl hl start finish
      (show i + 1 - start ≤ finish + 1 - start by omega)
    obtain ⟨pre, rate, e⟩ := rEntries_last R cl hl hs finish (i + 1 - start)
    have hpos := monthEndPos_eq cl hl start finish i
    rw [← rEntries_length R, e] at hpos
    have hpos' : monthEndPos start finish cl.side hl.side i = pre.length := by simpa using hpos
    have hTi : (hoursOf i : ℤ) ≤ 2 ^ 52 := by have := hoursOf_mono h2; omega
    dsimp only
    rw [hpos', hp, e, show start + (i + 1 - start) - 1 = i by omega, fl_hours R hTi, List.getElem?_map,
      List.append_assoc, List.getElem?_append_right le_rfl]
    simp
  · intro T hTm k l l' ht ht'
    have hfin : start + (finish + 1 - start) - 1 = finish := by omega
    have h := entries_close hf hs (finish := finish) (n := finish + 1 - start) (by rw [hfin]; exact hT)
      (η := ur * (5 / 2 * (hoursOf finish : K))) (by rw [hfin]) (τ := 1 / 2 ^ 49 * T) (by
        intro m m1 m2
        have h1 : turnover (cl.side m) (hl.side m) / 574 ≤ T := by
          rw [div_le_iff₀ (by norm_num)]; linarith [hTm m m1 m2]
        have h0 : 0 ≤ turnover (cl.side m) (hl.side m) / 574 := div_nonneg (turnover_nonneg _ _) (by norm_num)
        unfold ur
        linarith)
    dsimp only at ht ht'
    rw [List.getElem?_map, Option.map_eq_some_iff] at ht ht'
    obtain ⟨y, hy, rfl⟩ := ht
    obtain ⟨x, hx, rfl⟩ := ht'
    exact (forall₂_get h k x y hx hy).1

/-! ### times increase -/

theorem exists_of_mem_left {α β : Type} {P : α → β → Prop} {l : List α} {l' : List β} (h : List.Forall₂ P l l') :
    ∀ x ∈ l, ∃ y ∈ l', P x y := by
  induction h with
  | nil => intro x hx; cases hx
  | cons hp _ ih =>
    intro x hx
    rcases List.mem_cons.1 hx with rfl | hx
    · exact ⟨_, List.mem_cons_self, hp⟩
    · obtain ⟨y, hy, hxy⟩ := ih x hx
      exact ⟨y, List.mem_cons_of_mem _ hy, hxy⟩

theorem pairwise_of_close {η δ : K} {P : K → K → Prop} (hP : ∀ u v : K, δ - 2 * η ≤ v - u → P u v) {l l' : List K}
    (hc : List.Forall₂ (fun a b => |a - b| ≤ η) l' l) (h : l.Pairwise (fun u v => δ ≤ v - u)) : l'.Pairwise P := by
  induction hc with
  | nil => exact .nil
  | @cons a b l' l hab htl ih =>
    rw [List.pairwise_cons] at h ⊢
    refine ⟨fun v hv => ?_, ih h.2⟩
    obtain ⟨w, hw, hvw⟩ := exists_of_mem_left htl v hv
    have := h.1 w hw
    have p := abs_le.1 hab
    have q := abs_le.1 hvw
    exact hP a v (by linarith)

theorem forall₂_of_get {α β : Type} {P : α → β → Prop} : ∀ {l : List α} {l' : List β}, l.length = l'.length →
    (∀ (k : ℕ) (x : α) (y : β), l[k]? = some x → l'[k]? = some y → P x y) → List.Forall₂ P l l'
  | [], [], _, _ => .nil
  | a :: l, b :: l', hl, h => .cons (h 0 a b rfl rfl)
      (forall₂_of_get (by simpa using hl) fun k x y hx hy => h (k + 1) x y (by simpa using hx) (by simpa using hy))

/-- C126: if every positive peak lasts between `δ` (at most an hour) and 48 h and is attributed to neither the first nor
the last day of its month, and two peaks of one month are attributed to the same day or to days at least three apart, the
times are strictly increasing in floating-point arithmetic as well, as long as fewer than `2^50 δ` hours are simulated (for
`δ = 1e-6`: a hundred thousand years). -/
theorem C126_increasing (R : Rounding K) {cl hl : Loads K} (hc : Full cl) (hh : Full hl)
    (hf : ∀ m : ℕ, 1 ≤ m → m ≤ 12 → FloatSide R (cl.side m) ∧ FloatSide R (hl.side m)) {start finish : ℕ}
    (hs : 1 ≤ start) (hsf : start ≤ finish) {δ : K} (hδ1 : δ ≤ 1) (hF : 1 / 2 ^ 50 * (hoursOf finish : K) < δ)
    (hd : ∀ m : ℕ, 1 ≤ m → m ≤ 12 → ∀ s, s = cl.side m ∨ s = hl.side m → 0 < s.peak →
      2 ≤ s.day ∧ s.day + 1 ≤ monthLength false m ∧ δ ≤ s.duration ∧ s.duration ≤ 48)
    (ha : ∀ m : ℕ, 1 ≤ m → m ≤ 12 → 0 < (cl.side m).peak → 0 < (hl.side m).peak →
      (cl.side m).day = (hl.side m).day ∨ (cl.side m).day + 3 ≤ (hl.side m).day ∨
        (hl.side m).day + 3 ≤ (cl.side m).day) :
    ∃ H' : Hybrid K, processMonthlyLoads R cl hl (start : ℤ) (finish : ℤ) = .ok H' ∧
      (0 :: H'.hour.drop 2).Pairwise (· < ·) := by
  have hF' : hoursOf finish ≤ 2 ^ 52 := by
    have h1 : (1 / 2 ^ 50 : K) * (hoursOf finish : K) < 1 := hF.trans_le hδ1
    rw [one_div, inv_mul_lt_iff₀ (by positivity), mul_one] at h1
    have h2 : hoursOf finish < 2 ^ 50 := by exact_mod_cast h1
    exact h2.le.trans (by norm_num)
  have hδ : 0 < δ := lt_of_le_of_lt (mul_nonneg (by positivity) (Nat.cast_nonneg _)) hF
  obtain ⟨H, H', e, e', -, l2, -, ht, -, -⟩ := C126_close R hc hh hf hs hsf hF'
  refine ⟨H', e', ?_⟩
  have g := (C104_gaps hc hh (nonZero_of_floats hf).1 hs hsf e hδ hδ1 hd ha).2
  refine pairwise_of_close (η := 1 / 2 ^ 51 * (hoursOf finish : K)) ?_ (.cons ?_ (List.forall₂_drop 2
    (forall₂_of_get l2 fun k x y hx hy => ht k y x hy hx))) g
  · intro u v h
    have e2 : (1 / 2 ^ 50 : K) * (hoursOf finish : K) = 2 * (1 / 2 ^ 51 * (hoursOf finish : K)) := by ring
    rw [e2] at hF
    linarith
  · rw [sub_self, abs_zero]
    exact mul_nonneg (by positivity) (Nat.cast_nonneg _)

/-! ### energy -/

theorem peak_diff (b : Prop) [Decidable b] {p r r' e d ε : K} (hd : |d| ≤ 49) (he : |e - d| ≤ ε) :
    ∃ w, |w| ≤ 49 ∧ |(if b then (p - r') * e else 0) - (if b then (p - r) * d else 0) - (r - r') * w| ≤
      (|p| + |r'|) * ε := by
  have hε : 0 ≤ ε := (abs_nonneg _).trans he
  by_cases hb : b
  · refine ⟨d, hd, ?_⟩
    rw [if_pos hb, if_pos hb, show (p - r') * e - (p - r) * d - (r - r') * d = (p - r') * (e - d) by ring, abs_mul]
    exact mul_le_mul (abs_sub _ _) he (abs_nonneg _) (by positivity)
  · refine ⟨0, by norm_num, ?_⟩
    rw [if_neg hb, if_neg hb]
    simp only [sub_zero, mul_zero, abs_zero]
    positivity

/-- C126: however the numbers are rounded, the integral of the hybrid load over a month differs from that of exact
arithmetic by at most `2^-49` of the energies of the month plus `2^-52` of the hours up to its end times its peaks and a
250th of its energies per hour. -/
theorem C126_energy (R : Rounding K) {cl hl : Loads K} (hc : Full cl) (hh : Full hl)
    (hf : ∀ m : ℕ, 1 ≤ m → m ≤ 12 → FloatSide R (cl.side m) ∧ FloatSide R (hl.side m)) {start finish : ℕ}
    (hs : 1 ≤ start) (hsf : start ≤ finish) {H H' : Hybrid K}
    (hH : GL.processMonthlyLoads cl hl (start : ℤ) (finish : ℤ) = .ok H)
    (hH' : processMonthlyLoads R cl hl (start : ℤ) (finish : ℤ) = .ok H') {i : ℕ} (h1 : start ≤ i) (h2 : i ≤ finish)
    (hF : hoursOf i ≤ 2 ^ 52) {c h : Side K} (hcs : cl.side (calMonth i) = c) (hhs : hl.side (calMonth i) = h) :
    |stepIntegral H'.load H'.hour (monthEndPos start finish cl.side hl.side (i - 1))
        (monthEndPos start finish cl.side hl.side i) -
      stepIntegral H.load H.hour (monthEndPos start finish cl.side hl.side (i - 1))
        (monthEndPos start finish cl.side hl.side i)| ≤
      1 / 2 ^ 49 * turnover c h +
        1 / 2 ^ 52 * (hoursOf i : K) * (|c.peak| + |h.peak| + turnover c h / 250) := by
  obtain ⟨hz, hz'⟩ := nonZero_of_floats hf
  have hi : 1 ≤ i := by omega
  have m1 : 1 ≤ calMonth i := by unfold calMonth; omega
  have m2 : calMonth i ≤ 12 := by unfold calMonth; omega
  obtain ⟨f1, f2⟩ := hf _ m1 m2
  have hT : (hoursOf i : ℤ) ≤ 2 ^ 52 := by exact_mod_cast hF
  have hT' : (hoursOf (i - 1) : ℤ) ≤ 2 ^ 52 := by have := hoursOf_ge hi; omega
  rw [month_integral R hc hh hz' hs hsf hH' h1 h2, GL.month_integral hc hh hz hs hsf hH h1 h2, segInt_rblock,
    segInt_block _ hi, fl_hours R hT, fl_hours R hT']
  rw [hcs] at f1 ⊢
  rw [hhs] at f2 ⊢
  obtain ⟨r1, r2⟩ := rate_bounds (Retained start finish i) m1 m2 f1 f2
  have hD := restLen_ge (Retained start finish i) m1 m2 f1 f2
  have B := monthLength_bounds false m1 m2
  have B2 : (monthLength false (calMonth i) : K) ≤ 31 := by exact_mod_cast B.2
  have B1 : (28 : K) ≤ (monthLength false (calMonth i) : K) := by exact_mod_cast B.1
  have hlen : (hoursOf i : K) - (hoursOf (i - 1) : K) = 24 * (monthLength false (calMonth i) : K) := by
    rw [hours_of_month hi]; ring
  obtain ⟨-, s1⟩ := start_bounds hi hT f1
  obtain ⟨-, s2⟩ := start_bounds hi hT f2
  rw [hlen, one_mul, neg_one_mul, f1.peak, f2.neg]
  obtain ⟨w1, v1, t1⟩ := peak_diff (Retained start finish i ∧ c.day ≠ h.day ∧ 0 < c.peak) (p := c.peak)
    (r := rateOf (Retained start finish i) (calMonth i) c h) (r' := rRate R (Retained start finish i) (calMonth i) c h)
    f1.dur s1
  obtain ⟨w2, v2, t2⟩ := peak_diff (Retained start finish i ∧ c.day ≠ h.day ∧ 0 < h.peak) (p := -h.peak)
    (r := rateOf (Retained start finish i) (calMonth i) c h) (r' := rRate R (Retained start finish i) (calMonth i) c h)
    f2.dur s2
  rw [abs_neg] at t2
  generalize (if Retained start finish i ∧ c.day ≠ h.day ∧ 0 < c.peak then
    (c.peak - rRate R (Retained start finish i) (calMonth i) c h) * (rEnd R i c - rStart R i c) else 0) = x1' at *
  generalize (if Retained start finish i ∧ c.day ≠ h.day ∧ 0 < h.peak then
    (-h.peak - rRate R (Retained start finish i) (calMonth i) c h) * (rEnd R i h - rStart R i h) else 0) = x2' at *
  generalize (if Retained start finish i ∧ c.day ≠ h.day ∧ 0 < c.peak then
    (c.peak - rateOf (Retained start finish i) (calMonth i) c h) * c.duration else 0) = x1 at *
  generalize (if Retained start finish i ∧ c.day ≠ h.day ∧ 0 < h.peak then
    (-h.peak - rateOf (Retained start finish i) (calMonth i) c h) * h.duration else 0) = x2 at *
  generalize restLen (Retained start finish i) (calMonth i) c h = D at *
  generalize rRate R (Retained start finish i) (calMonth i) c h = r' at *
  generalize rateOf (Retained start finish i) (calMonth i) c h = r at *
  have S0 := turnover_nonneg c h
  generalize turnover c h = S at *
  have hTK : (0 : K) ≤ (hoursOf i : K) := Nat.cast_nonneg _
  generalize (hoursOf i : K) = T at *
  generalize (monthLength false (calMonth i) : K) = M at *
  have hu := ur_pos (K := K)
  have hu' := ur_le (K := K)
  have hSD : S / D ≤ S / 574 := div_le_div_of_nonneg_left S0 (by norm_num) hD
  have hSD0 : 0 ≤ S / D := div_nonneg S0 (by linarith)
  have rr : |r' - r| ≤ ur * (9 * (S / 574)) := r1.trans (mul_le_mul_of_nonneg_left (by linarith) hu.le)
  have uS : ur * (9 * (S / 574)) ≤ 1 / 1000000 * S := by
    have := mul_le_mul_of_nonneg_right hu' (show 0 ≤ 9 * (S / 574) by positivity)
    linarith
  have hr' : |r'| ≤ S / 500 := by
    have a := abs_le.1 rr
    have b := abs_le.1 r2
    exact abs_le.2 ⟨by linarith, by linarith⟩
  have c1 := abs_le.1 v1
  have c2 := abs_le.1 v2
  have main : |(r' - r) * (24 * M - w1 - w2)| ≤ ur * (14 * S) := by
    rw [abs_mul]
    calc |r' - r| * |24 * M - w1 - w2| ≤ ur * (9 * (S / 574)) * 842 :=
          mul_le_mul rr (abs_le.2 ⟨by linarith, by linarith⟩) (abs_nonneg _) (by positivity)
      _ = ur * (9 * 842 / 574 * S) := by ring
      _ ≤ ur * (14 * S) := mul_le_mul_of_nonneg_left (by linarith) hu.le
  have e : r' * (24 * M) + x1' + x2' - (r * (24 * M) + x1 + x2) =
      (r' - r) * (24 * M - w1 - w2) + (x1' - x1 - (r - r') * w1) + (x2' - x2 - (r - r') * w2) := by ring
  rw [e]
  have g1 : (|c.peak| + |r'|) * (ur * (5 / 4 * T)) ≤ (|c.peak| + S / 500) * (ur * (5 / 4 * T)) :=
    mul_le_mul_of_nonneg_right (by linarith) (by positivity)
  have g2 : (|h.peak| + |r'|) * (ur * (5 / 4 * T)) ≤ (|h.peak| + S / 500) * (ur * (5 / 4 * T)) :=
    mul_le_mul_of_nonneg_right (by linarith) (by positivity)
  have z : (|c.peak| + S / 500) * (ur * (5 / 4 * T)) + (|h.peak| + S / 500) * (ur * (5 / 4 * T)) ≤
      1 / 2 ^ 52 * T * (|c.peak| + |h.peak| + S / 250) := by
    have : (|c.peak| + S / 500) * (ur * (5 / 4 * T)) + (|h.peak| + S / 500) * (ur * (5 / 4 * T)) =
        (5 / 4 * ur) * (T * (|c.peak| + |h.peak| + S / 250)) := by ring
    rw [this, mul_assoc (1 / 2 ^ 52 : K) T]
    refine mul_le_mul_of_nonneg_right ?_ (by positivity)
    unfold ur
    norm_num
  have z2 : ur * (14 * S) ≤ 1 / 2 ^ 49 * S := by
    unfold ur
    linarith
  have d1 := abs_le.1 t1
  have d2 := abs_le.1 t2
  have d3 := abs_le.1 main
  exact abs_le.2 ⟨by linarith, by linarith⟩

/-- C126: in a month whose peaks are not retained, or with two positive peaks on different days, the hybrid load
conserves energy up to that much. -/
theorem C126_conserved (R : Rounding K) {cl hl : Loads K} (hc : Full cl) (hh : Full hl)
    (hf : ∀ m : ℕ, 1 ≤ m → m ≤ 12 → FloatSide R (cl.side m) ∧ FloatSide R (hl.side m)) {start finish : ℕ}
    (hs : 1 ≤ start) (hsf : start ≤ finish) {H' : Hybrid K}
    (hH' : processMonthlyLoads R cl hl (start : ℤ) (finish : ℤ) = .ok H') {i : ℕ} (h1 : start ≤ i) (h2 : i ≤ finish)
    (hF : hoursOf i ≤ 2 ^ 52) {c h : Side K} (hcs : cl.side (calMonth i) = c) (hhs : hl.side (calMonth i) = h)
    (hp : ¬ Retained start finish i ∨ (0 < c.peak ∧ 0 < h.peak ∧ c.day ≠ h.day)) :
    |stepIntegral H'.load H'.hour (monthEndPos start finish cl.side hl.side (i - 1))
        (monthEndPos start finish cl.side hl.side i) - (c.total - h.total)| ≤
      1 / 2 ^ 49 * turnover c h +
        1 / 2 ^ 52 * (hoursOf i : K) * (|c.peak| + |h.peak| + turnover c h / 250) := by
  have hz := (nonZero_of_floats hf).1
  have hH := GL.process_eq hc hh hz hs hsf
  have a := C126_energy R hc hh hf hs hsf hH hH' h1 h2 hF hcs hhs
  have b := C61_conserved hc hh hz hs hsf hH h1 h2 (by rw [hcs, hhs]; exact hp)
  rw [b, hcs, hhs] at a
  exact a

/-! ### the hypotheses can be met -/

/-- 1000.1 kWh, 5.3 kW, 4.1 h on day 10 against 600.7 kWh, 3.1 kW, 2.3 h on day 20 -/
def exRej : Loads ℚ := exLoads (dbl.fl (10001 / 10)) (dbl.fl (53 / 10)) (dbl.fl (41 / 10)) 10
def exExt : Loads ℚ := exLoads (dbl.fl (6007 / 10)) (dbl.fl (31 / 10)) (dbl.fl (23 / 10)) 20

theorem ex_floats : ∀ m : ℕ, 1 ≤ m → m ≤ 12 → FloatSide dbl (exRej.side m) ∧ FloatSide dbl (exExt.side m) := by
  intro m m1 m2
  unfold exRej exExt
  rw [exLoads_side _ _ _ _ m2, exLoads_side _ _ _ _ m2]
  constructor <;> constructor <;> decide +kernel

theorem hoursOf_240 : hoursOf 240 = 175200 := by decide +kernel

/-- C126, for a case: 20 years of these loads in double precision; the times increase. -/
example : ∃ H' : Hybrid ℚ, processMonthlyLoads dbl exRej exExt (1 : ℕ) (240 : ℕ) = .ok H' ∧
    (0 :: H'.hour.drop 2).Pairwise (· < ·) := by
  refine C126_increasing dbl (exLoads_full _ _ _ _) (exLoads_full _ _ _ _) ex_floats (by norm_num) (by norm_num)
    (δ := 1) le_rfl (by rw [hoursOf_240]; norm_num) ?_ ?_
  · intro m m1 m2 s hs _
    rw [exLoads_side _ _ _ _ m2, exLoads_side _ _ _ _ m2] at hs
    have := (monthLength_bounds false m1 m2).1
    rcases hs with rfl | rfl
    · refine ⟨by norm_num, by push_cast; omega, ?_, ?_⟩ <;> decide +kernel
    · refine ⟨by norm_num, by push_cast; omega, ?_, ?_⟩ <;> decide +kernel
  · intro m m1 m2 _ _
    rw [exLoads_side _ _ _ _ m2, exLoads_side _ _ _ _ m2]
    exact Or.inr (Or.inl (by norm_num))

/-- C126, for a case: in no month of 20 years is the energy off by more than a ten millionth of a kilowatt hour. -/
example : ∃ H' : Hybrid ℚ, processMonthlyLoads dbl exRej exExt (1 : ℕ) (240 : ℕ) = .ok H' ∧
    ∀ i : ℕ, 1 ≤ i → i ≤ 240 →
      |stepIntegral H'.load H'.hour (monthEndPos 1 240 exRej.side exExt.side (i - 1))
        (monthEndPos 1 240 exRej.side exExt.side i) - (dbl.fl (10001 / 10) - dbl.fl (6007 / 10))| ≤ 1 / 10 ^ 7 := by
  obtain ⟨H, H', e, e', -⟩ := C126_close dbl (exLoads_full _ _ _ _) (exLoads_full _ _ _ _) ex_floats
    (show 1 ≤ 1 by norm_num) (show 1 ≤ 240 by norm_num) (by rw [hoursOf_240]; norm_num)
  refine ⟨H', e', fun i h1 h2 => ?_⟩
  have hi : hoursOf i ≤ 175200 := by rw [← hoursOf_240]; exact hoursOf_mono h2
  have m2 : calMonth i ≤ 12 := by unfold calMonth; omega
  have hiK : (hoursOf i : ℚ) ≤ 175200 := by exact_mod_cast hi
  refine (C126_conserved dbl (exLoads_full _ _ _ _) (exLoads_full _ _ _ _) ex_floats (by norm_num) (by norm_num) e' h1 h2
    (hi.trans (by norm_num)) (exLoads_side _ _ _ _ m2) (exLoads_side _ _ _ _ m2) (Or.inr ⟨?_, ?_, ?_⟩)).trans ?_
  · decide +kernel
  · decide +kernel
  · norm_num
  · have hS : turnover (⟨dbl.fl (10001 / 10), dbl.fl (53 / 10), dbl.fl (41 / 10), 10⟩ : Side ℚ)
        ⟨dbl.fl (6007 / 10), dbl.fl (31 / 10), dbl.fl (23 / 10), 20⟩ ≤ 1700 := by decide +kernel
    have hp : |dbl.fl (53 / 10 : ℚ)| + |dbl.fl (31 / 10 : ℚ)| ≤ 10 := by decide +kernel
    have h0 := turnover_nonneg (⟨dbl.fl (10001 / 10), dbl.fl (53 / 10), dbl.fl (41 / 10), 10⟩ : Side ℚ)
        ⟨dbl.fl (6007 / 10), dbl.fl (31 / 10), dbl.fl (23 / 10), 20⟩
    dsimp only
    generalize turnover (⟨dbl.fl (10001 / 10), dbl.fl (53 / 10), dbl.fl (41 / 10), 10⟩ : Side ℚ)
        ⟨dbl.fl (6007 / 10), dbl.fl (31 / 10), dbl.fl (23 / 10), 20⟩ = S at *
    have q : 1 / 2 ^ 52 * (hoursOf i : ℚ) * (|dbl.fl (53 / 10 : ℚ)| + |dbl.fl (31 / 10 : ℚ)| + S / 250) ≤
        1 / 2 ^ 52 * 175200 * 20 := by
      refine mul_le_mul (mul_le_mul_of_nonneg_left hiK (by positivity)) (by linarith) (by positivity) (by positivity)
    refine (add_le_add (mul_le_mul_of_nonneg_left hS (by positivity)) q).trans ?_
    norm_num

/-- the loads of a constant year of 0.9 kW in double precision meet the hypotheses of C126 -/
example : ∃ L, mkLoads dbl (dotLeft dbl) steady (constantYear 2019 (double (9 / 10))) 2019 = .ok L ∧ Full L ∧
    ∀ m : ℕ, 1 ≤ m → m ≤ 12 → FloatSide dbl (L.side m) := by
  obtain ⟨L, _, h, _⟩ := C124_constant_48 (dotLeft_like dbl)
  refine ⟨L, h, C126_loads h fun x hx => ?_⟩
  rw [List.eq_of_mem_replicate hx]
  decide +kernel

end Ghedt.Rounded
