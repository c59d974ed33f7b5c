import Verif.Lemmas.RoundedLoads
import Verif.Props.RoundedFindings
import Verif.Props.PeakDuration

/-!
# C124 — the monthly loads in floating-point arithmetic
-/

namespace Ghedt.Rounded
open GL Spec

variable {K : Type} [Field K] [LinearOrder K]

theorem interpNodes_exact [IsStrictOrderedRing K] : ∀ (l : List (K × K)) (v : K),
    interpNodes Rounding.exact l v = Ghedt.interpNodes l v
  | [], _ => rfl
  | [_], _ => rfl
  | p :: q :: rest, v => by
    unfold interpNodes Ghedt.interpNodes
    rw [interpNodes_exact (q :: rest) v]
    rfl

/-- C124: without rounding, and with the exact dot product, the model is that of the other claims. -/
theorem C124_exact [IsStrictOrderedRing K] (r : Resp K) (hourly : List K) (year : ℤ) :
    mkLoads Rounding.exact (fun w g => (List.zipWith (· * ·) w g).sum) r hourly year = GL.mkLoads r hourly year := by
  have hsum : ∀ l : List K, sum Rounding.exact l = l.sum := by
    intro l
    unfold sum
    rw [List.sum_eq_foldl]
    rfl
  have hint : ∀ (x y : List K) (v : K), interp1d Rounding.exact x y v = Ghedt.interp1d x y v := by
    intro x y v
    unfold interp1d Ghedt.interp1d
    rw [interpNodes_exact]
  have h1 : splitStep Rounding.exact hourly = GL.splitStep hourly := by
    funext s q
    unfold splitStep GL.splitStep
    simp only [hsum]
    rfl
  have h2 : ∀ days, splitLoadByMonth Rounding.exact hourly days = GL.splitLoadByMonth hourly days := by
    intro days
    unfold splitLoadByMonth GL.splitLoadByMonth
    rw [h1]
  have h3 : performMonth Rounding.exact (fun w g => (List.zipWith (· * ·) w g).sum) r = GL.performMonth r := by
    funext w p a
    unfold performMonth GL.performMonth
    simp only [hint]
    rfl
  have h4 : durationStep Rounding.exact (fun w g => (List.zipWith (· * ·) w g).sum) r = GL.durationStep r := by
    funext twoDay peak average s i
    unfold durationStep GL.durationStep
    simp only [h3]
    rfl
  unfold mkLoads GL.mkLoads
  simp only [h2, h4]


/-! ### the monthly figures -/

variable [IsStrictOrderedRing K]

theorem abs_list_sum (l : List K) : |l.sum| ≤ (l.map fun x => |x|).sum := by
  induction l with
  | nil => simp
  | cons x l ih =>
    rw [List.sum_cons, List.map_cons, List.sum_cons]
    exact (abs_add_le _ _).trans (by linarith)

theorem pow_small {n : ℕ} (hn : n ≤ 745) : (1 + 1 / 2 ^ 53 : K) ^ n - 1 ≤ 1 / 2 ^ 43 := by
  have h1 : (1 + 1 / 2 ^ 53 : K) ^ n ≤ (1 + 1 / 2 ^ 53) ^ 745 :=
    pow_le_pow_right₀ (by norm_num) hn
  have h2 : ((1 + 1 / 2 ^ 53 : ℚ) ^ 745 : ℚ) ≤ 1 + 1 / 2 ^ 43 := by decide +kernel
  have h3 : (((1 + 1 / 2 ^ 53 : ℚ) ^ 745 : ℚ) : K) ≤ ((1 + 1 / 2 ^ 43 : ℚ) : K) := Rat.cast_le.2 h2
  rw [Rat.cast_pow] at h3
  push_cast at h3
  exact sub_le_iff_le_add'.2 (h1.trans h3)

/-- C124: whatever the loads of the year and however the numbers are rounded, if `Loads` can be constructed, then of each
month the peak is the exact maximum, the day and the two-day window are those of exact arithmetic, the total is within
`2^-43` times the sum of the absolute loads of the month, and the average within `2^-43` times their mean. -/
theorem C124_monthly (R : Rounding K) (dot : List K → List K → K) (r : Resp K) {hourly : List K} {year : ℤ} {L : Loads K}
    (h : mkLoads R dot r hourly year = .ok L) :
    hourly.length = (if LeapYear year then 8784 else 8760) ∧
    ∀ m : ℕ, 1 ≤ m → m ≤ 12 → ∃ t p a d w, L.total[m]? = some t ∧ L.peak[m]? = some p ∧ L.average[m]? = some a ∧
      L.peakDay[m]? = some d ∧ L.twoDay[m]? = some w ∧
      (p ∈ monthLoads (decide (LeapYear year)) hourly m ∧ ∀ x ∈ monthLoads (decide (LeapYear year)) hourly m, x ≤ p) ∧
      (∃ i : ℕ, (monthLoads (decide (LeapYear year)) hourly m)[i]? = some p ∧
        (∀ j < i, (monthLoads (decide (LeapYear year)) hourly m)[j]? ≠ some p) ∧ d = ⌈(i : ℚ) / 24⌉) ∧
      (w.length = 48 ∧ ∀ j : ℕ, j < 48 →
        w[j]? = hourly[(((monthStart (decide (LeapYear year)) m : ℤ) + (d - 1) * 24 + j) % (hourly.length : ℤ)).toNat]?) ∧
      |t - (monthLoads (decide (LeapYear year)) hourly m).sum| ≤
        1 / 2 ^ 43 * ((monthLoads (decide (LeapYear year)) hourly m).map fun x => |x|).sum ∧
      |a - (monthLoads (decide (LeapYear year)) hourly m).sum / ((24 * monthLength (decide (LeapYear year)) m : ℕ) : K)| ≤
        1 / 2 ^ 43 * (((monthLoads (decide (LeapYear year)) hourly m).map fun x => |x|).sum /
          ((24 * monthLength (decide (LeapYear year)) m : ℕ) : K)) := by
  have hM := mkLoads_rinv h
  refine ⟨by rw [hM.length]; unfold yearHours; simp, fun m m1 m2 => ?_⟩
  obtain ⟨t, p, a, d, w, e1, e2, e3, e4, e5, f, g⟩ := hM.month m m1 m2
  have hml := monthLoads_length hM.length m2
  have hb := monthLength_bounds (decide (LeapYear year)) m1 m2
  generalize monthLoads (decide (LeapYear year)) hourly m = month at *
  set n := 24 * monthLength (decide (LeapYear year)) m with hn
  have hnK : (0 : K) < (n : K) := by exact_mod_cast (by omega : 0 < n)
  have hA : 0 ≤ (month.map fun x => |x|).sum := List.sum_nonneg (by simp)
  have hs := sum_err R month
  rw [hml] at hs
  refine ⟨t, p, a, d, w, e1, e2, e3, e4, e5, ⟨f.peak_mem, f.peak_max⟩, f.day_eq, g, ?_, ?_⟩
  · rw [f.total_eq]
    exact hs.trans (mul_le_mul_of_nonneg_right (pow_small (by omega)) hA)
  · rw [f.average_eq, hml]
    have he := R.err (sum R month / (n : K))
    have h1 : |sum R month / (n : K) - month.sum / (n : K)| ≤
        ((1 + 1 / 2 ^ 53) ^ n - 1) * ((month.map fun x => |x|).sum / (n : K)) := by
      rw [← sub_div, abs_div, abs_of_pos hnK, ← mul_div_assoc]
      exact div_le_div_of_nonneg_right hs hnK.le
    have h2 : |month.sum / (n : K)| ≤ (month.map fun x => |x|).sum / (n : K) := by
      rw [abs_div, abs_of_pos hnK]
      exact div_le_div_of_nonneg_right (abs_list_sum month) hnK.le
    have h3 : |sum R month / (n : K)| ≤ (1 + 1 / 2 ^ 53) ^ n * ((month.map fun x => |x|).sum / (n : K)) := by
      have := abs_sub_abs_le_abs_sub (sum R month / (n : K)) (month.sum / (n : K))
      linarith
    have h4 := abs_sub_le (R.fl (sum R month / (n : K))) (sum R month / (n : K)) (month.sum / (n : K))
    have h5 : (1 / 2 ^ 53 : K) * |sum R month / (n : K)| ≤
        1 / 2 ^ 53 * ((1 + 1 / 2 ^ 53) ^ n * ((month.map fun x => |x|).sum / (n : K))) :=
      mul_le_mul_of_nonneg_left h3 (by positivity)
    have h6 : ((1 + 1 / 2 ^ 53 : K) ^ (n + 1) - 1) * ((month.map fun x => |x|).sum / (n : K)) ≤
        1 / 2 ^ 43 * ((month.map fun x => |x|).sum / (n : K)) :=
      mul_le_mul_of_nonneg_right (pow_small (by omega)) (div_nonneg hA hnK.le)
    rw [pow_succ] at h6
    linarith

/-! ### a constant load -/

/-- the loads of a year with the same load in every hour -/
def constantYear (year : ℤ) (c : K) : List K := List.replicate (if LeapYear year then 8784 else 8760) c

/-- C124: the same positive load `c` in every hour of a year, and a response that does not fall with time.  Let `a m` be the
average of month `m` as computed, `e m = c - a m`, and `q m = (c - a m) / c * c`, all of them as computed: in exact
arithmetic `a m = c` and `e m = q m = 0`.  Let `T x` be the temperature change as computed for a load of `x` kept up for 48
hours.  If in some month `0 < T (q m)` and `T (e m) < T (q m)`, constructing `Loads` raises `ValueError`.  Otherwise it
succeeds; the duration of the peak is the millionth of an hour in the months with `T (q m) ≤ 0`, and 48 hours in the months
with `0 < T (q m) = T (e m)`. -/
theorem C124_constant (R : Rounding K) {dot : List K → List K → K} (hd : DotLike R dot) {r : Resp K} {G : ℕ → K}
    (hr : ∀ t : ℕ, 1 ≤ t → t ≤ 48 → r.g (t : ℤ) = .ok (G t)) (hk : 0 < r.twoPiK) (hb : 0 ≤ r.Rb)
    (hG : ∀ t, 1 ≤ t → t < 48 → G t ≤ G (t + 1)) (h1 : 0 ≤ G 1) (year : ℤ) {c : K} (hc : 0 < c)
    {a e q : ℕ → K} {T : K → K}
    (ha : ∀ m, a m = R.fl (sum R (List.replicate (24 * monthLength (decide (LeapYear year)) m) c) /
      ((24 * monthLength (decide (LeapYear year)) m : ℕ) : K)))
    (he : ∀ m, e m = R.fl (c - a m)) (hq : ∀ m, q m = R.fl (R.fl (e m / c) * c))
    (hT : ∀ x, T x = R.fl (R.fl (R.fl (R.fl x / r.twoPiK) * G 48) + R.fl (x * r.Rb))) :
    ((∃ m, 1 ≤ m ∧ m ≤ 12 ∧ 0 < T (q m) ∧ T (e m) < T (q m)) →
      mkLoads R dot r (constantYear year c) year = .error .valueError) ∧
    ((∀ m, 1 ≤ m → m ≤ 12 → 0 < T (q m) → T (q m) ≤ T (e m)) →
      ∃ L, mkLoads R dot r (constantYear year c) year = .ok L ∧ L.duration.length = 13 ∧
        ∀ m, 1 ≤ m → m ≤ 12 → ∃ d, L.duration[m]? = some d ∧ (T (q m) ≤ 0 → d = R.fl (1 / 1000000)) ∧
          (0 < T (q m) → T (q m) = T (e m) → d = 48)) := by
  have hlen : (constantYear year c).length = yearHours (decide (LeapYear year)) := by
    unfold constantYear yearHours; simp
  have hlen0 : 0 < (constantYear year c).length := by
    rw [hlen]; cases decide (LeapYear year) <;> decide
  have hmem : ∀ x ∈ constantYear year c, x = c := fun x hx => (List.mem_replicate.1 hx).2
  obtain ⟨total, peak, average, peakDay, twoDay, hM, hmk⟩ := mkLoads_rgood R dot r hlen
  have hmonth : ∀ m, 1 ≤ m → m ≤ 12 → twoDay[m]? = some (List.replicate 48 c) ∧ peak[m]? = some c ∧
      average[m]? = some (a m) := by
    intro m m1 m2
    obtain ⟨t, p, a', d, w, -, e2, e3, -, e5, f, g⟩ := hM.month m m1 m2
    have hml := monthLoads_length hlen m2
    have hmon : monthLoads (decide (LeapYear year)) (constantYear year c) m =
        List.replicate (24 * monthLength (decide (LeapYear year)) m) c := by
      rw [List.eq_replicate_iff]
      exact ⟨hml, fun x hx => hmem x (List.mem_of_mem_drop (List.mem_of_mem_take hx))⟩
    rw [hmon] at f
    have hw : w = List.replicate 48 c := by
      rw [List.eq_replicate_iff]
      exact ⟨g.1, fun x hx => hmem x (window_mem hlen0 g hx)⟩
    have hp : p = c := (List.mem_replicate.1 f.peak_mem).2
    rw [e5, e2, e3, hw, hp, f.average_eq, ha, List.length_replicate]
    exact ⟨rfl, rfl, rfl⟩
  have hTe : ∀ x, keptAt R r G x 48 = T x := fun x => (hT x).symm
  have hee : ∀ m, sub R c (a m) = e m := fun m => (he m).symm
  have hqq : ∀ m, mul R (R.fl (e m / c)) c = q m := fun m => (hq m).symm
  have hstep : ∀ m, 1 ≤ m → m ≤ 12 → ∀ s : List K × List (List K) × List (List K), s.1.length = 13 →
      ∃ res, MonthResult R r G c (a m) res ∧ ∃ pk nm, durationStep R dot r twoDay peak average s (m : ℤ) =
        res.map fun d => (s.1.set m d, s.2.1 ++ [pk], s.2.2 ++ [nm]) := by
    intro m m1 m2 s hs
    obtain ⟨w1, w2, w3⟩ := hmonth m m1 m2
    exact durationStep_flat R hd hr hk hb hG h1 hc w1 w2 w3 (by omega)
  rw [hmk]
  constructor
  · rintro ⟨m, m1, m2, hpos, hlt⟩
    rw [foldlM_error (e := .valueError)
      (fun s : List K × List (List K) × List (List K) => s.1.length = 13) (b := (m : ℤ))]
    · rfl
    · rw [mem_pyRange]; omega
    · simp
    · intro n hn s hs
      rw [mem_pyRange] at hn
      obtain ⟨k, rfl⟩ : ∃ k : ℕ, n = k := ⟨n.toNat, by omega⟩
      obtain ⟨res, hres, pk, nm, h⟩ := hstep k (by omega) (by omega) s hs
      rw [h]
      cases hres with
      | none _ => exact Or.inr ⟨_, by simpa using hs, rfl⟩
      | whole _ _ => exact Or.inr ⟨_, by simpa using hs, rfl⟩
      | part _ _ _ => exact Or.inr ⟨_, by simpa using hs, rfl⟩
      | fail _ _ => exact Or.inl rfl
    · intro s hs
      obtain ⟨res, hres, pk, nm, h⟩ := hstep m m1 m2 s hs
      rw [h]
      cases hres with
      | none g => rw [hee, hqq, hTe] at g; exact absurd hpos (not_lt.2 g)
      | whole g g' => rw [hee, hqq, hTe, hTe] at g'; exact absurd hlt (by rw [g']; exact lt_irrefl _)
      | part d g g' => rw [hee, hqq, hTe, hTe] at g'; exact absurd hlt (not_lt.2 g'.le)
      | fail g g' => rfl
  · intro hok
    have key := foldlM_pyRange_inv (f := durationStep R dot r twoDay peak average)
      (fun (n : ℤ) (s : List K × List (List K) × List (List K)) => s.1.length = 13 ∧
        ∀ m : ℕ, 1 ≤ m → (m : ℤ) < n → ∃ d, s.1[m]? = some d ∧ (T (q m) ≤ 0 → d = R.fl (1 / 1000000)) ∧
          (0 < T (q m) → T (q m) = T (e m) → d = 48))
      (a := 1) (b := 13) (by norm_num) (s := (List.replicate 13 0, [[0]], [[0]])) ?_ ?_
    · obtain ⟨⟨d, pk, nm⟩, hf, hl, hd⟩ := key
      rw [hf]
      exact ⟨_, rfl, hl, fun m m1 m2 => hd m m1 (by omega)⟩
    · intro n s n1 n2 ⟨hl, hs⟩
      obtain ⟨m, rfl⟩ : ∃ m : ℕ, n = m := ⟨n.toNat, by omega⟩
      obtain ⟨res, hres, pk, nm, h⟩ := hstep m (by omega) (by omega) s hl
      have hset : ∀ d : K, (T (q m) ≤ 0 → d = R.fl (1 / 1000000)) → (0 < T (q m) → T (q m) = T (e m) → d = 48) →
          ∀ m' : ℕ, 1 ≤ m' → (m' : ℤ) < (m : ℤ) + 1 → ∃ d', (s.1.set m d)[m']? = some d' ∧
            (T (q m') ≤ 0 → d' = R.fl (1 / 1000000)) ∧ (0 < T (q m') → T (q m') = T (e m') → d' = 48) := by
        intro d d1 d2 m' h1' h2'
        by_cases hmm : m' = m
        · subst hmm
          exact ⟨d, by rw [List.getElem?_set_self (by omega)], d1, d2⟩
        · rw [List.getElem?_set_ne (by omega)]
          exact hs m' h1' (by omega)
      rw [h]
      cases hres with
      | none g =>
        rw [hee, hqq, hTe] at g
        exact ⟨_, rfl, by simpa using hl, hset _ (fun _ => rfl) fun g' => absurd g' (not_lt.2 g)⟩
      | whole g g' =>
        rw [hee, hqq, hTe] at g
        exact ⟨_, rfl, by simpa using hl, hset _ (fun g' => absurd g (not_lt.2 g')) fun _ _ => rfl⟩
      | part d g g' =>
        rw [hee, hqq, hTe] at g
        rw [hee, hqq, hTe, hTe] at g'
        exact ⟨_, rfl, by simpa using hl, hset _ (fun g'' => absurd g (not_lt.2 g'')) fun _ g'' => absurd g'' g'.ne⟩
      | fail g g' =>
        rw [hee, hqq, hTe] at g
        rw [hee, hqq, hTe, hTe] at g'
        exact absurd (hok m (by omega) (by omega) g) (not_le.2 g')
    · exact ⟨by simp, fun m m1 m2 => by omega⟩

theorem sum_whole (R : Rounding K) (c : ℤ) : ∀ n k : ℕ, |((k + n : ℕ) : ℤ) * c| ≤ 2 ^ 53 → 0 ≤ c →
    (List.replicate n (c : K)).foldl (add R) ((k : K) * c) = ((k + n : ℕ) : K) * c := by
  intro n
  induction n with
  | zero => intro k _ _; rfl
  | succ n ih =>
    intro k hk hc
    rw [List.replicate_succ, List.foldl_cons]
    have : add R ((k : K) * c) c = ((k + 1 : ℕ) : K) * c := by
      unfold add
      rw [show (k : K) * c + c = ((((k + 1 : ℕ) : ℤ) * c : ℤ) : K) by push_cast; ring]
      rw [R.int _ ?_]
      · push_cast; ring
      · refine le_trans ?_ hk
        rw [abs_of_nonneg (by positivity), abs_of_nonneg (by positivity)]
        exact mul_le_mul_of_nonneg_right (by push_cast; omega) hc
    rw [this, ih (k + 1) (by rwa [show k + 1 + n = k + (n + 1) by ring]) hc, show k + 1 + n = k + (n + 1) by ring]

/-- C124: with a whole number of kW (below `2^43`) in every hour nothing is lost in rounding: constructing `Loads` succeeds and
all peaks last a millionth of an hour. -/
theorem C124_whole (R : Rounding K) {dot : List K → List K → K} (hd : DotLike R dot) {r : Resp K} {G : ℕ → K}
    (hr : ∀ t : ℕ, 1 ≤ t → t ≤ 48 → r.g (t : ℤ) = .ok (G t)) (hk : 0 < r.twoPiK) (hb : 0 ≤ r.Rb)
    (hG : ∀ t, 1 ≤ t → t < 48 → G t ≤ G (t + 1)) (h1 : 0 ≤ G 1) (year : ℤ) {c : ℤ} (hc : 0 < c) (hc' : c ≤ 2 ^ 43) :
    ∃ L, mkLoads R dot r (constantYear year (c : K)) year = .ok L ∧ L.duration.length = 13 ∧
      ∀ m, 1 ≤ m → m ≤ 12 → L.duration[m]? = some (R.fl (1 / 1000000)) := by
  have hcK : (0 : K) < c := by exact_mod_cast hc
  have key := (C124_constant R hd hr hk hb hG h1 year hcK (fun _ => rfl) (fun _ => rfl) (fun _ => rfl) (fun _ => rfl)).2
  have ha : ∀ m, 1 ≤ m → m ≤ 12 → R.fl (sum R (List.replicate (24 * monthLength (decide (LeapYear year)) m) (c : K)) /
      ((24 * monthLength (decide (LeapYear year)) m : ℕ) : K)) = c := by
    intro m m1 m2
    have hb := monthLength_bounds (decide (LeapYear year)) m1 m2
    set n := 24 * monthLength (decide (LeapYear year)) m with hn
    have hnK : ((n : ℕ) : K) ≠ 0 := by exact_mod_cast (by omega : n ≠ 0)
    have hs := sum_whole R c n 0 (by
      rw [zero_add, abs_of_nonneg (by positivity)]
      have : (n : ℤ) * c ≤ 744 * 2 ^ 43 := mul_le_mul (by omega) hc' hc.le (by norm_num)
      exact this.trans (by norm_num)) hc.le
    rw [Nat.cast_zero, zero_mul, zero_add] at hs
    unfold sum
    rw [hs, mul_div_cancel_left₀ _ hnK]
    exact R.int c (by rw [abs_of_pos hc]; exact hc'.trans (by norm_num))
  have hz : ∀ m, 1 ≤ m → m ≤ 12 → ∀ x, x = R.fl (sum R (List.replicate (24 * monthLength (decide (LeapYear year)) m) (c : K)) /
      ((24 * monthLength (decide (LeapYear year)) m : ℕ) : K)) → R.fl (R.fl (R.fl ((c : K) - x) / c) * c) = 0 := by
    intro m m1 m2 x hx
    rw [hx, ha m m1 m2, sub_self, fl_zero, zero_div, fl_zero, zero_mul, fl_zero]
  have hT : R.fl (R.fl (R.fl (R.fl 0 / r.twoPiK) * G 48) + R.fl (0 * r.Rb)) = 0 := by
    rw [fl_zero, zero_div, fl_zero, zero_mul, fl_zero, zero_mul, fl_zero, add_zero, fl_zero]
  obtain ⟨L, hL, hl, hdur⟩ := key (by
    intro m m1 m2 h
    rw [hz m m1 m2 _ rfl, hT] at h
    exact absurd h (lt_irrefl _))
  refine ⟨L, hL, hl, fun m m1 m2 => ?_⟩
  obtain ⟨d, e1, e2, -⟩ := hdur m m1 m2
  rw [hz m m1 m2 _ rfl, hT] at e2
  rw [e1, e2 le_rfl]

/-- C124: in exact arithmetic every constant load has peaks of a millionth of an hour. -/
theorem C124_constant_exact {r : Resp K} {G : ℕ → K}
    (hr : ∀ t : ℕ, 1 ≤ t → t ≤ 48 → r.g (t : ℤ) = .ok (G t)) (hk : 0 < r.twoPiK) (hb : 0 ≤ r.Rb)
    (hG : ∀ t, 1 ≤ t → t < 48 → G t ≤ G (t + 1)) (h1 : 0 ≤ G 1) (year : ℤ) {c : K} (hc : 0 < c) :
    ∃ L, GL.mkLoads r (constantYear year c) year = .ok L ∧
      ∀ m, 1 ≤ m → m ≤ 12 → L.duration[m]? = some (1 / 1000000) := by
  have hdot : DotLike (Rounding.exact (K := K)) (fun w g => (List.zipWith (· * ·) w g).sum) := by
    intro a n g l _
    have hz : ∀ (n : ℕ) (l : List K), (List.zipWith (· * ·) (List.replicate n (0 : K)) l).sum = 0 := by
      intro n
      induction n with
      | zero => intro l; rfl
      | succ n ih =>
        intro l
        cases l with
        | nil => rfl
        | cons y l => rw [List.replicate_succ, List.zipWith_cons_cons, List.sum_cons, ih, zero_mul, add_zero]
    dsimp only
    rw [List.zipWith_cons_cons, List.sum_cons, hz, add_zero]
    rfl
  have ha : ∀ m, 1 ≤ m → m ≤ 12 → c = Rounding.exact.fl
      (sum Rounding.exact (List.replicate (24 * monthLength (decide (LeapYear year)) m) c) /
        ((24 * monthLength (decide (LeapYear year)) m : ℕ) : K)) := by
    intro m m1 m2
    have hb := monthLength_bounds (decide (LeapYear year)) m1 m2
    set n := 24 * monthLength (decide (LeapYear year)) m with hn
    have hnK : ((n : ℕ) : K) ≠ 0 := by exact_mod_cast (by omega : n ≠ 0)
    have hs : sum Rounding.exact (List.replicate n c) = n * c := by
      unfold sum
      rw [show (add Rounding.exact : K → K → K) = (· + ·) from rfl, ← List.sum_eq_foldl, List.sum_replicate, nsmul_eq_mul]
    rw [hs]
    exact (mul_div_cancel_left₀ c hnK).symm
  have hfl : ∀ x : K, Rounding.exact.fl x = x := fun _ => rfl
  obtain ⟨L, hL, -, hdur⟩ := (C124_constant Rounding.exact hdot hr hk hb hG h1 year hc (fun _ => rfl) (fun _ => rfl)
    (fun _ => rfl) (fun _ => rfl)).2 (by
      intro m m1 m2 h
      rw [← ha m m1 m2] at h
      simp [hfl] at h)
  rw [C124_exact] at hL
  refine ⟨L, hL, fun m m1 m2 => ?_⟩
  obtain ⟨d, e1, e2, -⟩ := hdur m m1 m2
  rw [← ha m m1 m2] at e2
  rw [e1, e2 (by simp [hfl])]
  rfl

/-! ### two constant loads in double precision -/

/-- a response that rises steadily with time, 1/16 per hour -/
def steady : Resp ℚ := ⟨fun t => .ok ((t : ℚ) / 16), 25 / 2, 1 / 8⟩

theorem steady_g (t : ℕ) (_ : 1 ≤ t) (_ : t ≤ 48) : steady.g (t : ℤ) = .ok ((t : ℚ) / 16) := rfl

/-- 6.1 and 0.9 in double precision -/
theorem double_61 : double (61 / 10 : ℚ) = 3433994715870003 / 562949953421312 := by decide +kernel
theorem double_09 : double (9 / 10 : ℚ) = 8106479329266893 / 9007199254740992 := by decide +kernel

/-- the average over a month of 31 days at 6.1 kW as computed, a little below 6.1 -/
theorem average_61 : dbl.fl (sum dbl (List.replicate 744 (3433994715870003 / 562949953421312 : ℚ)) / 744) =
    6867989431739981 / 1125899906842624 := by
  decide +kernel
theorem average_09_31 : dbl.fl (sum dbl (List.replicate 744 (8106479329266893 / 9007199254740992 : ℚ)) / 744) =
    2026619832316695 / 2251799813685248 := by
  decide +kernel
theorem average_09_30 : dbl.fl (sum dbl (List.replicate 720 (8106479329266893 / 9007199254740992 : ℚ)) / 720) =
    8106479329266783 / 9007199254740992 := by
  decide +kernel
theorem average_09_28 : dbl.fl (sum dbl (List.replicate 672 (8106479329266893 / 9007199254740992 : ℚ)) / 672) =
    4053239664633395 / 4503599627370496 := by
  decide +kernel

/-- C124: 6.1 kW in every hour of the year 2019.  In double precision constructing `Loads` raises `ValueError`, in whichever
order the dot products are added up; in exact arithmetic it succeeds. -/
theorem C124_constant_raises {dot : List ℚ → List ℚ → ℚ} (hd : DotLike dbl dot) :
    mkLoads dbl dot steady (constantYear 2019 (double (61 / 10))) 2019 = .error .valueError ∧
    ∃ L, GL.mkLoads steady (constantYear 2019 (double (61 / 10 : ℚ))) 2019 = .ok L := by
  constructor
  · rw [double_61]
    refine (C124_constant dbl hd (G := fun t => (t : ℚ) / 16) steady_g (by decide +kernel) (by decide +kernel)
      (fun t _ _ => by push_cast; linarith) (by norm_num) 2019 (by norm_num)
      (fun _ => rfl) (fun _ => rfl) (fun _ => rfl) (fun _ => rfl)).1 ⟨1, le_rfl, by norm_num, ?_⟩
    have hm : 24 * monthLength (decide (LeapYear 2019)) 1 = 744 := by decide
    rw [hm, Nat.cast_ofNat, average_61]
    decide +kernel
  · obtain ⟨L, hL, -⟩ := C58_year (G := fun t => (t : ℚ) / 16) steady_g (by decide +kernel)
      (fun t _ _ => by push_cast; linarith) (by norm_num [steady])
      (hourly := constantYear 2019 (double (61 / 10 : ℚ))) (year := 2019) (by unfold constantYear; rw [List.length_replicate])
      (fun x hx => by rw [(List.mem_replicate.1 hx).2, double_61]; norm_num)
      (ClearPeaks.of_all fun m _ _ p hp _ x hx => by
        rw [(List.mem_replicate.1 hx).2,
          (List.mem_replicate.1 (List.mem_of_mem_drop (List.mem_of_mem_take hp))).2]
        exact Or.inl le_rfl)
    exact ⟨L, hL⟩

/-- C124: 0.9 kW in every hour of the year 2019.  In double precision every month has a peak of 48 hours, in exact arithmetic
of a millionth of an hour. -/
theorem C124_constant_48 {dot : List ℚ → List ℚ → ℚ} (hd : DotLike dbl dot) :
    ∃ L L', mkLoads dbl dot steady (constantYear 2019 (double (9 / 10))) 2019 = .ok L ∧
      GL.mkLoads steady (constantYear 2019 (double (9 / 10 : ℚ))) 2019 = .ok L' ∧
      ∀ m, 1 ≤ m → m ≤ 12 → L.duration[m]? = some 48 ∧ L'.duration[m]? = some (1 / 1000000) := by
  obtain ⟨L', hL', hd'⟩ := C124_constant_exact (r := steady) (G := fun t => (t : ℚ) / 16) steady_g (by decide +kernel)
    (by decide +kernel) (fun t _ _ => by push_cast; linarith) (by norm_num) 2019 (c := double (9 / 10))
    (by rw [double_09]; norm_num)
  rw [double_09] at hL' ⊢
  have h := (C124_constant dbl hd (G := fun t => (t : ℚ) / 16) steady_g (by decide +kernel) (by decide +kernel)
      (fun t _ _ => by push_cast; linarith) (by norm_num) 2019 (c := 8106479329266893 / 9007199254740992) (by norm_num)
      (fun _ => rfl) (fun _ => rfl) (fun _ => rfl) (fun _ => rfl)).2
  have hm : ∀ m, 1 ≤ m → m ≤ 12 → 24 * monthLength (decide (LeapYear 2019)) m = 744 ∨
      24 * monthLength (decide (LeapYear 2019)) m = 720 ∨ 24 * monthLength (decide (LeapYear 2019)) m = 672 := by
    intro m m1 m2
    interval_cases m <;> decide
  obtain ⟨L, hL, -, hdur⟩ := h (by
    intro m m1 m2
    rcases hm m m1 m2 with e | e | e
    · rw [e, Nat.cast_ofNat, average_09_31]; decide +kernel
    · rw [e, Nat.cast_ofNat, average_09_30]; decide +kernel
    · rw [e, Nat.cast_ofNat, average_09_28]; decide +kernel)
  refine ⟨L, L', hL, hL', fun m m1 m2 => ⟨?_, hd' m m1 m2⟩⟩
  obtain ⟨d, e1, -, e2⟩ := hdur m m1 m2
  rw [e1]
  rcases hm m m1 m2 with e | e | e
  · rw [e, Nat.cast_ofNat, average_09_31] at e2
    rw [e2 (by decide +kernel) (by decide +kernel)]
  · rw [e, Nat.cast_ofNat, average_09_30] at e2
    rw [e2 (by decide +kernel) (by decide +kernel)]
  · rw [e, Nat.cast_ofNat, average_09_28] at e2
    rw [e2 (by decide +kernel) (by decide +kernel)]

/-- the hypotheses on the dot product are met by adding up from the left -/
example : DotLike dbl (dotLeft dbl) := dotLeft_like dbl

/-- C124_monthly is about something: 0.9 kW all year, in double precision -/
example : ∃ L, mkLoads dbl (dotLeft dbl) steady (constantYear 2019 (double (9 / 10))) 2019 = .ok L := by
  obtain ⟨L, _, h, _⟩ := C124_constant_48 (dotLeft_like dbl)
  exact ⟨L, h⟩

/-- a whole number of kilowatts all year, in double precision, is as in exact arithmetic -/
example : ∃ L, mkLoads dbl (dotLeft dbl) steady (constantYear 2020 ((61 : ℤ) : ℚ)) 2020 = .ok L ∧ L.duration.length = 13 ∧
    ∀ m, 1 ≤ m → m ≤ 12 → L.duration[m]? = some (dbl.fl (1 / 1000000)) :=
  C124_whole dbl (dotLeft_like dbl) (G := fun t => (t : ℚ) / 16) steady_g (by decide +kernel) (by decide +kernel)
    (fun t _ _ => by push_cast; linarith) (by norm_num) 2020 (by norm_num) (by norm_num)

/-- 6.1 kW all year, added up from the left in double precision, raises -/
example : mkLoads dbl (dotLeft dbl) steady (constantYear 2019 (double (61 / 10))) 2019 = .error .valueError :=
  (C124_constant_raises (dotLeft_like dbl)).1

end Ghedt.Rounded
