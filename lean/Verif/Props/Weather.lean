import Verif.Spec.Weather
import Mathlib.Algebra.BigOperators.Fin
import Mathlib.Algebra.BigOperators.Group.List.Basic
import Mathlib.Algebra.BigOperators.Intervals
import Mathlib.Analysis.Real.Pi.Bounds
import Mathlib.Tactic.Linarith
import Mathlib.Tactic.FieldSimp
import Mathlib.Tactic.Ring
import Mathlib.Tactic.NormNum
import Mathlib.Tactic.IntervalCases

/-!
# C43, C44: weather interpolation and solar position
-/

namespace HLC.Weather
open HLC.Spec

/-! ## Interpolation -/

theorem flatten_getElem? {α : Type} (m : ℕ) : ∀ (L : List (List α)), (∀ l ∈ L, l.length = m) → ∀ k q, q < m →
    L.flatten[k * m + q]? = (L[k]?).bind (·[q]?)
  | [], _, k, q, _ => by simp
  | l :: L, h, 0, q, hq => by
    have hl : l.length = m := h l (by simp)
    simp [List.flatten_cons, List.getElem?_append, hl, hq]
  | l :: L, h, k + 1, q, hq => by
    have hl : l.length = m := h l (by simp)
    have hn : ¬ ((k + 1) * m + q < l.length) := by rw [hl]; nlinarith
    have he : (k + 1) * m + q - l.length = k * m + q := by rw [hl, Nat.succ_mul]; omega
    rw [List.flatten_cons, List.getElem?_append, if_neg hn, he, flatten_getElem? m L (fun l hl => h l (by simp [hl])) k q hq]
    simp

theorem interp2d_get {n : ℕ} (alpha : List ℝ) (d1 d2 : Fin n → ℝ) (k : Fin n) (q : Fin alpha.length) :
    (interp2d alpha d1 d2)[(k : ℕ) * alpha.length + q]? = some (alpha[q] * d1 k + (1 - alpha[q]) * d2 k) := by
  unfold interp2d
  rw [flatten_getElem? alpha.length _ (by intro l hl; obtain ⟨i, rfl⟩ := (List.mem_ofFn' _ _).1 hl; simp) k q q.isLt]
  simp

theorem interp2d_length {n : ℕ} (alpha : List ℝ) (d1 d2 : Fin n → ℝ) : (interp2d alpha d1 d2).length = n * alpha.length := by
  unfold interp2d
  rw [List.length_flatten, List.map_ofFn]
  simp [Function.comp_def]

theorem roll1_eq {n : ℕ} (a : Fin n → ℝ) (hn : 0 < n) (k : Fin n) : roll1 a k = atHour a hn k := rfl

theorem atHour_succ {n : ℕ} (a : Fin n → ℝ) (hn : 0 < n) (k : Fin n) : atHour a hn (k + 1) = a k := by
  unfold atHour
  congr 1
  apply Fin.ext
  simp only
  rw [show (k : ℕ) + 1 + (n - 1) = k + n by omega, Nat.add_mod_right, Nat.mod_eq_of_lt k.isLt]

/-- **C43 (interpolation).** For an admissible interval the interpolation succeeds; the result has `n` times the number of values per
hour; value `q` of hour `k` is the linear interpolation, at the fraction `q / perHour`, between the value at hour `k` and the value at
hour `k + 1`, where the hourly record begins at 1:00 and is cyclic. -/
theorem C43_interpolation {n : ℕ} (data : Fin n → ℝ) (hn : 0 < n) (interval : String) (hi : IsInterval interval) :
    ∃ l, interpolate data interval = .ok l ∧ l.length = n * perHour interval ∧
      ∀ k < n, ∀ q < perHour interval, l[k * perHour interval + q]? =
        some ((1 - (q : ℝ) / perHour interval) * atHour data hn k + (q : ℝ) / perHour interval * atHour data hn (k + 1)) := by
  rcases hi with rfl | rfl | rfl
  · refine ⟨List.ofFn (roll1 data), rfl, by simp [perHour], ?_⟩
    intro k hk q hq
    have hq0 : q = 0 := by simp [perHour] at hq; exact hq
    subst hq0
    have := roll1_eq data hn ⟨k, hk⟩
    simp [perHour, hk, this]
  · refine ⟨interp2d [1, 0.5] (roll1 data) data, rfl, by simp [interp2d_length, perHour], ?_⟩
    intro k hk q hq
    have hp : perHour "30m" = 2 := by simp [perHour]
    rw [hp] at hq ⊢
    have h1 := roll1_eq data hn ⟨k, hk⟩
    have h2 := atHour_succ data hn ⟨k, hk⟩
    have := interp2d_get [1, 0.5] (roll1 data) data ⟨k, hk⟩ ⟨q, hq⟩
    simp only [List.length_cons, List.length_nil] at this
    rw [show k * 2 + q = k * (0 + 1 + 1) + q by ring, this, h1]
    simp only at h2
    rw [h2]
    interval_cases q <;> (simp; try norm_num)
  · refine ⟨interp2d [1, 0.75, 0.5, 0.25] (roll1 data) data, rfl, by simp [interp2d_length, perHour], ?_⟩
    intro k hk q hq
    have hp : perHour "15m" = 4 := by simp [perHour]
    rw [hp] at hq ⊢
    have h1 := roll1_eq data hn ⟨k, hk⟩
    have h2 := atHour_succ data hn ⟨k, hk⟩
    have := interp2d_get [1, 0.75, 0.5, 0.25] (roll1 data) data ⟨k, hk⟩ ⟨q, hq⟩
    simp only [List.length_cons, List.length_nil] at this
    rw [show k * 4 + q = k * (0 + 1 + 1 + 1 + 1) + q by ring, this, h1]
    simp only at h2
    rw [h2]
    interval_cases q <;> (simp; try norm_num)

/-- The hypotheses are met by the yearly record. -/
example (data : Fin 8760 → ℝ) : ∃ l, interpolate data "15m" = .ok l ∧ l.length = 35040 := by
  obtain ⟨l, h, hl, -⟩ := C43_interpolation data (by norm_num) "15m" (by simp [IsInterval])
  exact ⟨l, h, by rw [hl]; simp [perHour]⟩

/-- **C43 (refusal).** Every other interval is refused with a KeyError. -/
theorem C43_rejected {n : ℕ} (data : Fin n → ℝ) (interval : String) (hi : ¬ IsInterval interval) :
    interpolate data interval = .error .keyError := by
  simp only [IsInterval, not_or] at hi
  obtain ⟨h1, h2, h3⟩ := hi
  unfold interpolate alphas
  rw [if_neg h1, if_neg h2, if_neg h3]
  rfl

/-- **C43 (hour marks and bounds).** Hour marks keep the hourly value, and every value lies between the two neighbouring hourly ones. -/
theorem C43_marks_and_bounds {n : ℕ} (data : Fin n → ℝ) (hn : 0 < n) {interval : String} {l : List ℝ}
    (H : interpolate data interval = .ok l) :
    (∀ k < n, l[k * perHour interval]? = some (atHour data hn k)) ∧
    (∀ k < n, ∀ q < perHour interval, ∃ x, l[k * perHour interval + q]? = some x ∧
      min (atHour data hn k) (atHour data hn (k + 1)) ≤ x ∧ x ≤ max (atHour data hn k) (atHour data hn (k + 1))) := by
  have hi : IsInterval interval := by
    by_contra hc
    rw [C43_rejected data interval hc] at H
    cases H
  obtain ⟨l', h', -, hv⟩ := C43_interpolation data hn interval hi
  have : l' = l := Except.ok.inj (h'.symm.trans H)
  subst this
  have hp : 0 < perHour interval := by unfold perHour; split <;> [norm_num; (split <;> norm_num)]
  refine ⟨fun k hk => ?_, fun k hk q hq => ⟨_, hv k hk q hq, ?_⟩⟩
  · have := hv k hk 0 hp
    simpa using this
  · have h0 : (0 : ℝ) ≤ (q : ℝ) / perHour interval := by positivity
    have h1 : (q : ℝ) / perHour interval ≤ 1 := by
      rw [div_le_one (by exact_mod_cast hp)]
      exact_mod_cast hq.le
    generalize (q : ℝ) / perHour interval = r at h0 h1
    generalize atHour data hn k = a
    generalize atHour data hn (k + 1) = b
    constructor
    · nlinarith [min_le_left a b, min_le_right a b, mul_le_mul_of_nonneg_left (min_le_left a b) (sub_nonneg.2 h1),
        mul_le_mul_of_nonneg_left (min_le_right a b) h0]
    · nlinarith [mul_le_mul_of_nonneg_left (le_max_left a b) (sub_nonneg.2 h1),
        mul_le_mul_of_nonneg_left (le_max_right a b) h0]

theorem sum_roll1 {n : ℕ} (a : Fin n → ℝ) : ∑ k, roll1 a k = ∑ k, a k := by
  rcases n with _ | n
  · simp
  · have : ∀ k, roll1 a k = a (k + Fin.last n) := by
      intro k
      unfold roll1
      congr 1
    simp only [this]
    exact Fintype.sum_equiv (Equiv.addRight (Fin.last n)) _ _ (fun _ => rfl)

theorem interp2d_sum {n : ℕ} (alpha : List ℝ) (d1 d2 : Fin n → ℝ) :
    (interp2d alpha d1 d2).sum = alpha.sum * ∑ k, d1 k + (alpha.length - alpha.sum) * ∑ k, d2 k := by
  have hrow : ∀ (x y : ℝ), (alpha.map fun a => a * x + (1 - a) * y).sum = alpha.sum * x + (alpha.length - alpha.sum) * y := by
    intro x y
    induction alpha with
    | nil => simp
    | cons a t ih => simp only [List.map_cons, List.sum_cons, ih, List.length_cons]; push_cast; ring
  unfold interp2d
  rw [List.sum_flatten, List.map_ofFn, List.sum_ofFn]
  simp only [Function.comp_def, hrow]
  rw [Finset.sum_add_distrib, Finset.mul_sum, Finset.mul_sum]

/-- **C43 (mean).** The mean over the year is preserved. -/
theorem C43_mean {n : ℕ} (data : Fin n → ℝ) (hn : 0 < n) {interval : String} {l : List ℝ} (H : interpolate data interval = .ok l) :
    l.sum / l.length = (∑ k, data k) / n := by
  have hn' : (n : ℝ) ≠ 0 := by exact_mod_cast hn.ne'
  unfold interpolate at H
  split at H
  · cases H
    rw [List.sum_ofFn, sum_roll1, List.length_ofFn]
  · simp only [alphas, bind, Except.bind] at H
    split at H
    · cases H
    · rename_i alpha ha
      cases H
      split at ha
      · cases ha
        rw [interp2d_sum, interp2d_length, sum_roll1]
        simp only [List.sum_cons, List.sum_nil, List.length_cons, List.length_nil]
        push_cast
        rw [div_eq_div_iff (by norm_num; exact hn.ne') hn']
        norm_num
        ring
      · split at ha
        · cases ha
          rw [interp2d_sum, interp2d_length, sum_roll1]
          simp only [List.sum_cons, List.sum_nil, List.length_cons, List.length_nil]
          push_cast
          rw [div_eq_div_iff (by norm_num; exact hn.ne') hn']
          norm_num
          ring
        · cases ha

/-- **C43 (files).** `load` gives the interpolated columns of the file of the region, humidity in kg/kg instead of g/kg; regions outside
1 to 8 are refused. -/
theorem C43_load {n : ℕ} (read : String → Except PyErr (Columns n)) (region : ℤ) (interval : String) :
    (¬ (1 ≤ region ∧ region ≤ 8) → load read region interval = .error .keyError) ∧
    (1 ≤ region → region ≤ 8 → IsInterval interval → ∃ name, filename region = .ok name ∧ ∀ w, read name = .ok w →
      ∃ s, load read region interval = .ok s ∧ interpolate w.temperature interval = .ok s.thetaO ∧
        interpolate w.directNormal interval = .ok s.iDn ∧ interpolate w.skyHorizontal interval = .ok s.iSky ∧
        interpolate w.outward interval = .ok s.rN ∧ ∃ x, interpolate w.humidity interval = .ok x ∧ s.xO = x.map (· / 1000)) := by
  constructor
  · intro h
    have : filename region = .error .keyError := by
      unfold filename
      rw [if_neg (by omega), if_neg (by omega), if_neg (by omega), if_neg (by omega), if_neg (by omega), if_neg (by omega),
        if_neg (by omega), if_neg (by omega)]
    unfold load
    rw [this]
    rfl
  · intro h1 h8 hi
    have hf : ∃ name, filename region = .ok name := by
      interval_cases region <;> exact ⟨_, rfl⟩
    obtain ⟨name, hname⟩ := hf
    refine ⟨name, hname, fun w hw => ?_⟩
    have key : ∀ a : Fin n → ℝ, ∃ l, interpolate a interval = .ok l := by
      intro a
      rcases hi with rfl | rfl | rfl <;> exact ⟨_, rfl⟩
    obtain ⟨a, ha⟩ := key w.temperature
    obtain ⟨b, hb⟩ := key w.directNormal
    obtain ⟨c, hc⟩ := key w.skyHorizontal
    obtain ⟨d, hd⟩ := key w.outward
    obtain ⟨e, he⟩ := key w.humidity
    refine ⟨⟨a, b, c, d, e.map (· / 1000)⟩, ?_, ha, hb, hc, hd, e, he, rfl⟩
    unfold load
    rw [hname]
    simp only [bind, Except.bind, hw, ha, hb, hc, hd, he]

end HLC.Weather
