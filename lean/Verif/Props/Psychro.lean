import Verif.Model.Psychrometrics
import Mathlib.Analysis.SpecialFunctions.Log.Deriv
import Mathlib.Analysis.Calculus.Deriv.MeanValue
import Mathlib.Analysis.Complex.ExponentialBounds
import Mathlib.Tactic.LinearCombination
import Mathlib.Tactic.FieldSimp
import Mathlib.Tactic.Positivity

/-!
# C54: psychrometric formulas
-/

namespace HLC

/-- C54 (positivity). -/
theorem C54_saturation_positive (θ : ℝ) : 0 < getPvs θ := by
  unfold getPvs
  simp only []
  split_ifs <;> exact Real.exp_pos _

theorem pvsExpWater_deriv {t : ℝ} (ht : 0 < t) :
    HasDerivAt pvsExpWater (6096.9385 / t ^ 2 + -0.02711193 + 0.00001673952 * (2 * t) + 2.433502 * t⁻¹) t := by
  unfold pvsExpWater
  have h1 : HasDerivAt (fun t : ℝ => -6096.9385 / t) (6096.9385 / t ^ 2) t := by
    have := (hasDerivAt_inv ht.ne').const_mul (-6096.9385 : ℝ)
    have e : (-6096.9385 : ℝ) * -(t ^ 2)⁻¹ = 6096.9385 / t ^ 2 := by rw [div_eq_mul_inv]; ring
    rw [e] at this
    exact this
  have h2 : HasDerivAt (fun t : ℝ => -0.02711193 * t) (-0.02711193) t := by
    simpa using (hasDerivAt_id t).const_mul (-0.02711193 : ℝ)
  have h3 : HasDerivAt (fun t : ℝ => 0.00001673952 * t ^ 2) (0.00001673952 * (2 * t)) t := by
    have := (hasDerivAt_pow 2 t).const_mul (0.00001673952 : ℝ)
    simpa using this
  have h4 : HasDerivAt (fun t : ℝ => 2.433502 * Real.log t) (2.433502 * t⁻¹) t := (Real.hasDerivAt_log ht.ne').const_mul _
  exact (((h1.add_const _).add h2).add h3).add h4

theorem pvsExpIce_deriv {t : ℝ} (ht : 0 < t) :
    HasDerivAt pvsExpIce (6024.5282 / t ^ 2 + 0.010613863 + -0.000013198825 * (2 * t) + -0.49382577 * t⁻¹) t := by
  unfold pvsExpIce
  have h1 : HasDerivAt (fun t : ℝ => -6024.5282 / t) (6024.5282 / t ^ 2) t := by
    have := (hasDerivAt_inv ht.ne').const_mul (-6024.5282 : ℝ)
    have e : (-6024.5282 : ℝ) * -(t ^ 2)⁻¹ = 6024.5282 / t ^ 2 := by rw [div_eq_mul_inv]; ring
    rw [e] at this
    exact this
  have h2 : HasDerivAt (fun t : ℝ => 0.010613863 * t) (0.010613863) t := by
    simpa using (hasDerivAt_id t).const_mul (0.010613863 : ℝ)
  have h3 : HasDerivAt (fun t : ℝ => -0.000013198825 * t ^ 2) (-0.000013198825 * (2 * t)) t := by
    have := (hasDerivAt_pow 2 t).const_mul (-0.000013198825 : ℝ)
    simpa using this
  have h4 : HasDerivAt (fun t : ℝ => -0.49382577 * Real.log t) (-0.49382577 * t⁻¹) t := (Real.hasDerivAt_log ht.ne').const_mul _
  exact (((h1.add_const _).add h2).add h3).add h4

theorem pvsExpWater_strictMono : StrictMonoOn pvsExpWater (Set.Ioi 0) := by
  apply strictMonoOn_of_deriv_pos (convex_Ioi 0)
  · exact fun t ht => (pvsExpWater_deriv ht).continuousAt.continuousWithinAt
  · intro t ht
    rw [interior_Ioi] at ht
    have ht' : (0 : ℝ) < t := ht
    rw [(pvsExpWater_deriv ht').deriv]
    have h2 : 0 < t ^ 2 := by positivity
    have e : 6096.9385 / t ^ 2 + -0.02711193 + 0.00001673952 * (2 * t) + 2.433502 * t⁻¹
        = (6096.9385 + -0.02711193 * t ^ 2 + 0.00001673952 * 2 * t ^ 3 + 2.433502 * t) / t ^ 2 := by
      rw [eq_div_iff h2.ne']
      have : t⁻¹ * t = 1 := inv_mul_cancel₀ ht'.ne'
      have h5 : 6096.9385 / t ^ 2 * t ^ 2 = 6096.9385 := div_mul_cancel₀ _ h2.ne'
      linear_combination h5 + 2.433502 * t * this
    rw [e]
    apply div_pos _ h2
    nlinarith [sq_nonneg (t - 540), mul_nonneg ht'.le (sq_nonneg (t - 540))]

theorem pvsExpIce_strictMono : StrictMonoOn pvsExpIce (Set.Ioc 0 273.15) := by
  apply strictMonoOn_of_deriv_pos (convex_Ioc 0 273.15)
  · exact fun t ht => (pvsExpIce_deriv ht.1).continuousAt.continuousWithinAt
  · intro t ht
    rw [interior_Ioc] at ht
    have ht' : (0 : ℝ) < t := ht.1
    have ht2 : t < 273.15 := ht.2
    rw [(pvsExpIce_deriv ht').deriv]
    have h2 : 0 < t ^ 2 := by positivity
    have e : 6024.5282 / t ^ 2 + 0.010613863 + -0.000013198825 * (2 * t) + -0.49382577 * t⁻¹
        = (6024.5282 + 0.010613863 * t ^ 2 + -0.000013198825 * 2 * t ^ 3 + -0.49382577 * t) / t ^ 2 := by
      rw [eq_div_iff h2.ne']
      have : t⁻¹ * t = 1 := inv_mul_cancel₀ ht'.ne'
      have h5 : 6024.5282 / t ^ 2 * t ^ 2 = 6024.5282 := div_mul_cancel₀ _ h2.ne'
      linear_combination h5 + -0.49382577 * t * this
    rw [e]
    apply div_pos _ h2
    nlinarith [mul_nonneg h2.le (sub_nonneg.mpr ht2.le)]

theorem log_freezing : 5.61 < Real.log 273.15 := by
  have h1 := Real.sum_range_le_log_div (x := 17.15 / 529.15) (by norm_num) (by norm_num) 3
  rw [show ((1 : ℝ) + 17.15 / 529.15) / (1 - 17.15 / 529.15) = 273.15 / 2 ^ 8 by norm_num,
    Real.log_div (by norm_num) (by norm_num), Real.log_pow] at h1
  norm_num [Finset.sum_range_succ] at h1
  have h2 := Real.log_two_gt_d9
  norm_num at h1 h2 ⊢
  linarith

/-- The two formulas almost meet at 0 degC: ice stays below water. -/
theorem pvs_junction : pvsExpIce 273.15 < pvsExpWater 273.15 := by
  have h := log_freezing
  unfold pvsExpIce pvsExpWater
  generalize Real.log 273.15 = L at h ⊢
  norm_num
  linarith

/-- **C54 (monotone).** Saturation vapour pressure strictly increases with temperature above absolute zero, across the change of
formula at 0 degC. -/
theorem C54_saturation_increasing {a b : ℝ} (ha : -273.15 < a) (hab : a < b) : getPvs a < getPvs b := by
  unfold getPvs
  simp only []
  by_cases h1 : a ≥ 0
  · rw [if_pos h1, if_pos (by linarith)]
    exact Real.exp_lt_exp.mpr (pvsExpWater_strictMono (show (0 : ℝ) < a + 273.15 by linarith)
      (show (0 : ℝ) < b + 273.15 by linarith) (by linarith))
  · rw [if_neg h1]
    have h1' : a < 0 := not_le.mp h1
    have i0 : a + 273.15 ∈ Set.Ioc (0 : ℝ) 273.15 := ⟨by linarith, by linarith⟩
    by_cases h2 : b ≥ 0
    · rw [if_pos h2]
      apply Real.exp_lt_exp.mpr
      have e1 : pvsExpIce (a + 273.15) < pvsExpIce 273.15 :=
        pvsExpIce_strictMono i0 ⟨by norm_num, le_rfl⟩ (by linarith)
      have e2 : pvsExpWater 273.15 ≤ pvsExpWater (b + 273.15) :=
        pvsExpWater_strictMono.monotoneOn (show (0 : ℝ) < 273.15 by norm_num) (show (0 : ℝ) < b + 273.15 by linarith) (by linarith)
      linarith [pvs_junction]
    · rw [if_neg h2]
      have h2' : b < 0 := not_le.mp h2
      exact Real.exp_lt_exp.mpr (pvsExpIce_strictMono i0 ⟨by linarith, by linarith⟩ (by linarith))

theorem pvs_90 : getPvs 90 < 101325 := by
  unfold getPvs
  simp only []
  rw [if_pos (by norm_num)]
  have hlog : Real.log (90 + 273.15) ≤ 5.97 := by
    have e : (90 : ℝ) + 273.15 = 2 ^ 8 * (363.15 / 256) := by norm_num
    rw [e, Real.log_mul (by norm_num) (by norm_num), Real.log_pow]
    have h1 := Real.log_two_lt_d9
    have h2 := Real.log_le_sub_one_of_pos (show (0 : ℝ) < 363.15 / 256 by norm_num)
    norm_num at h1 h2 ⊢
    linarith
  have hy : pvsExpWater (90 + 273.15) ≤ 11.5 := by
    unfold pvsExpWater
    generalize Real.log (90 + 273.15) = L at hlog ⊢
    norm_num at hlog ⊢
    linarith
  refine lt_of_le_of_lt (Real.exp_le_exp.mpr hy) ?_
  have h23 : Real.exp 11.5 ^ 2 < 101325 ^ 2 := by
    rw [← Real.exp_nat_mul, show ((2 : ℕ) : ℝ) * 11.5 = ((23 : ℕ) : ℝ) * 1 by norm_num, Real.exp_nat_mul]
    have := Real.exp_one_lt_d9
    calc Real.exp 1 ^ 23 ≤ 2.7182818286 ^ 23 := pow_le_pow_left₀ (Real.exp_pos 1).le this.le 23
      _ < 101325 ^ 2 := by norm_num
  exact lt_of_pow_lt_pow_left₀ 2 (by norm_num) h23

/-- Saturation pressure is below atmospheric pressure up to 90 degC. -/
theorem pvs_lt_atm {θ : ℝ} (h0 : -273.15 < θ) (h1 : θ ≤ 90) : getPvs θ < 101325 := by
  rcases lt_or_eq_of_le h1 with h2 | h2
  · exact (C54_saturation_increasing h0 h2).trans pvs_90
  · rw [h2]; exact pvs_90

/-- **C54 (humidity ratio).** Below atmospheric pressure the humidity ratio is non-negative and strictly increasing in the vapour
pressure. -/
theorem C54_humidity_ratio {p q : ℝ} (hp : 0 ≤ p) (hpq : p < q) (hq : q < 101325) : 0 ≤ getX p ∧ getX p < getX q := by
  unfold getX getF
  have h1 : 0 < 101325 - q := by linarith
  have h2 : 0 < 101325 - p := by linarith
  constructor
  · positivity
  · rw [div_lt_div_iff₀ h2 h1]
    nlinarith

/-- **C54 (round trip).** Humidity ratio to vapour pressure and back multiplies by the ratio 0.622/0.62198 of the two constants used, for
every humidity; the relative error is below 0.0033 %. -/
theorem C54_round_trip {x : ℝ} (hx : 0 ≤ x) : getX (getPvR x) = 0.622 / 0.62198 * x ∧
    |getX (getPvR x) - x| ≤ 0.000033 * x := by
  have hd : x + 0.62198 ≠ 0 := by positivity
  have e : getX (getPvR x) = 0.622 / 0.62198 * x := by
    unfold getX getPvR getF
    have h1 : 101325 - 101325 * x / (x + 0.62198) = 101325 * 0.62198 / (x + 0.62198) := by
      rw [eq_div_iff hd, sub_mul, div_mul_cancel₀ _ hd]; ring
    rw [h1, mul_div_assoc', div_div_div_cancel_right₀ hd]
    rw [div_eq_iff (by norm_num)]
    ring
  refine ⟨e, ?_⟩
  rw [e, abs_le]
  constructor <;> nlinarith

/-- **C54 (vapour pressure).** For non-negative humidity the vapour pressure is non-negative, below atmospheric and strictly
increasing. -/
theorem C54_vapour_pressure {x y : ℝ} (hx : 0 ≤ x) (hxy : x < y) :
    0 ≤ getPvR x ∧ getPvR x < getPvR y ∧ getPvR y < 101325 := by
  unfold getPvR getF
  have h1 : 0 < x + 0.62198 := by positivity
  have h2 : 0 < y + 0.62198 := by linarith
  refine ⟨by positivity, ?_, ?_⟩
  · rw [div_lt_div_iff₀ h1 h2]; nlinarith
  · rw [div_lt_iff₀ h2]; linarith

/-- **C54 (relative humidity).** Saturated air has 100 % relative humidity, and relative humidity is increasing in the vapour
pressure. -/
theorem C54_relative_humidity (θ : ℝ) {p q : ℝ} (h : p < q) :
    getH (getPvs θ) (getPvs θ) = 100 ∧ getH p (getPvs θ) < getH q (getPvs θ) := by
  have h0 := C54_saturation_positive θ
  unfold getH
  refine ⟨?_, ?_⟩
  · rw [div_self h0.ne']; norm_num
  · have := div_lt_div_of_pos_right h h0
    linarith

/-- The hypotheses are met: the formulas across the freezing point, at ordinary humidities. -/
example : getPvs (-5) < getPvs 0 ∧ getPvs 0 < getPvs 35 ∧ getPvs 35 < 101325 :=
  ⟨C54_saturation_increasing (by norm_num) (by norm_num), C54_saturation_increasing (by norm_num) (by norm_num),
    pvs_lt_atm (by norm_num) (by norm_num)⟩

end HLC
