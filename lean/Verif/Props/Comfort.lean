import Verif.Model.OtTargetPmv
import Verif.Spec.Mode
import Mathlib.Tactic.Linarith
import Mathlib.Tactic.FieldSimp
import Mathlib.Tactic.Ring
import Mathlib.Tactic.Positivity
import Mathlib.Tactic.NormNum

/-!
# C03 (second part), C04, C05, C06: PMV and target operative temperature
-/

namespace HLC

/-- Sensation coefficient `0.303 exp(-0.036 M) + 0.028` is positive. -/
theorem pmv_coef_pos : 0 < 0.303 * Real.exp (-0.036 * getM) + 0.028 := by positivity

theorem hHumR_pos : 0 < hHumR := by unfold hHumR; positivity
theorem hHumC_pos : 0 < hHumC := by unfold hHumC; norm_num

theorem getFcl_pos {icl : ℝ} (h : 0 ≤ icl) : 0 < getFcl icl := by
  unfold getFcl; split_ifs <;> positivity

theorem getIcl_nonneg {clo : ℝ} (h : 0 ≤ clo) : 0 ≤ getIcl clo := by unfold getIcl; positivity

theorem pmv_target_exact (clo pA h pmv : ℝ) (hc : 0 ≤ clo) (hh : 0 < h) :
    getPmv (getThetaOtTarget clo pA h pmv) clo pA h (getThetaOtTarget clo pA h pmv) = pmv := by
  have hk := pmv_coef_pos
  have hf := getFcl_pos (getIcl_nonneg hc)
  have hi := getIcl_nonneg hc
  unfold getPmv getThetaOtTarget
  simp only []
  generalize (0.303 * Real.exp (-0.036 * getM) + 0.028) = K at *
  generalize getFcl (getIcl clo) = f at *
  generalize getIcl clo = i at *
  generalize max (0.42 * (getM - 58.15)) (0 : ℝ) = s
  have hd : 0 < 1 + i * f * h := by positivity
  have hm : getM = 58.15 := rfl
  have hden : 0 < 0.0014 * getM + f * h / (1 + i * f * h) := by rw [hm]; positivity
  generalize hg : f * h / (1 + i * f * h) = g at *
  have e1 : ∀ x, f * h * x / (1 + i * f * h) = g * x := by
    intro x; rw [← hg]; field_simp
  rw [e1, e1]
  generalize 3.05 * (10 : ℝ) ^ (-3 : ℤ) * (5733 - 6.99 * getM - pA) = a
  generalize 1.7 * (10 : ℝ) ^ (-5 : ℤ) * getM * (5867 - pA) = b
  generalize getM = m at *
  have hK' := hk.ne'
  set N : ℝ := pmv / K - m + a + s + b + 0.0014 * m * 34 + g * (35.7 - 0.028 * m) with hN
  have ht : (0.0014 * m + g) * (N / (0.0014 * m + g)) = N := mul_div_cancel₀ N hden.ne'
  generalize N / (0.0014 * m + g) = t at *
  have hp : K * (pmv / K) = pmv := mul_div_cancel₀ pmv hK'
  linear_combination K * ht + K * hN + hp

/-- **C04.** For a heated or cooled room the program's own PMV at air = operative = target temperature is the target PMV:
-0.5 heating, +0.5 cooling; any other mode has target temperature 0. -/
theorem C04_target_realises_pmv (thetaR thetaMrt xR demand : ℝ) (prev : OpMode) (t : OtTarget)
    (ht : getOtTargetAndHHum thetaR thetaMrt xR prev demand = .ok t) :
    (t.mode = .heating →
      getPmv t.thetaLower 1.1 (getPvR xR) (t.hHumC + t.hHumR) t.thetaLower = -0.5 ∧ t.thetaUpper = 0) ∧
    (t.mode = .cooling →
      getPmv t.thetaUpper 0.3 (getPvR xR) (t.hHumC + t.hHumR) t.thetaUpper = 0.5 ∧ t.thetaLower = 0) ∧
    (t.mode ≠ .heating → t.mode ≠ .cooling → t.thetaLower = 0 ∧ t.thetaUpper = 0) := by
  unfold getOtTargetAndHHum at ht
  simp only [bind, Except.bind] at ht
  have hh : 0 < hHumC + hHumR := add_pos hHumC_pos hHumR_pos
  cases hm : getOperationMode demand prev (getHHumAndPmv (getPvR xR) thetaR thetaMrt cloHeavy)
    (getHHumAndPmv (getPvR xR) thetaR thetaMrt cloMiddle) (getHHumAndPmv (getPvR xR) thetaR thetaMrt cloLight) with
  | error e => rw [hm] at ht; cases ht
  | ok m =>
    rw [hm] at ht
    simp only [Except.ok.injEq] at ht
    subst ht
    refine ⟨?_, ?_, ?_⟩
    · rintro rfl
      have := pmv_target_exact 1.1 (getPvR xR) (hHumC + hHumR) (-0.5) (by norm_num) hh
      simpa [getThetaOtTargetOfMode, getClo, getPmvTarget, cloHeavy] using this
    · rintro rfl
      have := pmv_target_exact 0.3 (getPvR xR) (hHumC + hHumR) 0.5 (by norm_num) hh
      simpa [getThetaOtTargetOfMode, getClo, getPmvTarget, cloLight] using this
    · intro h1 h2
      simp [h1, h2]

/-- The hypothesis of C04 is met: with demand every legal previous mode gives a result; e.g. a cold room is heated. -/
example (thetaR thetaMrt xR : ℝ) (h : getHHumAndPmv (getPvR xR) thetaR thetaMrt cloHeavy ≤ 0.7) :
    ∃ t, getOtTargetAndHHum thetaR thetaMrt xR .heating 1 = .ok t ∧ t.mode = .heating := by
  unfold getOtTargetAndHHum getOperationMode
  simp only [bind, Except.bind, gt_iff_lt, zero_lt_one, if_true, if_pos h]
  exact ⟨_, rfl, rfl⟩

/-- PMV as an affine function of its temperature and pressure arguments. -/
theorem getPmv_affine (thetaR clo pA h ot thetaR' pA' ot' : ℝ) :
    getPmv thetaR' clo pA' h ot' - getPmv thetaR clo pA h ot =
      (0.303 * Real.exp (-0.036 * getM) + 0.028) *
        ((3.05 * (10 : ℝ) ^ (-3 : ℤ) + 1.7 * (10 : ℝ) ^ (-5 : ℤ) * getM) * (pA' - pA) + 0.0014 * getM * (thetaR' - thetaR)
          + getFcl (getIcl clo) * h / (1 + getIcl clo * getFcl (getIcl clo) * h) * (ot' - ot)) := by
  unfold getPmv
  simp only []
  ring

/-- **C05.** With the coefficients used by the program PMV strictly increases with room temperature, with mean radiant temperature
and with vapour pressure, for every non-negative clothing value. -/
theorem C05_pmv_strict_mono (clo : ℝ) (hc : 0 ≤ clo) :
    (∀ p mrt, StrictMono fun thetaR => getHHumAndPmv p thetaR mrt clo) ∧
    (∀ p thetaR, StrictMono fun mrt => getHHumAndPmv p thetaR mrt clo) ∧
    (∀ thetaR mrt, StrictMono fun p => getHHumAndPmv p thetaR mrt clo) := by
  have hk := pmv_coef_pos
  have hr := hHumR_pos
  have hcv := hHumC_pos
  have hf := getFcl_pos (getIcl_nonneg hc)
  have hi := getIcl_nonneg hc
  have hm : getM = 58.15 := rfl
  have hg : 0 < getFcl (getIcl clo) * (hHumR + hHumC) / (1 + getIcl clo * getFcl (getIcl clo) * (hHumR + hHumC)) := by
    positivity
  refine ⟨?_, ?_, ?_⟩
  · intro p mrt a b hab
    have hot : getThetaOt hHumR hHumC mrt b - getThetaOt hHumR hHumC mrt a = hHumC / (hHumR + hHumC) * (b - a) := by
      unfold getThetaOt; field_simp; ring
    have := getPmv_affine a clo p (hHumR + hHumC) (getThetaOt hHumR hHumC mrt a) b p (getThetaOt hHumR hHumC mrt b)
    rw [hot] at this
    have hba : 0 < b - a := sub_pos.mpr hab
    have hpos : 0 < getPmv b clo p (hHumR + hHumC) (getThetaOt hHumR hHumC mrt b)
        - getPmv a clo p (hHumR + hHumC) (getThetaOt hHumR hHumC mrt a) := by
      rw [this, sub_self, mul_zero, zero_add, hm]
      rw [hm] at hk
      positivity
    simp only [getHHumAndPmv]
    linarith
  · intro p thetaR a b hab
    have hot : getThetaOt hHumR hHumC b thetaR - getThetaOt hHumR hHumC a thetaR = hHumR / (hHumR + hHumC) * (b - a) := by
      unfold getThetaOt; field_simp; ring
    have := getPmv_affine thetaR clo p (hHumR + hHumC) (getThetaOt hHumR hHumC a thetaR) thetaR p
      (getThetaOt hHumR hHumC b thetaR)
    rw [hot] at this
    have hba : 0 < b - a := sub_pos.mpr hab
    have hpos : 0 < getPmv thetaR clo p (hHumR + hHumC) (getThetaOt hHumR hHumC b thetaR)
        - getPmv thetaR clo p (hHumR + hHumC) (getThetaOt hHumR hHumC a thetaR) := by
      rw [this, sub_self, sub_self, mul_zero, mul_zero, zero_add, zero_add]
      positivity
    simp only [getHHumAndPmv]
    linarith
  · intro thetaR mrt a b hab
    have := getPmv_affine thetaR clo a (hHumR + hHumC) (getThetaOt hHumR hHumC mrt thetaR) thetaR b
      (getThetaOt hHumR hHumC mrt thetaR)
    have hba : 0 < b - a := sub_pos.mpr hab
    have hpos : 0 < getPmv thetaR clo b (hHumR + hHumC) (getThetaOt hHumR hHumC mrt thetaR)
        - getPmv thetaR clo a (hHumR + hHumC) (getThetaOt hHumR hHumC mrt thetaR) := by
      rw [this, sub_self, sub_self, mul_zero, mul_zero, add_zero, add_zero, hm]
      rw [hm] at hk
      positivity
    simp only [getHHumAndPmv]
    linarith

/-- Heat transfer factor of the clothed occupant for a given clothing. -/
noncomputable def cloFactor (clo h : ℝ) : ℝ := getFcl (getIcl clo) * h / (1 + getIcl clo * getFcl (getIcl clo) * h)

theorem cloFactor_pos {clo h : ℝ} (hc : 0 ≤ clo) (hh : 0 < h) : 0 < cloFactor clo h := by
  have hf := getFcl_pos (getIcl_nonneg hc)
  have hi := getIcl_nonneg hc
  unfold cloFactor
  positivity

theorem fcl_heavy : getFcl (getIcl 1.1) = 1.1599725 := by unfold getFcl getIcl; norm_num
theorem fcl_middle : getFcl (getIcl 0.7) = 1.1199825 := by unfold getFcl getIcl; norm_num
theorem fcl_light : getFcl (getIcl 0.3) = 1.059985 := by unfold getFcl getIcl; norm_num

theorem hHum_bounds : 7.9 < hHumR + hHumC ∧ hHumR + hHumC < 8.1 := by
  unfold hHumR hHumC; norm_num

/-- More clothing means less heat transfer (program's coefficients). -/
theorem cloFactor_order :
    cloFactor 1.1 (hHumR + hHumC) < cloFactor 0.7 (hHumR + hHumC) ∧
    cloFactor 0.7 (hHumR + hHumC) < cloFactor 0.3 (hHumR + hHumC) := by
  obtain ⟨h1, h2⟩ := hHum_bounds
  generalize hHumR + hHumC = h at *
  unfold cloFactor
  rw [fcl_heavy, fcl_middle, fcl_light]
  unfold getIcl
  constructor
  · rw [div_lt_div_iff₀ (by nlinarith) (by nlinarith)]
    nlinarith
  · rw [div_lt_div_iff₀ (by nlinarith) (by nlinarith)]
    nlinarith

theorem pmv_clo_diff (thetaR p h ot c1 c2 : ℝ) :
    getPmv thetaR c1 p h ot - getPmv thetaR c2 p h ot =
      (0.303 * Real.exp (-0.036 * getM) + 0.028) * ((cloFactor c2 h - cloFactor c1 h) * (35.7 - 0.028 * getM - ot)) := by
  unfold getPmv cloFactor
  simp only []
  ring

/-- **C03 (clothing).** At operative temperatures up to 34.0718 °C more clothing is never cooler:
PMV(light) ≤ PMV(middle) ≤ PMV(heavy). -/
theorem C03_clothing_order (p thetaR mrt : ℝ)
    (hot : getThetaOt hHumR hHumC mrt thetaR ≤ 34.0718) :
    getHHumAndPmv p thetaR mrt 0.3 ≤ getHHumAndPmv p thetaR mrt 0.7 ∧
    getHHumAndPmv p thetaR mrt 0.7 ≤ getHHumAndPmv p thetaR mrt 1.1 := by
  obtain ⟨h1, h2⟩ := cloFactor_order
  have hk := pmv_coef_pos
  unfold getHHumAndPmv
  generalize hHumR + hHumC = h at *
  generalize getThetaOt hHumR hHumC mrt thetaR = ot at *
  have hm : (35.7 : ℝ) - 0.028 * getM - ot ≥ 0 := by unfold getM; linarith
  have e1 := pmv_clo_diff thetaR p h ot 0.7 0.3
  have e2 := pmv_clo_diff thetaR p h ot 1.1 0.7
  have p1 := mul_nonneg hk.le (mul_nonneg (sub_pos.mpr h2).le hm)
  have p2 := mul_nonneg hk.le (mul_nonneg (sub_pos.mpr h1).le hm)
  constructor <;> linarith

/-- **C03 (no conflict).** For every room temperature above absolute zero and non-negative vapour pressure the condition to start
cooling (PMV(light) ≥ 0.7) and the condition to start heating (PMV(heavy) ≤ -0.7) never hold together, whatever the
mean radiant temperature. -/
theorem C03_no_heating_and_cooling (p thetaR mrt : ℝ) (hp : 0 ≤ p) (hr : -273.15 ≤ thetaR) :
    ¬ (0.7 ≤ getHHumAndPmv p thetaR mrt 0.3 ∧ getHHumAndPmv p thetaR mrt 1.1 ≤ -0.7) := by
  rintro ⟨hl, hh⟩
  by_cases hot : getThetaOt hHumR hHumC mrt thetaR ≤ 34.0718
  · obtain ⟨a, b⟩ := C03_clothing_order p thetaR mrt hot
    linarith
  · have hg := cloFactor_pos (clo := 1.1) (by norm_num) (add_pos hHumR_pos hHumC_pos)
    have hk := pmv_coef_pos
    have hpos : 0 < getHHumAndPmv p thetaR mrt 1.1 := by
      unfold getHHumAndPmv getPmv
      simp only []
      apply mul_pos hk
      have e : getFcl (getIcl 1.1) * (hHumR + hHumC) * (35.7 - 0.028 * getM - getThetaOt hHumR hHumC mrt thetaR) /
          (1 + getIcl 1.1 * getFcl (getIcl 1.1) * (hHumR + hHumC)) =
          cloFactor 1.1 (hHumR + hHumC) * (35.7 - 0.028 * getM - getThetaOt hHumR hHumC mrt thetaR) := by
        unfold cloFactor; ring
      rw [e]
      have hm : (35.7 : ℝ) - 0.028 * getM - getThetaOt hHumR hHumC mrt thetaR ≤ 0 := by unfold getM; linarith
      have hz0 := mul_nonpos_of_nonneg_of_nonpos hg.le hm
      have hmax : max (0.42 * (getM - 58.15)) (0 : ℝ) = 0 := by unfold getM; norm_num
      rw [hmax]
      generalize cloFactor 1.1 (hHumR + hHumC) * (35.7 - 0.028 * getM - getThetaOt hHumR hHumC mrt thetaR) = z at *
      have hz : z ≤ 0 := hz0
      unfold getM
      norm_num
      nlinarith
    linarith

/-- A room meeting the hypotheses of the C03 theorems. -/
example : (0 : ℝ) ≤ getPvR 0.007 ∧ (-273.15 : ℝ) ≤ 15 ∧ getThetaOt hHumR hHumC 15 15 ≤ 34.0718 := by
  have h : getThetaOt hHumR hHumC 15 15 = 15 := by
    unfold getThetaOt; rw [← add_mul]
    have := add_pos hHumR_pos hHumC_pos
    field_simp
  rw [h]; unfold getPvR getF; norm_num

/-- **C06.** For the same non-negative vapour pressure the heating target lies strictly below the cooling target. -/
theorem C06_heating_below_cooling (p : ℝ) (hp : 0 ≤ p) :
    getThetaOtTargetOfMode p (hHumC + hHumR) .heating < getThetaOtTargetOfMode p (hHumC + hHumR) .cooling := by
  obtain ⟨h1, h2⟩ := cloFactor_order
  have hg := cloFactor_pos (clo := 1.1) (by norm_num) (add_pos hHumR_pos hHumC_pos)
  have hk := pmv_coef_pos
  have hmax : max (0.42 * (getM - 58.15)) (0 : ℝ) = 0 := by unfold getM; norm_num
  rw [add_comm hHumC hHumR]
  have key : ∀ clo pmv, getThetaOtTarget clo p (hHumR + hHumC) pmv =
      (pmv / (0.303 * Real.exp (-0.036 * getM) + 0.028) - getM
        + 3.05 * (10 : ℝ) ^ (-3 : ℤ) * (5733 - 6.99 * getM - p)
        + 1.7 * (10 : ℝ) ^ (-5 : ℤ) * getM * (5867 - p)
        + 0.0014 * getM * 34 + cloFactor clo (hHumR + hHumC) * (35.7 - 0.028 * getM)) /
      (0.0014 * getM + cloFactor clo (hHumR + hHumC)) := by
    intro clo pmv
    unfold getThetaOtTarget cloFactor
    simp only [hmax]
    ring
  simp only [getThetaOtTargetOfMode, getClo, getPmvTarget, cloHeavy, cloLight]
  rw [key, key]
  have h12 := h1.trans h2
  generalize cloFactor 1.1 (hHumR + hHumC) = g1 at *
  generalize cloFactor 0.3 (hHumR + hHumC) = g2 at *
  generalize (0.303 * Real.exp (-0.036 * getM) + 0.028) = K at *
  have hK : 0 < 0.5 / K := by positivity
  have en : (-0.5 : ℝ) / K = - (0.5 / K) := by ring
  rw [en]
  generalize (0.5 / K : ℝ) = q at *
  unfold getM
  norm_num
  rw [div_lt_div_iff₀ (by linarith) (by linarith)]
  nlinarith [mul_nonneg hp (sub_pos.mpr h12).le, mul_pos hK hg, mul_pos hK (hg.trans h12)]

end HLC
