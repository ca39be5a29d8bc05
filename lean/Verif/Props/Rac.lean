import Verif.Model.Rac
import Verif.Spec.Moisture

/-!
# C38: room air conditioners
-/

namespace HLC

open Spec Rac

theorem qRtdC_bounds {a : ℝ} (ha : 0 < a) : 45.6 < qRtdC a ∧ qRtdC a ≤ 5600 := by
  unfold qRtdC
  exact ⟨lt_min (by linarith) (by norm_num), min_le_right _ _⟩

theorem vMax_pos {c : ℝ} (hc : 0 < c) : 0 < vMax c := by unfold vMax; positivity

/-- **C38 (order).** For every positive floor area: 500 W is less than the maximum cooling capacity, the rated capacities do not exceed the
maximum ones, and the air volumes satisfy 0 < v_min < v_max. -/
theorem C38_spec_ordered {a : ℝ} (ha : 0 < a) :
    (spec a).qMin = 500 ∧ (spec a).qMin < (spec a).qMax ∧ 0 < (spec a).vMin ∧ (spec a).vMin < (spec a).vMax ∧
    qRtdC a ≤ qMaxC (qRtdC a) ∧ qRtdH a ≤ qMaxH (qRtdH a) (qRtdC a) ∧ qMinH < qMaxH (qRtdH a) (qRtdC a) := by
  obtain ⟨h1, h2⟩ := qRtdC_bounds ha
  have hv : 0 < vMax (qRtdC a) := vMax_pos (by linarith)
  refine ⟨rfl, ?_, ?_, ?_, le_max_right _ _, le_max_right _ _, ?_⟩
  · show (500 : ℝ) < max _ _
    exact lt_max_of_lt_left (by linarith)
  · show 0 < vMax _ * 0.55
    positivity
  · show vMax (qRtdC a) * 0.55 < vMax _
    linarith
  · show (500 : ℝ) < max _ _
    have : 0.8462 * qRtdC a + 1205.9 ≤ qMaxC (qRtdC a) := le_max_left _ _
    exact lt_max_of_lt_left (by linarith)

/-- **C38 (heating).** From two square metres on an air conditioner is rated for at least as much heating as cooling, by at most 21 percent more,
and it can heat at least as much as it can cool. -/
theorem C38_heating {a : ℝ} (ha : 2 ≤ a) :
    qRtdC a ≤ qRtdH a ∧ qRtdH a < 1.21 * qRtdC a ∧ qMaxC (qRtdC a) ≤ qMaxH (qRtdH a) (qRtdC a) := by
  have h1 : 426.6 ≤ qRtdC a := le_min (by linarith) (by norm_num)
  have h2 : 0.8462 * qRtdC a + 1205.9 ≤ qMaxC (qRtdC a) := le_max_left _ _
  refine ⟨?_, ?_, le_max_of_le_left (by linarith)⟩ <;> unfold qRtdH <;> linarith

/-- **C38 (values).** The capacities by floor area: the rated cooling capacity grows by 190.5 W per square metre from 45.6 W up to 5600 W; the other
capacities are linear in it, and the maxima are taken by the linear formulas for every area; the air volume is a power of it. -/
theorem C38_values {a c : ℝ} (ha : 0 < a) (hc : c = if 190.5 * a + 45.6 ≤ 5600 then 190.5 * a + 45.6 else 5600) :
    qRtdC a = c ∧ qRtdH a = 1.209 * c - 85.1 ∧ (spec a).qMax = 0.8462 * c + 1205.9 ∧
    qMaxH (qRtdH a) (qRtdC a) = 1.7597 * (0.8462 * c + 1205.9) - 413.7 ∧ (spec a).vMax = 11.076 * (c / 1000) ^ (0.3432 : ℝ) ∧
    (spec a).vMin / (spec a).vMax = 0.55 := by
  obtain ⟨h1, h2⟩ := qRtdC_bounds ha
  have e : qRtdC a = c := by rw [hc]; exact min_def _ _
  rw [e] at h1 h2
  have e2 : qMaxC c = 0.8462 * c + 1205.9 := max_eq_left (by linarith)
  have e3 : qRtdH a = 1.209 * c - 85.1 := by unfold qRtdH; rw [e]; norm_num
  have hv : 0 < (spec a).vMax := by
    show 0 < vMax (qRtdC a)
    rw [e]
    exact vMax_pos (by linarith)
  refine ⟨e, e3, ?_, ?_, ?_, ?_⟩
  · show qMaxC (qRtdC a) = _
    rw [e, e2]
  · rw [e3, e]
    unfold qMaxH
    rw [e2]
    exact max_eq_left (by linarith)
  · show vMax (qRtdC a) = _
    rw [e]; rfl
  · show (spec a).vMax * 0.55 / (spec a).vMax = 0.55
    rw [mul_div_cancel_left₀ _ hv.ne']

/-- A room of 20 m2: 3855.6 W of cooling and 4576.3 W of heating. -/
example : qRtdC 20 = 3855.6 ∧ qRtdH 20 = 4576.3204 := by
  unfold qRtdH qRtdC
  rw [min_eq_left (by norm_num)]
  norm_num

/-- The air volume grows with the rated capacity and the rated capacity grows with the floor area up to 5600 W. -/
theorem C38_monotone {a b : ℝ} (ha : 0 < a) (hab : a ≤ b) :
    (spec a).qMax ≤ (spec b).qMax ∧ (spec a).vMin ≤ (spec b).vMin ∧ (spec a).vMax ≤ (spec b).vMax := by
  obtain ⟨h1, -⟩ := qRtdC_bounds ha
  have hq : qRtdC a ≤ qRtdC b := by unfold qRtdC; exact min_le_min_right _ (by linarith)
  have hv : vMax (qRtdC a) ≤ vMax (qRtdC b) := by
    unfold vMax
    have : (qRtdC a / 1000) ^ (0.3432 : ℝ) ≤ (qRtdC b / 1000) ^ (0.3432 : ℝ) :=
      Real.rpow_le_rpow (by linarith) (by linarith) (by norm_num)
    linarith
  refine ⟨?_, ?_, hv⟩
  · show max _ _ ≤ max _ _
    exact max_le_max (by linarith) hq
  · show _ * (0.55 : ℝ) ≤ _ * 0.55
    linarith

/-- **C38 (fan).** With the derived specification the cooling coil blows air at every positive cooling load (also below 500 W). -/
theorem C38_fan_positive {a qs : ℝ} (ha : 0 < a) (hq : 0 ≤ qs) : 0 < getVac (spec a) qs := by
  obtain ⟨h1, h2⟩ := qRtdC_bounds ha
  obtain ⟨hmin, hlt, hv, hv2, -⟩ := C38_spec_ordered ha
  have hqm : 0.8462 * qRtdC a + 1205.9 ≤ (spec a).qMax := le_max_left _ _
  have hvm : (spec a).vMin = (spec a).vMax * 0.55 := rfl
  unfold getVac
  apply div_pos _ (by norm_num)
  have hd : 0 < (spec a).qMax - (spec a).qMin := by linarith
  have e : (spec a).vMin + ((spec a).vMax - (spec a).vMin) / ((spec a).qMax - (spec a).qMin) * (qs - (spec a).qMin)
      = ((spec a).vMin * ((spec a).qMax - (spec a).qMin) + ((spec a).vMax - (spec a).vMin) * (qs - (spec a).qMin))
        / ((spec a).qMax - (spec a).qMin) := by
    rw [eq_div_iff hd.ne', add_mul, mul_right_comm, div_mul_cancel₀ _ hd.ne']
  rw [e]
  apply div_pos _ hd
  rw [hvm, hmin]
  have hV : 0 < (spec a).vMax := by linarith
  have : (spec a).vMax * 0.55 * ((spec a).qMax - 500) + ((spec a).vMax - (spec a).vMax * 0.55) * (qs - 500)
      = (spec a).vMax * (0.55 * (spec a).qMax - 500 + 0.45 * qs) := by ring
  rw [this]
  apply mul_pos hV
  linarith

/-- **C38 (use).** The derived specification meets the conditions on the air conditioner of the completeness and dehumidification theorems
(`WellFormed.rac_q`, `rac_v`, `rac_fan`, and `FanKeepsUp`: the coil outlet stays less than 100 K below the room, C20). -/
theorem C38_admissible {a : ℝ} (ha : 0 < a) :
    (spec a).qMin < (spec a).qMax ∧ (spec a).vMin ≤ (spec a).vMax ∧ (spec a).vMax * (spec a).qMin ≤ (spec a).vMin * (spec a).qMax ∧
    FanKeepsUp (spec a) := by
  obtain ⟨h1, h2⟩ := qRtdC_bounds ha
  obtain ⟨hmin, hlt, hv, hv2, -⟩ := C38_spec_ordered ha
  have hqm : 0.8462 * qRtdC a + 1205.9 ≤ (spec a).qMax := le_max_left _ _
  have hvm : (spec a).vMin = (spec a).vMax * 0.55 := rfl
  refine ⟨hlt, hv2.le, ?_, ?_⟩
  · rw [hvm, hmin]
    nlinarith
  · unfold FanKeepsUp
    rw [hvm, hmin]
    have hq : (spec a).qMax = 0.8462 * qRtdC a + 1205.9 := max_eq_left (by linarith)
    have hV : (spec a).vMax = 11.076 * (qRtdC a / 1000) ^ (0.3432 : ℝ) := rfl
    rw [hq, hV]
    generalize hc : qRtdC a = c at *
    have key : 1.1695 * (c / 1000) + 0.976 ≤ 11.076 * (c / 1000) ^ (0.3432 : ℝ) := by
      have hx0 : 0 < c / 1000 := by linarith
      rcases le_total (c / 1000) 1 with hx | hx
      · have hp : (c / 1000) ^ ((1 : ℝ) / 2) ≤ (c / 1000) ^ (0.3432 : ℝ) :=
          Real.rpow_le_rpow_of_exponent_ge hx0 hx (by norm_num)
        rw [← Real.sqrt_eq_rpow] at hp
        have hs : 0.21 ≤ Real.sqrt (c / 1000) := Real.le_sqrt_of_sq_le (by norm_num; linarith)
        have hs1 : Real.sqrt (c / 1000) ≤ 1 := by rw [Real.sqrt_le_iff]; constructor <;> linarith
        have hsq : Real.sqrt (c / 1000) ^ 2 = c / 1000 := Real.sq_sqrt hx0.le
        nlinarith
      · have hp : 1 ≤ (c / 1000) ^ (0.3432 : ℝ) := Real.one_le_rpow hx (by norm_num)
        linarith
    linarith

/-- A living room of 30 m2: rated cooling capacity 5600 W, minimum 500 W, maximum 5944.62 W. -/
example : qRtdC 30 = 5600 ∧ (spec 30).qMax = 5944.62 := by
  have : qRtdC 30 = 5600 := by unfold qRtdC; norm_num
  refine ⟨this, ?_⟩
  show qMaxC (qRtdC 30) = _
  rw [this]; unfold qMaxC; norm_num

end HLC
