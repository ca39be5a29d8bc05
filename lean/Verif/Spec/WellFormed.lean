import Verif.Spec.Balance

/-!
# Specification: physically well-formed houses (C19-C22)
-/

namespace HLC.Spec

variable {I J : Type} [Fintype I] [DecidableEq I] [Fintype J] [DecidableEq J]

/-- Conditions on the data of a house under which its heat balance is that of a passive network. `hR` are the radiative
coefficients of the surfaces and `dt` is the length of a step. -/
structure WellFormed (h : House I J) (hR : J → ℝ) (dt : ℝ) : Prop where
  dt_pos : 0 < dt
  vRoom_pos : ∀ i, 0 < h.vRoom i
  cSh_nonneg : ∀ i, 0 ≤ h.cSh i
  gSh_nonneg : ∀ i, 0 ≤ h.gSh i
  cLh_nonneg : ∀ i, 0 ≤ h.cLh i
  gLh_nonneg : ∀ i, 0 ≤ h.gLh i
  /-- There is furniture: its heat (moisture) capacity and exchange are not both zero. -/
  frtSh_pos : ∀ i, 0 < h.cSh i + h.gSh i
  frtLh_pos : ∀ i, 0 < h.cLh i + h.gLh i
  area_pos : ∀ j, 0 < h.area j
  hC_pos : ∀ j, 0 < h.hC j
  hR_pos : ∀ j, 0 < hR j
  phiA0_nonneg : ∀ j, 0 ≤ h.phiA0 j
  phiT0_mem : ∀ j, 0 ≤ h.phiT0 j ∧ h.phiT0 j ≤ 1
  kEi_mem : ∀ j m coef, h.kEi j = some (m, coef) → 0 ≤ coef ∧ coef ≤ 1
  fMrtHum_nonneg : ∀ j, 0 ≤ h.fMrtHum j
  fMrtHum_sum : ∀ i, ∑ j ∈ surfaces h i, h.fMrtHum j ≤ 1
  vInt_nonneg : ∀ i l, 0 ≤ h.vInt i l
  /-- Inter-room inflow during one step is less than the volume of the room. -/
  vInt_lt : ∀ i, (∑ l, h.vInt i l) * dt < h.vRoom i
  vVentEx_nonneg : ∀ i, 0 ≤ h.vVentEx i
  vNtrl_nonneg : ∀ i, 0 ≤ h.vNtrl i
  capH_nonneg : ∀ i, 0 ≤ h.capH i
  capC_nonneg : ∀ i, 0 ≤ h.capC i
  story_mem : h.story = 1 ∨ h.story = 2
  pressure_mem : h.pressure = "balanced" ∨ h.pressure = "positive" ∨ h.pressure = "negative"
  /-- The fan curve of the air conditioner is non-negative down to zero load. -/
  rac_q : ∀ i, (h.rac i).qMin < (h.rac i).qMax
  rac_v : ∀ i, (h.rac i).vMin ≤ (h.rac i).vMax
  rac_fan : ∀ i, (h.rac i).vMax * (h.rac i).qMin ≤ (h.rac i).vMin * (h.rac i).qMax

end HLC.Spec
