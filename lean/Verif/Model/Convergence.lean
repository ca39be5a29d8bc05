import Verif.Model.OtTargetPmv
import Mathlib.Analysis.SpecialFunctions.Pow.Real

/-!
# Comfort with a computed clothing temperature (`core/ot_target_pmv.py`, method `convergence`)

`get_ot_target_and_h_hum_with_pmv` takes the method as an argument; `core/ot_target.py` 52 passes `constant`, the default is
`convergence`. Elementwise numpy code is modelled for one room. `scipy.optimize.newton` is a parameter `newton`, as in
`Model/Iso7730.lean`: it maps the function and the start value to the number returned for the room; a failure to converge (a warning for
arrays) is not modelled. `np.sqrt` of a negative air velocity (`nan`) is not modelled; the velocities that occur are 0, 0.1 and 0.2.
-/

namespace HLC

/-- `core/ot_target_pmv.py` 313-329, `get_h_hum_c_is_n`. -/
noncomputable def hHumCAt (thetaR thetaCl v : ℝ) : ℝ := max (12.1 * Real.sqrt v) (2.38 * |thetaCl - thetaR| ^ (0.25 : ℝ))

/-- `core/ot_target_pmv.py` 332-353, `get_h_hum_r_is_n`. -/
noncomputable def hHumRAt (thetaCl thetaMrt : ℝ) : ℝ :=
  let tCl := thetaCl + 273
  let tMrt := thetaMrt + 273
  3.96 * (10 : ℝ) ^ (-8 : ℤ) * (tCl ^ 3 + tCl ^ 2 * tMrt + tCl * tMrt ^ 2 + tMrt ^ 3)

/-- `core/ot_target_pmv.py` 249-277, `_get_theta_cl_is_n`. -/
noncomputable def getThetaCl (clo thetaOt hHum : ℝ) : ℝ :=
  let icl := getIcl clo
  let fcl := getFcl icl
  let m := getM
  (35.7 - 0.028 * m - thetaOt) / (1 + icl * fcl * hHum) + thetaOt

/-- `core/ot_target_pmv.py` 213-227, the inner function `f`. -/
noncomputable def clothingStep (thetaMrt thetaR clo v t : ℝ) : ℝ :=
  let hC := hHumCAt thetaR t v
  let hR := hHumRAt t thetaMrt
  let h := hR + hC
  let thetaOt := (hR * thetaMrt + hC * thetaR) / h
  getThetaCl clo thetaOt h

/-- `core/ot_target_pmv.py` 191-246, `_get_h_hum`: convective and radiative coefficient around the occupant. -/
noncomputable def getHHumBy (newton : (ℝ → ℝ) → ℝ → ℝ) (method : String) (thetaMrt thetaR clo v : ℝ) : Except PyErr (ℝ × ℝ) :=
  if method = "convergence" then
    let thetaCl := newton (fun t => clothingStep thetaMrt thetaR clo v t - t) 0.001
    .ok (hHumCAt thetaR thetaCl v, hHumRAt thetaCl thetaMrt)
  else if method = "constant" then .ok (4, 4 * 3.96 * (10 : ℝ) ^ (-8 : ℤ) * (20 + 273.15) ^ 3)
  else .error .exception

/-- `core/ot_target_pmv.py` 147-188, `_get_h_hum_and_pmv`. -/
noncomputable def getHHumAndPmvBy (newton : (ℝ → ℝ) → ℝ → ℝ) (method : String) (pA thetaR thetaMrt clo v : ℝ) : Except PyErr ℝ := do
  let h ← getHHumBy newton method thetaMrt thetaR clo v
  let hHum := h.2 + h.1
  let thetaOt := (h.2 * thetaMrt + h.1 * thetaR) / hHum
  .ok (getPmv thetaR clo pA hHum thetaOt)

/-- Result of `get_ot_target_and_h_hum_with_pmv` for one room (`core/ot_target_pmv.py` 135-142). -/
structure PmvTarget where
  hHumC : ℝ
  hHumR : ℝ
  mode : OpMode
  thetaOtTarget : ℝ
  pmvTarget : ℝ
  vHum : ℝ
  clo : ℝ

/-- `core/ot_target_pmv.py` 11-142, `get_ot_target_and_h_hum_with_pmv` for one room. -/
noncomputable def getOtTargetWithPmv (newton : (ℝ → ℝ) → ℝ → ℝ) (method : String) (xR : ℝ) (prev : OpMode) (isRadHeating isRadCooling : Bool)
    (thetaR thetaMrt acDemand : ℝ) : Except PyErr PmvTarget := do
  let pV := getPvR xR
  let vPrev := getVHum prev isRadHeating isRadCooling
  let pmvHeavy ← getHHumAndPmvBy newton method pV thetaR thetaMrt cloHeavy vPrev
  let pmvMiddle ← getHHumAndPmvBy newton method pV thetaR thetaMrt cloMiddle vPrev
  let pmvLight ← getHHumAndPmvBy newton method pV thetaR thetaMrt cloLight vPrev
  let mode ← getOperationMode acDemand prev pmvHeavy pmvMiddle pmvLight
  let clo := getClo mode
  let v := getVHum mode isRadHeating isRadCooling
  let h ← getHHumBy newton method thetaMrt thetaR clo v
  .ok
    {
      hHumC := h.1
      hHumR := h.2
      mode := mode
      thetaOtTarget := getThetaOtTargetOfMode pV (h.1 + h.2) mode
      pmvTarget := getPmvTarget mode
      vHum := v
      clo := clo }

end HLC
