import Verif.Model.OperationMode
import Verif.Model.Psychrometrics
import Mathlib.Analysis.SpecialFunctions.Exp

/-!
# Comfort: PMV, clothing, target operative temperature (`core/ot_target_pmv.py`, `core/ot_target.py`)

Elementwise numpy code is modelled for one room; `Model/Sequence.lean` applies it to every room.
-/

namespace HLC

/-- `core/ot_target_pmv.py` 665-677, metabolic rate, W/m2. -/
noncomputable def getM : ℝ := 58.15

/-- `core/ot_target_pmv.py` 680-693, clothing resistance from clo. -/
noncomputable def getIcl (clo : ℝ) : ℝ := clo * 0.155

/-- `core/ot_target_pmv.py` 652-662, clothing area factor. -/
noncomputable def getFcl (icl : ℝ) : ℝ := if icl ≤ 0.078 then 1.00 + 1.290 * icl else 1.05 + 0.645 * icl

/-- `core/ot_target_pmv.py` 356-363. -/
noncomputable def cloHeavy : ℝ := 1.1
/-- `core/ot_target_pmv.py` 366-373. -/
noncomputable def cloMiddle : ℝ := 0.7
/-- `core/ot_target_pmv.py` 376-383. -/
noncomputable def cloLight : ℝ := 0.3

/-- `core/ot_target_pmv.py` 237-239, convective coefficient around the occupant, method `constant` (the only one used,
`core/ot_target.py` 52). -/
noncomputable def hHumC : ℝ := 4
/-- `core/ot_target_pmv.py` 240, radiative coefficient around the occupant, method `constant`. -/
noncomputable def hHumR : ℝ := 4 * 3.96 * (10 : ℝ) ^ (-8 : ℤ) * (20 + 273.15) ^ 3

/-- `core/ot_target_pmv.py` 386-425, `get_pmv_is_n`. -/
noncomputable def getPmv (thetaR clo pA hHum thetaOt : ℝ) : ℝ :=
  let icl := getIcl clo
  let m := getM
  let fcl := getFcl icl
  (0.303 * Real.exp (-0.036 * m) + 0.028) * (
    m
    - 3.05 * (10 : ℝ) ^ (-3 : ℤ) * (5733 - 6.99 * m - pA)
    - max (0.42 * (m - 58.15)) 0
    - 1.7 * (10 : ℝ) ^ (-5 : ℤ) * m * (5867 - pA)
    - 0.0014 * m * (34 - thetaR)
    - fcl * hHum * (35.7 - 0.028 * m - thetaOt) / (1 + icl * fcl * hHum))

/-- `core/ot_target_pmv.py` 174-177, operative temperature around the occupant. -/
noncomputable def getThetaOt (hR hC thetaMrt thetaR : ℝ) : ℝ := (hR * thetaMrt + hC * thetaR) / (hR + hC)

/-- `core/ot_target_pmv.py` 147-188, `_get_h_hum_and_pmv` with method `constant` (the air velocity argument is then
unused). -/
noncomputable def getHHumAndPmv (pA thetaR thetaMrt clo : ℝ) : ℝ :=
  getPmv thetaR clo pA (hHumR + hHumC) (getThetaOt hHumR hHumC thetaMrt thetaR)

/-- `core/ot_target_pmv.py` 522-549, `get_clo_is_n`. -/
noncomputable def getClo (mode : OpMode) : ℝ :=
  match mode with
  | .heating => cloHeavy
  | .cooling => cloLight
  | .stopOpen => cloMiddle
  | .stopClose => cloMiddle
  | .heatingAndCooling => 0

/-- `core/ot_target_pmv.py` 590-609, `get_pmv_target_is_n`. -/
noncomputable def getPmvTarget (mode : OpMode) : ℝ :=
  match mode with
  | .heating => -0.5
  | .cooling => 0.5
  | _ => 0

/-- `core/ot_target_pmv.py` 612-649, `get_theta_ot_target`. -/
noncomputable def getThetaOtTarget (clo pA hHum pmvTarget : ℝ) : ℝ :=
  let icl := getIcl clo
  let m := getM
  let fcl := getFcl icl
  (pmvTarget / (0.303 * Real.exp (-0.036 * m) + 0.028) - m
    + 3.05 * (10 : ℝ) ^ (-3 : ℤ) * (5733 - 6.99 * m - pA)
    + max (0.42 * (m - 58.15)) 0
    + 1.7 * (10 : ℝ) ^ (-5 : ℤ) * m * (5867 - pA)
    + 0.0014 * m * 34
    + fcl * hHum * (35.7 - 0.028 * m) / (1 + icl * fcl * hHum))
  / (0.0014 * m + fcl * hHum / (1 + icl * fcl * hHum))

/-- `core/ot_target_pmv.py` 280-310, `get_v_hum_is_n` (only reported in the remarks with method `constant`). -/
noncomputable def getVHum (mode : OpMode) (isRadHeating isRadCooling : Bool) : ℝ :=
  match mode with
  | .heating => if isRadHeating then 0 else 0.2
  | .cooling => if isRadCooling then 0 else 0.2
  | .stopOpen => 0.1
  | _ => 0

/-- `core/ot_target_pmv.py` 552-587, `get_theta_ot_target_is_n`: 0 unless heating or cooling. -/
noncomputable def getThetaOtTargetOfMode (pV hHum : ℝ) (mode : OpMode) : ℝ :=
  match mode with
  | .heating => getThetaOtTarget (getClo mode) pV hHum (getPmvTarget mode)
  | .cooling => getThetaOtTarget (getClo mode) pV hHum (getPmvTarget mode)
  | _ => 0

/-- Result of `get_ot_target_and_h_hum` for one room (`core/ot_target.py` 36-64), without the remarks. -/
structure OtTarget where
  hHumC : ℝ
  hHumR : ℝ
  mode : OpMode
  thetaLower : ℝ
  thetaUpper : ℝ

/-- `core/ot_target.py` 36-64 together with `core/ot_target_pmv.py` 11-142 for one room: vapour pressure from the humidity,
PMVs for the three clothings, new mode, clothing, coefficients, target, lower/upper target. -/
noncomputable def getOtTargetAndHHum (thetaR thetaMrt xR : ℝ) (prev : OpMode) (acDemand : ℝ) :
    Except PyErr OtTarget := do
  let pV := getPvR xR
  let pmvHeavy := getHHumAndPmv pV thetaR thetaMrt cloHeavy
  let pmvMiddle := getHHumAndPmv pV thetaR thetaMrt cloMiddle
  let pmvLight := getHHumAndPmv pV thetaR thetaMrt cloLight
  let mode ← getOperationMode acDemand prev pmvHeavy pmvMiddle pmvLight
  let target := getThetaOtTargetOfMode pV (HLC.hHumC + HLC.hHumR) mode
  .ok {
    hHumC := HLC.hHumC
    hHumR := HLC.hHumR
    mode := mode
    thetaLower := if mode = .heating then target else 0
    thetaUpper := if mode = .cooling then target else 0 }

end HLC
