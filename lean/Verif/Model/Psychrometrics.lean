import Verif.Model.Py
import Mathlib.Analysis.SpecialFunctions.Log.Basic

/-!
# Physical constants and psychrometrics (`external/global_number.py`, `external/psychrometrics.py`)
-/

namespace HLC

/-- `external/global_number.py` 2-8, specific heat of air, J/(kg K). -/
noncomputable def cAir : ℝ := 1005
/-- `external/global_number.py` 11-17, density of air, kg/m3. -/
noncomputable def rhoAir : ℝ := 1.2
/-- `external/global_number.py` 20-25, heat of evaporation of water, J/kg. -/
noncomputable def lWtr : ℝ := 2501000
/-- `external/global_number.py` 28-33, Stefan-Boltzmann constant. -/
noncomputable def sgm : ℝ := 5.67e-8
/-- `external/global_number.py` 36-37, emissivity. -/
noncomputable def eps : ℝ := 0.9

/-- `external/psychrometrics.py` 133-140, atmospheric pressure, Pa. -/
noncomputable def getF : ℝ := 101325

/-- `external/psychrometrics.py` 5-19, relative humidity, %. -/
noncomputable def getH (pV pVs : ℝ) : ℝ := pV / pVs * 100

/-- `external/psychrometrics.py` 22-39, absolute humidity from vapour pressure. -/
noncomputable def getX (pV : ℝ) : ℝ := 0.622 * pV / (getF - pV)

/-- `external/psychrometrics.py` 42-59, vapour pressure from absolute humidity. -/
noncomputable def getPvR (x : ℝ) : ℝ := getF * x / (x + 0.62198)

/-- `external/psychrometrics.py` 80-94 / 112-127, exponent of the formula for water (theta >= 0). -/
noncomputable def pvsExpWater (t : ℝ) : ℝ :=
  -6096.9385 / t + 21.2409642 + -0.02711193 * t + 0.00001673952 * t ^ 2 + 2.433502 * Real.log t

/-- `external/psychrometrics.py` 87-96 / 119-128, exponent of the formula for ice (theta < 0). -/
noncomputable def pvsExpIce (t : ℝ) : ℝ :=
  -6024.5282 / t + 29.32707 + 0.010613863 * t + -0.000013198825 * t ^ 2 + -0.49382577 * Real.log t

/-- `external/psychrometrics.py` 67-96 `get_p_vs` and 99-130 `get_p_vs_is2` (elementwise the same formula):
saturated vapour pressure, Pa. `math.log` of a non-positive number raises in Python; theorems restrict to
temperatures above absolute zero. -/
noncomputable def getPvs (theta : ℝ) : ℝ :=
  let t := theta + 273.15
  if theta ≥ 0 then Real.exp (pvsExpWater t) else Real.exp (pvsExpIce t)

end HLC
