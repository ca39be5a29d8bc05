import Verif.Model.Psychrometrics

/-!
# Occupants (`core/occupants.py`)
-/

namespace HLC

/-- `core/occupants.py` 25-35: sensible heat of one person, W. -/
noncomputable def qHumPsn (thetaR : ℝ) : ℝ := min (63 - 4 * (thetaR - 24)) 119

/-- `core/occupants.py` 6-22: moisture of one person, kg/s. -/
noncomputable def xHumPsn (thetaR : ℝ) : ℝ := (119 - qHumPsn thetaR) / lWtr

end HLC
