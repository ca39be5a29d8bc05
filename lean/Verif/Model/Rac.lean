import Verif.Model.HeatExchanger
import Mathlib.Analysis.SpecialFunctions.Pow.Real

/-!
# Capacity and air volume of room air conditioners (`external/rac.py`), elementwise per room
-/

namespace HLC.Rac

/-- `external/rac.py` 20: rated cooling capacity, W. -/
noncomputable def qRtdC (aFloor : ℝ) : ℝ := min (190.5 * aFloor + 45.6) 5600

/-- `external/rac.py` 22: rated heating capacity, W. -/
noncomputable def qRtdH (aFloor : ℝ) : ℝ := 1.2090 * qRtdC aFloor - 85.1

/-- `external/rac.py` 38: maximum cooling capacity, W. -/
noncomputable def qMaxC (qRtdC : ℝ) : ℝ := max (0.8462 * qRtdC + 1205.9) qRtdC

/-- `external/rac.py` 40: maximum heating capacity, W. -/
noncomputable def qMaxH (qRtdH qRtdC : ℝ) : ℝ := max (1.7597 * qMaxC qRtdC - 413.7) qRtdH

/-- `external/rac.py` 45-54: minimum heating capacity, W. -/
def qMinH : ℝ := 500

/-- `external/rac.py` 57-66: minimum cooling capacity, W. -/
def qMinC : ℝ := 500

/-- `external/rac.py` 69-80: maximum air volume, m3/min. -/
noncomputable def vMax (qRtdC : ℝ) : ℝ := 11.076 * (qRtdC / 1000) ^ (0.3432 : ℝ)

/-- `external/rac.py` 83-94: minimum air volume, m3/min. -/
noncomputable def vMin (vMax : ℝ) : ℝ := vMax * 0.55

/-- The four cooling values of a room with floor area `aFloor`, in the form read by `core/pre_calc_parameters.py` 290-293. -/
noncomputable def spec (aFloor : ℝ) : RacSpec where
  qMin := qMinC
  qMax := qMaxC (qRtdC aFloor)
  vMin := vMin (vMax (qRtdC aFloor))
  vMax := vMax (qRtdC aFloor)

end HLC.Rac
