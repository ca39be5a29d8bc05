import Verif.Model.Py
import Mathlib.Analysis.SpecialFunctions.Pow.Real

/-!
# Infiltration (`core/infiltration.py`)
-/

namespace HLC

variable {I : Type} [Fintype I]

/-- `core/infiltration.py` 88-93: coefficient a by number of stories; a dict lookup. -/
noncomputable def infiltrationA (story : ℤ) : Except PyErr ℝ :=
  if story = 1 then .ok 0.022 else if story = 2 then .ok 0.020 else .error .keyError

/-- `core/infiltration.py` 97-110: coefficient b by pressure type and number of stories. All three inner dicts are indexed
with `[story]` when the dict literal is built, then the outer one is looked up. -/
noncomputable def infiltrationB (story : ℤ) (pressure : String) : Except PyErr ℝ :=
  if story = 1 then
    if pressure = "balanced" then .ok 0
    else if pressure = "positive" then .ok 0.26
    else if pressure = "negative" then .ok 0.28
    else .error .keyError
  else if story = 2 then
    if pressure = "balanced" then .ok 0
    else if pressure = "positive" then .ok 0.14
    else if pressure = "negative" then .ok 0.13
    else .error .keyError
  else .error .keyError

/-- `core/infiltration.py` 82: `np.average(theta_r_is_n, weights=v_room_is)`, which raises ZeroDivisionError when the weights
sum to zero. -/
noncomputable def volumeAverage (v thetaR : I → ℝ) : Except PyErr ℝ :=
  if ∑ i, v i = 0 then .error .zeroDivisionError else .ok ((∑ i, thetaR i * v i) / ∑ i, v i)

/-- `core/infiltration.py` 55-120, `_get_infiltration_residential`. -/
noncomputable def getInfiltration (cValue : ℝ) (v : I → ℝ) (story : ℤ) (pressure : String) (thetaR : I → ℝ) (thetaO : ℝ) :
    Except PyErr (I → ℝ) := do
  let ave ← volumeAverage v thetaR
  let deltaTheta := |ave - thetaO|
  let a ← infiltrationA story
  let b ← infiltrationB story pressure
  let rate := max (a * (cValue * Real.sqrt deltaTheta) - b) 0
  .ok fun i => rate * v i / 3600

/-- `initializer/estimate_c_value.py` 4-12, `Structure`. -/
inductive Structure
  | rc
  | src
  | wooden
  | steel
  deriving DecidableEq

/-- `initializer/estimate_c_value.py` 15-32, `estimate_c_value`. -/
noncomputable def estimateCValue (ua : ℝ) (s : Structure) : ℝ :=
  (match s with
    | .rc => 4.16
    | .src => 4.16
    | .wooden => 8.28
    | .steel => 8.28) * ua

end HLC
