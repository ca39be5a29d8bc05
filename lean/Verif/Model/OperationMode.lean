import Verif.Model.Py

/-!
# Operation mode (`core/operation_mode.py`, `core/ot_target_pmv.py`)
-/

namespace HLC

/-- `core/operation_mode.py` 4-19, class `OperationMode(IntEnum)`. -/
inductive OpMode
  | cooling          -- COOLING = 1
  | heating          -- HEATING = 2
  | stopOpen         -- STOP_OPEN = 3
  | stopClose        -- STOP_CLOSE = 4
  | heatingAndCooling -- HEATING_AND_COOLING = 5
  deriving DecidableEq, Repr

/-- `core/ot_target_pmv.py` 452-519, `get_operation_mode_i_n`, branch by branch. -/
noncomputable def getOperationMode (acDemand : ℝ) (prev : OpMode) (pmvHeavy pmvMiddle pmvLight : ℝ) :
    Except PyErr OpMode :=
  if acDemand > 0 then
    match prev with
    | .heating =>
      if pmvHeavy ≤ 0.7 then .ok .heating
      else if pmvLight ≥ 0.7 then .ok .cooling
      else .ok .stopClose
    | .cooling =>
      if pmvLight ≥ -0.7 then .ok .cooling
      else if pmvHeavy ≤ -0.7 then .ok .heating
      else .ok .stopClose
    | .stopOpen =>
      if pmvLight ≥ 0.7 then .ok .cooling
      else if pmvHeavy ≤ -0.7 then .ok .heating
      else if pmvMiddle ≤ 0 then .ok .stopClose
      else .ok .stopOpen
    | .stopClose =>
      if pmvLight ≥ 0.7 then .ok .cooling
      else if pmvHeavy ≤ -0.7 then .ok .heating
      else if pmvMiddle ≥ 0 then .ok .stopOpen
      else .ok .stopClose
    | .heatingAndCooling => .error .valueError
  else .ok .stopClose

/-- One step's external inputs of the mode update of one room: demand and the three PMVs. -/
structure ModeInput where
  acDemand : ℝ
  pmvHeavy : ℝ
  pmvMiddle : ℝ
  pmvLight : ℝ

/-- The mode of one room threaded through successive steps (`core/core.py` 80-87 calls `run_tick`, which calls
`get_operation_mode_is_n` with the previous mode, `core/ot_target_pmv.py` 95-101).
Simplification: the PMVs are external inputs here; the full coupling is in `Model/Sequence.lean`. -/
noncomputable def modeRun (m0 : OpMode) : List ModeInput → Except PyErr OpMode
  | [] => .ok m0
  | i :: is => do
    let m ← getOperationMode i.acDemand m0 i.pmvHeavy i.pmvMiddle i.pmvLight
    modeRun m is

/-- `core/conditions.py` 79-81: initial operation mode. -/
def initialMode : OpMode := .stopClose

end HLC
