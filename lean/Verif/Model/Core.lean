import Verif.Model.Period
import Verif.Model.Ground
import Verif.Model.Log

/-!
# The main program (`core/core.py`)
-/

namespace HLC

variable {I : Type} [Fintype I] [DecidableEq I] {m N : ℕ}

/-- `core/sequence.py` 240-270: `if not run_up: …`. -/
def logUnless {J : Type} {M : ℕ} (runUp : Bool) (log : Logger I J M) (n : ℤ) (t : TickVars I J) : Except PyErr (Logger I J M) :=
  if !runUp then logWrite log n t else .ok log

/-- `core/sequence.py` 16-283 including the logging block 240-270. -/
noncomputable def runTickLogged {M : ℕ} (n : ℤ) (dt : ℝ) (ss : PreCalc I (Fin m) N) (c : Cond I (Fin m))
    (log : Logger I (Fin m) M) (runUp : Bool) : Except PyErr (Cond I (Fin m) × Logger I (Fin m) M) := do
  let t ← runTick n dt ss c
  let log' ← logUnless runUp log n t
  .ok (t.next, log')

/-- `core/core.py` 54: length of a step, s. Division by zero raises ZeroDivisionError. -/
noncomputable def deltaT (hourly : ℤ) : Except PyErr ℝ :=
  if hourly = 0 then .error .zeroDivisionError else .ok (3600 / (hourly : ℝ))

/-- What `calc` has computed before the result tables are assembled (`core/core.py` 89). -/
structure CalcResult (I : Type) (m N : ℕ) where
  nMain : ℤ
  ss : PreCalc I (Fin m) N
  ground : List GroundCell
  final : Cond I (Fin m)
  log : Logger I (Fin m) nMain.toNat

/-- `core/core.py` 12-89, `calc`, for given radiative coefficients `hR` and parsed inputs. Writing the result files (95-103) is not modelled. -/
noncomputable def coreCalc (h : House I (Fin m)) (hR : Fin m → ℝ) (data : Fin N → Record I (Fin m))
    (hourly dMain dRunUp dRunUpBuild : ℤ) : Except PyErr (CalcResult I m N) := do
  let steps ← getNStep hourly dMain dRunUp dRunUpBuild
  let dt ← deltaT hourly
  let ss ← makePreCalc h hR dt data
  let ppg := makePreCalcGround ss
  let gc ← (pyRange (-steps.runUp) (-steps.runUpBuild)).foldlM (groundTick ppg) (initialGround ppg.nGrounds)
  let log0 ← newLogger I (Fin m) steps.main
  let c0 ← updateByGround ss.isGround (initialConditions I (Fin m)) gc
  let (c1, log1) ← (pyRange (-steps.runUpBuild) 0).foldlM
    (fun s n => runTickLogged n dt ss s.1 s.2 true) (c0, log0)
  let (c2, log2) ← (pyRange 0 steps.main).foldlM
    (fun s n => runTickLogged n dt ss s.1 s.2 false) (c1, log1)
  .ok { nMain := steps.main, ss := ss, ground := gc, final := c2, log := log2 }

end HLC
