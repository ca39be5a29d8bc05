import Verif.Spec.Run
import Verif.Model.Core

/-!
# Specification: the steps a calculation executes (C19, C85)
-/

namespace HLC.Spec

/-- `t` was computed by one of the steps of the calculation `r`: the run-up of the building and then the main period, starting from the
initial conditions with the state of the ground handed over. -/
def StepOf {I : Type} [Fintype I] [DecidableEq I] {m N : ℕ} (r : CalcResult I m N) (hourly dMain dRunUpBuild : ℤ)
    (t : TickVars I (Fin m)) : Prop :=
  ∃ c0 ts, updateByGround r.ss.isGround (initialConditions I (Fin m)) r.ground = .ok c0 ∧
    Run r.ss (3600 / (hourly : ℝ)) c0 (pyRange (-(dRunUpBuild * hourly * 24)) 0 ++ pyRange 0 (dMain * hourly * 24)) ts ∧ t ∈ ts

end HLC.Spec
