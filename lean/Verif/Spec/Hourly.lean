import Verif.Spec.Run
import Mathlib.Analysis.SpecialFunctions.Exp

/-!
# Specification: steps and records in time (C97)
-/

namespace HLC.Spec

/-- Beginning of step `n`, in seconds from the start of the year, when an hour has `hourly` steps. -/
noncomputable def timeOfStep (hourly : ℤ) (n : ℤ) : ℝ := n * (3600 / hourly)

/-- Time of row `k` of the weather and schedule files: one row every 15 minutes. -/
def timeOfRecord {N : ℕ} (k : Fin N) : ℝ := (k : ℕ) * 900

variable {I J : Type}

/-- Component `l` of part `j` decays with time constant `τ` in seconds: the ratio of the input is the decay within 15 minutes, the step of the
response factors. -/
def HasTimeConstant (h : House I J) (j : J) (l : Fin 12) (τ : ℝ) : Prop := h.ratio j l = Real.exp (-(900 / τ))

end HLC.Spec
