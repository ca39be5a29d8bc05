import Mathlib.Analysis.Real.Sqrt
import Mathlib.Data.Fintype.BigOperators

/-!
# Specification: infiltration (C36)
-/

namespace HLC.Spec

/-- Documented infiltration rate, 1/h: `a C √Δθ − b`, at least zero, with `a`, `b` by number of stories and ventilation balance. -/
noncomputable def infiltrationRate (story : ℤ) (pressure : String) (c dθ : ℝ) : ℝ :=
  let a : ℝ := if story = 1 then 0.022 else 0.020
  let b : ℝ := if pressure = "positive" then (if story = 1 then 0.26 else 0.14)
    else if pressure = "negative" then (if story = 1 then 0.28 else 0.13) else 0
  max (a * (c * Real.sqrt dθ) - b) 0

/-- Volume-weighted mean room temperature. -/
noncomputable def meanTemp {I : Type} [Fintype I] (v θ : I → ℝ) : ℝ := (∑ i, θ i * v i) / ∑ i, v i

/-- Known pressure settings. -/
def KnownPressure (p : String) : Prop := p = "balanced" ∨ p = "positive" ∨ p = "negative"

end HLC.Spec
