import Verif.Spec.Passive
import Verif.Spec.Daily

/-!
# Specification: the moisture of the past fades away (C113)
-/

namespace HLC.Spec

variable {I J : Type}

/-- The moisture flow with which the past of a room holds its humidity, kg/(s (kg/kg)): what its air and its furniture store during one step. -/
noncomputable def moistHold (h : House I J) (dt : ℝ) (i : I) : ℝ := h.vRoom i * 1.2 / dt + h.gLh i * h.cLh i / (h.cLh i + dt * h.gLh i)

/-- `ρ` bounds what is left of a difference of humidities after one step in a room that takes in `u i` m3/s of outdoor air more than it gets from other
rooms, and `σ` what is left of it in its furniture. -/
structure MoistFading (h : House I J) (dt : ℝ) (u : I → ℝ) (ρ σ : ℝ) : Prop where
  nonneg : 0 ≤ ρ
  rooms : ∀ i, moistHold h dt i ≤ ρ * (moistHold h dt i + 1.2 * u i)
  order : ρ ≤ σ
  furniture : ∀ i, h.cLh i + dt * h.gLh i * ρ ≤ σ * (h.cLh i + dt * h.gLh i)

/-- The humidities of two states agree up to `X`. -/
structure HumidNear (X : ℝ) (c c' : Cond I J) : Prop where
  rooms : ∀ i, |c'.xR i - c.xR i| ≤ X
  furniture : ∀ i, |c'.xFrt i - c.xFrt i| ≤ X

/-- The humidities of two rows agree up to `X`. -/
structure RowHumidNear (X : ℝ) (a b : LogRow I J) : Prop where
  rooms : ∀ i, |b.xR i - a.xR i| ≤ X
  furniture : ∀ i, |b.xFrt i - a.xFrt i| ≤ X

end HLC.Spec
