import Verif.Spec.Warmer

/-!
# Specification: the past fades away (C110)
-/

namespace HLC.Spec

variable {I J : Type}

/-- The heat flow with which the past of a room holds its temperature, W/K: the heat stored in its air and in its furniture during one step. -/
noncomputable def roomHold (h : House I J) (dt : ℝ) (i : I) : ℝ :=
  h.vRoom i * airCap / dt + h.gSh i * h.cSh i / (h.cSh i + dt * h.gSh i)

/-- `ρ` bounds what is left of a difference of temperatures after one step in a room that takes in at least `v i` m3/s of outdoor air, and `σ` what
is left of it in its furniture. -/
structure Fading (h : House I J) (dt : ℝ) (v : I → ℝ) (ρ σ : ℝ) : Prop where
  nonneg : 0 ≤ ρ
  rooms : ∀ i, roomHold h dt i ≤ ρ * (roomHold h dt i + airCap * v i)
  order : ρ ≤ σ
  furniture : ∀ i, h.cSh i + dt * h.gSh i * ρ ≤ σ * (h.cSh i + dt * h.gSh i)

/-- All temperatures of two rows agree up to `M`. -/
structure RowNear (M : ℝ) (a b : LogRow I J) : Prop where
  rooms : ∀ i, |b.thetaR i - a.thetaR i| ≤ M
  furniture : ∀ i, |b.thetaFrt i - a.thetaFrt i| ≤ M
  surfaces : ∀ j, |b.thetaS j - a.thetaS j| ≤ M
  radiant : ∀ i, |b.thetaMrt i - a.thetaMrt i| ≤ M
  operative : ∀ i, |b.thetaOt i - a.thetaOt i| ≤ M

end HLC.Spec
