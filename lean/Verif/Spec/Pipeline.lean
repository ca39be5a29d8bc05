import Verif.Spec.Reader
import Verif.Spec.WellFormed

/-!
# Specification: physically possible inputs (C75)
-/

namespace HLC.Spec
open HLC.Init

/-- Physically possible values in an input; `dt` is the length of a time step in seconds. -/
structure PhysicalInput (d : Input) (dt : ℝ) : Prop where
  dt_pos : 0 < dt
  volume : ∀ r ∈ d.rooms, 0 < r.volume
  vent : ∀ r ∈ d.rooms, 0 ≤ r.vent
  natural : ∀ r ∈ d.rooms, 0 ≤ r.naturalVentTime
  route : ∀ r ∈ d.rooms, ∀ v ∈ r.nextVent, 0 ≤ v.volume
  /-- The air that flows in from other rooms during a step is less than the volume of the room. -/
  inflow : ∀ r ∈ d.rooms, (r.nextVent.map NextVent.volume).sum / 3600 * dt < r.volume
  radiant : ∀ r ∈ d.rooms, ∀ s, r.heating.radiative = some s → 0 ≤ s.maxCapacity * s.area
  cooling : ∀ r ∈ d.rooms, ∀ s, r.cooling.convective = some s → s.qMin < s.qMax ∧ s.vMin ≤ s.vMax ∧ s.vMax * s.qMin ≤ s.vMin * s.qMax
  hC : ∀ b ∈ d.boundaries, 0 < b.hC

/-- A part given by its U value. -/
def GivenByU (b : BoundaryDict) : Prop := b.boundaryType = "external_transparent_part" ∨ b.boundaryType = "external_opaque_part"

/-- Value of a time series at time `t`; 0 beyond its end. -/
noncomputable def at' (l : List ℝ) (t : ℕ) : ℝ := l[t]?.getD 0

end HLC.Spec
