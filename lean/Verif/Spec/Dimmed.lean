import Verif.Model.Initializer
import Verif.Spec.Warmer

/-!
# Specification: shading never lets in more sun (C132)
-/

namespace HLC.Spec

open HLC.Init

/-- The same part, with glass that is no more transparent and an overhang that is no shallower. -/
structure DimmedPart (b b' : BoundaryDict) : Prop where
  same : b' = { b with shading := b'.shading, eta := b'.eta }
  glass : b'.eta = b.eta ∨ ∃ e e', b.eta = some e ∧ b'.eta = some e' ∧ 0 ≤ e' ∧ e' ≤ e
  overhang : b'.shading = b.shading ∨
    ∃ s z z', b.shading = some s ∧ s.depth = some z ∧ 0 ≤ z ∧ z ≤ z' ∧ b'.shading = some { s with depth := some z' }

/-- The same house with such parts. -/
structure Dimmed (d d' : Input) : Prop where
  building : d'.building = d.building
  rooms : d'.rooms = d.rooms
  parts : List.Forall₂ DimmedPart d.boundaries d'.boundaries

/-- Areas and transmittances are not negative; an overhang is above a window of positive height. -/
structure SensiblePart (b : BoundaryDict) : Prop where
  area : 0 ≤ b.area
  glass : ∀ e, b.eta = some e → 0 ≤ e
  depth : ∀ s z, b.shading = some s → s.depth = some z → 0 ≤ z
  height : ∀ s x, b.shading = some s → s.dH = some x → 0 < x
  above : ∀ s x, b.shading = some s → s.dE = some x → 0 ≤ x

/-- Radiation is not negative and the sun is not above the zenith. -/
structure SensibleSun (s : Step) : Prop where
  direct : 0 ≤ s.iDn
  sky : 0 ≤ s.iSky
  height : s.hSun ≤ Real.pi / 2

/-- The sun that comes into room `i` in quarter hour `t` according to the file. -/
noncomputable def sunIn (o : Output) (i t : ℕ) : ℝ := (o.qTrsSol[i]?.bind fun l => l[t]?).getD 0

end HLC.Spec
