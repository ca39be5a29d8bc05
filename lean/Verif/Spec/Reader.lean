import Verif.Model.Reader
import Verif.Spec.Initializer

/-!
# Specification: the house described by the input, and the house the calculation works on (C72, C73)
-/

namespace HLC.Spec
open HLC.Init

/-- An input that describes a house completely. -/
structure CompleteInput (d : Input) : Prop where
  rooms : ValidRooms 0 d.rooms
  cooling : ∀ r ∈ d.rooms, r.cooling.kind = "convective"
  partRoom : ∀ b ∈ d.boundaries, 0 ≤ b.connectedRoom ∧ b.connectedRoom < d.rooms.length
  partId : ∀ j (h : j < d.boundaries.length), d.boundaries[j].id = j
  rear : ∀ b ∈ d.boundaries, ∀ r, b.rearSurface = some r → 0 ≤ r ∧ r < d.boundaries.length
  area : ∀ b ∈ d.boundaries, 0 < b.area
  tempDif : ∀ b ∈ d.boundaries, ∀ c, b.tempDifCoef = some c → 0 ≤ c ∧ c ≤ 1
  uValue : ∀ b ∈ d.boundaries, ∀ u, b.uValue = some u → 0 < u ∧ u * b.rIn < 1
  floor : ∀ i : ℕ, i < d.rooms.length → ∃ b ∈ d.boundaries, b.connectedRoom = i ∧ b.isFloor = true
  notOnlyFloor : ∀ i : ℕ, i < d.rooms.length → ∃ b ∈ d.boundaries, b.connectedRoom = i ∧ b.isFloor = false

variable {n m : ℕ}

/-- Room `i` of the house is the room `r` of the input, in SI units. -/
structure SameRoom (h : House (Fin n) (Fin m)) (i : Fin n) (r : RoomDict) : Prop where
  volume : h.vRoom i = r.volume
  convective : h.beta i = 0
  ventilation : h.vVentEx i = r.vent / 3600
  inflow : ∀ k, h.vInt i k = flowFrom r.nextVent k.1 / 3600
  natural : h.vNtrl i = r.volume * r.naturalVentTime / 3600
  furnitureHeat : h.cSh i = 12600 * r.volume ∧ h.gSh i = 2.772 * r.volume
  furnitureMoisture : h.cLh i = 16.8 * r.volume ∧ h.gLh i = 0.03024 * r.volume
  heating : (h.isRadHeating i = true ↔ r.heating.kind = "radiative") ∧ (r.heating.kind ≠ "radiative" → h.capH i = 0) ∧
    (r.heating.kind = "radiative" → ∀ s, r.heating.radiative = some s → h.capH i = s.maxCapacity * s.area)
  cooling : h.isRadCooling i = false ∧ ∀ s, r.cooling.convective = some s → h.rac i = ⟨s.qMin, s.qMax, s.vMin, s.vMax⟩

/-- Part `j` of the house is the part `b` of the input. -/
structure SamePart (h : House (Fin n) (Fin m)) (j : Fin m) (b : BoundaryDict) : Prop where
  room : ((h.room j : ℕ) : ℤ) = b.connectedRoom
  area : h.area j = b.area
  coefficient : h.hC j = b.hC
  absorbing : h.solarAbs j = b.isSolarAbsorbed
  ground : h.isGround j = true ↔ b.boundaryType = "ground"
  /-- Outdoor part: the outdoor weight is the temperature difference coefficient, the rest (rounded to 0.1) is the part's own side. -/
  outdoor : isExternal b.boundaryType = true → ∃ c, b.tempDifCoef = some c ∧ h.kEo j = c ∧ (c = 1 → h.kEi j = none) ∧
    (c < 1 → ∃ w, h.kEi j = some (j, w) ∧ 0 ≤ w ∧ w ≤ 1 ∧ |c + w - 1| ≤ 0.05)
  /-- Internal part: the partner given in the input has weight one. -/
  internal : b.boundaryType = "internal" → ∃ r, b.rearSurface = some r ∧ h.kEo j = 0 ∧ ∃ k : Fin m, (k : ℤ) = r ∧ h.kEi j = some (k, 1)
  /-- Nothing but the ground is behind a part on the ground; outdoor air has no weight there. -/
  below : b.boundaryType = "ground" → h.kEo j = 0 ∧ h.kEi j = none
  kind : isExternal b.boundaryType = true ∨ b.boundaryType = "internal" ∨ b.boundaryType = "ground"
  /-- Parts given by their U value have no heat capacity: the response is immediate, with the resistance up to the outdoor air. -/
  steady : b.boundaryType = "external_transparent_part" ∨ b.boundaryType = "external_opaque_part" →
    ∃ u, b.uValue = some u ∧ h.phiT0 j = 1 ∧ h.phiA0 j = 1 / u - b.rIn ∧ (∀ k, h.phiT1 j k = 0) ∧ (∀ k, h.phiA1 j k = 0)
  /-- Layered parts: the stationary response is the sum of the resistances, and all ratios are in [0, 1). -/
  layered : b.boundaryType = "external_general_part" ∨ b.boundaryType = "internal" →
    ∃ l r, b.layers = some l ∧ b.rOut = some r ∧
      h.phiA0 j + ∑ k, h.phiA1 j k / (1 - h.ratio j k) = (l.map Prod.snd).sum + r ∧ h.phiT0 j + ∑ k, h.phiT1 j k / (1 - h.ratio j k) = 1
  /-- Ground: the layers and 3 m of soil of 1 W/(m K). -/
  soil : b.boundaryType = "ground" → ∃ l, b.layers = some l ∧
      h.phiA0 j + ∑ k, h.phiA1 j k / (1 - h.ratio j k) = (l.map Prod.snd).sum + 3 ∧ h.phiT0 j + ∑ k, h.phiT1 j k / (1 - h.ratio j k) = 1
  ratio : ∀ k, 0 ≤ h.ratio j k ∧ h.ratio j k < 1

end HLC.Spec
