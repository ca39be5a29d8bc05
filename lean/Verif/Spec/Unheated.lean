import Verif.Spec.Pipeline
import Verif.Spec.Schedule
import Verif.Spec.Entries

/-!
# Specification: a cold start without heating equipment (C120)
-/

namespace HLC.Spec

open HLC.Init

/-- A house of plain outer parts out of the sun, without air flow between its rooms and without heating equipment. -/
structure PlainUnheated (d : Input) : Prop where
  heating : ∀ r ∈ d.rooms, r.heating.kind = "not_installed"
  air : ∀ r ∈ d.rooms, r.nextVent = []
  parts : ∀ b ∈ d.boundaries, b.boundaryType = "external_opaque_part" ∧ b.isSunStruck = some false ∧ b.tempDifCoef = some 1

/-- On every kind of day the first quarter of an hour asks for the room to be kept comfortable, and nobody and nothing warms it. -/
structure AsksAtMidnight (t : RoomTables) : Prop where
  demand : ∀ k day, t.demand k day 0 = 1
  people : ∀ k day, t.people k day 0 = 0
  appliances : ∀ k day, t.appliances k day 0 = 0
  cookingHeat : ∀ k day, t.cookingHeat k day 0 = 0
  cookingVapour : ∀ k day, t.cookingVapour k day 0 = 0
  lighting : ∀ k day, t.lighting k day 0 = 0
  localVent : ∀ k day q, 0 ≤ t.localVent k day q

end HLC.Spec
