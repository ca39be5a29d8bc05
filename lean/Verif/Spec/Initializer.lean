import Verif.Model.Initializer

/-!
# Specification: consistent input of the initializer (C50-C53)
-/

namespace HLC.Spec
open HLC.Init

/-- The names of the room types. -/
def roomTypeNames : List String := ["main_occupant_room", "other_occupant_room", "non_occupant_room", "underfloor"]

/-- How often a room type occurs. -/
def occurrences (rooms : List RoomDict) (t : String) : ℕ := rooms.countP fun r => r.roomType = t

/-- A heating or cooling unit of a known kind with the data of that kind. -/
def KnownEquipment (e : EquipDict) : Prop :=
  e.kind = "not_installed" ∨ (e.kind = "convective" ∧ e.convective.isSome) ∨ (e.kind = "radiative" ∧ e.radiative.isSome)

/-- Consistent rooms: numbered 0 … n-1, known types, exactly one main room, at most one of each other type, known equipment;
inter-room ventilation comes from rooms between `low` and n-1. -/
structure ValidRooms (low : ℤ) (rooms : List RoomDict) : Prop where
  ids : ∀ i (h : i < rooms.length), rooms[i].id = i
  types : ∀ r ∈ rooms, r.roomType ∈ roomTypeNames
  main : occurrences rooms "main_occupant_room" = 1
  others : ∀ t ∈ roomTypeNames, occurrences rooms t ≤ 1
  heating : ∀ r ∈ rooms, KnownEquipment r.heating
  cooling : ∀ r ∈ rooms, KnownEquipment r.cooling
  upstream : ∀ r ∈ rooms, ∀ v ∈ r.nextVent, low ≤ v.upstream ∧ v.upstream < rooms.length

/-- Total flow (m³/h) specified from room `k`. -/
noncomputable def flowFrom (routes : List NextVent) (k : ℕ) : ℝ := ((routes.filter fun v => v.upstream = (k : ℤ)).map NextVent.volume).sum

end HLC.Spec
