import Verif.Model.ConvLevels

/-!
# Floors and walls between the rooms of a house
-/

namespace HLC.Spec

open HLC.Conv
open Classical

/-- The area of the envelope of a room whose direction satisfies `facing`. -/
noncomputable def envelopeArea (parts : List AreaPart) (room : SpaceType) (facing : Direction → Prop) : ℝ :=
  (parts.map fun p => if p.spaceType = room ∧ facing p.direction then p.area else 0).sum

/-- The area of the earth floors under a room (or of the underfloor space). -/
noncomputable def groundArea (ecs : List Efc) (room : String) : ℝ := (ecs.map fun e => if e.spaceType = room then e.area else 0).sum

/-- Facing down. -/
def Down (d : Direction) : Prop := d = .bottom ∨ d = .downward

/-- Facing sideways: the eight compass directions and "horizontal". -/
def Sideways : Direction → Prop
  | .n | .ne | .e | .se | .s | .sw | .w | .nw | .horizontal => True
  | _ => False

/-- Three kinds of rooms of a house. -/
inductive Room
  | main | other | non
  deriving DecidableEq

/-- The floor area of a kind of room. -/
def Room.floor (f : FloorAreas) : Room → ℝ
  | .main => f.main
  | .other => f.other
  | .non => f.total - f.main - f.other

/-- The name under which a kind of room appears in the files. -/
def Room.name : Room → String
  | .main => "main_occupant_room"
  | .other => "other_occupant_room"
  | .non => "non_occupant_room"

/-- The room as a space type. -/
def Room.space : Room → SpaceType
  | .main => .mainOccupantRoom
  | .other => .otherOccupantRoom
  | .non => .nonOccupantRoom

/-- The floor of a room that is neither over outdoors nor over earth. -/
noncomputable def Room.innerFloor (f : FloorAreas) (parts : List AreaPart) (ecs : List Efc) (r : Room) : ℝ :=
  max 0 (r.floor f - envelopeArea parts r.space Down - groundArea ecs r.name)

/-- The area of the partition walls of a room: the perimeter of its plan (assumed 1.2, or 1.4, times that of a square) times
2.8 m, less what is envelope. -/
noncomputable def Room.innerWall (f : FloorAreas) (parts : List AreaPart) (r : Room) : ℝ :=
  max 0 (4 * (if r = .main then 1.2 else 1.4) * 2.8 * Real.sqrt (r.floor f) - envelopeArea parts r.space Sideways)

/-- The total area of the emitted floors with a given upper room. -/
noncomputable def floorsOf (l : List InnerFloor) (r : Room) : ℝ := (l.map fun x => if x.upper = r.name then x.area else 0).sum

/-- The total area of the emitted floors over the underfloor space. -/
noncomputable def floorsOverUnderfloor (l : List InnerFloor) : ℝ := (l.map fun x => if x.lower = "underfloor" then x.area else 0).sum

/-- The total area of the emitted walls that bound a given room. -/
noncomputable def wallsOf (l : List InnerWall) (r : Room) : ℝ :=
  (l.map fun x => if x.space1 = r.name ∨ x.space2 = r.name then x.area else 0).sum

end HLC.Spec
