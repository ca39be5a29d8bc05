import Verif.Model.InputJson
import Verif.Model.Ees

/-!
# Specification: an exported part as the initializer reads it (C84)
-/

namespace HLC.Spec
open HLC.Conv HLC.Init

/-- The dictionary with further entries. -/
def withEntries (l : List (String × PyVal)) (d : PyVal) : PyVal :=
  match d with
  | .dict m => .dict (l ++ m)
  | d => d

/-- The numbers of the rooms in the input file of the initializer. -/
def roomNumber : SpaceType → Option ℤ
  | .mainOccupantRoom => some 0
  | .otherOccupantRoom => some 1
  | .nonOccupantRoom => some 2
  | .underfloor => some 3
  | .undefined => none

/-- The boundary has the given area and, from its layers and the two surface resistances, the given U value. -/
def ReadsU (b : BoundaryDict) (area u : ℝ) : Prop :=
  b.area = area ∧ ∃ ls rOut, b.layers = some ls ∧ b.rOut = some rOut ∧ u * (b.rIn + (ls.map Prod.snd).sum + rOut) = 1

/-- The position of the part: its room, whether the sun reaches it, its orientation, and the share `h` of the outdoor temperature. -/
structure Placed (b : BoundaryDict) (room : SpaceType) (next : NextSpace) (direction : Direction) (h : ℝ) : Prop where
  room : roomNumber room = some b.connectedRoom
  sun : b.isSunStruck = some true ∧ next = .outdoor ∨ b.isSunStruck = some false ∧ next ≠ .outdoor
  direction : next = .outdoor → b.direction = some direction.value
  share : b.tempDifCoef = some h

end HLC.Spec
