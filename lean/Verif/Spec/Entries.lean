import Verif.Model.Initializer

/-!
# Inputs that describe the same house
-/

namespace HLC.Spec

open HLC.Init

/-- A layer (heat capacity kJ/(m2 K), thermal resistance m2K/W) is entered as several layers of the same material one behind the other: the
pieces have the shares `xs` of the thickness. No piece falls below `least`, unless the material has no heat capacity. -/
def CutInto (least : ℝ) (layer : ℝ × ℝ) (pieces : List (ℝ × ℝ)) : Prop :=
  0 < layer.2 ∧ ∃ xs : List ℝ, (∀ x ∈ xs, 0 < x) ∧ xs.sum = 1 ∧ pieces = xs.map (fun x => (x * layer.1, x * layer.2)) ∧
    (layer.1 = 0 ∨ ∀ x ∈ xs, least ≤ x * layer.1)

/-- The same layers, some of them in pieces. -/
def LayersAlike (least : ℝ) (ls ls' : List (ℝ × ℝ)) : Prop :=
  ∃ pss : List (List (ℝ × ℝ)), List.Forall₂ (fun l ps => ps = [l] ∨ CutInto least l ps) ls pss ∧ ls' = pss.flatten

/-- A part of the building that is entered by its layers. -/
def Layered (b : BoundaryDict) : Prop := b.boundaryType = "internal" ∨ b.boundaryType = "external_general_part" ∨ b.boundaryType = "ground"

/-- The kinds of rooms behind a partition that the program knows. -/
def roomWords : List String := ["main_occupant_room", "other_occupant_room", "non_occupant_room", "underfloor"]

/-- Two entries for parts that differ at most in the name, the kind of room behind a partition, and, if the part is entered by its layers, in the
layers being cut in pieces, in the inner surface resistance and in a U value. -/
structure PartAlike (least : ℝ) (b b' : BoundaryDict) : Prop where
  others : b' = { b with name := b'.name, nextRoomType := b'.nextRoomType, rIn := b'.rIn, uValue := b'.uValue, layers := b'.layers }
  next : b'.nextRoomType = b.nextRoomType ∨ ∃ s s', b.nextRoomType = some s ∧ b'.nextRoomType = some s' ∧ s ∈ roomWords ∧ s' ∈ roomWords
  rIn : b'.rIn = b.rIn ∨ Layered b ∧ b.rIn ≠ 0 ∧ b'.rIn ≠ 0
  uValue : b'.uValue = b.uValue ∨ Layered b
  layers : b'.layers = b.layers ∨ ∃ l l', b.layers = some l ∧ b'.layers = some l' ∧ LayersAlike least l l'

/-- Heating equipment that is complete and not of the radiant kind: none, or an air conditioner of any size. -/
def NotRadiant (e : EquipDict) : Prop := e.kind = "not_installed" ∨ e.kind = "convective" ∧ ∃ s, e.convective = some s

/-- Two entries for rooms that differ at most in the heating equipment, which is not radiant in either. -/
structure RoomAlike (r r' : RoomDict) : Prop where
  others : r' = { r with heating := r'.heating }
  heating : r'.heating = r.heating ∨ NotRadiant r.heating ∧ NotRadiant r'.heating

/-- Two inputs that differ at most in such entries. -/
structure InputAlike (least : ℝ) (d d' : Input) : Prop where
  building : d'.building = d.building
  rooms : List.Forall₂ RoomAlike d.rooms d'.rooms
  parts : List.Forall₂ (PartAlike least) d.boundaries d'.boundaries

end HLC.Spec
