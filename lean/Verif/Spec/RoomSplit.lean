import Verif.Model.ConvLevels

/-!
# Distributing a part of the envelope over the rooms
-/

namespace HLC.Spec

open HLC.Conv

/-- `shares` are the three shares of the part `p`: one in the main room, one in the other rooms, one in the
non-occupied rooms. They differ from `p` only in name, size and room (`same`), their sizes add up to that of `p`, each is
proportional to the floor area of its room, and each is called after `p` and its room. -/
structure SharesOf {α : Type} (same : α → α → Prop) (size : α → ℝ) (room : α → SpaceType) (name : α → String) (f : FloorAreas) (p : α) (shares : List α) : Prop where
  rooms : shares.map room = [.mainOccupantRoom, .otherOccupantRoom, .nonOccupantRoom]
  sizes : shares.map (fun x => size x * f.total) = [size p * f.main, size p * f.other, size p * (f.total - f.main - f.other)]
  total : (shares.map size).sum = size p
  same : ∀ x ∈ shares, same p x
  names : shares.map name = [name p ++ "_main_occupant_room", name p ++ "_other_occupant_room", name p ++ "_non_occupant_room"]

/-- The parts `l'` are the shares of the parts `l`, in order. -/
def SplitInto {α : Type} (share : α → List α → Prop) (l l' : List α) : Prop := ∃ ls, List.Forall₂ share l ls ∧ l' = ls.flatten

/-- The general part `x` equals `p` but for name, area and room. -/
def SameGP (p x : GP) : Prop := x = { p with name := x.name, area := x.area, spaceType := x.spaceType }

/-- The window `x` equals `p` but for name, area and room. -/
def SameWin (p x : Win) : Prop := x = { p with name := x.name, area := x.area, spaceType := x.spaceType }

/-- The door `x` equals `p` but for name, area and room. -/
def SameDoor (p x : Door) : Prop := x = { p with name := x.name, area := x.area, spaceType := x.spaceType }

/-- The heat bridge `x` equals `p` but for name, length and room. -/
def SameBridge (p x : Heatbridge) : Prop := x = { p with name := x.name, length := x.length, spaceType := x.spaceType }

end HLC.Spec
