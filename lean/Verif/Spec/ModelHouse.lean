import Verif.Model.ModelHouse

/-!
# A standard house with given areas
-/

namespace HLC.Spec

open HLC.Conv

/-- The arguments for which a standard house is defined: a detached house with insulated floor (and a bath room whose
insulation is known) or insulated foundation, or an attached house. -/
inductive HouseKind : String → Option String → Option String → Prop
  | floor {b : String} : b = "base" ∨ b = "floor" ∨ b = "not_exist" → HouseKind "detached" (some "floor") (some b)
  | base {b : Option String} : b = none ∨ b = some "base" ∨ b = some "floor" ∨ b = some "not_exist" → HouseKind "detached" (some "base") b
  | attached {f b : Option String} : f = none ∨ f = some "floor" ∨ f = some "base" →
      b = none ∨ b = some "base" ∨ b = some "floor" ∨ b = some "not_exist" → HouseKind "attached" f b

/-- The storeys are rectangles: `main` and `other` are the sides, of positive length, and their products the floor areas. -/
def Rectangles (main other area : List ℝ) : Prop :=
  List.Forall₂ (fun (s : ℝ × ℝ) a => 0 < s.1 ∧ 0 < s.2 ∧ s.1 * s.2 = a) (main.zip other) area ∧ main.length = other.length

/-- One of the storeys is a square. -/
def SomeSquare (main other : List ℝ) : Prop := ∃ s ∈ main.zip other, s.1 = s.2

/-- The area of the envelope: opaque parts, windows, doors and earth floors. -/
noncomputable def envelopeTotal (p : HouseNoSpec) : ℝ :=
  (p.gps.map (·.area)).sum + (p.ws.map (·.area)).sum + (p.ds.map (·.area)).sum + (p.ecs.map (·.area)).sum

/-- The area of windows and doors. -/
noncomputable def openings (p : HouseNoSpec) : ℝ := (p.ws.map (·.area)).sum + (p.ds.map (·.area)).sum

/-- The area of the foundations, outside and inside. -/
noncomputable def foundations (p : HouseNoSpec) : ℝ :=
  ((p.gps.filter fun g => g.name ∈ ["base_outside_sw", "base_outside_nw", "base_outside_ne", "base_outside_se", "base_inside"]).map (·.area)).sum

/-- The area of the floor next to the ground or the space below. -/
noncomputable def lowestFloor (p : HouseNoSpec) : ℝ :=
  ((p.gps.filter fun g => g.name = "floor").map (·.area)).sum + (p.ecs.map (·.area)).sum

/-- The area of the walls, windows and doors on the face of a house towards `d` (`"sw"`, `"nw"`, `"ne"`, `"se"`). -/
noncomputable def face (p : HouseNoSpec) (d : String) : ℝ :=
  ((p.gps.filter fun g => g.name = "wall_" ++ d).map (·.area)).sum + ((p.ws.filter fun g => g.name = "window_" ++ d).map (·.area)).sum +
    ((p.ds.filter fun g => g.name = "door_" ++ d).map (·.area)).sum

/-- The heights of the storeys of a standard house, in metres. -/
noncomputable def storeys (houseType : String) : List ℝ := if houseType = "detached" then [2.9, 2.7] else [2.8]

end HLC.Spec
