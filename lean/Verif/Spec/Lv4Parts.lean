import Verif.Model.PyVal
import Verif.Model.Tables
import Verif.Model.Solar

/-!
# Specification: the parts of a house belong to rooms (C90-C92)

Only the dictionaries are used here: a part names its room under `space`, a room its type under `room_type`.
-/

namespace HLC.Spec.Lv4

open Classical in
/-- The parts of a list that belong to the room `y`, in the order of the list. -/
noncomputable def ofRoom (y : PyVal) (parts : List PyVal) : List PyVal :=
  parts.filter fun x => decide (x.getStr "space" = y.getStr "room_type")

/-- What becomes of one room `y`: under `key` one entry is added for each part of the room, in their order; `made x s` says that the
entry `s` describes the part `x`. Nothing else in the room changes. -/
structure RoomGets (key : String) (made : PyVal → PyVal → Prop) (parts : List PyVal) (y y' : PyVal) : Prop where
  others : ∀ k, k ≠ key → y'.get k = y.get k
  entries : ∀ old, y.getList key = .ok old →
    ∃ new, y'.getList key = .ok (old ++ new) ∧ List.Forall₂ made (ofRoom y parts) new

/-- All rooms are kept, in order, and each gets its own parts. -/
def Attached (key : String) (made : PyVal → PyVal → Prop) (parts rooms rooms' : List PyVal) : Prop :=
  List.Forall₂ (RoomGets key made parts) rooms rooms'

/-- The compass and vertical directions, as named at level 4 and in the initializer. -/
def compass : List (String × String) :=
  [("N", "n"), ("NE", "ne"), ("E", "e"), ("SE", "se"), ("S", "s"), ("SW", "sw"), ("W", "w"), ("NW", "nw"), ("Top", "top"),
   ("Bottom", "bottom")]

/-- The adjacent spaces as named at level 4. -/
def spaces : List (String × NextSpace) :=
  [("ClosedSpace", .closedSpace), ("OpenBackFloor", .openUnderfloor), ("ResidenceSpace", .airConditioned),
   ("ClosedBackFloor", .closedUnderfloor)]

/-- The boundary is outside air, turned to the direction `c` of the initializer (angles in degrees; a horizontal surface has no
azimuth). -/
def FacesOutside (c : String) (b : PyVal) : Prop :=
  b.getStr "Type" = .ok "Outdoor" ∧ ∃ az tilt, Init.angles c = .ok (az * Real.pi / 180, tilt * Real.pi / 180) ∧
    b.getNum "InclinationAngle" = .ok tilt ∧
    (b.getNum "DirectionAngle" = .ok az ∨ b.get "DirectionAngle" = .ok .null ∧ (tilt = 0 ∨ tilt = 180))

/-- The boundary is the adjacent space `sp`, with the temperature difference factor of that space in this region. -/
def FacesSpace (region : ℤ) (sp : NextSpace) (b : PyVal) : Prop :=
  b.getStr "Type" = .ok "DeltaTCoeff" ∧ ∃ h, sp.getH region = .ok h ∧ b.getNum "TempDifferFactor" = .ok h

/-- The boundary is what the name says. -/
def Faces (region : ℤ) (name : String) (b : PyVal) : Prop :=
  (∃ c, (name, c) ∈ compass ∧ FacesOutside c b) ∨ ∃ sp, (name, sp) ∈ spaces ∧ FacesSpace region sp b

/-- What a part faces: its direction when it is turned to the outside air, otherwise the adjacent space. -/
def facing (nextspace direction : String) : String := if nextspace = "Outdoor" then direction else nextspace

/-- The way the inner surface of an outer part faces: down under the sky, up over the open and over an underfloor space, level otherwise. -/
def outerSurface (name : String) : String :=
  if name = "Top" then "Downward" else if name = "Bottom" ∨ name = "OpenBackFloor" ∨ name = "ClosedBackFloor" then "Upward" else "Vertical"

/-- The kinds of inner parts and the way their surface faces in a room. -/
def innerWords : List (String × String) :=
  [("InnerCeiling", "Downward"), ("InnerWall", "Vertical"), ("InnerFloor", "Upward"), ("GroundFloor", "Upward")]

/-- The way the surface of an inner part faces: in a room as its kind says; in the underfloor space only a ground floor faces somewhere, and that
is down. -/
def InnerSurface (space kind : String) (v : PyVal) : Prop :=
  ∃ d, (kind, d) ∈ innerWords ∧
    ((space ∈ ["main_occupant_room", "other_occupant_room", "non_occupant_room"] ∧ v = .str d) ∨
      (space = "underfloor" ∧ v = if kind = "GroundFloor" then .str "Downward" else .null))

/-- A door is described by its area, its heat transmission coefficient `U`, a solar gain coefficient of 0.034 `U`, what it faces, and
its shade if there is one. -/
structure DoorMade (region : ℤ) (x s : PyVal) : Prop where
  area : s.get "area" = x.get "area"
  area_ok : ∃ a, x.get "area" = .ok a
  heat : ∃ w u, s.get "Window" = .ok w ∧ x.getNum "U" = .ok u ∧ w.getNum "Uw" = .ok u ∧ w.getNum "Eta" = .ok (0.034 * u) ∧
    w.getNum "SolarTrans" = .ok (0.034 * u) ∧ w.getNum "SolarAbsorp" = .ok 0 ∧ w.getNum "OutEmissiv" = .ok 0.9 ∧
    w.getNum "OutHeatTrans" = .ok (1 / 0.04) ∧ w.getNum "InHeatTrans" = .ok (1 / 0.11)
  kind : s.getBool "skin" = .ok true ∧ s.getBool "unsteady" = .ok false ∧ s.getNum "flr" = .ok 0
  turned : ∃ d, x.getStr "direction" = .ok d ∧ s.getStr "direction" = .ok (outerSurface d)
  faces : ∃ b nx d, s.get "boundary" = .ok b ∧ x.getStr "nextspace" = .ok nx ∧ x.getStr "direction" = .ok d ∧
    Faces region (facing nx d) b
  floor : ∃ d f, x.getStr "direction" = .ok d ∧ s.getBool "floor" = .ok f ∧ (f = true ↔ d = "Bottom")
  shade : ∃ c sh, x.getBool "IsSunshadeInput" = .ok c ∧ s.get "sunbreak" = .ok sh ∧
    if c then sh.get "D" = x.get "Z" ∧ sh.get "hi" = x.get "Y1" ∧ sh.get "WH" = x.get "Y2" ∧ sh.getNum "WI1" = .ok 500 ∧
      sh.getNum "WI2" = .ok 500 ∧ sh.getNum "WR" = .ok 0 else ∀ k, sh.get k = .error .keyError

/-- A floor perimeter is described by its linear coefficient, its length and what it faces. -/
structure PerimeterMade (region : ℤ) (x s : PyVal) : Prop where
  psi : s.get "LinearHeatTrans" = x.get "psi"
  length : s.get "LinearHeatTransLength" = x.get "length"
  length_ok : ∃ a, x.get "length" = .ok a
  faces : ∃ b nx, s.get "boundary" = .ok b ∧ x.getStr "nextspace" = .ok nx ∧
    ∃ name, (nx = "Outdoor" ∧ x.getStr "direction" = .ok name ∨ nx ≠ "Outdoor" ∧ name = nx) ∧
      ((∃ c, (name, c) ∈ compass ∧ b.getStr "Type" = .ok "Outdoor") ∨ ∃ sp, (name, sp) ∈ spaces ∧ FacesSpace region sp b)

/-- A layer of a wall. -/
def Layer (l : PyVal) (thick cond specH : ℝ) : Prop :=
  l.getNum "thick" = .ok thick ∧ l.getNum "cond" = .ok cond ∧ l.getNum "specH" = .ok specH

/-- An earth floor is described by its area; it is a floor on soil, of 15 cm of concrete on 3 m of soil. -/
structure EarthfloorMade (x s : PyVal) : Prop where
  area : s.get "area" = x.get "area"
  area_ok : ∃ a, x.get "area" = .ok a
  soil : s.getBool "IsSoil" = .ok true
  floor : s.getBool "floor" = .ok true
  kind : s.getBool "skin" = .ok true ∧ s.getBool "unsteady" = .ok true ∧ s.getNum "flr" = .ok 0 ∧ s.getStr "direction" = .ok "Upward" ∧
    s.getStr "boundary" = .ok "AnnualAverage"
  wall : ∃ w rc soil, s.get "Wall" = .ok w ∧ w.getNum "InHeatTrans" = .ok (1 / 0.15) ∧ w.getList "Layers" = .ok [rc, soil] ∧
    Layer rc 0.15 1.6 2000 ∧ Layer soil 3 1 3300

/-- Surface heat transfer resistance on the side of the room, by kind of part. -/
noncomputable def rInside : List (String × ℝ) :=
  [("roof", 0.09), ("ceiling", 0.09), ("wall", 0.11), ("floor", 0.15), ("boundary_wall", 0.11), ("upward_boundary_floor", 0.09),
   ("downward_boundary_floor", 0.15)]

/-- The two surface resistances of a part: outdoors 0.04, against any other space the same on both sides. -/
def Resistances (part nextSpace : String) (rI rO : ℝ) : Prop :=
  (part, rI) ∈ rInside ∧ rO = if nextSpace = "outdoor" then 0.04 else rI

/-- An inner wall is described by its area, its layers, the room behind it, and the inverse of its two surface resistances. -/
structure InnerMade (x s : PyVal) : Prop where
  area : s.get "area" = x.get "area"
  area_ok : ∃ a, x.get "area" = .ok a
  behind : ∃ b, s.get "boundary" = .ok b ∧ b.getStr "Type" = .ok "NextRoom" ∧ b.get "room_type" = x.get "nextspace"
  wall : ∃ w part nx rI rO, s.get "Wall" = .ok w ∧ w.get "Layers" = x.get "Layers" ∧ x.getStr "general_part" = .ok part ∧
    x.getStr "next_space" = .ok nx ∧ Resistances part nx rI rO ∧ w.getNum "InHeatTrans" = .ok (1 / rI) ∧
    w.getNum "OutHeatTrans" = .ok (1 / rO)
  floor : ∃ t f, x.getStr "type" = .ok t ∧ s.getBool "floor" = .ok f ∧ (f = true ↔ t = "GroundFloor" ∨ t = "InnerFloor")
  kind : s.getBool "skin" = .ok false ∧ s.getBool "unsteady" = .ok true ∧ s.getBool "IsSoil" = .ok false ∧ s.getNum "flr" = .ok 0
  turned : ∃ sp t d, x.getStr "space" = .ok sp ∧ x.getStr "type" = .ok t ∧ s.get "direction" = .ok d ∧ InnerSurface sp t d

/-- The names of all entries under `key` of all rooms. -/
def names (key : String) (rooms : List PyVal) : List (Except PyErr PyVal) :=
  rooms.flatMap fun y => match y.getList key with
    | .ok l => l.map fun s => s.get "name"
    | .error _ => []

/-- The sum of the numbers under `field` of all entries under `key` of all rooms. -/
noncomputable def total (key field : String) (rooms : List PyVal) : ℝ :=
  (rooms.map fun y => match y.getList key with
    | .ok l => (l.map fun s => match s.getNum field with | .ok a => a | .error _ => 0).sum
    | .error _ => 0).sum

/-- The sum of the numbers under `field` of a list of parts. -/
noncomputable def partTotal (field : String) (parts : List PyVal) : ℝ :=
  (parts.map fun s => match s.getNum field with | .ok a => a | .error _ => 0).sum

end HLC.Spec.Lv4
