import Verif.Model.UPsi
import Mathlib.Analysis.Real.Sqrt

/-!
# Parts by room and inner parts (`convert/convert_lv2_to_lv3.py`, `convert/convert_lv3_to_lv4.py`)
-/

namespace HLC.Conv

/-- The three floor areas read from `common`, `convert/convert_lv2_to_lv3.py` 199-201,
`convert/convert_lv3_to_lv4.py` 358-360, 437-439. -/
structure FloorAreas where
  main : ℝ
  other : ℝ
  total : ℝ

/-- `convert/convert_lv2_to_lv3.py` 199-201. -/
noncomputable def FloorAreas.make (d : PyVal) : Except PyErr FloorAreas := do
  let m ← d.getNum "main_occupant_room_floor_area"
  let o ← d.getNum "other_occupant_room_floor_area"
  let t ← d.getNum "total_floor_area"
  return ⟨m, o, t⟩

/-- `convert/convert_lv2_to_lv3.py` 13-54, `get_separated_areas` and `get_separated_lengths`: the shares of the main
room, the other rooms and the non-occupied rooms. -/
noncomputable def separate (x : ℝ) (f : FloorAreas) : Except PyErr (ℝ × ℝ × ℝ) := do
  let m ← pyDiv f.main f.total
  let o ← pyDiv f.other f.total
  let n ← pyDiv (f.total - f.main - f.other) f.total
  return (m * x, o * x, n * x)

/-- `convert/convert_lv2_to_lv3.py` 72-83, `get_general_part_lv3`. -/
def GP.lv3 (p : GP) (s : SpaceType) (area : ℝ) : GP :=
  { p with name := p.name ++ "_" ++ s.value, area := area, spaceType := s }

/-- `convert/convert_lv2_to_lv3.py` 101-111, `get_window_lv3`. -/
def Win.lv3 (p : Win) (s : SpaceType) (area : ℝ) : Win :=
  { p with name := p.name ++ "_" ++ s.value, area := area, spaceType := s }

/-- `convert/convert_lv2_to_lv3.py` 129-139, `get_door_lv3`. -/
def Door.lv3 (p : Door) (s : SpaceType) (area : ℝ) : Door :=
  { p with name := p.name ++ "_" ++ s.value, area := area, spaceType := s }

/-- `convert/convert_lv2_to_lv3.py` 157-165, `get_heatbridge_lv3`. -/
def Heatbridge.lv3 (p : Heatbridge) (s : SpaceType) (length : ℝ) : Heatbridge :=
  { p with name := p.name ++ "_" ++ s.value, length := length, spaceType := s }

/-- `convert/convert_lv2_to_lv3.py` 61-69, 90-98, 118-126, 146-154: one part replaced by three. -/
noncomputable def splitPart {α : Type} (f : FloorAreas) (size : α → ℝ) (lv3 : α → SpaceType → ℝ → α) (p : α) : Except PyErr (List α) := do
  let (m, o, n) ← separate (size p) f
  return [lv3 p .mainOccupantRoom m, lv3 p .otherOccupantRoom o, lv3 p .nonOccupantRoom n]

/-- `convert/convert_lv2_to_lv3.py` 57-69, `get_general_parts_lv3`. -/
noncomputable def gpsLv3 (f : FloorAreas) (l : List GP) : Except PyErr (List GP) := do
  return (← l.mapM (splitPart f (fun p => p.area) GP.lv3)).flatten

/-- `convert/convert_lv2_to_lv3.py` 86-98, `get_windows_lv3`. -/
noncomputable def wsLv3 (f : FloorAreas) (l : List Win) : Except PyErr (List Win) := do
  return (← l.mapM (splitPart f (fun p => p.area) Win.lv3)).flatten

/-- `convert/convert_lv2_to_lv3.py` 114-126, `get_doors_lv3`. -/
noncomputable def dsLv3 (f : FloorAreas) (l : List Door) : Except PyErr (List Door) := do
  return (← l.mapM (splitPart f (fun p => p.area) Door.lv3)).flatten

/-- `convert/convert_lv2_to_lv3.py` 142-154, `get_heatbridges_lv3`. -/
noncomputable def hbsLv3 (f : FloorAreas) (l : List Heatbridge) : Except PyErr (List Heatbridge) := do
  return (← l.mapM (splitPart f (fun p => p.length) Heatbridge.lv3)).flatten

/-- `convert/convert_lv2_to_lv3.py` 168-180, `get_earthfloor_perimeters_lv3`. -/
def epsLv3 (l : List Efp) : List Efp := l.map fun s => { s with spaceType := .underfloor }

/-- `convert/convert_lv2_to_lv3.py` 183-194, `get_earthfloor_centers_lv3`. -/
def ecsLv3 (l : List Efc) : List Efc := l.map fun s => { s with spaceType := "underfloor" }

/-- `convert/convert_lv2_to_lv3.py` 197-241, `convert_spec`. -/
noncomputable def convertLv2ToLv3 (common envelope : PyVal) : Except PyErr PyVal := do
  let f ← FloorAreas.make common
  let gps ← gpsLv3 f (← (← envelope.getList "general_parts").mapM GP.make)
  let ws ← wsLv3 f (← (← envelope.getList "windows").mapM Win.make)
  let ds ← dsLv3 f (← (← envelope.getList "doors").mapM Door.make)
  let hbs ← hbsLv3 f (← (← envelope.getList "heat_bridges").mapM Heatbridge.make)
  let eps := epsLv3 (← (← envelope.getList "earthfloor_perimeters").mapM Efp.make)
  let ecs := ecsLv3 (← (← envelope.getList "earthfloor_centers").mapM Efc.make)
  return .dict [("input_method", .str "detail_with_room_usage"), ("general_parts", .list (gps.map GP.asDict)),
    ("windows", .list (ws.map Win.asDict)), ("doors", .list (ds.map Door.asDict)), ("heat_bridges", .list (hbs.map Heatbridge.asDict)),
    ("earthfloor_perimeters", .list (eps.map Efp.asDict)), ("earthfloor_centers", .list (ecs.map Efc.asDict))]

/-- What `convert/convert_lv3_to_lv4.py` 53-68, 262-266 use of a general part, window or door. -/
structure AreaPart where
  area : ℝ
  spaceType : SpaceType
  direction : Direction

/-- `gps + ws + ds`, `convert/convert_lv3_to_lv4.py` 53, 262. -/
def areaParts (gps : List GP) (ws : List Win) (ds : List Door) : List AreaPart :=
  gps.map (fun s => ⟨s.area, s.spaceType, s.direction⟩) ++ ws.map (fun s => ⟨s.area, s.spaceType, s.direction⟩)
    ++ ds.map (fun s => ⟨s.area, s.spaceType, s.direction⟩)

/-- `convert/convert_lv3_to_lv4.py` 36-70, `get_downward_envelope_total_area`, for one room. -/
noncomputable def downwardArea (l : List AreaPart) (r : SpaceType) : ℝ :=
  ((l.filter fun s => decide (s.spaceType = r) && (decide (s.direction = .bottom) || decide (s.direction = .downward))).map (·.area)).sum

/-- `convert/convert_lv3_to_lv4.py` 245-268, `get_horizontal_envelope_total_area`, for one room. -/
noncomputable def horizontalArea (l : List AreaPart) (r : SpaceType) : ℝ :=
  ((l.filter fun s => decide (s.spaceType = r) && s.direction.isHorizontal).map (·.area)).sum

/-- `convert/convert_lv3_to_lv4.py` 73-90, `get_earthfloor_total_area`, for one space. -/
noncomputable def earthfloorArea (l : List Efc) (r : String) : ℝ := ((l.filter fun s => s.spaceType = r).map (·.area)).sum

/-- Three values, for the main room, the other rooms and the non-occupied rooms. -/
structure Three where
  mr : ℝ
  or : ℝ
  nr : ℝ

/-- `convert/convert_lv3_to_lv4.py` 93-119, `get_inner_floor_total_area`. -/
noncomputable def innerFloorTotal (f : FloorAreas) (down ef : Three) : Three where
  mr := max 0 (f.main - down.mr - ef.mr)
  or := max 0 (f.other - down.or - ef.or)
  nr := max 0 (f.total - f.main - f.other - down.nr - ef.nr)

/-- `convert/convert_lv3_to_lv4.py` 122-146, `get_inner_floor_over_underfloor_total_area`. -/
noncomputable def innerFloorUnderfloor (a : Three) (uf : ℝ) : Three :=
  if a.mr + a.or + a.nr > 0 then
    ⟨uf * a.mr / (a.mr + a.or + a.nr), uf * a.or / (a.mr + a.or + a.nr), uf * a.nr / (a.mr + a.or + a.nr)⟩
  else ⟨0, 0, 0⟩

/-- Areas of floors between rooms: `mrOr` has the main room above and the other rooms below, and so on. -/
structure FloorsBetween where
  mrOr : ℝ
  mrNr : ℝ
  orMr : ℝ
  orNr : ℝ
  nrMr : ℝ
  nrOr : ℝ

/-- `convert/convert_lv3_to_lv4.py` 149-211, `get_inner_floor_between_rooms`. -/
noncomputable def innerFloorBetween (f : FloorAreas) (a uf : Three) : Except PyErr FloorsBetween :=
  let nr := f.total - f.main - f.other
  if f.main ≤ 0 then .error .valueError
  else
    let m := max 0 (a.mr - uf.mr)
    let o := max 0 (a.or - uf.or)
    let n := max 0 (a.nr - uf.nr)
    if f.other ≤ 0 ∧ nr ≤ 0 then .ok ⟨0, 0, 0, 0, 0, 0⟩
    else if f.other ≤ 0 then .ok ⟨0, m, 0, 0, n, 0⟩
    else if nr ≤ 0 then .ok ⟨m, 0, o, 0, 0, 0⟩
    else .ok ⟨m / 2, m / 2, o / 2, o / 2, n / 2, n / 2⟩

/-- `a ** 0.5` used in a real comparison: a negative `a` gives a complex number, which `max` refuses (`TypeError`). -/
noncomputable def pySqrt (a : ℝ) : Except PyErr ℝ := if a < 0 then .error .typeError else .ok (Real.sqrt a)

/-- `convert/convert_lv3_to_lv4.py` 271-294, `get_inner_wall_total_area`. -/
noncomputable def innerWallTotal (f : FloorAreas) (h : Three) : Except PyErr Three := do
  let sm ← pySqrt f.main
  let so ← pySqrt f.other
  let sn ← pySqrt (f.total - f.main - f.other)
  return ⟨max 0 (4 * 1.2 * 2.8 * sm - h.mr), max 0 (4 * 1.4 * 2.8 * so - h.or), max 0 (4 * 1.4 * 2.8 * sn - h.nr)⟩

/-- Areas of the walls between two rooms. -/
structure WallsBetween where
  mrOr : ℝ
  mrNr : ℝ
  orNr : ℝ

/-- `convert/convert_lv3_to_lv4.py` 297-337, `get_inner_wall_total_area_between_rooms`. -/
noncomputable def innerWallBetween (f : FloorAreas) (w : Three) : Except PyErr WallsBetween :=
  let nr := f.total - f.main - f.other
  if f.main ≤ 0 then .error .valueError
  else if f.other ≤ 0 ∧ nr ≤ 0 then .ok ⟨0, 0, 0⟩
  else if f.other ≤ 0 then .ok ⟨0, (w.mr + w.nr) / 2, 0⟩
  else if nr ≤ 0 then .ok ⟨(w.mr + w.or) / 2, 0, 0⟩
  else .ok ⟨max 0 ((w.mr + w.or - w.nr) / 2), max 0 ((w.mr + w.nr - w.or) / 2), max 0 ((w.or + w.nr - w.mr) / 2)⟩

/-- `convert/convert_lv3_to_lv4.py` 19-33, `get_inner_floor_layers`. -/
noncomputable def innerFloorLayers : List Layer :=
  [{ name := "plywood", method := .conductivity, thickness := 0.024, volHeat := 720, conductivity := 0.16 }]

/-- `convert/convert_lv3_to_lv4.py` 214-242, `get_inner_wall_layers`. -/
noncomputable def innerWallLayers : List Layer :=
  [{ name := "gpb", method := .conductivity, thickness := 0.0125, volHeat := 830, conductivity := 0.22 },
   { name := "air_layer", method := .resistance, thickness := 0.120, volHeat := 0, resistance := 0.09 },
   { name := "gpb", method := .conductivity, thickness := 0.0125, volHeat := 830, conductivity := 0.22 }]

/-- `convert/convert_lv3_to_lv4.py` 395-411, `append_inner_floor`. -/
noncomputable def appendFloor (name : String) (area : ℝ) (up lo : String) : List InnerFloor :=
  if area > 0 then [{ name := name, area := area, upper := up, lower := lo, layers := innerFloorLayers }] else []

/-- `convert/convert_lv3_to_lv4.py` 459-469, `append_inner_wall`. -/
noncomputable def appendWall (name : String) (area : ℝ) (s1 s2 : String) : List InnerWall :=
  if area > 0 then [{ name := name, area := area, space1 := s1, space2 := s2, layers := innerWallLayers }] else []

/-- `convert/convert_lv3_to_lv4.py` 340-423, `make_inner_floors`. -/
noncomputable def makeInnerFloors (f : FloorAreas) (parts : List AreaPart) (ecs : List Efc) : Except PyErr (List InnerFloor) := do
  let down : Three := ⟨downwardArea parts .mainOccupantRoom, downwardArea parts .otherOccupantRoom, downwardArea parts .nonOccupantRoom⟩
  let ef : Three := ⟨earthfloorArea ecs "main_occupant_room", earthfloorArea ecs "other_occupant_room", earthfloorArea ecs "non_occupant_room"⟩
  let a := innerFloorTotal f down ef
  let uf := innerFloorUnderfloor a (earthfloorArea ecs "underfloor")
  let b ← innerFloorBetween f a uf
  return appendFloor "inner_floor_main_to_underfloor" uf.mr "main_occupant_room" "underfloor"
    ++ appendFloor "inner_floor_other_to_underfloor" uf.or "other_occupant_room" "underfloor"
    ++ appendFloor "inner_floor_non_to_underfloor" uf.nr "non_occupant_room" "underfloor"
    ++ appendFloor "inner_floor_main_to_other" b.mrOr "main_occupant_room" "other_occupant_room"
    ++ appendFloor "inner_floor_main_to_non" b.mrNr "main_occupant_room" "non_occupant_room"
    ++ appendFloor "inner_floor_other_to_main" b.orMr "other_occupant_room" "main_occupant_room"
    ++ appendFloor "inner_floor_other_to_non" b.orNr "other_occupant_room" "non_occupant_room"
    ++ appendFloor "inner_floor_non_to_main" b.nrMr "non_occupant_room" "main_occupant_room"
    ++ appendFloor "inner_floor_non_to_other" b.nrOr "non_occupant_room" "other_occupant_room"

/-- `convert/convert_lv3_to_lv4.py` 426-475, `make_inner_walls`. -/
noncomputable def makeInnerWalls (f : FloorAreas) (parts : List AreaPart) : Except PyErr (List InnerWall) := do
  let h : Three := ⟨horizontalArea parts .mainOccupantRoom, horizontalArea parts .otherOccupantRoom, horizontalArea parts .nonOccupantRoom⟩
  let w ← innerWallTotal f h
  let b ← innerWallBetween f w
  return appendWall "inner_wall_main_to_other" b.mrOr "main_occupant_room" "other_occupant_room"
    ++ appendWall "inner_wall_main_to_non" b.mrNr "main_occupant_room" "non_occupant_room"
    ++ appendWall "inner_wall_other_to_non" b.orNr "other_occupant_room" "non_occupant_room"

/-- `convert/convert_lv3_to_lv4.py` 478-505, `convert_spec`. -/
noncomputable def convertLv3ToLv4 (common envelope : PyVal) : Except PyErr PyVal := do
  let gps ← (← envelope.getList "general_parts").mapM GP.make
  let ws ← (← envelope.getList "windows").mapM Win.make
  let ds ← (← envelope.getList "doors").mapM Door.make
  let eps ← (← envelope.getList "earthfloor_perimeters").mapM Efp.make
  let ecs ← (← envelope.getList "earthfloor_centers").mapM Efc.make
  let hbs ← (← envelope.getList "heat_bridges").mapM Heatbridge.make
  let f ← FloorAreas.make common
  let ifs ← makeInnerFloors f (areaParts gps ws ds) ecs
  let iws ← makeInnerWalls f (areaParts gps ws ds)
  return .dict [("general_parts", .list (gps.map GP.asDict)), ("windows", .list (ws.map Win.asDict)), ("doors", .list (ds.map Door.asDict)),
    ("earthfloor_perimeters", .list (eps.map Efp.asDict)), ("earthfloor_centers", .list (ecs.map Efc.asDict)),
    ("heat_bridges", .list (hbs.map Heatbridge.asDict)), ("inner_floors", .list (ifs.map InnerFloor.asDict)),
    ("inner_walls", .list (iws.map InnerWall.asDict))]

end HLC.Conv
