import Verif.Model.ConvRooms

/-!
# Parts of the exported house (`convert/convert_lv4_to_h_hlc.py` 227-619, `convert/a_06_common_items.py`)

`make_rooms` stops at the undefined name of line 722 before any of these functions is called; here they are modelled as the public
functions they are. Parts and rooms are dictionaries. Python changes the room dictionaries in place and returns the same list; the
model returns the list of changed rooms.
-/

namespace HLC

/-- `d[k] = v`: the entry is replaced when there is one, otherwise appended; `TypeError` when `d` is not a dictionary. -/
def PyVal.set (d : PyVal) (k : String) (v : PyVal) : Except PyErr PyVal :=
  match d with
  | .dict l =>
    if k ∈ l.map Prod.fst then .ok (.dict (l.map fun e => if e.1 = k then (k, v) else e))
    else .ok (.dict (l ++ [(k, v)]))
  | _ => .error .typeError

namespace Conv

/-- `{…}[k]` for a dictionary literal: `KeyError` when the key is absent. -/
def lookupKey {α : Type} (l : List (String × α)) (k : String) : Except PyErr α :=
  match l.lookup k with
  | some v => .ok v
  | none => .error .keyError

/-- `convert/a_06_common_items.py` 20-84, `get_r_surf`: inside and outside. -/
noncomputable def getRSurf (part nextSpace : String) : Except PyErr (ℝ × ℝ) :=
  if part = "roof" then
    if nextSpace = "outdoor" then .ok (0.09, 0.04) else .ok (0.09, 0.09)
  else if part = "ceiling" then
    if nextSpace = "outdoor" then .error .valueError else .ok (0.09, 0.09)
  else if part = "wall" then
    if nextSpace = "outdoor" then .ok (0.11, 0.04) else .ok (0.11, 0.11)
  else if part = "floor" then
    if nextSpace = "outdoor" then .ok (0.15, 0.04) else .ok (0.15, 0.15)
  else if part = "boundary_wall" then
    if nextSpace = "air_conditioned" then .ok (0.11, 0.11) else .error .valueError
  else if part = "upward_boundary_floor" then
    if nextSpace = "air_conditioned" then .ok (0.09, 0.09) else .error .valueError
  else if part = "downward_boundary_floor" then
    if nextSpace = "air_conditioned" then .ok (0.15, 0.15) else .error .valueError
  else .error .valueError

/-- `convert/convert_lv4_to_h_hlc.py` 227-252, `get_direction`: the entries are a string and booleans. -/
def getDirection (direction : String) : Except PyErr PyVal :=
  lookupKey [("top", .str "top"), ("n", .bool true), ("ne", .bool true), ("e", .bool true), ("se", .bool true), ("s", .bool true),
    ("sw", .bool true), ("w", .bool true), ("nw", .bool true), ("bottom", .bool false), ("upward", .bool false),
    ("horizontal", .bool false), ("downward", .bool false)] direction

/-- `convert/convert_lv4_to_h_hlc.py` 259-277, `get_directionangle_from_direction`; `none` is `None`. -/
def directionAngle (direction : String) : Except PyErr (Option ℝ) :=
  lookupKey [("Top", none), ("N", some 180), ("NE", some (-135)), ("E", some (-90)), ("SE", some (-45)), ("S", some 0), ("SW", some 45),
    ("W", some 90), ("NW", some 135), ("Bottom", none), ("ClosedSpace", none), ("OpenBackFloor", none), ("ResidenceSpace", none),
    ("ClosedBackFloor", none)] direction

/-- `convert/convert_lv4_to_h_hlc.py` 280-298, `get_inclinationangle_from_direction`. -/
def inclinationAngle (direction : String) : Except PyErr (Option ℝ) :=
  lookupKey [("Top", some 0), ("N", some 90), ("NE", some 90), ("E", some 90), ("SE", some 90), ("S", some 90), ("SW", some 90),
    ("W", some 90), ("NW", some 90), ("Bottom", some 180), ("ClosedSpace", none), ("OpenBackFloor", none), ("ResidenceSpace", none),
    ("ClosedBackFloor", none)] direction

/-- `convert/convert_lv4_to_h_hlc.py` 302-317: `Direction_to_NextSpace`. -/
def tempSpace (direction : String) : Except PyErr String :=
  lookupKey [("Top", "outside"), ("N", "outside"), ("NE", "outside"), ("E", "outside"), ("SE", "outside"), ("S", "outside"),
    ("SW", "outside"), ("W", "outside"), ("NW", "outside"), ("Bottom", "outside"), ("ClosedSpace", "underfloor"),
    ("OpenBackFloor", "underfloor"), ("ResidenceSpace", "next_room"), ("ClosedBackFloor", "next_room")] direction

/-- `convert/convert_lv4_to_h_hlc.py` 319-326: `NextSpace_to_TempDifferentFactor`. -/
noncomputable def tempTable (space : String) : Except PyErr (Fin 8 → ℝ) :=
  lookupKey [("outside", ![1.00, 1.00, 1.00, 1.00, 1.00, 1.00, 1.00, 1.00]), ("underfloor", ![0.70, 0.70, 0.70, 0.70, 0.70, 0.70, 0.70, 0.70]),
    ("next_room", ![0.05, 0.05, 0.05, 0.15, 0.15, 0.15, 0.15, 0.15])] space

/-- `convert/convert_lv4_to_h_hlc.py` 301-328, `get_tempdifferentfactor_from_direction`. -/
noncomputable def tempDifferFactor (region : ℤ) (direction : String) : Except PyErr ℝ := do
  let sp ← tempSpace direction
  let t ← tempTable sp
  region8 t region

/-- The table `Type` of `convert/convert_lv4_to_h_hlc.py` 332-347 and 379-394. -/
def boundaryKind (direction : String) : Except PyErr String :=
  lookupKey [("Top", "Outdoor"), ("N", "Outdoor"), ("NE", "Outdoor"), ("E", "Outdoor"), ("SE", "Outdoor"), ("S", "Outdoor"),
    ("SW", "Outdoor"), ("W", "Outdoor"), ("NW", "Outdoor"), ("Bottom", "Outdoor"), ("ClosedSpace", "DeltaTCoeff"),
    ("OpenBackFloor", "DeltaTCoeff"), ("ResidenceSpace", "DeltaTCoeff"), ("ClosedBackFloor", "DeltaTCoeff")] direction

/-- `None` or a number. -/
def optNum : Option ℝ → PyVal
  | some x => .num x
  | none => .null

/-- `convert/convert_lv4_to_h_hlc.py` 331-365, `get_boundary_for_outer_skin`. Both entries of the dictionary are built before one
of them is chosen. -/
noncomputable def boundaryOuter (region : ℤ) (nextspace direction : String) : Except PyErr PyVal := do
  let key := if nextspace = "Outdoor" then direction else nextspace
  let az ← directionAngle key
  let tilt ← inclinationAngle key
  let h ← tempDifferFactor region key
  let kind ← boundaryKind key
  lookupKey [("Outdoor", .dict [("name", .str direction), ("Type", .str "Outdoor"), ("DirectionAngle", optNum az),
      ("InclinationAngle", optNum tilt), ("GroundReflectRate", .num 0.1)]),
    ("DeltaTCoeff", .dict [("name", .str direction), ("Type", .str "DeltaTCoeff"), ("TempDifferFactor", .num h)])] kind

/-- `convert/convert_lv4_to_h_hlc.py` 368-375, `get_boundary_for_inner_skin`. -/
def boundaryInner (nextspace : String) : PyVal :=
  .dict [("name", .str ("NextRoom" ++ "_" ++ nextspace)), ("Type", .str "NextRoom"), ("room_type", .str nextspace)]

/-- `convert/convert_lv4_to_h_hlc.py` 378-408, `get_boundary_for_earthfloorperimeter`. -/
noncomputable def boundaryPerimeter (region : ℤ) (direction : String) : Except PyErr PyVal := do
  let h ← tempDifferFactor region direction
  let kind ← boundaryKind direction
  lookupKey [("Outdoor", .dict [("name", .str direction), ("Type", .str "Outdoor")]),
    ("DeltaTCoeff", .dict [("name", .str direction), ("Type", .str "DeltaTCoeff"), ("TempDifferFactor", .num h)])] kind

/-- `convert/convert_lv4_to_h_hlc.py` 411-427, `get_direction_from_direction_for_outer_skin`. -/
def directionOuter (direction : String) : Except PyErr String :=
  lookupKey [("Top", "Downward"), ("N", "Vertical"), ("NE", "Vertical"), ("E", "Vertical"), ("SE", "Vertical"), ("S", "Vertical"),
    ("SW", "Vertical"), ("W", "Vertical"), ("NW", "Vertical"), ("Bottom", "Upward"), ("ClosedSpace", "Vertical"),
    ("OpenBackFloor", "Upward"), ("ResidenceSpace", "Vertical"), ("ClosedBackFloor", "Upward")] direction

/-- `convert/convert_lv4_to_h_hlc.py` 432-437: the entry of an occupied or non-occupied room. -/
def innerOfRoom : List (String × PyVal) :=
  [("InnerCeiling", .str "Downward"), ("InnerWall", .str "Vertical"), ("InnerFloor", .str "Upward"), ("GroundFloor", .str "Upward")]

/-- `convert/convert_lv4_to_h_hlc.py` 430-439, `get_direction_from_direction_for_inner_skin`. -/
def directionInner (space type : String) : Except PyErr PyVal := do
  let row ← lookupKey [("main_occupant_room", innerOfRoom), ("other_occupant_room", innerOfRoom), ("non_occupant_room", innerOfRoom),
    ("underfloor", [("InnerCeiling", .null), ("InnerWall", .null), ("InnerFloor", .null), ("GroundFloor", .str "Downward")])] space
  lookupKey row type

/-- `y[key].append(v)`. -/
def appendTo (y : PyVal) (key : String) (v : PyVal) : Except PyErr PyVal := do
  let l ← y.getList key
  y.set key (.list (l ++ [v]))

/-- The loop over the rooms shared by `convert/convert_lv4_to_h_hlc.py` 457-475, 483-507, 565-575, 583-603: every room whose type is
the space of the part `x` gets the entry `mk s` with the current counter `s`, which is then advanced. Names of spaces and types are
compared as strings. -/
def attachOne {σ : Type} (key : String) (x : PyVal) (mk : σ → Except PyErr PyVal) (next : σ → σ) :
    σ → List PyVal → Except PyErr (σ × List PyVal)
  | s, [] => .ok (s, [])
  | s, y :: ys => do
    let sp ← x.getStr "space"
    let rt ← y.getStr "room_type"
    if sp = rt then do
      let v ← mk s
      let y' ← appendTo y key v
      let r ← attachOne key x mk next (next s) ys
      return (r.1, y' :: r.2)
    else do
      let r ← attachOne key x mk next s ys
      return (r.1, y :: r.2)

/-- The loop over the parts shared by `convert/convert_lv4_to_h_hlc.py` 453-475, 482-507, 564-575, 582-603. -/
def attachAll {σ : Type} (step : PyVal → σ → List PyVal → Except PyErr (σ × List PyVal)) :
    σ → List PyVal → List PyVal → Except PyErr (σ × List PyVal)
  | s, [], rooms => .ok (s, rooms)
  | s, x :: xs, rooms => do
    let r ← step x s rooms
    attachAll step r.1 xs r.2

/-- `convert/convert_lv4_to_h_hlc.py` 459-474: the surface made for an inner wall; `n` are the counters by type. -/
noncomputable def innerSurface (x : PyVal) (rI rO : ℝ) (n : String → ℕ) : Except PyErr PyVal := do
  let space ← x.getStr "space"
  let type ← x.getStr "type"
  let dir ← directionInner space type
  let nextspace ← x.getStr "nextspace"
  let area ← x.get "area"
  let layers ← x.get "Layers"
  return .dict [("skin", .bool false), ("direction", dir), ("floor", .bool (decide (type = "GroundFloor" ∨ type = "InnerFloor"))),
    ("boundary", boundaryInner nextspace), ("unsteady", .bool true), ("IsSoil", .bool false),
    ("name", .str (type ++ toString (n type))), ("area", area), ("flr", .num 0),
    ("Wall", .dict [("OutHeatTrans", .num (1 / rO)), ("InHeatTrans", .num (1 / rI)), ("Layers", layers)])]

/-- `convert/convert_lv4_to_h_hlc.py` 475: `n[x['type']] = n[x['type']] + 1`; a type without counter is refused by
`directionInner` before. -/
def countType (type : String) (n : String → ℕ) : String → ℕ := fun t => if t = type then n t + 1 else n t

/-- `convert/convert_lv4_to_h_hlc.py` 451-477, `integrate_innerwalls_to_rooms`. The type is read for the counter as well as for
the surface. -/
noncomputable def integrateInnerWalls (walls rooms : List PyVal) : Except PyErr (List PyVal) := do
  let r ← attachAll (fun x n ys => do
      let part ← x.getStr "general_part"
      let nextSpace ← x.getStr "next_space"
      let rs ← getRSurf part nextSpace
      attachOne "Surface" x (innerSurface x rs.1 rs.2) (fun n => match x.getStr "type" with | .ok t => countType t n | .error _ => n) n ys)
    (fun _ => 1) walls rooms
  return r.2

/-- `convert/convert_lv4_to_h_hlc.py` 504-505: the entry `sunbreak` of a door. -/
def sunbreak (x : PyVal) (shaded : Bool) : Except PyErr PyVal :=
  match shaded with
  | true => do
    let z ← x.get "Z"
    let y1 ← x.get "Y1"
    let y2 ← x.get "Y2"
    return .dict [("D", z), ("WI1", .num 500), ("WI2", .num 500), ("hi", y1), ("WR", .num 0), ("WH", y2), ("name", .str "ひさし")]
  | false => .ok (.dict [])

/-- `convert/convert_lv4_to_h_hlc.py` 485-506: the surface made for a door; `n` is the running number. -/
noncomputable def doorSurface (region : ℤ) (x : PyVal) (n : ℕ) : Except PyErr PyVal := do
  let u ← x.getNum "U"
  let direction ← x.getStr "direction"
  let dir ← directionOuter direction
  let nextspace ← x.getStr "nextspace"
  let b ← boundaryOuter region nextspace direction
  let area ← x.get "area"
  let shaded ← x.getBool "IsSunshadeInput"
  let shade ← sunbreak x shaded
  return .dict [("skin", .bool true), ("direction", .str dir), ("floor", .bool (decide (direction = "Bottom"))), ("boundary", b),
    ("unsteady", .bool false), ("name", .str ("Door" ++ toString n)), ("area", area), ("flr", .num 0),
    ("Window", .dict [("Eta", .num (0.034 * u)), ("SolarTrans", .num (0.034 * u)), ("SolarAbsorp", .num 0), ("Uw", .num u),
      ("OutEmissiv", .num 0.9), ("OutHeatTrans", .num (1 / 0.04)), ("InHeatTrans", .num (1 / 0.11))]),
    ("sunbreak", shade)]

/-- `convert/convert_lv4_to_h_hlc.py` 480-509, `integrate_doors_to_rooms`. -/
noncomputable def integrateDoors (region : ℤ) (doors rooms : List PyVal) : Except PyErr (List PyVal) := do
  let r ← attachAll (fun x n ys => attachOne "Surface" x (doorSurface region x) (· + 1) n ys) 1 doors rooms
  return r.2

/-- `convert/convert_lv4_to_h_hlc.py` 571-573: the boundary of a floor perimeter. -/
noncomputable def perimeterBoundary (region : ℤ) (x : PyVal) (nextspace : String) : Except PyErr PyVal :=
  if nextspace = "Outdoor" then do
    let direction ← x.getStr "direction"
    boundaryPerimeter region direction
  else boundaryPerimeter region nextspace

/-- `convert/convert_lv4_to_h_hlc.py` 567-574: the entry made for a floor perimeter. -/
noncomputable def perimeterEntry (region : ℤ) (x : PyVal) (n : ℕ) : Except PyErr PyVal := do
  let psi ← x.get "psi"
  let length ← x.get "length"
  let nextspace ← x.getStr "nextspace"
  let b ← perimeterBoundary region x nextspace
  return .dict [("name", .str ("EarthfloorPerimeter" ++ toString n)), ("LinearHeatTrans", psi), ("LinearHeatTransLength", length),
    ("boundary", b)]

/-- `convert/convert_lv4_to_h_hlc.py` 562-577, `integrate_earthfloorperimeters_to_rooms`. -/
noncomputable def integratePerimeters (region : ℤ) (ps rooms : List PyVal) : Except PyErr (List PyVal) := do
  let r ← attachAll (fun x n ys => attachOne "EarthfloorPerimeter" x (perimeterEntry region x) (· + 1) n ys) 1 ps rooms
  return r.2

/-- `convert/convert_lv4_to_h_hlc.py` 585-602: the surface made for an earth floor. -/
noncomputable def earthfloorSurface (x : PyVal) (n : ℕ) : Except PyErr PyVal := do
  let area ← x.get "area"
  return .dict [("skin", .bool true), ("direction", .str "Upward"), ("floor", .bool true), ("boundary", .str "AnnualAverage"),
    ("unsteady", .bool true), ("IsSoil", .bool true), ("name", .str ("Earthfloor" ++ toString n)), ("area", area), ("flr", .num 0),
    ("Wall", .dict [("InHeatTrans", .num (1 / 0.15)),
      ("Layers", .list [.dict [("name", .str "RC"), ("thick", .num 0.150), ("cond", .num 1.6), ("specH", .num 2000)],
        .dict [("name", .str "Soil"), ("thick", .num 3), ("cond", .num 1), ("specH", .num 3300)]])])]

/-- `convert/convert_lv4_to_h_hlc.py` 580-605, `integrate_earthfloors_to_rooms`. -/
noncomputable def integrateEarthfloors (floors rooms : List PyVal) : Except PyErr (List PyVal) := do
  let r ← attachAll (fun x n ys => attachOne "Surface" x (earthfloorSurface x) (· + 1) n ys) 1 floors rooms
  return r.2

open Classical in
/-- `convert/convert_lv4_to_h_hlc.py` 609-612, 614-617: the equipment of the rooms of one type. -/
noncomputable def setEquipment (area : ℝ) (type : String) (eq : PyVal) (rooms : List PyVal) : Except PyErr (List PyVal) :=
  if 0 < area then
    rooms.mapM fun y => do
      let t ← y.getStr "room_type"
      if t = type then y.set "equipment" eq else .ok y
  else .ok rooms

/-- `convert/convert_lv4_to_h_hlc.py` 608-619, `integrate_equipments_to_rooms`. -/
noncomputable def integrateEquipments (areaMain areaOther : ℝ) (eqMain eqOther : PyVal) (rooms : List PyVal) :
    Except PyErr (List PyVal) := do
  let r ← setEquipment areaMain "main_occupant_room" eqMain rooms
  setEquipment areaOther "other_occupant_room" eqOther r

/-- `convert/convert_lv4_to_h_hlc.py` 515-533: solar gain coefficient of the glass, by shade. -/
noncomputable def glassTable : List (String × List (String × ℝ)) :=
  [("3WgG", [("None", 0.54), ("Shoji", 0.34), ("ExtarnalBlind", 0.12)]),
   ("3WsG", [("None", 0.33), ("Shoji", 0.22), ("ExtarnalBlind", 0.08)]),
   ("3LgG", [("None", 0.59), ("Shoji", 0.37), ("ExtarnalBlind", 0.14)]),
   ("3LsG", [("None", 0.37), ("Shoji", 0.25), ("ExtarnalBlind", 0.10)]),
   ("2LgG", [("None", 0.64), ("Shoji", 0.38), ("ExtarnalBlind", 0.15)]),
   ("2LsG", [("None", 0.40), ("Shoji", 0.26), ("ExtarnalBlind", 0.11)]),
   ("2FAheatreflect1", [("None", 0.79), ("Shoji", 0.38), ("ExtarnalBlind", 0.17)]),
   ("2FAheatreflect2", [("None", 0.79), ("Shoji", 0.38), ("ExtarnalBlind", 0.17)]),
   ("2FAheatreflect3", [("None", 0.79), ("Shoji", 0.38), ("ExtarnalBlind", 0.17)]),
   ("2FAheatabsorb2", [("None", 0.79), ("Shoji", 0.38), ("ExtarnalBlind", 0.17)]),
   ("2FAmulti", [("None", 0.79), ("Shoji", 0.38), ("ExtarnalBlind", 0.17)]),
   ("2FAsingle", [("None", 0.79), ("Shoji", 0.38), ("ExtarnalBlind", 0.17)]),
   ("Theatreflect1", [("None", 0.88), ("Shoji", 0.38), ("ExtarnalBlind", 0.19)]),
   ("Theatreflect2", [("None", 0.88), ("Shoji", 0.38), ("ExtarnalBlind", 0.19)]),
   ("Theatreflect3", [("None", 0.88), ("Shoji", 0.38), ("ExtarnalBlind", 0.19)]),
   ("Theatabsorb2", [("None", 0.88), ("Shoji", 0.38), ("ExtarnalBlind", 0.19)]),
   ("Tsingle", [("None", 0.88), ("Shoji", 0.38), ("ExtarnalBlind", 0.19)])]

/-- `convert/convert_lv4_to_h_hlc.py` 512-535, `get_eta_from_specification`. -/
noncomputable def etaFromSpec (frame glass shade : String) : Except PyErr ℝ := do
  let f ← lookupKey [("WoodOrResin", 0.72), ("Steel", 0.8)] frame
  let row ← lookupKey glassTable glass
  let eta ← lookupKey row shade
  return eta * f

/-- The divisor `0.72 if … else 0.8` of `convert/convert_lv4_to_h_hlc.py` 544-545, 554-555. -/
noncomputable def frameDivisor (inside outside : String) : ℝ :=
  if inside = "WoodOrResin" ∧ outside = "WoodOrResin" then 0.72 else 0.8

/-- `convert/convert_lv4_to_h_hlc.py` 538-559, `get_eta`. Another window type leaves the variable `eta` unbound: the `return` raises
`UnboundLocalError`, a kind of `NameError`. `TypeFrameOutside` is only read when the inner frame is of wood or resin, which
makes no difference unless the key is absent. -/
noncomputable def getEta (d : PyVal) : Except PyErr ℝ := do
  let m ← d.getStr "EtaInputMethod"
  if m = "InputValue" then do
    let t ← d.getStr "TypeWindow"
    if t = "Single" then d.getNum "Eta"
    else if t = "Double" then do
      let i ← d.getNum "EtaInside"
      let o ← d.getNum "EtaOutside"
      let fi ← d.getStr "TypeFrameInside"
      let fo ← d.getStr "TypeFrameOutside"
      return i * o * 1.06 / frameDivisor fi fo
    else .error .nameError
  else if m = "InputSpecification" then do
    let t ← d.getStr "TypeWindow"
    if t = "Single" then do
      let f ← d.getStr "TypeFrame"
      let g ← d.getStr "TypeGlass"
      let s ← d.getStr "TypeShade"
      etaFromSpec f g s
    else if t = "Double" then do
      let fi ← d.getStr "TypeFrameInside"
      let gi ← d.getStr "TypeGlassInside"
      let si ← d.getStr "TypeShadeInside"
      let i ← etaFromSpec fi gi si
      let fo ← d.getStr "TypeFrameOutside"
      let go ← d.getStr "TypeGlassOutside"
      let so ← d.getStr "TypeShadeOutside"
      let o ← etaFromSpec fo go so
      return i * o * 1.06 / frameDivisor fi fo
    else .error .nameError
  else .error .valueError

end Conv

end HLC
