import Verif.Model.Boundary
import Verif.Model.Schedule
import Mathlib.Algebra.BigOperators.Fin

/-!
# Intermediate house data (`initializer/initializer.py` and its helpers)

The json and csv files written by `make_house` are modelled by the structures `SpaceJson`, `BoundaryJson` and `Output`.
-/

namespace HLC.Init

/-! ## Rooms -/

/-- An entry of `next_vent` of a room (`initializer/initializer.py` 357-361). -/
structure NextVent where
  upstream : ℤ
  volume : ℝ

/-- `q_min`, `q_max`, `v_min`, `v_max` of a convective unit (`initializer/initializer.py` 389-397, 436-444). -/
structure ConvectiveSpec where
  qMin : ℝ
  qMax : ℝ
  vMin : ℝ
  vMax : ℝ

/-- `max_capacity` (W/m²) and `area` (m²) of a radiant unit (`initializer/initializer.py` 402-408, 449-455). -/
structure RadiativeSpec where
  maxCapacity : ℝ
  area : ℝ

/-- `heating_equipment` or `cooling_equipment` of a room. The keys 'convective' and 'radiative' may be absent; inside them all keys are
present (simplification). -/
structure EquipDict where
  kind : String
  convective : Option ConvectiveSpec
  radiative : Option RadiativeSpec

/-- An entry of `rooms` of the input (`initializer/initializer.py` 88-94, 118, 317-414). Simplification: these keys are present. -/
structure RoomDict where
  id : ℤ
  name : String
  roomType : String
  floorArea : ℝ
  volume : ℝ
  vent : ℝ
  nextVent : List NextVent
  naturalVentTime : ℝ
  heating : EquipDict
  cooling : EquipDict

/-- `initializer/initializer.py` 44-55. -/
inductive RoomType
  | main
  | other
  | nonOccupant
  | underfloor
  deriving DecidableEq

/-- `RoomType(str)` (`initializer/initializer.py` 44-55, 334). -/
def RoomType.ofString (s : String) : Except PyErr RoomType :=
  if s = "main_occupant_room" then .ok .main
  else if s = "other_occupant_room" then .ok .other
  else if s = "non_occupant_room" then .ok .nonOccupant
  else if s = "underfloor" then .ok .underfloor
  else .error .valueError

/-- `HeatingEquipmentType` and `CoolingEquipmentType` (`initializer/initializer.py` 58-73) together with the specification read in 374-411 and
421-458. -/
inductive Equip
  | notInstalled
  | convective (spec : ConvectiveSpec)
  | radiative (spec : RadiativeSpec)

/-- `initializer/initializer.py` 374-411 (heating) and 421-458 (cooling): one room. -/
def Equip.read (e : EquipDict) : Except PyErr Equip :=
  if e.kind = "not_installed" then .ok .notInstalled
  else if e.kind = "convective" then do
    let s ← key e.convective
    .ok (.convective s)
  else if e.kind = "radiative" then do
    let s ← key e.radiative
    .ok (.radiative s)
  else .error .valueError

/-- `initializer/initializer.py` 321-325: ids count up from 0. -/
def checkIds (rooms : List RoomDict) : Except PyErr Unit :=
  if rooms.map RoomDict.id = (List.range rooms.length).map (fun i : ℕ => (i : ℤ)) then .ok () else .error .valueError

/-- `initializer/initializer.py` 603-611, `check_specifying_room_type`. -/
def checkOnce (types : List RoomType) (t : RoomType) : Except PyErr Unit :=
  if types.count t ≠ 1 then .error .valueError else .ok ()

/-- `initializer/initializer.py` 614-622, `check_not_specifying_multi_room_type`. -/
def checkAtMostOnce (types : List RoomType) (t : RoomType) : Except PyErr Unit :=
  if types.count t > 1 then .error .valueError else .ok ()

/-- One line of the ventilation matrix: `v_int_vent_is[i, [idx]] = v_int_vent_is[i, [idx]] + volume / 3600.0`
(`initializer/initializer.py` 766-769); the index follows numpy (negative indices count from the end). -/
noncomputable def ventRow {n : ℕ} (row : Fin n → ℝ) : List NextVent → Except PyErr (Fin n → ℝ)
  | [] => .ok row
  | v :: vs => do
    let k ← pyIndex n v.upstream
    ventRow (fun l => if l = k then row l + v.volume / 3600 else row l) vs

/-- `initializer/initializer.py` 733-771, `_get_v_int_vent_is`, row by row. -/
noncomputable def ventMatrix (n : ℕ) (rooms : List RoomDict) : Except PyErr (List (Fin n → ℝ)) :=
  rooms.mapM fun r => ventRow (fun _ : Fin n => 0) r.nextVent

/-- An entry of 'spaces' of `mid_data_house.json` (`initializer/initializer.py` 571-598). `heatRadiative` / `coolRadiative` is the
'max_capacity' of the 'radiative' entry if installed; `coolConvective` the 'convective' entry if installed. -/
structure SpaceJson where
  id : ℤ
  name : String
  volume : ℝ
  beta : ℝ
  mechanical : ℝ
  nextSpaces : List ℝ
  natural : ℝ
  heatCapacity : ℝ
  heatCond : ℝ
  moistureCapacity : ℝ
  moistureCond : ℝ
  heatRadiative : Option ℝ
  heatConvective : Bool
  coolRadiative : Option ℝ
  coolConvective : Option ConvectiveSpec

/-- `initializer/furniture.py` 8-23. -/
noncomputable def cShFrt (v : ℝ) : ℝ := 12.6 * v * 1000
/-- `initializer/furniture.py` 26-37. -/
noncomputable def gShFrt (c : ℝ) : ℝ := 0.00022 * c
/-- `initializer/furniture.py` 40-55. -/
noncomputable def cLhFrt (v : ℝ) : ℝ := 16.8 * v
/-- `initializer/furniture.py` 58-69. -/
noncomputable def gLhFrt (c : ℝ) : ℝ := 0.0018 * c

/-- `initializer/initializer.py` 497-526 and 531-565: the 'radiative' entry. -/
def Equip.radiativeCapacity : Equip → Option ℝ
  | .radiative s => some (s.maxCapacity * s.area)
  | _ => none

/-- `initializer/initializer.py` 497-526: whether the 'convective' heating entry is installed. -/
def Equip.isConvective : Equip → Bool
  | .convective _ => true
  | _ => false

/-- `initializer/initializer.py` 531-565: the 'convective' cooling entry. -/
def Equip.convectiveSpec : Equip → Option ConvectiveSpec
  | .convective s => some s
  | _ => none

/-- `initializer/initializer.py` 464-486, 571-598: one room. The share `beta` is 0.0 in all cases (466-474). -/
noncomputable def makeSpace {n : ℕ} (r : RoomDict) (he ce : Equip) (row : Fin n → ℝ) : SpaceJson where
  id := r.id
  name := r.name
  volume := r.volume
  beta := 0
  mechanical := r.vent / 3600
  nextSpaces := List.ofFn row
  natural := r.volume * r.naturalVentTime / 3600
  heatCapacity := cShFrt r.volume
  heatCond := gShFrt (cShFrt r.volume)
  moistureCapacity := cLhFrt r.volume
  moistureCond := gLhFrt (cLhFrt r.volume)
  heatRadiative := he.radiativeCapacity
  heatConvective := he.isConvective
  coolRadiative := ce.radiativeCapacity
  coolConvective := ce.convectiveSpec

/-- Assembling the lists (`initializer/initializer.py` 569-600). -/
noncomputable def zipSpaces {n : ℕ} : List RoomDict → List Equip → List Equip → List (Fin n → ℝ) → List SpaceJson
  | r :: rs, h :: hs, c :: cs, v :: vs => makeSpace r h c v :: zipSpaces rs hs cs vs
  | _, _, _, _ => []

/-- `initializer/initializer.py` 306-600, `_make_spaces_dict`. -/
noncomputable def makeSpaces (rooms : List RoomDict) : Except PyErr (List SpaceJson) := do
  checkIds rooms
  let types ← rooms.mapM fun r => RoomType.ofString r.roomType
  checkOnce types .main
  checkAtMostOnce types .main
  checkAtMostOnce types .other
  checkAtMostOnce types .nonOccupant
  checkAtMostOnce types .underfloor
  let hes ← rooms.mapM fun r => Equip.read r.heating
  let ces ← rooms.mapM fun r => Equip.read r.cooling
  let v ← ventMatrix rooms.length rooms
  .ok (zipSpaces rooms hes ces v)

/-! ## Building -/

/-- 'building' of the input (`initializer/initializer.py` 289-296). -/
structure BuildingDict where
  story : ℤ
  cValue : ℝ
  insidePressure : String

/-- 'building' of `mid_data_house.json` (`initializer/initializer.py` 298-303). -/
structure BuildingJson where
  infiltrationMethod : String
  story : ℤ
  cValue : ℝ
  insidePressure : String

/-- `initializer/initializer.py` 280-303, `_make_building_dict`; `Story` 22-29, `InsidePressure` 32-41. -/
def makeBuilding (d : BuildingDict) : Except PyErr BuildingJson :=
  if ¬ (d.story = 1 ∨ d.story = 2) then .error .valueError
  else if ¬ (d.insidePressure = "positive" ∨ d.insidePressure = "negative" ∨ d.insidePressure = "balanced") then .error .valueError
  else .ok ⟨"balance_residential", d.story, d.cValue, d.insidePressure⟩

/-! ## Boundaries -/

/-- 'spec' of a boundary (`initializer/initializer.py` 707-730). -/
inductive SpecJson
  | layers (boundaryType : String) (layers : List (ℝ × ℝ)) (rOut : ℝ)
  | layersGround (boundaryType : String) (layers : List (ℝ × ℝ))
  | uValue (boundaryType : String) (u rIn : ℝ)

/-- `initializer/initializer.py` 707-730, `_get_boundary_spec`. -/
def boundarySpec (b : BoundaryDict) (t : BType) : Except PyErr SpecJson :=
  match t with
  | .generalPart | .internal => do
    let l ← key b.layers
    let r ← key b.rOut
    .ok (.layers t.value l r)
  | .ground => do
    let l ← key b.layers
    .ok (.layersGround t.value l)
  | .transparentPart | .opaquePart => do
    let u ← key b.uValue
    .ok (.uValue t.value u b.rIn)

/-- `initializer/initializer.py` 630-651: the entry 'k_inside'. `rnd d` is `round(·, d)`. The id of the partner of an internal part is present
(`get_boundary_simple`). -/
noncomputable def kInside (rnd : ℕ → ℝ → ℝ) (b : Bs) : Option (ℤ × ℝ) :=
  open Classical in
  if b.bType.isExternal then (if b.hTd < 1 then some (b.id, rnd 1 (1 - b.hTd)) else none)
  else if b.bType = .internal then b.rear.map fun r => (r, 1)
  else none

open Classical in
/-- Division of numpy arrays: a zero divisor gives a value that is not a number, or infinity, `none`. -/
noncomputable def npDiv (a b : ℝ) : Option ℝ := if b = 0 then none else some (a / b)

/-- Sum of the areas of the parts of room `i` that satisfy `f`. -/
noncomputable def areaWhere (bss : List Bs) (i : ℤ) (f : Bs → Bool) : ℝ :=
  ((bss.filter fun b => b.room = i && f b).map Bs.area).sum

/-- `initializer/occupants_form_factor.py` 4-30 with `initializer/initializer.py` 654-661: view factor of part `b` for occupants of its room. -/
noncomputable def viewFactor (bss : List Bs) (b : Bs) : Option ℝ :=
  if b.isFloor then (npDiv b.area (areaWhere bss b.room fun c => c.isFloor)).map (· * 0.45)
  else (npDiv b.area (areaWhere bss b.room fun c => !c.isFloor)).map (· * (1 - 0.45))

/-- `initializer/a12_indoor_radiative_heat_transfer.py` 8-24 with `initializer/initializer.py` 669-676: share of radiant heating absorbed by `b`. -/
noncomputable def heatingShare (bss : List Bs) (rad : Bool) (b : Bs) : Option ℝ :=
  (npDiv b.area (areaWhere bss b.room fun c => c.isFloor)).map (· * ind rad * ind b.isFloor)

/-- An entry of 'boundaries' of `mid_data_house.json` (`initializer/initializer.py` 683-703). `none` in `flr` and `fMrtHum` is a value
that is not a number. -/
structure BoundaryJson where
  id : ℤ
  name : String
  subName : String
  isGround : String
  room : ℤ
  area : ℝ
  hI : ℝ
  hC : ℝ
  flr : Option ℝ
  isSolarAbsorbed : String
  fMrtHum : Option ℝ
  kOutside : ℝ
  kInside : Option (ℤ × ℝ)
  spec : SpecJson

/-- `rooms[i]` has radiant heating (`initializer/a22_radiative_heating_spec.py` 7-8, `initializer/initializer.py` 665). -/
def isRadiativeRoom (rooms : List RoomDict) (i : ℤ) : Bool :=
  match rooms[i.toNat]? with
  | some r => r.heating.kind = "radiative"
  | none => false

/-- The loops `for i in range(n_spaces)` write only the parts of rooms 0 to n-1; others keep 0 (`initializer/initializer.py` 654-676). -/
def inRooms (rooms : List RoomDict) (b : Bs) : Bool := decide (0 ≤ b.room ∧ b.room < (rooms.length : ℤ))

/-- `initializer/initializer.py` 683-703: one entry. -/
noncomputable def boundaryJson (rnd : ℕ → ℝ → ℝ) (rooms : List RoomDict) (bss : List Bs) (b : Bs) (spec : SpecJson) : BoundaryJson where
  id := b.id
  name := b.name
  subName := b.subName
  isGround := if b.bType = .ground then "true" else "false"
  room := b.room
  area := b.area
  hI := b.hI
  hC := b.hC
  flr := if inRooms rooms b then heatingShare bss (isRadiativeRoom rooms b.room) b else some 0
  isSolarAbsorbed := if b.isSolarAbsorbed then "True" else "False"
  fMrtHum := if inRooms rooms b then viewFactor bss b else some 0
  kOutside := b.hTd
  kInside := kInside rnd b
  spec := spec

/-- A room without parts: indexing with an empty float array is an `IndexError` (`initializer/occupants_form_factor.py` 23-24). -/
def checkParts (rooms : List RoomDict) (bss : List Bs) : Except PyErr Unit :=
  if ∀ i ∈ List.range rooms.length, ∃ b ∈ bss, b.room = (i : ℤ) then .ok () else .error .indexError

/-- `initializer/initializer.py` 625-704, `_make_boundaries`. -/
noncomputable def makeBoundaries (rnd : ℕ → ℝ → ℝ) (rooms : List RoomDict) (bds : List BoundaryDict) (bss : List Bs) :
    Except PyErr (List BoundaryJson) := do
  checkParts rooms bss
  let specs ← (bds.zip bss).mapM fun p => boundarySpec p.1 p.2.bType
  .ok ((bss.zip specs).map fun p => boundaryJson rnd rooms bss p.1 p.2)

/-! ## The whole initializer -/

/-- The input file. -/
structure Input where
  building : BuildingDict
  rooms : List RoomDict
  boundaries : List BoundaryDict

/-- Everything `make_house` writes. The series of the csv files have one list per room or part; the files contain the transposed
table (`initializer/initializer.py` 153-189). -/
structure Output where
  building : BuildingJson
  spaces : List SpaceJson
  boundaries : List BoundaryJson
  schedules : List Compiled
  qTrsSol : List (List ℝ)
  thetaOSol : List (List ℝ)

/-- `np.sum(np.array([...]), axis=0)` for lists of one length (`initializer/initializer.py` 113). For no list the result is the scalar 0.0 and
for lists of several lengths numpy raises an error; both are errors here. -/
noncomputable def sumSeries : List (List ℝ) → Except PyErr (List ℝ)
  | [] => .error .valueError
  | l :: ls => if ∀ m ∈ ls, m.length = l.length then .ok (ls.foldl (List.zipWith (· + ·)) l) else .error .valueError

/-- `initializer/initializer.py` 112-115. -/
noncomputable def roomSolar (bss : List Bs) (n : ℕ) : Except PyErr (List (List ℝ)) :=
  (List.range n).mapM fun (i : ℕ) => sumSeries ((bss.filter fun b => b.room = (i : ℤ)).map Bs.qTrsSol)

/-- `initializer/initializer.py` 76-189, `make_house`, up to the writing of the files. `w` are the lines of `weather.csv`, `f` is
`schedules.json`. -/
noncomputable def makeHouse (rnd : ℕ → ℝ → ℝ) (w : List Step) (f : ScheduleFile) (d : Input) : Except PyErr Output := do
  let bss ← d.boundaries.mapM (getBoundarySimple w)
  let q ← roomSolar bss d.rooms.length
  let np := residents (d.rooms.map RoomDict.floorArea).sum
  let sch ← d.rooms.mapM fun r => compiled f np r.name r.floorArea
  let building ← makeBuilding d.building
  let spaces ← makeSpaces d.rooms
  let boundaries ← makeBoundaries rnd d.rooms d.boundaries bss
  .ok { building := building, spaces := spaces, boundaries := boundaries, schedules := sch, qTrsSol := q
        thetaOSol := bss.map Bs.thetaOSol }

/-- The contents of `mid_data_house.json`. -/
structure HouseFile where
  building : BuildingJson
  spaces : List SpaceJson
  boundaries : List BoundaryJson

/-- `initializer/initializer.py` 192-241, `make_house_for_test`, up to the writing of the file. -/
noncomputable def makeHouseForTest (rnd : ℕ → ℝ → ℝ) (w : List Step) (d : Input) : Except PyErr HouseFile := do
  let bss ← d.boundaries.mapM (getBoundarySimple w)
  let building ← makeBuilding d.building
  let spaces ← makeSpaces d.rooms
  let boundaries ← makeBoundaries rnd d.rooms d.boundaries bss
  .ok { building := building, spaces := spaces, boundaries := boundaries }

end HLC.Init
