import Verif.Model.Solar

/-!
# Parts of the building as read by the initializer (`initializer/boundary_type.py`, `initializer/boundary_simple.py`)
-/

namespace HLC.Init

/-- `initializer/boundary_type.py` 4-22. -/
inductive BType
  | internal
  | generalPart
  | transparentPart
  | opaquePart
  | ground
  deriving DecidableEq

/-- `BoundaryType(str)` (`initializer/boundary_type.py` 4-22): unknown values are a `ValueError`. -/
def BType.ofString (s : String) : Except PyErr BType :=
  if s = "internal" then .ok .internal
  else if s = "external_general_part" then .ok .generalPart
  else if s = "external_transparent_part" then .ok .transparentPart
  else if s = "external_opaque_part" then .ok .opaquePart
  else if s = "ground" then .ok .ground
  else .error .valueError

/-- `boundary_type.value` (`initializer/boundary_type.py` 4-22). -/
def BType.value : BType → String
  | .internal => "internal"
  | .generalPart => "external_general_part"
  | .transparentPart => "external_transparent_part"
  | .opaquePart => "external_opaque_part"
  | .ground => "ground"

/-- Membership in the three external types (`initializer/initializer.py` 634-638, `initializer/building_part_summarize.py` 281-283). -/
def BType.isExternal : BType → Bool
  | .generalPart | .transparentPart | .opaquePart => true
  | _ => false

/-- `initializer/boundary_simple.py` 11-73, `BoundarySimple`. -/
structure Bs where
  id : ℤ
  name : String
  subName : String
  room : ℤ
  bType : BType
  area : ℝ
  hTd : ℝ
  nextRoomType : ℤ
  rear : Option ℤ
  isFloor : Bool
  isSolarAbsorbed : Bool
  isSunStruck : Option Bool
  direction : Option String
  hI : ℝ
  hC : ℝ
  thetaOSol : List ℝ
  qTrsSol : List ℝ

/-- `initializer/boundary_simple.py` 121-126: the number of the next room type. -/
def nextRoomNumber (s : String) : Except PyErr ℤ :=
  if s = "main_occupant_room" then .ok 0
  else if s = "other_occupant_room" then .ok 1
  else if s = "non_occupant_room" then .ok 2
  else if s = "underfloor" then .ok 3
  else .error .keyError

/-- `initializer/boundary_simple.py` 104-107: `is_sun_striked_outside`. -/
def readSun (b : BoundaryDict) : Except PyErr (Option Bool) :=
  if isExternal b.boundaryType then do
    let s ← key b.isSunStruck
    .ok (some s)
  else .ok none

/-- `initializer/boundary_simple.py` 111-114: `h_td`. -/
def readHtd (b : BoundaryDict) : Except PyErr ℝ :=
  if isExternal b.boundaryType then key b.tempDifCoef else .ok 0

/-- `initializer/boundary_simple.py` 121-126: `next_room_type`. -/
def readNextRoom (b : BoundaryDict) : Except PyErr ℤ :=
  if b.boundaryType = "internal" then do
    let s ← key b.nextRoomType
    nextRoomNumber s
  else .ok (-1)

/-- `initializer/boundary_simple.py` 128-131: `rear_surface_boundary_id`. -/
def readRear (b : BoundaryDict) : Except PyErr (Option ℤ) :=
  if b.boundaryType = "internal" then do
    let r ← key b.rearSurface
    .ok (some r)
  else .ok none

/-- `initializer/boundary_simple.py` 145-151: `direction`. -/
def readDirection (b : BoundaryDict) : Except PyErr (Option String) :=
  match b.isSunStruck with
  | some true => do
    let d ← key b.direction
    .ok (some d)
  | _ => .ok none

open Classical in
/-- `initializer/boundary_simple.py` 154-157: `h_i`. `1.0 / 0` is a `ZeroDivisionError` (the value is a Python number). -/
noncomputable def readHi (b : BoundaryDict) : Except PyErr ℝ :=
  if b.rIn = 0 then .error .zeroDivisionError else .ok (1 / b.rIn)

/-- `initializer/boundary_simple.py` 76-197, `get_boundary_simple`. The values read without condition (id, name, room, area, flags,
`inside_heat_transfer_resistance`, `h_c`) are fields of `BoundaryDict`, so their absence is not modelled. -/
noncomputable def getBoundarySimple (w : List Step) (b : BoundaryDict) : Except PyErr Bs := do
  let bType ← BType.ofString b.boundaryType
  let sun ← readSun b
  let hTd ← readHtd b
  let next ← readNextRoom b
  let rear ← readRear b
  let direction ← readDirection b
  let hI ← readHi b
  let shading ← Shading.create b
  let oet ← EqvTemp.create b
  let thetaOSol ← oet.series w
  let tsr ← Transmission.create b shading
  let qTrsSol ← tsr.series w
  .ok {
    id := b.id, name := b.name, subName := "", room := b.connectedRoom, bType := bType, area := b.area, hTd := hTd
    nextRoomType := next, rear := rear, isFloor := b.isFloor, isSolarAbsorbed := b.isSolarAbsorbed, isSunStruck := sun
    direction := direction, hI := hI, hC := b.hC, thetaOSol := thetaOSol, qTrsSol := qTrsSol }

end HLC.Init
