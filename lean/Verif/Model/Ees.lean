import Verif.Model.Sunshade

/-!
# Building parts of the conversion package (`convert/ees_house.py`)

The classes become structures, the properties field accesses. Numbers are real; a division by zero raises
`ZeroDivisionError` as for Python floats.
-/

namespace HLC.Conv

/-- `convert/ees_house.py` 17-27, `HeatResistanceInputMethod`. -/
inductive RMethod
  | conductivity | resistance
  deriving DecidableEq, Repr

/-- `convert/ees_house.py` 24-27: `.value`. -/
def RMethod.value : RMethod → String
  | .conductivity => "conductivity"
  | .resistance => "resistance"

/-- `convert/ees_house.py` 24-27: `HeatResistanceInputMethod(value)`. -/
def RMethod.ofValue (s : String) : Except PyErr RMethod :=
  if s = "conductivity" then .ok .conductivity
  else if s = "resistance" then .ok .resistance
  else .error .valueError

/-- `convert/ees_house.py` 30-48, `GeneralPartType`. -/
inductive GPType
  | roof | ceiling | wall | floor | boundaryWall | upwardBoundaryFloor | downwardBoundaryFloor
  deriving DecidableEq, Repr

/-- `convert/ees_house.py` 36-48: `.value`. -/
def GPType.value : GPType → String
  | .roof => "roof"
  | .ceiling => "ceiling"
  | .wall => "wall"
  | .floor => "floor"
  | .boundaryWall => "boundary_wall"
  | .upwardBoundaryFloor => "upward_boundary_floor"
  | .downwardBoundaryFloor => "downward_boundary_floor"

/-- `convert/ees_house.py` 36-48: `GeneralPartType(value)`. -/
def GPType.ofValue (s : String) : Except PyErr GPType :=
  if s = "roof" then .ok .roof
  else if s = "ceiling" then .ok .ceiling
  else if s = "wall" then .ok .wall
  else if s = "floor" then .ok .floor
  else if s = "boundary_wall" then .ok .boundaryWall
  else if s = "upward_boundary_floor" then .ok .upwardBoundaryFloor
  else if s = "downward_boundary_floor" then .ok .downwardBoundaryFloor
  else .error .valueError

/-- `convert/ees_house.py` 50-64, `get_is_solar_absorbed_inside`. -/
def GPType.isSolarAbsorbedInside : GPType → Bool
  | .floor => true
  | .downwardBoundaryFloor => true
  | _ => false

/-- `convert/ees_house.py` 85-97, `GlassType`. -/
inductive GlassType
  | single | double | tripleAndMore | unknown
  deriving DecidableEq, Repr

/-- `convert/ees_house.py` 90-97: `.value`. -/
def GlassType.value : GlassType → String
  | .single => "single"
  | .double => "double"
  | .tripleAndMore => "triple_and_more"
  | .unknown => "unknown"

/-- `convert/ees_house.py` 90-97: `GlassType(value)`. -/
def GlassType.ofValue (s : String) : Except PyErr GlassType :=
  if s = "single" then .ok .single
  else if s = "double" then .ok .double
  else if s = "triple_and_more" then .ok .tripleAndMore
  else if s = "unknown" then .ok .unknown
  else .error .valueError

/-- `convert/ees_house.py` 100-116, `FlameType`. -/
inductive FlameType
  | wood | resin | metal | woodAndMetal | resinAndMetal | unknown
  deriving DecidableEq, Repr

/-- `convert/ees_house.py` 105-116: `.value`. -/
def FlameType.value : FlameType → String
  | .wood => "wood"
  | .resin => "resin"
  | .metal => "metal"
  | .woodAndMetal => "wood_and_metal"
  | .resinAndMetal => "resin_and_metal"
  | .unknown => "unknown"

/-- `convert/ees_house.py` 105-116: `FlameType(value)`. -/
def FlameType.ofValue (s : String) : Except PyErr FlameType :=
  if s = "wood" then .ok .wood
  else if s = "resin" then .ok .resin
  else if s = "metal" then .ok .metal
  else if s = "wood_and_metal" then .ok .woodAndMetal
  else if s = "resin_and_metal" then .ok .resinAndMetal
  else if s = "unknown" then .ok .unknown
  else .error .valueError

/-- `convert/ees_house.py` 119-133, `SpaceType`. -/
inductive SpaceType
  | mainOccupantRoom | otherOccupantRoom | nonOccupantRoom | underfloor | undefined
  deriving DecidableEq, Repr

/-- `convert/ees_house.py` 124-133: `.value`. -/
def SpaceType.value : SpaceType → String
  | .mainOccupantRoom => "main_occupant_room"
  | .otherOccupantRoom => "other_occupant_room"
  | .nonOccupantRoom => "non_occupant_room"
  | .underfloor => "underfloor"
  | .undefined => "undefined"

/-- `convert/ees_house.py` 124-133: `SpaceType(value)`. -/
def SpaceType.ofValue (s : String) : Except PyErr SpaceType :=
  if s = "main_occupant_room" then .ok .mainOccupantRoom
  else if s = "other_occupant_room" then .ok .otherOccupantRoom
  else if s = "non_occupant_room" then .ok .nonOccupantRoom
  else if s = "underfloor" then .ok .underfloor
  else if s = "undefined" then .ok .undefined
  else .error .valueError

/-- `convert/ees_house.py` 135-143, `get_connected_id`. -/
def SpaceType.connectedId : SpaceType → Except PyErr ℕ
  | .undefined => .error .valueError
  | .mainOccupantRoom => .ok 0
  | .otherOccupantRoom => .ok 1
  | .nonOccupantRoom => .ok 2
  | .underfloor => .ok 3

/-- `convert/ees_house.py` 207-237, `Layer`. -/
structure Layer where
  name : String
  method : RMethod
  thickness : ℝ
  volHeat : ℝ
  conductivity : ℝ := 0
  resistance : ℝ := 0

/-- `convert/ees_house.py` 293-306, `Layer.r`. -/
noncomputable def Layer.r (l : Layer) : Except PyErr ℝ :=
  match l.method with
  | .conductivity => pyDiv l.thickness l.conductivity
  | .resistance => .ok l.resistance

/-- `convert/ees_house.py` 308-315, `Layer.c`. -/
noncomputable def Layer.c (l : Layer) : ℝ := l.thickness * l.volHeat

/-- The dictionary of `convert/ees_house.py` 398-402. -/
structure InitLayer where
  name : String
  r : ℝ
  c : ℝ

/-- `convert/ees_house.py` 384-402, `Layer.make_initializer_dict`. -/
noncomputable def Layer.initDict (l : Layer) (rResSub : ℝ) : Except PyErr InitLayer := do
  return { name := l.name, r := (← l.r) * rResSub, c := l.c }

/-- `convert/ees_house.py` 404-416, `GeneralPartPart`. -/
structure PartPart where
  name : String
  ratio : ℝ
  layers : List Layer

/-- `convert/ees_house.py` 480-487, `get_r_total`. -/
noncomputable def PartPart.rTotal (p : PartPart) : Except PyErr ℝ := do return (← p.layers.mapM Layer.r).sum

/-- The dictionary of `convert/ees_house.py` 517-521 with the two resistances added at 700-704. -/
structure InitPart where
  name : String
  area : ℝ
  layers : List InitLayer
  rIn : ℝ
  rOut : ℝ

/-- `convert/ees_house.py` 680-704: the steps of `GeneralPartSpecDetail.make_initializer_dict` for one part,
including `GeneralPartPart.make_initializer_dict` (497-521). -/
noncomputable def PartPart.initDict (p : PartPart) (rIn rEx : ℝ) (name : String) (area uAdd : ℝ) : Except PyErr InitPart := do
  let rTot ← p.rTotal
  let u ← pyDiv 1 (rIn + rTot + rEx)
  let uDash := u + uAdd
  let rDash := (← pyDiv 1 uDash) - rIn - rEx
  let sub ← pyDiv rDash rTot
  return { name := name ++ "_" ++ p.name, area := area * p.ratio, layers := ← p.layers.mapM fun l => l.initDict sub,
           rIn := rIn, rOut := rEx }

/-- `convert/ees_house.py` 609-650, `GeneralPartSpecDetail`. -/
structure Detail where
  rIn : ℝ
  rEx : ℝ
  parts : List PartPart

/-- `convert/ees_house.py` 652-663, `get_u_general_part`. -/
noncomputable def Detail.uGeneral (d : Detail) : Except PyErr ℝ := do
  let us ← d.parts.mapM fun p => do pyDiv p.ratio (d.rIn + (← p.rTotal) + d.rEx)
  return us.sum

/-- `convert/ees_house.py` 669-706, `GeneralPartSpecDetail.make_initializer_dict`. The list comprehensions are run
part by part; every failure is a `ZeroDivisionError`, so the order does not show. -/
noncomputable def Detail.initDict (d : Detail) (name : String) (area uAdd : ℝ) : Except PyErr (List InitPart) :=
  d.parts.mapM fun p => p.initDict d.rIn d.rEx name area uAdd

/-- `convert/ees_house.py` 709-1091: the specifications a part can carry; `other` is
`GeneralPartSpecUValueOther` with its part type, U value and weight. -/
inductive GPSpec
  | wood (d : Detail)
  | rc (d : Detail)
  | steel (uR : ℝ) (d : Detail)
  | other (t : GPType) (u : ℝ) (weight : String)

/-- `convert/ees_house.py` 884-900, `GeneralPartSpecUValue.r_srf_in`. -/
noncomputable def GPType.rIn : GPType → ℝ
  | .roof => 0.09
  | .ceiling => 0.09
  | .wall => 0.11
  | .floor => 0.15
  | .boundaryWall => 0.11
  | .upwardBoundaryFloor => 0.09
  | .downwardBoundaryFloor => 0.15

/-- `convert/ees_house.py` 902-918, `GeneralPartSpecUValue.r_srf_ex`. -/
noncomputable def GPType.rEx : GPType → ℝ
  | .roof => 0.04
  | .ceiling => 0.09
  | .wall => 0.04
  | .floor => 0.15
  | .boundaryWall => 0.11
  | .upwardBoundaryFloor => 0.09
  | .downwardBoundaryFloor => 0.15

/-- `convert/ees_house.py` 933-939. -/
noncomputable def gypsum : Layer := { name := "gypsum_board", method := .conductivity, thickness := 0.0095, volHeat := 830, conductivity := 0.221 }

/-- `convert/ees_house.py` 941-947. -/
noncomputable def plywood12 : Layer := { name := "plywood", method := .conductivity, thickness := 0.012, volHeat := 720, conductivity := 0.16 }

/-- `convert/ees_house.py` 949-955. -/
noncomputable def plywood24 : Layer := { name := "plywood", method := .conductivity, thickness := 0.024, volHeat := 720, conductivity := 0.16 }

/-- `convert/ees_house.py` 957-963. -/
noncomputable def concrete120 : Layer := { name := "concrete", method := .conductivity, thickness := 0.120, volHeat := 2000, conductivity := 1.6 }

/-- `convert/ees_house.py` 965-969 and 1053-1060: the insulation of thickness `t`. -/
noncomputable def insulation (t : ℝ) : Layer := { name := "default_insulation", method := .conductivity, thickness := t, volHeat := 13, conductivity := 0.045 }

/-- An entry of the default construction: a `Layer` or the insulation `Material`. -/
inductive DefaultLayer
  | layer (l : Layer)
  | ins

/-- `convert/ees_house.py` 971-1005: the default constructions. Both inner dictionaries are total, the outer one
raises `KeyError` for any other weight. -/
noncomputable def defaultLayers (weight : String) (t : GPType) : Except PyErr (List DefaultLayer) :=
  if weight = "light" then .ok
    (match t with
    | .roof => [.layer gypsum, .ins]
    | .ceiling => [.layer gypsum, .ins]
    | .wall => [.layer gypsum, .ins, .layer plywood12]
    | .floor => [.layer plywood24, .ins]
    | .boundaryWall => [.layer gypsum, .ins, .layer gypsum]
    | .upwardBoundaryFloor => [.layer gypsum, .ins, .layer plywood24]
    | .downwardBoundaryFloor => [.layer plywood24, .ins, .layer gypsum])
  else if weight = "heavy" then .ok
    (match t with
    | .roof => [.layer gypsum, .ins, .layer concrete120]
    | .ceiling => [.layer gypsum, .ins, .layer concrete120]
    | .wall => [.layer gypsum, .ins, .layer concrete120]
    | .floor => [.layer plywood24, .ins, .layer concrete120]
    | .boundaryWall => [.layer gypsum, .ins, .layer gypsum]
    | .upwardBoundaryFloor => [.layer gypsum, .layer concrete120, .ins, .layer plywood24]
    | .downwardBoundaryFloor => [.layer plywood24, .ins, .layer concrete120, .layer gypsum])
  else .error .keyError

/-- `convert/ees_house.py` 1007-1009: the layers other than the insulation. -/
def DefaultLayer.layer? : DefaultLayer → Option Layer
  | .layer l => some l
  | .ins => none

/-- `convert/ees_house.py` 931-1046, `_convert_to_general_part_spec_detail`. The check of 1023-1024 (exactly one
insulation layer) holds for every default construction and is left out. -/
noncomputable def toDetail (t : GPType) (u : ℝ) (weight : String) : Except PyErr Detail := do
  let ls ← defaultLayers weight t
  let rOther := (← (ls.filterMap DefaultLayer.layer?).mapM Layer.r).sum
  let rTarget ← pyDiv 1 u
  let rIns := max (rTarget - t.rEx - rOther - t.rIn) 0
  let tIns := rIns * 0.045
  return { rIn := t.rIn, rEx := t.rEx,
           parts := [{ name := "sole_part", ratio := 1,
                       layers := ls.map fun x => match x with | .layer l => l | .ins => insulation tIns }] }

/-- `convert/ees_house.py` 724-731, 771-778, 826-833, 874-881: `get_u`. -/
noncomputable def GPSpec.getU : GPSpec → Except PyErr ℝ
  | .wood d => d.uGeneral
  | .rc d => d.uGeneral
  | .steel uR d => do return (← d.uGeneral) + uR
  | .other _ u _ => .ok u

/-- `convert/ees_house.py` 590-597: `get_eta`. -/
noncomputable def GPSpec.getEta (s : GPSpec) : Except PyErr ℝ := do return 0.034 * (← s.getU)

/-- `convert/ees_house.py` 742-753, 788-799, 844-855, 924-929: `make_initializer_dict` of the specifications. -/
noncomputable def GPSpec.initDict (s : GPSpec) (name : String) (area uAdd : ℝ) : Except PyErr (List InitPart) :=
  match s with
  | .wood d => d.initDict name area uAdd
  | .rc d => d.initDict name area uAdd
  | .steel uR d => d.initDict name area (uAdd + uR)
  | .other t u w => do (← toDetail t u w).initDict name area uAdd

/-- The value of a direction factor; `None` is never used as a number (`TypeError`). -/
noncomputable def nuNum (d : Direction) (region : ℤ) (season : String) : Except PyErr ℝ := do
  match ← d.getNu region season with
  | some x => .ok x
  | none => .error .typeError

/-- `convert/ees_house.py` 1177-1190, `UpperArealEnvelope.get_nu`. -/
noncomputable def partNu (sp : NextSpace) (d : Direction) (region : ℤ) (season : String) : Except PyErr ℝ :=
  if sp = .outdoor then nuNum d region season else .ok 0

/-- `convert/ees_house.py` 1207-1254, `GeneralPartNoSpec` (with 1101-1118). -/
structure GPNoSpec where
  name : String
  type : GPType
  nextSpace : NextSpace
  direction : Direction
  area : ℝ
  spaceType : SpaceType
  sunshade : OpaqueShade

/-- `convert/ees_house.py` 1257-1294, `GeneralPart`. -/
structure GP extends GPNoSpec where
  spec : GPSpec

/-- `convert/ees_house.py` 1347-1356, `GeneralPart.get_q`. -/
noncomputable def GP.getQ (p : GP) (region : ℤ) : Except PyErr ℝ := do
  return p.area * (← p.spec.getU) * (← p.nextSpace.getH region)

/-- `convert/ees_house.py` 1367-1381, `GeneralPart.get_m`. -/
noncomputable def GP.getM (p : GP) (region : ℤ) (season : String) : Except PyErr ℝ :=
  if p.nextSpace = .outdoor then do
    return p.area * (← p.spec.getEta) * (← partNu p.nextSpace p.direction region season)
      * (← p.sunshade.getFSh region season p.direction)
  else .ok 0

/-- `convert/ees_house.py` 1443-1467, `WindowSpec`. -/
structure WindowSpec where
  u : ℝ
  etaDH : ℝ
  etaDC : ℝ
  glass : GlassType
  flame : FlameType

/-- `convert/ees_house.py` 1486-1500, `get_eta_d`. -/
noncomputable def WindowSpec.getEtaD (w : WindowSpec) (season : String) : Except PyErr ℝ :=
  if season = "heating" then .ok w.etaDH
  else if season = "cooling" then .ok w.etaDC
  else .error .exception

/-- `convert/ees_house.py` 1558-1583, `WindowNoSpec`. -/
structure WinNoSpec where
  name : String
  nextSpace : NextSpace
  direction : Direction
  area : ℝ
  spaceType : SpaceType
  sunshade : TransientShade

/-- `convert/ees_house.py` 1594-1608, `get_f`. -/
noncomputable def WinNoSpec.getF (w : WinNoSpec) (region : ℤ) (season : String) : Except PyErr ℝ :=
  w.sunshade.getF region season w.direction

/-- `convert/ees_house.py` 1611-1644, `Window`. -/
structure Win extends WinNoSpec where
  spec : WindowSpec

/-- `convert/ees_house.py` 1685-1686, `Window.get_q`. -/
noncomputable def Win.getQ (w : Win) (region : ℤ) : Except PyErr ℝ := do
  return w.area * w.spec.u * (← w.nextSpace.getH region)

/-- `convert/ees_house.py` 1698-1702, `Window.get_m`. -/
noncomputable def Win.getM (w : Win) (region : ℤ) (season : String) : Except PyErr ℝ := do
  return (← w.spec.getEtaD season) * w.area * (← w.sunshade.getF region season w.direction)
    * (← partNu w.nextSpace w.direction region season)

/-- `convert/ees_house.py` 1756-1790, `DoorNoSpec`. -/
structure DoorNoSpec where
  name : String
  nextSpace : NextSpace
  direction : Direction
  area : ℝ
  spaceType : SpaceType
  sunshade : OpaqueShade

/-- `convert/ees_house.py` 1745-1754 and 1793-1827: `DoorSpec` (its U value) and `Door`. -/
structure Door extends DoorNoSpec where
  u : ℝ

/-- `convert/ees_house.py` 1867-1868, `Door.get_q`. -/
noncomputable def Door.getQ (d : Door) (region : ℤ) : Except PyErr ℝ := do
  return d.area * d.u * (← d.nextSpace.getH region)

/-- `convert/ees_house.py` 1873-1879, `Door.get_m`. -/
noncomputable def Door.getM (d : Door) (region : ℤ) (season : String) : Except PyErr ℝ :=
  if d.nextSpace = .outdoor then do
    return d.area * (0.034 * d.u) * (← partNu d.nextSpace d.direction region season)
      * (← d.sunshade.getFSh region season d.direction)
  else .ok 0

/-- `convert/ees_house.py` 1930-1963, `EarthfloorPerimeterNoSpec`. -/
structure EfpNoSpec where
  name : String
  nextSpace : NextSpace
  length : ℝ
  spaceType : SpaceType

/-- `convert/ees_house.py` 1923-1927 and 1966-1985: `EarthfloorPerimeterSpec` (its psi value) and
`EarthfloorPerimeter`. -/
structure Efp extends EfpNoSpec where
  psi : ℝ

/-- `convert/ees_house.py` 2008-2009, `EarthfloorPerimeter.get_q`. -/
noncomputable def Efp.getQ (e : Efp) (region : ℤ) : Except PyErr ℝ := do
  return e.length * e.psi * (← e.nextSpace.getH region)

/-- `convert/ees_house.py` 2046-2080, `EarthfloorCenterNoSpec`. The space type is a plain string. -/
structure EfcNoSpec where
  name : String
  area : ℝ
  spaceType : String

/-- `convert/ees_house.py` 2024-2043 and 2083-2096: `EarthfloorCenterSpec` (its layers, kept as read) and
`EarthfloorCenter`. -/
structure Efc extends EfcNoSpec where
  layers : PyVal

/-- `convert/ees_house.py` 2125-2164 and 2211-2239: `HeatbridgeSpec`, `HeatbridgeNoSpec`, `Heatbridge`. The
directions are plain strings. -/
structure Heatbridge where
  name : String
  nextSpaces : List NextSpace
  directions : List String
  length : ℝ
  spaceType : SpaceType
  psi : ℝ

/-- `convert/ees_house.py` 2186-2187 and 2263-2266, `Heatbridge.get_q`. -/
noncomputable def Heatbridge.getQ (b : Heatbridge) (region : ℤ) : Except PyErr ℝ := do
  let hs ← b.nextSpaces.mapM fun s => s.getH region
  let h ← pyDiv hs.sum hs.length
  return b.length * b.psi * h

/-- `convert/ees_house.py` 2189-2208, `get_nus`: `zip` stops at the shorter list. -/
noncomputable def Heatbridge.getNus (b : Heatbridge) (region : ℤ) (season : String) : Except PyErr (List ℝ) :=
  (b.nextSpaces.zip b.directions).mapM fun x => do
    let d ← Direction.ofValue x.2
    partNu x.1 d region season

/-- `convert/ees_house.py` 2277-2290, `Heatbridge.get_m`. -/
noncomputable def Heatbridge.getM (b : Heatbridge) (region : ℤ) (season : String) : Except PyErr ℝ := do
  let nus ← b.getNus region season
  let nu ← pyDiv nus.sum nus.length
  return b.length * (0.034 * b.psi) * nu

/-- `convert/ees_house.py` 2304-2319, `InnerFloor`. -/
structure InnerFloor where
  name : String
  area : ℝ
  upper : String
  lower : String
  layers : List Layer

/-- `convert/ees_house.py` 2364-2379, `InnerWall`. -/
structure InnerWall where
  name : String
  area : ℝ
  space1 : String
  space2 : String
  layers : List Layer

end HLC.Conv
