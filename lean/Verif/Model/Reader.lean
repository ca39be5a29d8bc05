import Verif.Model.Initializer
import Verif.Model.PreCalc
import Verif.Model.ResponseFactor
import Mathlib.Data.Fin.Tuple.Basic

/-!
# Reading the intermediate files (`core/pre_calc_parameters.py` 215-447, `core/infiltration.py` 16-51)

`make_house` writes `mid_data_house.json` and csv files; `make_pre_calc_parameters` reads them. Python's `json` writes and reads values that
are not numbers; they have no counterpart in `House` and are rejected here with `.notImplemented`, as are parts of rooms that do not exist.
Python reads one key of all rooms after the other; here the rooms are read one after the other, so among several errors another one may
be reported first.
-/

namespace HLC.Init

/-- The list comprehensions `[… for s in ss]`: the values for all indices, or the first error. -/
def forFin {α : Type} : (n : ℕ) → (Fin n → Except PyErr α) → Except PyErr (Fin n → α)
  | 0, _ => .ok fun i => i.elim0
  | n + 1, f => do
    let a ← f 0
    let g ← forFin n fun i => f i.succ
    .ok (Fin.cons a g)

/-- What is read of one room (`core/pre_calc_parameters.py` 234-293). -/
structure SpaceIn (n : ℕ) where
  vRoom : ℝ
  beta : ℝ
  vVentEx : ℝ
  vInt : Fin n → ℝ
  vNtrl : ℝ
  cSh : ℝ
  gSh : ℝ
  cLh : ℝ
  gLh : ℝ
  isRadHeating : Bool
  capH : ℝ
  rac : RacSpec

/-- `core/pre_calc_parameters.py` 244: the row of the matrix of inter-room ventilation; rows of another length are not modelled. -/
def readRow (n : ℕ) (l : List ℝ) : Except PyErr (Fin n → ℝ) :=
  if h : l.length = n then .ok fun k => l[k.1]'(by omega) else .error .notImplemented

/-- `core/pre_calc_parameters.py` 275-283: radiant cooling. If it is installed the key 'max_capacity' is looked up in the entry 'cooling' itself,
where the file does not have it (`initializer/initializer.py` 556-559, 592-595). -/
def readRadiantCooling (s : SpaceJson) : Except PyErr Unit :=
  match s.coolRadiative with
  | some _ => .error .keyError
  | none => .ok ()

/-- `core/pre_calc_parameters.py` 290-293: the keys 'q_min', … are read in every room; the file has them only if installed. -/
def readRac (s : SpaceJson) : Except PyErr RacSpec :=
  match s.coolConvective with
  | some c => .ok ⟨c.qMin, c.qMax, c.vMin, c.vMax⟩
  | none => .error .keyError

/-- `core/pre_calc_parameters.py` 234-293: one room. -/
noncomputable def readSpace (n : ℕ) (s : SpaceJson) : Except PyErr (SpaceIn n) := do
  let row ← readRow n s.nextSpaces
  readRadiantCooling s
  let rac ← readRac s
  .ok {
    vRoom := s.volume, beta := s.beta, vVentEx := s.mechanical, vInt := row, vNtrl := s.natural, cSh := s.heatCapacity, gSh := s.heatCond
    cLh := s.moistureCapacity, gLh := s.moistureCond, isRadHeating := s.heatRadiative.isSome, capH := s.heatRadiative.getD 0, rac := rac }

/-- The dictionary 'spec' as read by `ResponseFactorFactory.create` (`initializer/response_factor.py` 312-356); absent keys are not read. -/
noncomputable def SpecJson.toBSpec : SpecJson → RF.BSpec
  | .layers t l r => ⟨"layers", t, 0, 0, [], [], [], l, r, 0, 0⟩
  | .layersGround t l => ⟨"layers_ground", t, 0, 0, [], [], [], l, 0, 0, 0⟩
  | .uValue t u rIn => ⟨"u_value", t, 0, 0, [], [], [], [], 0, u, rIn⟩

/-- `core/pre_calc_parameters.py` 638-645: response factors of one part. -/
noncomputable def readResponse (s : SpecJson) : Except PyErr RF.ResponseFactor := do
  let f ← RF.create s.toBSpec
  let r ← f.get
  .ok r.1

/-- `core/pre_calc_parameters.py` 313 and 334-342: lookup in a dictionary of two strings. -/
def readBool (t f s : String) : Except PyErr Bool :=
  if s = t then .ok true else if s = f then .ok false else .error .keyError

/-- A value that is a number; others are not modelled. -/
def readNumber : Option ℝ → Except PyErr ℝ
  | some x => .ok x
  | none => .error .notImplemented

/-- `core/pre_calc_parameters.py` 316, 427-429: the room of a part. A part of a room that does not exist is in no room; this is not modelled. -/
def readRoom (n : ℕ) (i : ℤ) : Except PyErr (Fin n) :=
  if h : 0 ≤ i ∧ i < n then .ok ⟨i.toNat, by omega⟩ else .error .notImplemented

/-- `core/pre_calc_parameters.py` 350-360, 439-447: `k_ei_js[id] = coef` in a list with one entry per part: the id is used as position. -/
def readLink (m : ℕ) : Option (ℤ × ℝ) → Except PyErr (Option (Fin m × ℝ))
  | none => .ok none
  | some (id, c) => do
    let k ← pyIndex m id
    .ok (some (k, c))

/-- What is read of one part (`core/pre_calc_parameters.py` 303-366). -/
structure PartIn (n m : ℕ) where
  isGround : Bool
  room : Fin n
  area : ℝ
  rf : RF.ResponseFactor
  hC : ℝ
  flr : ℝ
  solarAbs : Bool
  fMrtHum : ℝ
  kEo : ℝ
  kEi : Option (Fin m × ℝ)

/-- `core/pre_calc_parameters.py` 303-366: one part. -/
noncomputable def readPart (n m : ℕ) (b : BoundaryJson) : Except PyErr (PartIn n m) := do
  let ground ← readBool "true" "false" b.isGround
  let room ← readRoom n b.room
  let rf ← readResponse b.spec
  let flr ← readNumber b.flr
  let abs ← readBool "True" "False" b.isSolarAbsorbed
  let f ← readNumber b.fMrtHum
  let k ← readLink m b.kInside
  .ok {
    isGround := ground, room := room, area := b.area, rf := rf, hC := b.hC, flr := flr, solarAbs := abs, fMrtHum := f, kEo := b.kOutside
    kEi := k }

/-- `core/infiltration.py` 6-52, `make_get_infiltration_function`: other methods raise an exception. The function it returns is `getInfiltration`
with the numbers of the house. -/
def readInfiltration (b : BuildingJson) : Except PyErr Unit :=
  if b.infiltrationMethod = "balance_residential" then .ok () else .error .exception

/-- Assembling the arrays (`core/pre_calc_parameters.py` 234-366). -/
noncomputable def houseOf {n m : ℕ} (b : BuildingJson) (s : Fin n → SpaceIn n) (p : Fin m → PartIn n m) : House (Fin n) (Fin m) where
  vRoom := fun i => (s i).vRoom
  beta := fun i => (s i).beta
  vVentEx := fun i => (s i).vVentEx
  vInt := fun i k => (s i).vInt k
  vNtrl := fun i => (s i).vNtrl
  cSh := fun i => (s i).cSh
  gSh := fun i => (s i).gSh
  cLh := fun i => (s i).cLh
  gLh := fun i => (s i).gLh
  isRadHeating := fun i => (s i).isRadHeating
  capH := fun i => (s i).capH
  isRadCooling := fun _ => false
  capC := fun _ => 0
  rac := fun i => (s i).rac
  isGround := fun j => (p j).isGround
  room := fun j => (p j).room
  area := fun j => (p j).area
  phiA0 := fun j => (p j).rf.rfa0
  phiT0 := fun j => (p j).rf.rft0
  phiA1 := fun j k => (p j).rf.rfa1.getD k 0
  phiT1 := fun j k => (p j).rf.rft1.getD k 0
  ratio := fun j k => (p j).rf.row.getD k 0
  hC := fun j => (p j).hC
  flr := fun j => (p j).flr
  solarAbs := fun j => (p j).solarAbs
  fMrtHum := fun j => (p j).fMrtHum
  kEo := fun j => (p j).kEo
  kEi := fun j => (p j).kEi
  story := b.story
  cValue := b.cValue
  pressure := b.insidePressure

/-- `core/pre_calc_parameters.py` 215-366 and `core/infiltration.py` 16-51: the house read from `mid_data_house.json`. -/
noncomputable def readHouse (o : Output) : Except PyErr (House (Fin o.spaces.length) (Fin o.boundaries.length)) := do
  let s ← forFin o.spaces.length fun i => readSpace o.spaces.length o.spaces[i]
  let p ← forFin o.boundaries.length fun j => readPart o.spaces.length o.boundaries.length o.boundaries[j]
  readInfiltration o.building
  .ok (houseOf o.building s p)

/-- `core/pre_calc_parameters.py` 372-410: record `t` of the csv files. `temp` and `hum` are the columns of `weather.csv`. The schedules have 35040
records; series of another length are not modelled (missing entries are 0 here). -/
noncomputable def readRecord (temp hum : Fin 35040 → ℝ) (o : Output) (t : Fin 35040) : Record (Fin o.spaces.length) (Fin o.boundaries.length) where
  thetaO := temp t
  xO := hum t
  vLocal := fun i => (o.schedules[i.1]?.map fun c => c.vLocal t).getD 0
  qGen := fun i => (o.schedules[i.1]?.map fun c => c.qGen t).getD 0
  xGen := fun i => (o.schedules[i.1]?.map fun c => c.xGen t).getD 0
  nHum := fun i => (o.schedules[i.1]?.map fun c => c.nHum t).getD 0
  acDemand := fun i => (o.schedules[i.1]?.map fun c => c.acDemand t).getD 0
  qTrsSol := fun i => (o.qTrsSol[i.1]?.bind fun l => l[t.1]?).getD 0
  thetaOSol := fun j => (o.thetaOSol[j.1]?.bind fun l => l[t.1]?).getD 0

end HLC.Init
