import Verif.Model.UPsi
import Verif.Model.ModelHouse

/-!
# From the indices of a house to a standard house (`convert/convert_indices_to_lv2_info.py`)
-/

namespace HLC.Conv

/-- `convert/convert_indices_to_lv2_info.py` 82-108, `add_spec_gps`. -/
def addSpecGps (gps : List GPNoSpec) (u : PT → ℝ) : Except PyErr (List GP) :=
  gps.mapM fun s => do
    let v ← getUPsi u s.type.value
    return { s with spec := .other s.type v "light" }

/-- `convert/convert_indices_to_lv2_info.py` 111-141, `add_spec_ws`; `eta_d` is not used there. -/
def addSpecWs (ws : List WinNoSpec) (u : PT → ℝ) (etaDC etaDH : ℝ) : Except PyErr (List Win) :=
  ws.mapM fun s => do
    let v ← getUPsi u "window"
    return { s with spaceType := .undefined, spec := { u := v, etaDH := etaDH, etaDC := etaDC, glass := .single, flame := .metal } }

/-- `convert/convert_indices_to_lv2_info.py` 144-157, `add_spec_ds`. -/
def addSpecDs (ds : List DoorNoSpec) (u : PT → ℝ) : Except PyErr (List Door) :=
  ds.mapM fun s => do
    let v ← getUPsi u "door"
    return { s with u := v }

/-- `convert/convert_indices_to_lv2_info.py` 160-173, `add_spec_eps`. -/
def addSpecEps (eps : List EfpNoSpec) (u : PT → ℝ) : Except PyErr (List Efp) :=
  eps.mapM fun s => do
    let v ← getUPsi u "earthfloor_perimeter"
    return { s with psi := v }

/-- `convert/convert_indices_to_lv2_info.py` 176-196, `add_spec_ecs`. -/
def addSpecEcs (ecs : List EfcNoSpec) : List Efc := ecs.map fun s => { s with layers := .list [] }

/-- `convert/convert_indices_to_lv2_info.py` 49-69: the parts with their specifications. -/
noncomputable def specifyParts (region : ℤ) (uA etaAH etaAC : ℝ) (p : HouseNoSpec) : Except PyErr Envelope := do
  let s ← calcPartsSpec region uA etaAH etaAC p.gps p.ds p.ws p.eps p.ecs
  let gps ← addSpecGps p.gps s.u
  let ws ← addSpecWs p.ws s.u s.etaDC s.etaDH
  let ds ← addSpecDs p.ds s.u
  let eps ← addSpecEps p.eps s.u
  return { gps := gps, ws := ws, ds := ds, eps := eps, ecs := addSpecEcs p.ecs }

/-- `convert/convert_indices_to_lv2_info.py` 37-40. -/
def insTypes (houseType : String) : Except PyErr (Option String × Option String) :=
  byHouse houseType (some "floor", some "base") (none, none)

/-- `convert/convert_indices_to_lv2_info.py` 71-79. -/
def indicesDict (e : Envelope) : PyVal :=
  .dict [("input_method", .str "detail_without_room_usage"), ("general_parts", .list (e.gps.map GP.asDict)),
    ("windows", .list (e.ws.map Win.asDict)), ("doors", .list (e.ds.map Door.asDict)),
    ("earthfloor_perimeters", .list (e.eps.map Efp.asDict)), ("earthfloor_centers", .list (e.ecs.map Efc.asDict)),
    ("heat_bridges", .list [])]

/-- `convert/convert_indices_to_lv2_info.py` 16-79, `convert_spec`. The region is a number in the dictionary; it is
passed separately as the integer it stands for. -/
noncomputable def convertIndices (region : ℤ) (d : PyVal) : Except PyErr PyVal := do
  let common ← d.get "common"
  let houseType ← common.getStr "house_type"
  let aF ← common.getNum "total_floor_area"
  let envelope ← d.get "envelope"
  let aEnv ← envelope.getNum "total_area"
  let indices ← envelope.get "indices"
  let uA ← indices.getNum "u_a"
  let etaAH ← indices.getNum "eta_a_h"
  let etaAC ← indices.getNum "eta_a_c"
  let ins ← insTypes houseType
  let shape ← calcArea houseType aF 0.1 ins.1 ins.2 (some aEnv)
  let parts ← noSpec shape
  let e ← specifyParts region uA etaAH etaAC parts
  return indicesDict e

end HLC.Conv
