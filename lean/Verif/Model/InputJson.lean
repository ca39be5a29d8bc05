import Verif.Model.PyVal
import Verif.Model.Solar

/-!
# Boundaries of the input file of the initializer as dictionaries

`BoundaryDict` holds what the initializer reads from one boundary. Here the boundary is the dictionary itself.
-/

namespace HLC

namespace PyVal

/-- The value of a key that may be absent. -/
def opt (d : PyVal) (k : String) : Option PyVal :=
  match d with
  | .dict l => l.lookup k
  | _ => none

/-- A key that is read only for some boundaries, used as a number. Values of another type count as absent. -/
def optNum (d : PyVal) (k : String) : Option ℝ :=
  match d.opt k with
  | some (.num x) => some x
  | _ => none

/-- A key that is read only for some boundaries, used as a string. -/
def optStr (d : PyVal) (k : String) : Option String :=
  match d.opt k with
  | some (.str x) => some x
  | _ => none

/-- A key that is read only for some boundaries, used as a truth value. -/
def optBool (d : PyVal) (k : String) : Option Bool :=
  match d.opt k with
  | some (.bool x) => some x
  | _ => none

/-- A key that is read only for some boundaries, used as a list. -/
def optList (d : PyVal) (k : String) : Option (List PyVal) :=
  match d.opt k with
  | some (.list x) => some x
  | _ => none

end PyVal

namespace Init

/-- `int(x)` of a float: the fraction is cut off. -/
noncomputable def toInt (x : ℝ) : ℤ := if 0 ≤ x then ⌊x⌋ else ⌈x⌉

/-- The ten lengths of a detailed sunshade (`initializer/solar_shading.py` 57-68). -/
def detailOfJson (d : PyVal) : Option (Fin 10 → ℝ) := do
  let x1 ← d.optNum "x1"
  let x2 ← d.optNum "x2"
  let x3 ← d.optNum "x3"
  let y1 ← d.optNum "y1"
  let y2 ← d.optNum "y2"
  let y3 ← d.optNum "y3"
  let a ← d.optNum "z_x_pls"
  let b ← d.optNum "z_x_mns"
  let c ← d.optNum "z_y_pls"
  let e ← d.optNum "z_y_mns"
  return ![x1, x2, x3, y1, y2, y3, a, b, c, e]

/-- The keys of 'solar_shading_part' (`initializer/solar_shading.py` 29-68). -/
def ShadingDict.ofJson (d : PyVal) : Except PyErr ShadingDict := do
  let existence ← d.getBool "existence"
  return { existence := existence, inputMethod := d.optStr "input_method", depth := d.optNum "depth", dH := d.optNum "d_h"
           dE := d.optNum "d_e", detail := detailOfJson d }

/-- The sunshade of a boundary, if there is an entry (`initializer/solar_shading.py` 29). -/
def shadingOfJson (d : PyVal) : Except PyErr (Option ShadingDict) :=
  match d.opt "solar_shading_part" with
  | none => .ok none
  | some s => do return some (← ShadingDict.ofJson s)

/-- A layer: heat capacity and resistance (`initializer/response_factor.py` 332-333, 342-343). -/
def layerOfJson (d : PyVal) : Except PyErr (ℝ × ℝ) := do
  let c ← d.getNum "thermal_capacity"
  let r ← d.getNum "thermal_resistance"
  return (c, r)

/-- The layers of a boundary, if there is an entry (`initializer/initializer.py` 713, 720). -/
def layersOfJson (d : PyVal) : Except PyErr (Option (List (ℝ × ℝ))) :=
  match d.optList "layers" with
  | none => .ok none
  | some l => do return some (← l.mapM layerOfJson)

/-- The keys of a boundary that the initializer reads: `initializer/boundary_simple.py` 80-160, `initializer/outside_eqv_temp.py` 21-55,
`initializer/solar_shading.py` 29-68, `initializer/transmission_solar_radiation.py` 21-30, `initializer/initializer.py` 706-728. Keys read for every
boundary are read first, in the order of `get_boundary_simple`; malformed sunshades and layers are reported here, not at their use. -/
noncomputable def BoundaryDict.ofJson (d : PyVal) : Except PyErr BoundaryDict := do
  let id ← d.getNum "id"
  let name ← d.getStr "name"
  let room ← d.getNum "connected_room_id"
  let type ← d.getStr "boundary_type"
  let area ← d.getNum "area"
  let absorbed ← d.getBool "is_solar_absorbed_inside"
  let floor ← d.getBool "is_floor"
  let rIn ← d.getNum "inside_heat_transfer_resistance"
  let hC ← d.getNum "h_c"
  let shading ← shadingOfJson d
  let layers ← layersOfJson d
  return {
    id := toInt id, name := name, connectedRoom := toInt room, boundaryType := type, area := area
    isSunStruck := d.optBool "is_sun_striked_outside", tempDifCoef := d.optNum "temp_dif_coef"
    nextRoomType := d.optStr "next_room_type", rearSurface := (d.optNum "rear_surface_boundary_id").map toInt
    isSolarAbsorbed := absorbed, isFloor := floor, direction := d.optStr "direction", rIn := rIn, hC := hC
    absorption := d.optNum "outside_solar_absorption", emissivity := d.optNum "outside_emissivity"
    rOut := d.optNum "outside_heat_transfer_resistance", shading := shading
    glazing := d.optStr "incident_angle_characteristics", eta := d.optNum "eta_value", uValue := d.optNum "u_value", layers := layers }

end Init
end HLC
