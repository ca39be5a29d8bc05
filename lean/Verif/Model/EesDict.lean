import Verif.Model.Ees

/-!
# Reading and writing building parts as dictionaries (`convert/ees_house.py`)
-/

namespace HLC.Conv

/-- `convert/ees_house.py` 358-382, `Layer.get_as_dict`. -/
def Layer.asDict (l : Layer) : PyVal :=
  match l.method with
  | .conductivity =>
    .dict [("name", .str l.name), ("heat_resistance_input_method", .str l.method.value), ("thickness", .num l.thickness),
           ("volumetric_specific_heat", .num l.volHeat), ("thermal_conductivity", .num l.conductivity)]
  | .resistance =>
    .dict [("name", .str l.name), ("heat_resistance_input_method", .str l.method.value), ("thickness", .num l.thickness),
           ("volumetric_specific_heat", .num l.volHeat), ("thermal_resistance", .num l.resistance)]

/-- `convert/ees_house.py` 317-345, `Layer.make_layer`. -/
noncomputable def Layer.make (d : PyVal) : Except PyErr Layer := do
  let m ← RMethod.ofValue (← d.getStr "heat_resistance_input_method")
  match m with
  | .conductivity =>
    let name ← d.getStr "name"
    let t ← d.getNum "thickness"
    let v ← d.getNum "volumetric_specific_heat"
    let k ← d.getNum "thermal_conductivity"
    return { name := name, method := .conductivity, thickness := t, volHeat := v, conductivity := k }
  | .resistance =>
    let name ← d.getStr "name"
    let t ← d.getNum "thickness"
    let v ← d.getNum "volumetric_specific_heat"
    let r ← d.getNum "thermal_resistance"
    return { name := name, method := .resistance, thickness := t, volHeat := v, resistance := r }

/-- `convert/ees_house.py` 489-495, `GeneralPartPart.get_as_dict`. -/
def PartPart.asDict (p : PartPart) : PyVal :=
  .dict [("name", .str p.name), ("part_area_ratio", .num p.ratio), ("layers", .list (p.layers.map Layer.asDict))]

/-- `convert/ees_house.py` 418-432, `make_general_part_part`. -/
noncomputable def PartPart.make (d : PyVal) : Except PyErr PartPart := do
  let name ← d.getStr "name"
  let ratio ← d.getNum "part_area_ratio"
  let layers ← (← d.getList "layers").mapM Layer.make
  return { name := name, ratio := ratio, layers := layers }

/-- `convert/ees_house.py` 434-449, `make_general_part_parts`. -/
noncomputable def PartPart.makeAll (ds : List PyVal) : Except PyErr (List PartPart) := do
  let total := (← ds.mapM fun d => d.getNum "part_area_ratio").sum
  if 0.000001 < |total - 1| then .error .exception
  else ds.mapM PartPart.make

/-- `convert/ees_house.py` 736-739, 782-785, 838-841: the entries shared by the detailed specifications. -/
def Detail.entries (d : Detail) : List (String × PyVal) :=
  [("r_srf_in", .num d.rIn), ("r_srf_ex", .num d.rEx), ("parts", .list (d.parts.map PartPart.asDict))]

/-- `convert/ees_house.py` 715-722, 762-769, 820-824: the entries shared by the detailed specifications. -/
noncomputable def Detail.make (d : PyVal) : Except PyErr Detail := do
  let rIn ← d.getNum "r_srf_in"
  let rEx ← d.getNum "r_srf_ex"
  let parts ← PartPart.makeAll (← d.getList "parts")
  return { rIn := rIn, rEx := rEx, parts := parts }

/-- `convert/ees_house.py` 733-740, 780-786, 835-842, 1084-1090: `get_as_dict` of the specifications. -/
def GPSpec.asDict : GPSpec → PyVal
  | .wood d => .dict (("structure", .str "wood") :: d.entries)
  | .rc d => .dict (("structure", .str "rc") :: d.entries)
  | .steel uR d => .dict (("structure", .str "steel") :: ("u_r_value_steel", .num uR) :: d.entries)
  | .other _ u w => .dict [("structure", .str "other"), ("u_value_other", .num u), ("weight", .str w)]

/-- `convert/ees_house.py` 530-556, `make_general_part_spec`, with `make_from_dict` at 715-722, 762-769, 816-824,
1075-1082. -/
noncomputable def GPSpec.make (d : PyVal) (t : GPType) : Except PyErr GPSpec := do
  let s ← d.getStr "structure"
  if s = "wood" then return .wood (← Detail.make d)
  else if s = "rc" then return .rc (← Detail.make d)
  else if s = "steel" then
    let uR ← d.getNum "u_r_value_steel"
    return .steel uR (← Detail.make d)
  else if s = "other" then
    let u ← d.getNum "u_value_other"
    let w ← d.getStr "weight"
    return .other t u w
  else .error .notImplemented

/-- `convert/ees_house.py` 1383-1394, `GeneralPart.get_as_dict`. -/
def GP.asDict (p : GP) : PyVal :=
  .dict [("name", .str p.name), ("general_part_type", .str p.type.value), ("next_space", .str p.nextSpace.value),
         ("direction", .str p.direction.value), ("area", .num p.area), ("space_type", .str p.spaceType.value),
         ("spec", p.spec.asDict), ("sunshade", p.sunshade.asDict)]

/-- `convert/ees_house.py` 1296-1320, `make_general_part`. -/
noncomputable def GP.make (d : PyVal) : Except PyErr GP := do
  let t ← GPType.ofValue (← d.getStr "general_part_type")
  let name ← d.getStr "name"
  let sp ← NextSpace.ofValue (← d.getStr "next_space")
  let dir ← Direction.ofValue (← d.getStr "direction")
  let area ← d.getNum "area"
  let st ← SpaceType.ofValue (← d.getStr "space_type")
  let sh ← OpaqueShade.make (← d.get "sunshade")
  let spec ← GPSpec.make (← d.get "spec") t
  return { name := name, type := t, nextSpace := sp, direction := dir, area := area, spaceType := st, sunshade := sh, spec := spec }

/-- `convert/ees_house.py` 1502-1510, `WindowSpec.get_as_dict`. -/
def WindowSpec.asDict (w : WindowSpec) : PyVal :=
  .dict [("u_value", .num w.u), ("eta_d_h_value", .num w.etaDH), ("eta_d_c_value", .num w.etaDC),
         ("glass_type", .str w.glass.value), ("flame_type", .str w.flame.value)]

/-- `convert/ees_house.py` 1468-1484, `make_window_spec`. -/
noncomputable def WindowSpec.make (d : PyVal) : Except PyErr WindowSpec := do
  let u ← d.getNum "u_value"
  let eh ← d.getNum "eta_d_h_value"
  let ec ← d.getNum "eta_d_c_value"
  let g ← GlassType.ofValue (← d.getStr "glass_type")
  let f ← FlameType.ofValue (← d.getStr "flame_type")
  return { u := u, etaDH := eh, etaDC := ec, glass := g, flame := f }

/-- `convert/ees_house.py` 1704-1714, `Window.get_as_dict`. -/
def Win.asDict (w : Win) : PyVal :=
  .dict [("name", .str w.name), ("next_space", .str w.nextSpace.value), ("direction", .str w.direction.value),
         ("area", .num w.area), ("space_type", .str w.spaceType.value), ("sunshade", w.sunshade.asDict), ("spec", w.spec.asDict)]

/-- `convert/ees_house.py` 1646-1664, `make_window`. -/
noncomputable def Win.make (d : PyVal) : Except PyErr Win := do
  let name ← d.getStr "name"
  let area ← d.getNum "area"
  let sp ← NextSpace.ofValue (← d.getStr "next_space")
  let dir ← Direction.ofValue (← d.getStr "direction")
  let st ← SpaceType.ofValue (← d.getStr "space_type")
  let sh ← TransientShade.make (← d.get "sunshade")
  let spec ← WindowSpec.make (← d.get "spec")
  return { name := name, nextSpace := sp, direction := dir, area := area, spaceType := st, sunshade := sh, spec := spec }

/-- `convert/ees_house.py` 1881-1893, `Door.get_as_dict`. -/
def Door.asDict (p : Door) : PyVal :=
  .dict [("name", .str p.name), ("next_space", .str p.nextSpace.value), ("direction", .str p.direction.value),
         ("area", .num p.area), ("space_type", .str p.spaceType.value), ("sunshade", p.sunshade.asDict),
         ("spec", .dict [("u_value", .num p.u)])]

/-- `convert/ees_house.py` 1829-1847, `make_door`. -/
noncomputable def Door.make (d : PyVal) : Except PyErr Door := do
  let name ← d.getStr "name"
  let sp ← NextSpace.ofValue (← d.getStr "next_space")
  let dir ← Direction.ofValue (← d.getStr "direction")
  let area ← d.getNum "area"
  let st ← SpaceType.ofValue (← d.getStr "space_type")
  let sh ← OpaqueShade.make (← d.get "sunshade")
  let u ← (← d.get "spec").getNum "u_value"
  return { name := name, nextSpace := sp, direction := dir, area := area, spaceType := st, sunshade := sh, u := u }

/-- `convert/ees_house.py` 2011-2021, `EarthfloorPerimeter.get_as_dict`. -/
def Efp.asDict (e : Efp) : PyVal :=
  .dict [("name", .str e.name), ("next_space", .str e.nextSpace.value), ("length", .num e.length),
         ("space_type", .str e.spaceType.value), ("spec", .dict [("psi_value", .num e.psi)])]

/-- `convert/ees_house.py` 1987-1995, `make_earthfloor_perimeter`. -/
noncomputable def Efp.make (d : PyVal) : Except PyErr Efp := do
  let name ← d.getStr "name"
  let sp ← NextSpace.ofValue (← d.getStr "next_space")
  let len ← d.getNum "length"
  let st ← SpaceType.ofValue (← d.getStr "space_type")
  let psi ← (← d.get "spec").getNum "psi_value"
  return { name := name, nextSpace := sp, length := len, spaceType := st, psi := psi }

/-- `convert/ees_house.py` 2039-2043 and 2115-2122, `EarthfloorCenter.get_as_dict`. -/
def Efc.asDict (e : Efc) : PyVal :=
  .dict [("name", .str e.name), ("area", .num e.area), ("space_type", .str e.spaceType), ("spec", .dict [("layers", e.layers)])]

/-- `convert/ees_house.py` 2030-2033 and 2098-2105, `make_earthfloor_center`. -/
noncomputable def Efc.make (d : PyVal) : Except PyErr Efc := do
  let name ← d.getStr "name"
  let area ← d.getNum "area"
  let st ← d.getStr "space_type"
  let layers ← (← d.get "spec").get "layers"
  return { name := name, area := area, spaceType := st, layers := layers }

/-- `convert/ees_house.py` 2142-2146 and 2292-2301, `Heatbridge.get_as_dict`. -/
def Heatbridge.asDict (b : Heatbridge) : PyVal :=
  .dict [("name", .str b.name), ("next_spaces", .list (b.nextSpaces.map fun s => .str s.value)),
         ("directions", .list (b.directions.map .str)), ("length", .num b.length), ("space_type", .str b.spaceType.value),
         ("spec", .dict [("psi_value", .num b.psi)])]

/-- `convert/ees_house.py` 2131-2134 and 2241-2250, `make_heatbridge`. -/
noncomputable def Heatbridge.make (d : PyVal) : Except PyErr Heatbridge := do
  let name ← d.getStr "name"
  let sps ← (← d.getList "next_spaces").mapM fun s => do NextSpace.ofValue (← s.asStr)
  let dirs ← (← d.getList "directions").mapM PyVal.asStr
  let len ← d.getNum "length"
  let st ← SpaceType.ofValue (← d.getStr "space_type")
  let psi ← (← d.get "spec").getNum "psi_value"
  return { name := name, nextSpaces := sps, directions := dirs, length := len, spaceType := st, psi := psi }

/-- `convert/ees_house.py` 2351-2361, `InnerFloor.get_as_dict`. -/
def InnerFloor.asDict (f : InnerFloor) : PyVal :=
  .dict [("name", .str f.name), ("area", .num f.area), ("upper_space_type", .str f.upper), ("lower_space_type", .str f.lower),
         ("spec", .dict [("layers", .list (f.layers.map Layer.asDict))])]

/-- `convert/ees_house.py` 2321-2329, `make_inner_floor`. -/
noncomputable def InnerFloor.make (d : PyVal) : Except PyErr InnerFloor := do
  let name ← d.getStr "name"
  let area ← d.getNum "area"
  let up ← d.getStr "upper_space_type"
  let lo ← d.getStr "lower_space_type"
  let layers ← (← (← d.get "spec").getList "layers").mapM Layer.make
  return { name := name, area := area, upper := up, lower := lo, layers := layers }

/-- `convert/ees_house.py` 2411-2421, `InnerWall.get_as_dict`. -/
def InnerWall.asDict (f : InnerWall) : PyVal :=
  .dict [("name", .str f.name), ("area", .num f.area), ("space_type_1", .str f.space1), ("space_type_2", .str f.space2),
         ("spec", .dict [("layers", .list (f.layers.map Layer.asDict))])]

/-- `convert/ees_house.py` 2381-2389, `make_inner_wall`. -/
noncomputable def InnerWall.make (d : PyVal) : Except PyErr InnerWall := do
  let name ← d.getStr "name"
  let area ← d.getNum "area"
  let s1 ← d.getStr "space_type_1"
  let s2 ← d.getStr "space_type_2"
  let layers ← (← (← d.get "spec").getList "layers").mapM Layer.make
  return { name := name, area := area, space1 := s1, space2 := s2, layers := layers }

/-- An `InitLayer` as the dictionary written by `convert/ees_house.py` 398-402. -/
def InitLayer.asDict (l : InitLayer) : PyVal :=
  .dict [("name", .str l.name), ("thermal_resistance", .num l.r), ("thermal_capacity", .num l.c)]

/-- `convert/ees_house.py` 1396-1440, `GeneralPart.make_initializer_dict`. -/
noncomputable def GP.initDict (p : GP) (uAdd : ℝ) (region : ℤ) : Except PyErr (List PyVal) := do
  let ps ← p.spec.initDict p.name p.area uAdd
  let room ← p.spaceType.connectedId
  ps.mapM fun x => do
    let h ← p.nextSpace.getH region
    return .dict ([("name", .str x.name), ("connected_room_id", .num room), ("boundary_type", .str "external_general_part"),
      ("area", .num x.area), ("is_sun_striked_outside", .bool p.nextSpace.isSunStriked), ("temp_dif_coef", .num h),
      ("is_solar_absorbed_inside", .bool p.type.isSolarAbsorbedInside), ("inside_heat_transfer_resistance", .num x.rIn),
      ("outside_heat_transfer_resistance", .num x.rOut), ("outside_emissivity", .num 0.9), ("outside_solar_absorption", .num 0.8),
      ("layers", .list (x.layers.map InitLayer.asDict)), ("solar_shading_part", p.sunshade.initDict)] ++
      (if p.nextSpace.isSunStriked then [("direction", .str p.direction.value)] else []))

/-- `convert/ees_house.py` 1716-1742, `Window.make_initializer_dict`. -/
noncomputable def Win.initDict (w : Win) (region : ℤ) : Except PyErr PyVal := do
  let room ← w.spaceType.connectedId
  let h ← w.nextSpace.getH region
  return .dict ([("name", .str w.name), ("connected_id", .num room), ("boundary_type", .str "external_transparent_part"),
    ("area", .num w.area), ("is_sun_striked_outside", .bool w.nextSpace.isSunStriked), ("temp_dif_coef", .num h),
    ("is_solar_absorbed_inside", .bool false), ("inside_heat_transfer_resistance", .num 0.13),
    ("outside_heat_transfer_resistance", .num 0.04), ("outside_emissivity", .num 0.9), ("eta_d_h_value", .num w.spec.etaDH),
    ("eta_d_c_value", .num w.spec.etaDC), ("u_value", .num w.spec.u), ("incident_angle_characteristics", .str w.spec.glass.value),
    ("solar_shading_part", w.sunshade.initDict)] ++
    (if w.nextSpace.isSunStriked then [("direction", .str w.direction.value)] else []))

/-- `convert/ees_house.py` 1895-1920, `Door.make_initializer_dict`; the later `update` writes the same direction. -/
noncomputable def Door.initDict (d : Door) (region : ℤ) : Except PyErr PyVal := do
  let room ← d.spaceType.connectedId
  let h ← d.nextSpace.getH region
  return .dict [("name", .str d.name), ("connected_room_id", .num room), ("boundary_type", .str "external_opaque_part"),
    ("area", .num d.area), ("is_sun_striked_outside", .bool d.nextSpace.isSunStriked), ("temp_dif_coef", .num h),
    ("is_solar_absorbed_inside", .bool false), ("direction", .str d.direction.value), ("inside_heat_transfer_resistance", .num 0.13),
    ("outside_heat_transfer_resistance", .num 0.04), ("outside_emissivity", .num 0.9), ("outside_solar_absorption", .num 0.8),
    ("u_value", .num d.u), ("solar_shading_part", d.sunshade.initDict)]

end HLC.Conv
