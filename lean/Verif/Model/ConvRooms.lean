import Verif.Model.ConvLevels

/-!
# Rooms of the exported house (`convert/convert_lv4_to_h_hlc.py`)
-/

namespace HLC.Conv

/-- `convert/convert_lv4_to_h_hlc.py` 28-36, `get_a_uf`. -/
noncomputable def getAUf (ecs : List PyVal) : Except PyErr ℝ := do
  let l ← ecs.mapM fun ec => do
    let s ← ec.getStr "space_type"
    match decide (s = "underfloor") with
    | true => do
      let a ← ec.getNum "area"
      pure [a]
    | false => pure []
  return l.flatten.sum

/-- `convert/convert_lv4_to_h_hlc.py` 177-207, `get_v_vent_ex`: outdoor air of the main and the other rooms; the other
two values are zero. -/
noncomputable def vVentEx (aA aMr aOr n : ℝ) : Except PyErr (ℝ × ℝ) := do
  let v := aA * 2.4 * n * 1.1
  let m ← pyDiv (v * aMr) (aMr + aOr)
  let o ← pyDiv (v * aOr) (aMr + aOr)
  return (m, o)

/-- `convert/convert_lv4_to_h_hlc.py` 210-224, `get_v_vent`: air from the main and the other rooms to the non-occupied
rooms. -/
def vVent (m o : ℝ) : ℝ × ℝ := (m, o)

/-- An entry of `next_vent`, `convert/convert_lv4_to_h_hlc.py` 107-116. -/
structure NextVent where
  upstream : String
  volume : ℝ

/-- The dictionary of a room, `convert/convert_lv4_to_h_hlc.py` 74-83, 87-96, 118-127, 135-144; the room type is the
name and the list of boundaries is empty. The natural ventilation entry is passed on as read. -/
structure ExpRoom where
  name : String
  volume : ℝ
  vent : ℝ
  nextVent : List NextVent
  cValue : ℝ
  naturalVent : PyVal

/-- `convert/convert_lv4_to_h_hlc.py` 60-150: the rooms that are not `None`, in the order main, other, non-occupied,
underfloor, with `get_room_volume` (153-174); `m` and `o` are the outdoor air of the main and the other rooms. -/
noncomputable def initialRooms (aMr aOr aNr aUf m o : ℝ) (nvMr nvOr : PyVal) : List ExpRoom :=
  [{ name := "main_occupant_room", volume := aMr * 2.4, vent := m, nextVent := [], cValue := 5, naturalVent := nvMr }]
    ++ (if aOr > 0 then
        [{ name := "other_occupant_room", volume := aOr * 2.4, vent := o, nextVent := [], cValue := 5, naturalVent := nvOr }]
      else [])
    ++ (if aNr > 0 then
        [{ name := "non_occupant_room", volume := aNr * 2.4, vent := 0,
           nextVent := (if aMr > 0 then [{ upstream := "main", volume := (vVent m o).1 }] else [])
             ++ (if aOr > 0 then [{ upstream := "other", volume := (vVent m o).2 }] else []),
           cValue := 5, naturalVent := .num 0 }]
      else [])
    ++ (if aUf > 0 then
        [{ name := "underfloor", volume := aUf * 0.4, vent := 0, nextVent := [], cValue := 5, naturalVent := .num 0 }]
      else [])

/-- `convert/convert_lv4_to_h_hlc.py` 39-150, `make_initial_rooms`. -/
noncomputable def makeInitialRooms (aA aMr aOr aNr aUf n : ℝ) (nvMr nvOr : PyVal) : Except PyErr (List ExpRoom) := do
  let v ← vVentEx aA aMr aOr n
  if aMr ≤ 0 then .error .valueError
  else return initialRooms aMr aOr aNr aUf v.1 v.2 nvMr nvOr

/-- `convert/convert_lv4_to_h_hlc.py` 710-717: the boundaries. -/
noncomputable def exportBoundaries (region : ℤ) (gps : List GP) (ws : List Win) (ds : List Door) : Except PyErr (List PyVal) := do
  let g ← gps.mapM fun p => p.initDict 0 region
  let w ← ws.mapM fun p => p.initDict region
  let d ← ds.mapM fun p => p.initDict region
  return g.flatten ++ w ++ d

/-- `convert/convert_lv4_to_h_hlc.py` 684-732, `make_rooms`: line 722 reads the name `rooms`, which is defined nowhere
in the module, so whatever happens before, the call ends with an exception. -/
noncomputable def makeRooms (envelope ventilation naturalVent : PyVal) (region : ℤ) (aA aMr aOr aNr : ℝ)
    (gps : List GP) (ws : List Win) (ds : List Door) : Except PyErr PyVal := do
  let _ ← envelope.get "doors"
  let _ ← envelope.get "earthfloor_perimeters"
  let ecs ← envelope.getList "earthfloor_centers"
  let aUf ← getAUf ecs
  let n ← ventilation.getNum "air_change_rate"
  let nvMr ← naturalVent.get "main_occupant_room_natural_vent_time"
  let nvOr ← naturalVent.get "other_occupant_room_natural_vent_time"
  let _ ← makeInitialRooms aA aMr aOr aNr aUf n nvMr nvOr
  let _ ← exportBoundaries region gps ws ds
  .error .nameError

/-- `convert/convert_lv4_to_h_hlc.py` 625-681, `convert_lv4_to_initializer`; the equipment arguments are only passed on
to code that is never reached. The region is a number used as a table key; only whole numbers are modelled. -/
noncomputable def convertLv4 (region : ℤ) (common envelope d naturalVent : PyVal) : Except PyErr PyVal := do
  let f ← FloorAreas.make common
  let gps ← (← envelope.getList "general_parts").mapM GP.make
  let ws ← (← envelope.getList "windows").mapM Win.make
  let ds ← (← envelope.getList "doors").mapM Door.make
  let _ ← (← envelope.getList "earthfloor_perimeters").mapM Efp.make
  let _ ← (← envelope.getList "earthfloor_centers").mapM Efc.make
  let _ ← (← envelope.getList "heat_bridges").mapM Heatbridge.make
  let _ ← (← envelope.getList "inner_floors").mapM InnerFloor.make
  let _ ← (← envelope.getList "inner_walls").mapM InnerWall.make
  let ventilation ← d.get "ventilation"
  makeRooms envelope ventilation naturalVent region f.total f.main f.other (f.total - f.main - f.other) gps ws ds

end HLC.Conv
