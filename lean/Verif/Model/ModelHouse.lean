import Verif.Model.ConvLevels
import Mathlib.Analysis.Real.Sqrt

/-!
# The standard house (`convert/model_house.py`)

Optional arguments (`floor_ins_type`, `bath_ins_type`, `a_env_input`) are `Option`s. Lists of one value per storey stay
lists; `a_f[0]` is the head of the list, which is never empty.
-/

namespace HLC.Conv

/-- A tuple of four values for the orientations 0, 90, 180 and 270 degrees from the main one. -/
structure Four where
  d0 : ℝ
  d90 : ℝ
  d180 : ℝ
  d270 : ℝ

/-- `sum` of a tuple of four. -/
noncomputable def Four.sum (x : Four) : ℝ := x.d0 + x.d90 + x.d180 + x.d270

/-- Every entry times `h`. -/
noncomputable def Four.scale (x : Four) (h : ℝ) : Four := ⟨x.d0 * h, x.d90 * h, x.d180 * h, x.d270 * h⟩

/-- Entry by entry. -/
noncomputable def Four.add3 (x y z : Four) : Four := ⟨x.d0 + y.d0 + z.d0, x.d90 + y.d90 + z.d90, x.d180 + y.d180 + z.d180, x.d270 + y.d270 + z.d270⟩

/-- `{'detached': a, 'attached': b}[house_type]`. -/
def byHouse {α : Type} (houseType : String) (detached attached : α) : Except PyErr α :=
  if houseType = "detached" then .ok detached
  else if houseType = "attached" then .ok attached
  else .error .keyError

/-- `if house_type == 'detached': … elif house_type == 'attached': … else: raise Exception`. -/
def onHouse {α : Type} (houseType : String) (detached attached : Except PyErr α) : Except PyErr α :=
  if houseType = "detached" then detached
  else if houseType = "attached" then attached
  else .error .exception

/-- `{'floor': a, 'base': b, None: c}[floor_ins_type]`. -/
def byFloor {α : Type} (floorIns : Option String) (floor base none : α) : Except PyErr α :=
  if floorIns = some "floor" then .ok floor
  else if floorIns = some "base" then .ok base
  else if floorIns = .none then .ok none
  else .error .keyError

/-- `if floor_ins_type == 'floor': … elif floor_ins_type == 'base': … else: raise Exception`. -/
def onFloor {α : Type} (floorIns : Option String) (floor base : Except PyErr α) : Except PyErr α :=
  if floorIns = some "floor" then floor
  else if floorIns = some "base" then base
  else .error .exception

/-- `if bath_ins_type == 'base': … elif bath_ins_type == 'floor' or bath_ins_type == 'not_exist': … else: raise Exception`. -/
def onBath {α : Type} (bathIns : Option String) (base floor : Except PyErr α) : Except PyErr α :=
  if bathIns = some "base" then base
  else if bathIns = some "floor" ∨ bathIns = some "not_exist" then floor
  else .error .exception

/-- `convert/model_house.py` 1236-1239: the height of the foundation below a bath room by its insulation. -/
noncomputable def bathHeight (bathIns : Option String) : Except PyErr ℝ :=
  if bathIns = some "floor" then .ok 0
  else if bathIns = some "base" then .ok 0.5
  else if bathIns = some "not_exist" then .ok 0
  else if bathIns = none then .ok 0
  else .error .keyError

/-- `convert/model_house.py` 538-556, `_get_a_f`, with `r_fa` as in 1227 (unused for attached houses). -/
noncomputable def getAF (houseType : String) (aFTotal rFa : ℝ) : Except PyErr (List ℝ) :=
  onHouse houseType
    (do
      let a ← pyDiv aFTotal (1 + rFa)
      let b ← pyDiv (aFTotal * rFa) (1 + rFa)
      return [a, b])
    (.ok [aFTotal])

/-- What `_get_entrance` and `_get_bath` return. -/
structure WetArea where
  ef : ℝ
  f : ℝ
  outside : Four
  inside : ℝ

/-- `convert/model_house.py` 559-613, `_get_entrance`. -/
noncomputable def getEntrance (houseType : String) (floorIns : Option String) (ms os : ℝ) : Except PyErr WetArea := do
  let outside ← onHouse houseType (.ok ⟨0, os, ms, 0⟩) (.ok ⟨0, 0, 0, 0⟩)
  let inside ← onHouse houseType (onFloor floorIns (.ok (ms + os)) (.ok 0)) (.ok 0)
  let a ← onHouse houseType (.ok (ms * os, 0)) (.ok (0, ms * os))
  return { ef := a.1, f := a.2, outside := outside, inside := inside }

/-- `convert/model_house.py` 616-693, `_get_bath`. The condition of 645 is the disjunction of the two cases below. -/
noncomputable def getBath (houseType : String) (floorIns bathIns : Option String) (ms os : ℝ) : Except PyErr WetArea := do
  let outside ← onHouse houseType
    (if (floorIns = some "floor" ∧ bathIns = some "base") ∨ floorIns = some "base" then .ok ⟨0, os, ms, 0⟩
     else if floorIns = some "floor" ∧ (bathIns = some "floor" ∨ bathIns = some "not_exist") then .ok ⟨0, 0, 0, 0⟩
     else .error .exception)
    (.ok ⟨0, 0, 0, 0⟩)
  let inside ← onHouse houseType
    (onFloor floorIns (onBath bathIns (.ok (ms + os)) (.ok 0)) (.ok 0))
    (.ok 0)
  let a ← onHouse houseType
    (onFloor floorIns (onBath bathIns (.ok (ms * os, 0)) (.ok (0, ms * os))) (.ok (ms * os, 0)))
    (.ok (0, ms * os))
  return { ef := a.1, f := a.2, outside := outside, inside := inside }

/-- `convert/model_house.py` 696-743, `_get_f_s`. A negative floor area has a complex root, which `max` refuses. -/
noncomputable def getFS (houseType : String) (aEnv : ℝ) (aF h : List ℝ) (hOther hBath hEtrc : ℝ) (bath etrc : WetArea) (dflt : List ℝ) :
    Except PyErr (List ℝ) := do
  let lEtrc := etrc.outside.sum + etrc.inside
  let lBath := bath.outside.sum + bath.inside
  let x := aEnv - 2 * aF.getD 0 0 - lEtrc * hEtrc - lBath * hBath + (lEtrc + lBath) * hOther
  onHouse houseType
    (do
      let s0 ← pySqrt (aF.getD 0 0)
      let s1 ← pySqrt (aF.getD 1 0)
      let c ← pyDiv (4 * s1 * dflt.getD 1 0) (dflt.getD 0 0)
      let y := 4 * s0 * (h.getD 0 0 + hOther) + c * h.getD 1 0
      let q ← pyDiv x y
      let q ← pyDiv (q * dflt.getD 1 0) (dflt.getD 0 0)
      let f2 := max q 1
      let f1 ← pyDiv (f2 * dflt.getD 0 0) (dflt.getD 1 0)
      return [f1, f2])
    (do
      let s0 ← pySqrt (aF.getD 0 0)
      let q ← pyDiv x (4 * s0 * h.getD 0 0)
      return [max q 1])

/-- `convert/model_house.py` 746-758, `_get_l_prm`. -/
noncomputable def getLPrm (aF fS : List ℝ) : Except PyErr (List ℝ) :=
  (aF.zip fS).mapM fun x => do return 4 * (← pySqrt x.1) * x.2

/-- `convert/model_house.py` 772: half the difference of the sides. -/
noncomputable def sideDif (l a : ℝ) : ℝ := Real.sqrt (max ((l / 2) ^ 2 - 4 * a) 0) / 2

/-- `convert/model_house.py` 761-786, `_get_l`. -/
noncomputable def getL (houseType : String) (aF lPrm : List ℝ) : Except PyErr (List ℝ × List ℝ) :=
  let long := (lPrm.zip aF).map fun x => x.1 / 4 + sideDif x.1 x.2
  let short := (lPrm.zip aF).map fun x => x.1 / 4 - sideDif x.1 x.2
  byHouse houseType (long, short) (short, long)

/-- `convert/model_house.py` 1184-1200, `_get_a_evp_ef_other`. -/
noncomputable def efOther (houseType : String) (floorIns : Option String) (aF : List ℝ) (efBath efEtrc : ℝ) : ℝ :=
  if houseType = "detached" ∧ floorIns = some "base" then aF.getD 0 0 - efEtrc - efBath else 0

/-- `convert/model_house.py` 1103-1139, `_get_l_base_other`, outside; the inside length is zero. -/
noncomputable def lBaseOther (houseType : String) (floorIns : Option String) (lMs lOs : List ℝ) (etrc bath : Four) : Four :=
  if houseType = "detached" ∧ floorIns = some "base" then
    ⟨lMs.getD 0 0 - etrc.d0 - bath.d0, lOs.getD 0 0 - etrc.d90 - bath.d90, lMs.getD 0 0 - etrc.d180 - bath.d180,
     lOs.getD 0 0 - etrc.d270 - bath.d270⟩
  else ⟨0, 0, 0, 0⟩

/-- `convert/model_house.py` 921-936, `_get_a_evp_srf`, with the sums over the storeys taken at 804-809 and 915-916. -/
noncomputable def srfTotal (lMs lOs h : List ℝ) : Four :=
  let m := (List.zipWith (· * ·) lMs h).sum
  let o := (List.zipWith (· * ·) lOs h).sum
  ⟨m, o, m, o⟩

/-- The entries of the dictionary returned by `calc_area` that `get_model_house_no_spec` and the properties use. -/
structure HouseShape where
  houseType : String
  floorIns : Option String
  aF : List ℝ
  fS : List ℝ
  lPrm : List ℝ
  lMs : List ℝ
  lOs : List ℝ
  efTotal : ℝ
  fTotal : ℝ
  lBaseOutside : Four
  lBaseInside : ℝ
  roof : ℝ
  baseOutside : Four
  baseInside : ℝ
  totalNotBase : ℝ
  total : ℝ
  openTotal : ℝ
  windowTotal : ℝ
  window : Four
  door : Four
  wall : Four

/-- The default settings of `convert/model_house.py` 1216-1276. -/
structure HouseConsts where
  dflt : List ℝ
  hEtrc : ℝ
  hBath : ℝ
  hOther : ℝ
  h : List ℝ
  doorEtrc : ℝ
  doorBack : ℝ
  etrcMs : ℝ
  etrcOs : ℝ
  bathMs : ℝ
  bathOs : ℝ
  rWindow : Four

/-- `convert/model_house.py` 1216-1276. The dictionaries are built before they are indexed: a wrong insulation type raises
`KeyError` also where it is not used. -/
noncomputable def houseConsts (houseType : String) (floorIns bathIns : Option String) : Except PyErr HouseConsts := do
  let hb ← bathHeight bathIns
  let hb ← byFloor floorIns hb 0.5 0
  let ho ← byFloor floorIns 0 0.5 0
  byHouse houseType
    { dflt := [1.08, 1.04], hEtrc := 0.18, hBath := hb, hOther := ho, h := [2.9, 2.7], doorEtrc := 1.89, doorBack := 1.62, etrcMs := 1.365,
      etrcOs := 1.82, bathMs := 1.82, bathOs := 1.82, rWindow := ⟨0.6862, 0.0721, 0.1097, 0.1320⟩ }
    { dflt := [1.048215], hEtrc := 0, hBath := 0, hOther := 0, h := [2.8], doorEtrc := 1.755, doorBack := 0, etrcMs := 1,
      etrcOs := 1, bathMs := 2.1, bathOs := 1.365, rWindow := ⟨0.6330, 0.1517, 0.2153, 0⟩ }

/-- `convert/model_house.py` 814-840, `_get_a_evp_door`. -/
noncomputable def getDoor (back etrc : ℝ) (houseType : String) : Except PyErr Four := do
  let d90 ← byHouse houseType etrc 0
  let d180 ← byHouse houseType back etrc
  return ⟨0, d90, d180, 0⟩

/-- `convert/model_house.py` 1318-1392: the areas and lengths that follow from the sides of the storeys (functions at 789-811,
843-1181). -/
noncomputable def houseShape (houseType : String) (floorIns : Option String) (rOpen : ℝ) (c : HouseConsts) (etrc bath : WetArea)
    (aF fS lPrm lMs lOs : List ℝ) (door : Four) : HouseShape :=
  let efOther := efOther houseType floorIns aF bath.ef etrc.ef
  let efTotal := etrc.ef + bath.ef + efOther
  let fOther := aF.getD 0 0 - efTotal - etrc.f - bath.f
  let fTotal := etrc.f + bath.f + fOther
  let lOther := lBaseOther houseType floorIns lMs lOs etrc.outside bath.outside
  let roof := aF.getD 0 0
  let baseOutside := Four.add3 (lOther.scale c.hOther) (etrc.outside.scale c.hEtrc) (bath.outside.scale c.hBath)
  let baseInside := 0 + etrc.inside * c.hEtrc + bath.inside * c.hBath
  let srf := srfTotal lMs lOs c.h
  let totalNotBase := fTotal + efTotal + roof + srf.sum
  let openTotal := totalNotBase * rOpen
  let windowTotal := openTotal - c.doorEtrc - c.doorBack
  let window := c.rWindow.scale windowTotal
  { houseType := houseType, floorIns := floorIns, aF := aF, fS := fS, lPrm := lPrm, lMs := lMs, lOs := lOs, efTotal := efTotal,
    fTotal := fTotal, lBaseOutside := Four.add3 lOther etrc.outside bath.outside, lBaseInside := 0 + etrc.inside + bath.inside,
    roof := roof, baseOutside := baseOutside, baseInside := baseInside, totalNotBase := totalNotBase,
    total := totalNotBase + baseOutside.sum + baseInside, openTotal := openTotal, windowTotal := windowTotal, window := window, door := door,
    wall := ⟨srf.d0 - window.d0 - door.d0, srf.d90 - window.d90 - door.d90, srf.d180 - window.d180 - door.d180,
      srf.d270 - window.d270 - door.d270⟩ }

/-- `convert/model_house.py` 1294-1301: the shape factors, given or derived from the required area. -/
noncomputable def chooseFS (houseType : String) (c : HouseConsts) (aF : List ℝ) (bath etrc : WetArea) (aEnv : Option ℝ) : Except PyErr (List ℝ) :=
  match aEnv with
  | none => .ok c.dflt
  | some a => getFS houseType a aF c.h c.hOther c.hBath c.hEtrc bath etrc c.dflt

/-- `convert/model_house.py` 1203-1437, `calc_area`. -/
noncomputable def calcArea (houseType : String) (aFTotal rOpen : ℝ) (floorIns bathIns : Option String) (aEnv : Option ℝ) :
    Except PyErr HouseShape := do
  let c ← houseConsts houseType floorIns bathIns
  let aF ← getAF houseType aFTotal 0.77
  let etrc ← getEntrance houseType floorIns c.etrcMs c.etrcOs
  let bath ← getBath houseType floorIns bathIns c.bathMs c.bathOs
  let fS ← chooseFS houseType c aF bath etrc aEnv
  let lPrm ← getLPrm aF fS
  let l ← getL houseType aF lPrm
  let door ← getDoor c.doorBack c.doorEtrc houseType
  return houseShape houseType floorIns rOpen c etrc bath aF fS lPrm l.1 l.2 door

/-- The five lists returned by `get_model_house_no_spec`. -/
structure HouseNoSpec where
  gps : List GPNoSpec
  ws : List WinNoSpec
  ds : List DoorNoSpec
  eps : List EfpNoSpec
  ecs : List EfcNoSpec

open Classical in
/-- `if x > 0.0: raise Exception(…)`, for each value of a list. -/
noncomputable def refusePos (xs : List ℝ) : Except PyErr Unit := if ∃ x ∈ xs, x > 0 then .error .exception else .ok ()

/-- A part towards outdoor air; `SpaceType.UNDEFINED` and `SunshadeOpaqueNotInput` throughout. -/
def outer (name : String) (t : GPType) (d : Direction) (area : ℝ) : GPNoSpec :=
  { name := name, type := t, nextSpace := .outdoor, direction := d, area := area, spaceType := .undefined, sunshade := .notInput }

/-- A part towards another space; `SpaceType.UNDEFINED` and `SunshadeOpaqueNotDefined` throughout. -/
def inner (name : String) (t : GPType) (s : NextSpace) (d : Direction) (area : ℝ) : GPNoSpec :=
  { name := name, type := t, nextSpace := s, direction := d, area := area, spaceType := .undefined, sunshade := .notDefined }

/-- A window with the eaves of the standard house. -/
noncomputable def eavesWindow (name : String) (s : NextSpace) (d : Direction) (area : ℝ) : WinNoSpec :=
  { name := name, nextSpace := s, direction := d, area := area, spaceType := .undefined, sunshade := .simple 0.3 1 0 }

/-- A perimeter of an earth floor. -/
def perimeter (name : String) (s : NextSpace) (len : ℝ) : EfpNoSpec := { name := name, nextSpace := s, length := len, spaceType := .undefined }

/-- `convert/model_house.py` 10-535, `get_model_house_no_spec`. Where one branch makes several checks of the same kind in a
row they are made at once: all raise the same exception. -/
noncomputable def noSpec (s : HouseShape) : Except PyErr HouseNoSpec := do
  let roofs ← onHouse s.houseType
    (.ok [outer "roof" .ceiling .top s.roof])
    (.ok [inner "roof" .upwardBoundaryFloor .airConditioned .upward s.roof])
  let walls ← onHouse s.houseType
    (.ok [outer "wall_sw" .wall .sw s.wall.d0, outer "wall_nw" .wall .nw s.wall.d90, outer "wall_ne" .wall .ne s.wall.d180,
          outer "wall_se" .wall .se s.wall.d270])
    (.ok [outer "wall_sw" .wall .sw s.wall.d0, outer "wall_nw" .wall .nw s.wall.d90,
          inner "wall_ne" .wall .openSpace .horizontal s.wall.d180, inner "wall_se" .boundaryWall .airConditioned .horizontal s.wall.d270])
  let windows ← onHouse s.houseType
    (.ok [eavesWindow "window_sw" .outdoor .sw s.window.d0, eavesWindow "window_nw" .outdoor .nw s.window.d90,
          eavesWindow "window_ne" .outdoor .ne s.window.d180, eavesWindow "window_se" .outdoor .se s.window.d270])
    (do
      refusePos [s.window.d270]
      return [eavesWindow "window_sw" .outdoor .sw s.window.d0, eavesWindow "window_nw" .outdoor .nw s.window.d90,
              eavesWindow "window_ne" .openSpace .horizontal s.window.d180])
  let doors ← onHouse s.houseType
    (do
      refusePos [s.door.d0, s.door.d270]
      return [{ name := "door_nw", nextSpace := .outdoor, direction := .nw, area := s.door.d90, spaceType := .undefined, sunshade := .notInput },
              { name := "door_ne", nextSpace := .outdoor, direction := .ne, area := s.door.d180, spaceType := .undefined, sunshade := .notInput }])
    (do
      refusePos [s.door.d0, s.door.d90, s.door.d270]
      return [{ name := "door_ne", nextSpace := .openSpace, direction := .horizontal, area := s.door.d180, spaceType := .undefined,
                sunshade := .notDefined }])
  let ecs ← onHouse s.houseType
    (.ok [{ name := "earth_floor", area := s.efTotal, spaceType := "undefined" }])
    (do
      refusePos [s.efTotal]
      return [])
  let floors ← onHouse s.houseType
    (onFloor s.floorIns (.ok [inner "floor" .floor .openUnderfloor .downward s.fTotal])
      (do
        refusePos [s.fTotal]
        return []))
    (.ok [inner "floor" .downwardBoundaryFloor .airConditioned .downward s.fTotal])
  let baseOutsides ← onHouse s.houseType
    (onFloor s.floorIns
      (do
        refusePos [s.baseOutside.d0, s.baseOutside.d270]
        return [outer "base_outside_nw" .wall .nw s.baseOutside.d90, outer "base_outside_ne" .wall .ne s.baseOutside.d180])
      (.ok [outer "base_outside_sw" .wall .sw s.baseOutside.d0, outer "base_outside_nw" .wall .nw s.baseOutside.d90,
            outer "base_outside_ne" .wall .ne s.baseOutside.d180, outer "base_outside_se" .wall .se s.baseOutside.d270]))
    (do
      refusePos [s.baseOutside.d0, s.baseOutside.d90, s.baseOutside.d180, s.baseOutside.d270]
      return [])
  let baseInsides ← onHouse s.houseType
    (onFloor s.floorIns (.ok [inner "base_inside" .wall .openUnderfloor .horizontal s.baseInside])
      (do
        refusePos [s.baseInside]
        return []))
    (do
      refusePos [s.baseInside]
      return [])
  let epsOutside ← onHouse s.houseType
    (onFloor s.floorIns
      (do
        refusePos [s.lBaseOutside.d0, s.lBaseOutside.d270]
        return [perimeter "earth_floor_perimeter_nw" .outdoor s.lBaseOutside.d90, perimeter "earth_floor_perimeter_ne" .outdoor s.lBaseOutside.d180])
      (.ok [perimeter "earth_floor_perimeter_sw" .outdoor s.lBaseOutside.d0, perimeter "earth_floor_perimeter_nw" .outdoor s.lBaseOutside.d90,
            perimeter "earth_floor_perimeter_ne" .outdoor s.lBaseOutside.d180, perimeter "earth_floor_perimeter_se" .outdoor s.lBaseOutside.d270]))
    (do
      refusePos [s.lBaseOutside.d0, s.lBaseOutside.d90, s.lBaseOutside.d180, s.lBaseOutside.d270]
      return [])
  let epsInside ← onHouse s.houseType
    (onFloor s.floorIns (.ok [perimeter "earth_floor_perimeter_inside" .openUnderfloor s.lBaseInside])
      (do
        refusePos [s.lBaseInside]
        return []))
    (do
      refusePos [s.lBaseInside]
      return [])
  return { gps := roofs ++ walls ++ floors ++ baseOutsides ++ baseInsides, ws := windows, ds := doors, eps := epsOutside ++ epsInside, ecs := ecs }

end HLC.Conv
