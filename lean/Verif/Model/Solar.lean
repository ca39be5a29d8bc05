import Verif.Model.Weather
import Mathlib.Analysis.Real.Sqrt

/-!
# Solar radiation on building parts (`initializer/`)

One time step of the weather table is a `Step`. An azimuth that is not a number (sun in the zenith) is not modelled: by `C44_year` it
does not occur in the weather table of any region.
-/

namespace HLC.Init
open HLC.Weather (radians)

/-- The columns of one line of `weather.csv` used by the initializer (`initializer.py` 244-277). -/
structure Step where
  thetaO : ℝ
  iDn : ℝ
  iSky : ℝ
  rN : ℝ
  hSun : ℝ
  aSun : ℝ

/-- `d[key]` for a key that may be absent. -/
def key {α : Type} : Option α → Except PyErr α
  | some x => .ok x
  | none => .error .keyError

/-- `initializer/external_boundaries_direction.py` 8-34: azimuth and tilt. -/
noncomputable def angles (direction : String) : Except PyErr (ℝ × ℝ) :=
  if direction = "s" then .ok (radians 0, radians 90)
  else if direction = "sw" then .ok (radians 45, radians 90)
  else if direction = "w" then .ok (radians 90, radians 90)
  else if direction = "nw" then .ok (radians 135, radians 90)
  else if direction = "n" then .ok (radians 180, radians 90)
  else if direction = "ne" then .ok (radians (-135), radians 90)
  else if direction = "e" then .ok (radians (-90), radians 90)
  else if direction = "se" then .ok (radians (-45), radians 90)
  else if direction = "top" then .ok (radians 0, radians 0)
  else if direction = "bottom" then .ok (radians 0, radians 180)
  else .error .keyError

open Classical in
/-- `initializer/inclined_surface_solar_radiation.py` 100-112: cosine of the angle of incidence. -/
noncomputable def cosIncidence (h a alpha beta : ℝ) : ℝ :=
  max (if Real.cos h = 0 then Real.sin h * Real.cos beta
    else Real.sin h * Real.cos beta + Real.cos h * Real.sin a * Real.sin beta * Real.sin alpha
      + Real.cos h * Real.cos a * Real.sin beta * Real.cos alpha) 0

/-- `initializer/inclined_surface_solar_radiation.py` 80-117, `get_theta_aoi_j_n`. -/
noncomputable def incidence (h a alpha beta : ℝ) : ℝ := Real.arccos (cosIncidence h a alpha beta)

/-- `initializer/inclined_surface_solar_radiation.py` 201-219. -/
noncomputable def fSky (beta : ℝ) : ℝ := (1 + Real.cos beta) / 2

/-- `initializer/inclined_surface_solar_radiation.py` 222-235. -/
noncomputable def fGnd (fs : ℝ) : ℝ := 1 - fs

/-- `initializer/inclined_surface_solar_radiation.py` 238-246. -/
noncomputable def rhoGnd : ℝ := 0.1

/-- `initializer/inclined_surface_solar_radiation.py` 178-198. -/
noncomputable def iHrz (iDn iSky h : ℝ) : ℝ := (if h > 0 then Real.sin h else 0) * iDn + iSky

/-- `initializer/inclined_surface_solar_radiation.py` 120-134. -/
noncomputable def iDirect (iDn theta : ℝ) : ℝ := iDn * Real.cos theta

/-- `initializer/inclined_surface_solar_radiation.py` 154-175. -/
noncomputable def iReflected (iDn iSky h fg rho : ℝ) : ℝ := fg * rho * iHrz iDn iSky h

/-- Direct, sky and ground-reflected irradiance of an inclined surface. -/
structure Irradiance where
  direct : ℝ
  sky : ℝ
  reflected : ℝ

/-- `initializer/inclined_surface_solar_radiation.py` 14-59, `get_i_is_j_ns`, at one step. -/
noncomputable def irradiance (s : Step) (alpha beta : ℝ) : Irradiance where
  direct := iDirect s.iDn (incidence s.hSun s.aSun alpha beta)
  sky := fSky beta * s.iSky
  reflected := iReflected s.iDn s.iSky s.hSun (fGnd (fSky beta)) rhoGnd

/-- `initializer/inclined_surface_solar_radiation.py` 62-77, `get_r_n_is_j_ns`, at one step. -/
noncomputable def nightRadiation (rN beta : ℝ) : ℝ := fSky beta * rN

/-- The solar shading part of a boundary in the input file; absent keys are `none`. -/
structure ShadingDict where
  existence : Bool
  inputMethod : Option String
  depth : Option ℝ
  dH : Option ℝ
  dE : Option ℝ
  /-- All of the ten keys `x1`, ..., `z_y_mns`, or some of them missing. -/
  detail : Option (Fin 10 → ℝ)

/-- A boundary in the input file; keys that are read for some kinds of boundary only may be absent. -/
structure BoundaryDict where
  id : ℤ
  name : String
  connectedRoom : ℤ
  boundaryType : String
  area : ℝ
  isSunStruck : Option Bool
  tempDifCoef : Option ℝ
  nextRoomType : Option String
  rearSurface : Option ℤ
  isSolarAbsorbed : Bool
  isFloor : Bool
  direction : Option String
  rIn : ℝ
  hC : ℝ
  absorption : Option ℝ
  emissivity : Option ℝ
  rOut : Option ℝ
  shading : Option ShadingDict
  glazing : Option String
  eta : Option ℝ
  uValue : Option ℝ
  layers : Option (List (ℝ × ℝ))

/-- `b['boundary_type'] in ['external_general_part', 'external_transparent_part', 'external_opaque_part']`. -/
def isExternal (t : String) : Bool := t = "external_general_part" || t = "external_transparent_part" || t = "external_opaque_part"

/-! ## Equivalent outdoor temperature -/

/-- `initializer/outside_eqv_temp.py`: the subclasses. -/
inductive EqvTemp
  | internal
  | wall (direction : String) (aS epsR rSurf : ℝ)
  | window (direction : String) (epsR rSurf : ℝ)
  | notSunStruck
  | ground

/-- `initializer/outside_eqv_temp.py` 18-61, `create`. -/
def EqvTemp.create (b : BoundaryDict) : Except PyErr EqvTemp :=
  if b.boundaryType = "internal" then .ok .internal
  else if b.boundaryType = "external_general_part" ∨ b.boundaryType = "external_opaque_part" then do
    let sun ← key b.isSunStruck
    match sun with
    | true => do
      let direction ← key b.direction
      let aS ← key b.absorption
      let epsR ← key b.emissivity
      let rSurf ← key b.rOut
      .ok (.wall direction aS epsR rSurf)
    | false => .ok .notSunStruck
  else if b.boundaryType = "external_transparent_part" then do
    let sun ← key b.isSunStruck
    match sun with
    | true => do
      let direction ← key b.direction
      let epsR ← key b.emissivity
      let rSurf ← key b.rOut
      .ok (.window direction epsR rSurf)
    | false => .ok .notSunStruck
  else if b.boundaryType = "ground" then .ok .ground
  else .error .keyError

/-- `initializer/outside_eqv_temp.py` 90-302, `get_theta_o_sol_i_j_ns` of the subclasses. -/
noncomputable def EqvTemp.series (e : EqvTemp) (w : List Step) : Except PyErr (List ℝ) :=
  match e with
  | .internal => .ok (List.replicate (24 * 365 * 4) 0)
  | .wall direction aS epsR rSurf => do
    let ab ← angles direction
    .ok (w.map fun s =>
      let i := irradiance s ab.1 ab.2
      s.thetaO + (aS * (i.direct + i.sky + i.reflected) - epsR * nightRadiation s.rN ab.2) * rSurf)
  | .window direction epsR rSurf => do
    let ab ← angles direction
    .ok (w.map fun s => s.thetaO - epsR * nightRadiation s.rN ab.2 * rSurf)
  | .notSunStruck => .ok (w.map Step.thetaO)
  | .ground => .ok (List.replicate (24 * 365 * 4) ((w.map Step.thetaO).sum / w.length))

/-! ## Solar shading -/

/-- `initializer/solar_shading.py`: the subclasses. The ten lengths of `SolarShadingDetail` are not used by any method. -/
inductive Shading
  | simple (wAlpha depth dH dE : ℝ)
  | detail (wAlpha : ℝ)
  | none

/-- `initializer/solar_shading.py` 33-38. -/
def shadingSunStruck (b : BoundaryDict) : Except PyErr Bool :=
  if isExternal b.boundaryType then key b.isSunStruck
  else if b.boundaryType = "internal" ∨ b.boundaryType = "ground" then .ok false
  else .error .keyError

/-- `initializer/solar_shading.py` 17-78, `create`. -/
noncomputable def Shading.create (b : BoundaryDict) : Except PyErr Shading := do
  let ssp ← key b.shading
  let sun ← shadingSunStruck b
  if ssp.existence && sun then do
    let method ← key ssp.inputMethod
    let direction ← key b.direction
    let ab ← angles direction
    if method = "simple" then do
      let depth ← key ssp.depth
      let dH ← key ssp.dH
      let dE ← key ssp.dE
      .ok (.simple ab.1 depth dH dE)
    else if method = "detail" then do
      let _ ← key ssp.detail
      .ok (.detail ab.1)
    else .error .valueError
  else .ok .none

/-- `initializer/solar_shading.py` 116-146: shaded fraction for direct radiation below an infinitely long overhang, at one step.
A quotient by zero (sun direction parallel to the wall) is infinite in numpy and 0 here; the theorems exclude it. -/
noncomputable def shadeDirect (wAlpha depth dH dE h a : ℝ) : ℝ :=
  let hs := if h > 0 then h else 0
  let as := if h > 0 then a else 0
  let tanFai := Real.tan hs / Real.cos (as - wAlpha)
  let len := depth * tanFai - dE
  if hs ≤ 0 then 0 else min (max (len / dH) 0) 1

/-- `initializer/solar_shading.py` 148-172: shaded fraction for sky radiation. -/
noncomputable def shadeSky (depth dH dE : ℝ) : ℝ :=
  let bd := Real.sqrt (dE ^ 2 + depth ^ 2)
  let bc := Real.sqrt ((dE + dH) ^ 2 + depth ^ 2)
  (((dE + dH) + bd) - (dE + bc)) / (2 * dH)

/-- `get_f_ss_d_j_ns` of the subclasses (`initializer/solar_shading.py` 116-146, 193-205, 224-237), at one step. -/
noncomputable def Shading.direct (p : Shading) (h a : ℝ) : Except PyErr ℝ :=
  match p with
  | .simple wAlpha depth dH dE => .ok (shadeDirect wAlpha depth dH dE h a)
  | .detail _ => .error .notImplemented
  | .none => .ok 1

open Classical in
/-- `get_f_ss_s_j` of the subclasses (`initializer/solar_shading.py` 148-172, 207-215, 239-247). The lengths are Python numbers, so a window
of height 0 is a `ZeroDivisionError` (line 172). -/
noncomputable def Shading.sky (p : Shading) : Except PyErr ℝ :=
  match p with
  | .simple _ depth dH dE => if dH = 0 then .error .zeroDivisionError else .ok (shadeSky depth dH dE)
  | .detail _ => .error .notImplemented
  | .none => .ok 0

/-! ## Glazing -/

/-- `initializer/oblique_incidence_charac.py` 55-62. -/
noncomputable def tauSingle (theta : ℝ) : ℝ :=
  let c := Real.cos theta
  2.552 * c + 1.364 * c ^ 2 - 11.388 * c ^ 3 + 13.617 * c ^ 4 - 5.146 * c ^ 5

/-- `initializer/oblique_incidence_charac.py` 66-71. -/
noncomputable def rhoSingle (theta : ℝ) : ℝ :=
  let c := Real.cos theta
  1 - 5.189 * c + 12.392 * c ^ 2 - 16.593 * c ^ 3 + 11.851 * c ^ 4 - 3.461 * c ^ 5

/-- `initializer/oblique_incidence_charac.py` 75-78. At exactly grazing incidence the quotient is 0 / 0; in floating point numbers the
cosine is about 6e-17 there and the quotient about 4e-17, here it is 0. -/
noncomputable def tauDouble (theta : ℝ) : ℝ := tauSingle theta ^ 2 / (1 - rhoSingle theta ^ 2)

/-- `initializer/oblique_incidence_charac.py` 8-28, `get_tau_d_j_ns`, at one step. -/
noncomputable def tauD (theta : ℝ) (glazing : String) : Except PyErr ℝ :=
  if glazing = "single" then .ok (tauSingle theta) else if glazing = "multiple" then .ok (tauDouble theta) else .error .valueError

/-- `initializer/oblique_incidence_charac.py` 31-51, 81-100, `get_c_d_j`. -/
noncomputable def cD (glazing : String) : Except PyErr ℝ :=
  if glazing = "single" then .ok 0.900 else if glazing = "multiple" then .ok 0.832 else .error .valueError

/-! ## Transmitted solar radiation -/

/-- `initializer/transmission_solar_radiation.py`: the subclasses. -/
inductive Transmission
  | struck (direction : String) (area : ℝ) (shading : Shading) (glazing : String) (eta : ℝ)
  | none

/-- `initializer/transmission_solar_radiation.py` 18-39, `create`. -/
def Transmission.create (b : BoundaryDict) (p : Shading) : Except PyErr Transmission :=
  if b.boundaryType = "external_transparent_part" then do
    let sun ← key b.isSunStruck
    match sun with
    | true => do
      let direction ← key b.direction
      let glazing ← key b.glazing
      let eta ← key b.eta
      .ok (.struck direction b.area p glazing eta)
    | false => .ok .none
  else .ok .none

/-- `initializer/transmission_solar_radiation.py` 74-130 at one step. -/
noncomputable def transmitted (alpha beta area : ℝ) (p : Shading) (glazing : String) (eta : ℝ) (s : Step) : Except PyErr ℝ := do
  let theta := incidence s.hSun s.aSun alpha beta
  let i := irradiance s alpha beta
  let fd ← p.direct s.hSun s.aSun
  let fs ← p.sky
  let tau ← tauD theta glazing
  let cd ← cD glazing
  .ok ((eta * (1 - fd) * tau * i.direct + eta * (1 - fs) * cd * i.sky + eta * (1 - 0) * cd * i.reflected) * area)

/-- `get_qgt` of the subclasses (`initializer/transmission_solar_radiation.py` 74-140). -/
noncomputable def Transmission.series (t : Transmission) (w : List Step) : Except PyErr (List ℝ) :=
  match t with
  | .struck direction area p glazing eta => do
    let ab ← angles direction
    w.mapM (transmitted ab.1 ab.2 area p glazing eta)
  | .none => .ok (List.replicate (8760 * 4) 0)

end HLC.Init
