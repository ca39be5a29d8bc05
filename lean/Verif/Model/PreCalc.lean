import Verif.Model.OperationMode
import Verif.Model.Psychrometrics
import Verif.Model.HeatExchanger
import Mathlib.Data.Matrix.Mul

/-!
# Pre-calculated parameters (`core/pre_calc_parameters.py`)

`I` rooms, `J` boundaries, `N` the number of time records. `[j,1]` factors multiply rows.
-/

namespace HLC

/-- What is read from `mid_data_house.json` (`core/pre_calc_parameters.py` 217-366), already parsed.
Simplifications: the id of the room of a boundary and the id of the rear boundary are elements of `I` and `J` (in Python they
are integers; ids outside the range are not modelled); the response factors are those returned by
`response_factor` (`_get_responsfactors`, 625-669), 12 terms each. -/
structure House (I J : Type) where
  /-- 235 -/
  vRoom : I → ℝ
  /-- 238 -/
  beta : I → ℝ
  /-- 241 -/
  vVentEx : I → ℝ
  /-- 244 -/
  vInt : Matrix I I ℝ
  /-- 247 -/
  vNtrl : I → ℝ
  /-- 250 -/
  cSh : I → ℝ
  /-- 253 -/
  gSh : I → ℝ
  /-- 256 -/
  cLh : I → ℝ
  /-- 259 -/
  gLh : I → ℝ
  /-- 263-271 -/
  isRadHeating : I → Bool
  /-- 263-271 -/
  capH : I → ℝ
  /-- 275-283 -/
  isRadCooling : I → Bool
  /-- 275-283 -/
  capC : I → ℝ
  /-- 290-293 -/
  rac : I → RacSpec
  /-- 313 -/
  isGround : J → Bool
  /-- 316 -/
  room : J → I
  /-- 319 -/
  area : J → ℝ
  /-- 322 -/
  phiA0 : J → ℝ
  /-- 322 -/
  phiT0 : J → ℝ
  /-- 322 -/
  phiA1 : J → Fin 12 → ℝ
  /-- 322 -/
  phiT1 : J → Fin 12 → ℝ
  /-- 322 -/
  ratio : J → Fin 12 → ℝ
  /-- 325 -/
  hC : J → ℝ
  /-- 331 -/
  flr : J → ℝ
  /-- 334-342 -/
  solarAbs : J → Bool
  /-- 345 -/
  fMrtHum : J → ℝ
  /-- 348 -/
  kEo : J → ℝ
  /-- 350-360 -/
  kEi : J → Option (J × ℝ)
  /-- `core/infiltration.py` 16-29 -/
  story : ℤ
  /-- `core/infiltration.py` 26 -/
  cValue : ℝ
  /-- `core/infiltration.py` 29 -/
  pressure : String

/-- One column `[:, n]` of the csv inputs (`core/pre_calc_parameters.py` 372-410).
Simplification: all series have the same length `N`. -/
structure Record (I J : Type) where
  thetaO : ℝ
  xO : ℝ
  vLocal : I → ℝ
  qGen : I → ℝ
  xGen : I → ℝ
  nHum : I → ℝ
  acDemand : I → ℝ
  qTrsSol : I → ℝ
  thetaOSol : J → ℝ

/-- `PreCalcParameters`, `core/pre_calc_parameters.py` 18-184 and 553-609, restricted to the numeric fields. -/
structure PreCalc (I J : Type) (N : ℕ) where
  vRoom : I → ℝ
  cRoom : I → ℝ
  cSh : I → ℝ
  cLh : I → ℝ
  gSh : I → ℝ
  gLh : I → ℝ
  vInt : Matrix I I ℝ
  aSrf : J → ℝ
  vMec : Fin N → I → ℝ
  qGen : Fin N → I → ℝ
  nHum : Fin N → I → ℝ
  xGen : Fin N → I → ℝ
  acDemand : Fin N → I → ℝ
  qTrsSol : Fin N → I → ℝ
  qSolFrt : Fin N → I → ℝ
  qSol : Fin N → J → ℝ
  thetaDstrb : Fin N → J → ℝ
  fMrtHum : Matrix I J ℝ
  ratio : J → Fin 12 → ℝ
  phiA0 : J → ℝ
  phiA1 : J → Fin 12 → ℝ
  phiT0 : J → ℝ
  phiT1 : J → Fin 12 → ℝ
  vNtrl : I → ℝ
  isRadHeating : I → Bool
  isRadCooling : I → Bool
  capH : I → ℝ
  capC : I → ℝ
  flr : Matrix J I ℝ
  hR : J → ℝ
  hC : J → ℝ
  fMrt : Matrix I J ℝ
  beta : I → ℝ
  wsr : Matrix J I ℝ
  wsb : Matrix J I ℝ
  brmNonVent : Matrix I I ℝ
  ivsAx : Matrix J J ℝ
  brl : Matrix I I ℝ
  p : Matrix I J ℝ
  isGround : J → Bool
  wsc : Fin N → J → ℝ
  kEi : Matrix J J ℝ
  thetaO : Fin N → ℝ
  xO : Fin N → ℝ
  thetaOAve : ℝ
  rac : I → RacSpec
  story : ℤ
  cValue : ℝ
  pressure : String

section
variable {I J : Type} [Fintype I] [DecidableEq I] [Fintype J] [DecidableEq J] {N : ℕ}

namespace House

/-- `core/pre_calc_parameters.py` 427-429: `p_is_js[i, connected_space_id_js == i] = 1`. -/
def p (h : House I J) : Matrix I J ℝ := Matrix.of fun i j => if h.room j = i then 1 else 0

/-- `core/pre_calc_parameters.py` 439-447: `k_ei_js_js`. -/
def kEiMat (h : House I J) : Matrix J J ℝ := Matrix.of fun j k =>
  match h.kEi j with
  | none => 0
  | some (m, coef) => if k = m then coef else 0

/-- `core/pre_calc_parameters.py` 450: `flr_js_is`. -/
def flrMat (h : House I J) : Matrix J I ℝ := Matrix.of fun j i => h.p i j * h.flr j

/-- `core/pre_calc_parameters.py` 453: `f_mrt_hum_is_js`. -/
def fMrtHumMat (h : House I J) : Matrix I J ℝ := Matrix.of fun i j => h.p i j * h.fMrtHum j

/-- `core/pre_calc_parameters.py` 460: heat capacity of the room air. -/
noncomputable def cRm (h : House I J) (i : I) : ℝ := h.vRoom i * rhoAir * cAir

/-- `core/shape_factor.py` 38-42, `get_f_mrt_is_js`. -/
noncomputable def fMrt (h : House I J) (hR : J → ℝ) : Matrix I J ℝ := Matrix.of fun i j =>
  h.p i j * (h.area j * hR j) / ∑ k, h.p i k * (h.area k * hR k)

/-- `core/pre_calc_parameters.py` 469. -/
def hI (h : House I J) (hR : J → ℝ) (j : J) : ℝ := h.hC j + hR j

/-- `core/pre_calc_parameters.py` 472. -/
def vMec (h : House I J) (d : Record I J) (i : I) : ℝ := h.vVentEx i + d.vLocal i

/-- `core/pre_calc_parameters.py` 475: share of the solar gain absorbed by furniture. -/
noncomputable def rSolFnt : ℝ := 0.5

/-- `core/pre_calc_parameters.py` 478. -/
noncomputable def qSolFrt (d : Record I J) (i : I) : ℝ := d.qTrsSol i * rSolFnt

/-- `core/pre_calc_parameters.py` 481: absorbing area of a room. -/
def aSrfAbs (h : House I J) (i : I) : ℝ := ∑ j, h.p i j * (h.area j * ind (h.solarAbs j))

/-- `core/pre_calc_parameters.py` 484-485. A room without absorbing area gives nan/inf in numpy. -/
noncomputable def qSol (h : House I J) (d : Record I J) (j : J) : ℝ :=
  (∑ i, h.p i j * (d.qTrsSol i / h.aSrfAbs i)) * ind (h.solarAbs j) * (1 - rSolFnt)

/-- `core/pre_calc_parameters.py` 488. -/
def thetaDstrb (h : House I J) (d : Record I J) (j : J) : ℝ := d.thetaOSol j * h.kEo j

/-- `core/pre_calc_parameters.py` 491-493: AX. `[j,1]` factors multiply row `j`. -/
noncomputable def ax (h : House I J) (hR : J → ℝ) : Matrix J J ℝ := Matrix.of fun j k =>
  (if j = k then 1 + h.phiA0 j * h.hI hR j else 0)
  - (h.p.transpose * h.fMrt hR) j k * hR j * h.phiA0 j
  - (h.kEiMat * (h.p.transpose * h.fMrt hR)) j k * hR j * h.phiT0 j / h.hI hR j

/-- `core/pre_calc_parameters.py` 499-500: FIA. -/
noncomputable def fia (h : House I J) (hR : J → ℝ) : Matrix J I ℝ := Matrix.of fun j i =>
  h.phiA0 j * h.hC j * h.p.transpose j i
  + (h.kEiMat * h.p.transpose) j i * h.phiT0 j * h.hC j / h.hI hR j

/-- `core/pre_calc_parameters.py` 503-505: CRX, one column. -/
noncomputable def crx (h : House I J) (hR : J → ℝ) (d : Record I J) (j : J) : ℝ :=
  h.phiA0 j * h.qSol d j + h.phiT0 j / h.hI hR j * h.kEiMat.mulVec (h.qSol d) j + h.phiT0 j * h.thetaDstrb d j

/-- `core/pre_calc_parameters.py` 508: `flr_js_is * (1.0 - beta_is.T)`. -/
def flrBeta (h : House I J) : Matrix J I ℝ := Matrix.of fun j i => h.flrMat j i * (1 - h.beta i)

/-- `core/pre_calc_parameters.py` 508-509: FLB. -/
noncomputable def flb (h : House I J) (hR : J → ℝ) : Matrix J I ℝ := Matrix.of fun j i =>
  h.flrBeta j i * h.phiA0 j / h.area j
  + (h.kEiMat * h.flrBeta) j i * h.phiT0 j / h.hI hR j / h.area j

/-- `core/pre_calc_parameters.py` 521: BRL. -/
noncomputable def brl (h : House I J) (wsb : Matrix J I ℝ) : Matrix I I ℝ :=
  h.p * (Matrix.of fun j i => wsb j i * h.hC j * h.area j) + Matrix.diagonal h.beta

/-- `core/pre_calc_parameters.py` 524-526: BRM without ventilation. -/
noncomputable def brmNonVent (h : House I J) (dt : ℝ) (wsr : Matrix J I ℝ) : Matrix I I ℝ :=
  Matrix.diagonal (fun i => h.cRm i / dt)
  + h.p * (Matrix.of fun j i => (h.p.transpose j i - wsr j i) * h.area j * h.hC j)
  + Matrix.diagonal (fun i => h.cSh i * h.gSh i / (h.cSh i + h.gSh i * dt))

end House

/-- `core/pre_calc_parameters.py` 455-609: all parameters, given the inverse `ivs` of AX (496). 512 WSR, 515 WSC, 518 WSB,
521 BRL, 524 BRM, 530 mean outdoor temperature. -/
noncomputable def preCalcOf (h : House I J) (hR : J → ℝ) (dt : ℝ) (data : Fin N → Record I J) (ivs : Matrix J J ℝ) :
    PreCalc I J N where
  vRoom := h.vRoom
  cRoom := h.cRm
  cSh := h.cSh
  cLh := h.cLh
  gSh := h.gSh
  gLh := h.gLh
  vInt := h.vInt
  aSrf := h.area
  vMec := fun n => h.vMec (data n)
  qGen := fun n => (data n).qGen
  nHum := fun n => (data n).nHum
  xGen := fun n => (data n).xGen
  acDemand := fun n => (data n).acDemand
  qTrsSol := fun n => (data n).qTrsSol
  qSolFrt := fun n => House.qSolFrt (data n)
  qSol := fun n => h.qSol (data n)
  thetaDstrb := fun n => h.thetaDstrb (data n)
  fMrtHum := h.fMrtHumMat
  ratio := h.ratio
  phiA0 := h.phiA0
  phiA1 := h.phiA1
  phiT0 := h.phiT0
  phiT1 := h.phiT1
  vNtrl := h.vNtrl
  isRadHeating := h.isRadHeating
  isRadCooling := h.isRadCooling
  capH := h.capH
  capC := h.capC
  flr := h.flrMat
  hR := hR
  hC := h.hC
  fMrt := h.fMrt hR
  beta := h.beta
  wsr := ivs * h.fia hR
  wsb := ivs * h.flb hR
  brmNonVent := h.brmNonVent dt (ivs * h.fia hR)
  ivsAx := ivs
  brl := h.brl (ivs * h.flb hR)
  p := h.p
  isGround := h.isGround
  wsc := fun n => ivs.mulVec (h.crx hR (data n))
  kEi := h.kEiMat
  thetaO := fun n => (data n).thetaO
  xO := fun n => (data n).xO
  thetaOAve := (∑ n, (data n).thetaO) / N
  rac := h.rac
  story := h.story
  cValue := h.cValue
  pressure := h.pressure

/-- `core/pre_calc_parameters.py` 415-609, `make_pre_calc_parameters` after reading the files, for given radiative coefficients
`hR` (463, `get_h_r_js`, see `Model/ShapeFactor.lean`). -/
noncomputable def makePreCalc (h : House I J) (hR : J → ℝ) (dt : ℝ) (data : Fin N → Record I J) :
    Except PyErr (PreCalc I J N) := do
  let ivs ← npInv (h.ax hR)
  .ok (preCalcOf h hR dt data ivs)

end

end HLC
