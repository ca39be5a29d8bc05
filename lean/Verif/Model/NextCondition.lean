import Verif.Model.OperationMode
import Mathlib.Data.Matrix.Mul

/-!
# Load calculation (`core/next_condition.py`)

`I` is the finite type of rooms; `[i,1]` arrays are `I → ℝ`, `[i,i]` arrays `Matrix I I ℝ`, integer masks are `Bool`s used
through `ind`.
-/

namespace HLC

variable {I : Type*} [Fintype I] [DecidableEq I]

/-- The tuple `(theta, lc, lr)` returned by `core/next_condition.py` 130 / 195. -/
structure LoadTemp (I : Type*) where
  theta : I → ℝ
  lc : I → ℝ
  lr : I → ℝ

/-- `a[m == 1] = 0.0` (`core/next_condition.py` 164, 168, 172): the in-place reset of the entries selected by a mask. -/
def resetWhere (m : I → Bool) (a : I → ℝ) : I → ℝ := fun i => if m i then 0 else a i

/-- `core/next_condition.py` 178: `x1 = kt * nt.T - kc * c.T - kr * r.T` (row vectors broadcast over columns). -/
def loadX1 (kt kc kr : Matrix I I ℝ) (nt c r : I → Bool) : Matrix I I ℝ :=
  Matrix.of fun i j => kt i j * ind (nt j) - kc i j * ind (c j) - kr i j * ind (r j)

/-- `core/next_condition.py` 179: `x2 = -np.dot(kt, theta_set) + np.dot(kc, lc_set) + np.dot(kr, lr_set) + k`. -/
def loadX2 (kt kc kr : Matrix I I ℝ) (k thetaSet lcSet lrSet : I → ℝ) : I → ℝ :=
  fun i => - kt.mulVec thetaSet i + kc.mulVec lcSet i + kr.mulVec lrSet i + k i

/-- `core/next_condition.py` 133-195, `get_load_and_temp`. The in-place mutation of the `*_set` arguments (164-172) is
`resetWhere`; the caller in this model passes the mutated arrays on. -/
noncomputable def getLoadAndTemp (kt kc kr : Matrix I I ℝ) (k : I → ℝ) (nt : I → Bool) (thetaSet0 : I → ℝ)
    (c : I → Bool) (lcSet0 : I → ℝ) (r : I → Bool) (lrSet0 : I → ℝ) : Except PyErr (LoadTemp I) := do
  let thetaSet := resetWhere nt thetaSet0
  let lcSet := resetWhere c lcSet0
  let lrSet := resetWhere r lrSet0
  let inv ← npInv (loadX1 kt kc kr nt c r)
  let v := inv.mulVec (loadX2 kt kc kr k thetaSet lcSet lrSet)
  .ok {
    theta := fun i => v i * ind (nt i) + thetaSet i * (1 - ind (nt i))
    lc := fun i => v i * ind (c i) + lcSet i * (1 - ind (c i))
    lr := fun i => v i * ind (r i) + lrSet i * (1 - ind (r i)) }

/-- Arguments of `calc_next_temp_and_load` (`core/next_condition.py` 6-18). -/
structure LoadInput (I : Type*) where
  isRadHeating : I → Bool
  isRadCooling : I → Bool
  brc : I → ℝ
  brm : Matrix I I ℝ
  brl : Matrix I I ℝ
  lower : I → ℝ
  upper : I → ℝ
  capH : I → ℝ
  capC : I → ℝ
  mode : I → OpMode
  demand : I → ℝ

namespace LoadInput

/-- `core/next_condition.py` 42: heating actually takes place. -/
noncomputable def isHeating (a : LoadInput I) (nat : I → ℝ) (i : I) : Bool :=
  decide (a.mode i = .heating) && decide (nat i < a.lower i)

/-- `core/next_condition.py` 43: cooling actually takes place. -/
noncomputable def isCooling (a : LoadInput I) (nat : I → ℝ) (i : I) : Bool :=
  decide (a.mode i = .cooling) && decide (a.upper i < nat i)

/-- `core/next_condition.py` 53-55. -/
noncomputable def nt (a : LoadInput I) (nat : I → ℝ) (i : I) : Bool :=
  if a.isCooling nat i then false else if a.isHeating nat i then false else true

/-- `core/next_condition.py` 59-63 (the later assignment wins where both masks hold). -/
noncomputable def thetaSet (a : LoadInput I) (nat : I → ℝ) (i : I) : ℝ :=
  if a.isCooling nat i then a.upper i * a.demand i + nat i * (1 - a.demand i)
  else if a.isHeating nat i then a.lower i * a.demand i + nat i * (1 - a.demand i)
  else 0

/-- `core/next_condition.py` 71-75. -/
noncomputable def c0 (a : LoadInput I) (nat : I → ℝ) (i : I) : Bool :=
  if a.isCooling nat i && !a.isRadCooling i then true
  else if a.isHeating nat i && !a.isRadHeating i then true
  else false

/-- `core/next_condition.py` 89-93. -/
noncomputable def r0 (a : LoadInput I) (nat : I → ℝ) (i : I) : Bool :=
  if a.isCooling nat i && a.isRadCooling i then true
  else if a.isHeating nat i && a.isRadHeating i then true
  else false

/-- `core/next_condition.py` 107: radiative load above the heating capacity. -/
noncomputable def overLr (a : LoadInput I) (lr : I → ℝ) (i : I) : Bool := decide (lr i > a.capH i)

/-- `core/next_condition.py` 118: radiative load below minus the cooling capacity. -/
noncomputable def underLr (a : LoadInput I) (lr : I → ℝ) (i : I) : Bool := decide (lr i < -a.capC i)

/-- `core/next_condition.py` 110, 121. -/
noncomputable def c1 (a : LoadInput I) (nat lr : I → ℝ) (i : I) : Bool :=
  if a.underLr lr i then true else if a.overLr lr i then true else a.c0 nat i

/-- `core/next_condition.py` 113, 124. -/
noncomputable def r1 (a : LoadInput I) (nat lr : I → ℝ) (i : I) : Bool :=
  if a.underLr lr i then false else if a.overLr lr i then false else a.r0 nat i

/-- `core/next_condition.py` 114, 125 (on top of the array left by the first call). -/
noncomputable def lrSet1 (a : LoadInput I) (lrSet lr : I → ℝ) (i : I) : ℝ :=
  if a.underLr lr i then -a.capC i else if a.overLr lr i then a.capH i else lrSet i

end LoadInput

/-- `core/next_condition.py` 39: natural operative temperature `np.dot(np.linalg.inv(kt), k)`. -/
noncomputable def naturalTemp (kt : Matrix I I ℝ) (k : I → ℝ) : Except PyErr (I → ℝ) := do
  let inv ← npInv kt
  .ok (inv.mulVec k)

/-- `core/next_condition.py` 6-130, `calc_next_temp_and_load`. `kc` is the identity (30). -/
noncomputable def calcNextTempAndLoad (a : LoadInput I) : Except PyErr (LoadTemp I) := do
  let nat ← naturalTemp a.brm a.brc
  let nt := a.nt nat
  let thetaSet := a.thetaSet nat
  let c := a.c0 nat
  let lcSet : I → ℝ := fun _ => 0
  let r := a.r0 nat
  let lrSet : I → ℝ := fun _ => 0
  let p1 ← getLoadAndTemp a.brm 1 a.brl a.brc nt thetaSet c lcSet r lrSet
  let c' := a.c1 nat p1.lr
  let r' := a.r1 nat p1.lr
  let lrSet' := a.lrSet1 (resetWhere r lrSet) p1.lr
  getLoadAndTemp a.brm 1 a.brl a.brc nt (resetWhere nt thetaSet) c' (resetWhere c lcSet) r' lrSet'

end HLC
