import Verif.Model.PreCalc
import Verif.Model.OtTargetPmv
import Verif.Model.NextCondition
import Verif.Model.Infiltration
import Verif.Model.Occupants

/-!
# One step of the whole house (`core/sequence.py`), state (`core/conditions.py`)

Every assignment of `run_tick` is one definition citing its line; `runTick` composes them in the program's order and returns all
local variables, from which the next state (272-283) and the log row (243-268) are taken.
-/

namespace HLC

/-- `core/conditions.py` 8-57, class `Conditions`. -/
structure Cond (I J : Type) where
  mode : I → OpMode
  thetaR : I → ℝ
  thetaMrt : I → ℝ
  xR : I → ℝ
  dshA : J → Fin 12 → ℝ
  dshT : J → Fin 12 → ℝ
  qSrf : J → ℝ
  thetaFrt : I → ℝ
  xFrt : I → ℝ
  thetaEi : J → ℝ

/-- `core/conditions.py` 71-126, `initialize_conditions`. -/
noncomputable def initialConditions (I J : Type) : Cond I J where
  mode := fun _ => initialMode
  thetaR := fun _ => 15
  thetaMrt := fun _ => 15
  xR := fun _ => getX (getPvs 20 * 0.4)
  dshA := fun _ _ => 0
  dshT := fun _ _ => 0
  qSrf := fun _ => 0
  thetaFrt := fun _ => 15
  xFrt := fun _ => getX (getPvs 20 * 0.4)
  thetaEi := fun _ => 15

open Classical in
/-- Room-by-room evaluation of a function that may raise (the `np.vectorize`d / list-comprehension calls in
`core/ot_target_pmv.py`). If some room raises, the step raises; the only error raised by the modelled per-room function is the
ValueError of the mode update. -/
noncomputable def allRooms {I α : Type} (f : I → Except PyErr α) : Except PyErr (I → α) :=
  if h : ∀ i, ∃ a, f i = .ok a then .ok fun i => (h i).choose else .error .valueError

/-- All local variables of one `run_tick`. -/
structure TickVars (I J : Type) where
  ot : I → OtTarget
  thetaRear : J → ℝ
  qHum : I → ℝ
  xHum : I → ℝ
  vLeak : I → ℝ
  dshA : J → Fin 12 → ℝ
  dshT : J → Fin 12 → ℝ
  wsv : J → ℝ
  vNtrl : I → ℝ
  vOut : I → ℝ
  brc : I → ℝ
  brm : Matrix I I ℝ
  xot : Matrix I I ℝ
  xlr : Matrix I I ℝ
  xc : I → ℝ
  brmOt : Matrix I I ℝ
  brlOt : Matrix I I ℝ
  brcOt : I → ℝ
  thetaOt : I → ℝ
  lc : I → ℝ
  lr : I → ℝ
  thetaR : I → ℝ
  thetaFrt : I → ℝ
  thetaS : J → ℝ
  thetaMrt : I → ℝ
  thetaEi : J → ℝ
  qSrf : J → ℝ
  brmxNonDh : Matrix I I ℝ
  brxcNonDh : I → ℝ
  xNonDh : I → ℝ
  rac : I → DehumCoef
  xR : I → ℝ
  lCl : I → ℝ
  xFrt : I → ℝ

/-- `core/sequence.py` 272-283: the returned `Conditions`. -/
def TickVars.next {I J : Type} (t : TickVars I J) : Cond I J where
  mode := fun i => (t.ot i).mode
  thetaR := t.thetaR
  thetaMrt := t.thetaMrt
  xR := t.xR
  dshA := t.dshA
  dshT := t.dshT
  qSrf := t.qSrf
  thetaFrt := t.thetaFrt
  xFrt := t.xFrt
  thetaEi := t.thetaEi

section
variable {I J : Type} [Fintype I] [DecidableEq I] [Fintype J] [DecidableEq J] {N : ℕ}

namespace Tick
variable (ss : PreCalc I J N) (dt : ℝ) (k : Fin N) (c : Cond I J)

/-- `core/sequence.py` 80. -/
noncomputable def thetaRear (j : J) : ℝ := ss.kEi.mulVec c.thetaEi j + ss.thetaDstrb k j

/-- `core/sequence.py` 83-86. -/
noncomputable def qHum (i : I) : ℝ := qHumPsn (c.thetaR i) * ss.nHum k i

/-- `core/sequence.py` 89-92. -/
noncomputable def xHum (i : I) : ℝ := xHumPsn (c.thetaR i) * ss.nHum k i

/-- `core/sequence.py` 98. -/
def dshA (j : J) (m : Fin 12) : ℝ := ss.phiA1 j m * c.qSrf j + ss.ratio j m * c.dshA j m

/-- `core/sequence.py` 101. -/
def dshT (rear : J → ℝ) (j : J) (m : Fin 12) : ℝ := rear j * ss.phiT1 j m + ss.ratio j m * c.dshT j m

/-- `core/sequence.py` 104. -/
def cvl (dshA dshT : J → Fin 12 → ℝ) (j : J) : ℝ := ∑ m, (dshT j m + dshA j m)

/-- `core/sequence.py` 107. -/
def wsv (cvl : J → ℝ) : J → ℝ := ss.ivsAx.mulVec cvl

/-- `core/sequence.py` 111. -/
def vNtrl (ot : I → OtTarget) (i : I) : ℝ := if (ot i).mode = .stopOpen then ss.vNtrl i else 0

/-- `core/sequence.py` 115. -/
def vOut (vLeak vNtrl : I → ℝ) (i : I) : ℝ := vLeak i + ss.vMec k i + vNtrl i

/-- `core/sequence.py` 119-125. -/
noncomputable def brc (wsv : J → ℝ) (vOut qHum : I → ℝ) (i : I) : ℝ :=
  ss.cRoom i / dt * c.thetaR i
  + ss.p.mulVec (fun j => ss.hC j * ss.aSrf j * (ss.wsc k j + wsv j)) i
  + cAir * rhoAir * vOut i * ss.thetaO k
  + ss.qGen k i + qHum i
  + ss.gSh i * (ss.cSh i * c.thetaFrt i + ss.qSolFrt k i * dt) / (ss.cSh i + dt * ss.gSh i)

/-- `core/sequence.py` 128-129. -/
noncomputable def brm (vOut : I → ℝ) : Matrix I I ℝ :=
  ss.brmNonVent + (cAir * rhoAir) • (Matrix.diagonal vOut + ss.vInt)

/-- `core/sequence.py` 135. -/
noncomputable def kc (ot : I → OtTarget) (i : I) : ℝ := (ot i).hHumC / ((ot i).hHumC + (ot i).hHumR)

/-- `core/sequence.py` 138. -/
noncomputable def kr (ot : I → OtTarget) (i : I) : ℝ := (ot i).hHumR / ((ot i).hHumC + (ot i).hHumR)

/-- `core/sequence.py` 141: the matrix whose inverse is XOT. -/
noncomputable def otMat (ot : I → OtTarget) : Matrix I I ℝ :=
  Matrix.diagonal (kc ot) + Matrix.of fun i l => kr ot i * (ss.fMrtHum * ss.wsr) i l

/-- `core/sequence.py` 144. -/
noncomputable def xlr (ot : I → OtTarget) (xot : Matrix I I ℝ) : Matrix I I ℝ :=
  xot * Matrix.of fun i l => kr ot i * (ss.fMrtHum * ss.wsb) i l

/-- `core/sequence.py` 147. -/
noncomputable def xc (ot : I → OtTarget) (xot : Matrix I I ℝ) (wsv : J → ℝ) : I → ℝ :=
  xot.mulVec fun i => kr ot i * ss.fMrtHum.mulVec (fun j => ss.wsc k j + wsv j) i

/-- `core/sequence.py` 150. -/
def brmOt (brm xot : Matrix I I ℝ) : Matrix I I ℝ := brm * xot

/-- `core/sequence.py` 153. -/
def brlOt (brm xlr : Matrix I I ℝ) : Matrix I I ℝ := ss.brl + brm * xlr

/-- `core/sequence.py` 156. -/
def brcOt (brc : I → ℝ) (brm : Matrix I I ℝ) (xc : I → ℝ) : I → ℝ := fun i => brc i + brm.mulVec xc i

/-- `core/sequence.py` 161-173: arguments of `calc_next_temp_and_load`. -/
def loadInput (ot : I → OtTarget) (brcOt : I → ℝ) (brmOt brlOt : Matrix I I ℝ) : LoadInput I where
  isRadHeating := ss.isRadHeating
  isRadCooling := ss.isRadCooling
  brc := brcOt
  brm := brmOt
  brl := brlOt
  lower := fun i => (ot i).thetaLower
  upper := fun i => (ot i).thetaUpper
  capH := ss.capH
  capC := ss.capC
  mode := fun i => (ot i).mode
  demand := ss.acDemand k

/-- `core/sequence.py` 176. -/
def thetaR (xot xlr : Matrix I I ℝ) (xc thetaOt lr : I → ℝ) (i : I) : ℝ :=
  xot.mulVec thetaOt i - xlr.mulVec lr i - xc i

/-- `core/sequence.py` 179-181. -/
noncomputable def thetaFrt (thetaR : I → ℝ) (i : I) : ℝ :=
  (ss.cSh i * c.thetaFrt i + dt * ss.gSh i * thetaR i + ss.qSolFrt k i * dt) / (ss.cSh i + dt * ss.gSh i)

/-- `core/sequence.py` 184-185. -/
def thetaS (thetaR lr : I → ℝ) (wsv : J → ℝ) (j : J) : ℝ :=
  ss.wsr.mulVec thetaR j + ss.wsc k j + ss.wsb.mulVec lr j + wsv j

/-- `core/sequence.py` 188. -/
def thetaMrt (thetaS : J → ℝ) : I → ℝ := ss.fMrtHum.mulVec thetaS

/-- `core/sequence.py` 191-196. -/
noncomputable def thetaEi (thetaR lr : I → ℝ) (thetaS : J → ℝ) (j : J) : ℝ :=
  (ss.hC j * ss.p.transpose.mulVec thetaR j
    + ss.hR j * (ss.p.transpose * ss.fMrt).mulVec thetaS j
    + ss.qSol k j
    + ss.flr.mulVec (fun i => (1 - ss.beta i) * lr i) j / ss.aSrf j) / (ss.hC j + ss.hR j)

/-- `core/sequence.py` 199. -/
def qSrf (thetaEi thetaS : J → ℝ) (j : J) : ℝ := (thetaEi j - thetaS j) * (ss.hC j + ss.hR j)

/-- `core/sequence.py` 204-205. -/
noncomputable def brmxNonDh (vOut : I → ℝ) : Matrix I I ℝ :=
  rhoAir • (Matrix.diagonal (fun i => ss.vRoom i / dt + vOut i) - ss.vInt)
  + Matrix.diagonal (fun i => ss.cLh i * ss.gLh i / (ss.cLh i + dt * ss.gLh i))

/-- `core/sequence.py` 208-212. -/
noncomputable def brxcNonDh (vOut xHum : I → ℝ) (i : I) : ℝ :=
  rhoAir * (ss.vRoom i / dt * c.xR i + vOut i * ss.xO k)
  + ss.cLh i * ss.gLh i / (ss.cLh i + dt * ss.gLh i) * c.xFrt i + ss.xGen k i + xHum i

/-- `core/sequence.py` 220-225. -/
noncomputable def rac (lc thetaR xNonDh : I → ℝ) (i : I) : DehumCoef :=
  getDehumidCoeff (lc i) (thetaR i) (ss.rac i) (xNonDh i)

/-- `core/sequence.py` 228. -/
def brmx (brmxNonDh : Matrix I I ℝ) (rac : I → DehumCoef) : Matrix I I ℝ :=
  brmxNonDh + Matrix.diagonal fun i => (rac i).brmx

/-- `core/sequence.py` 229. -/
def brxc (brxcNonDh : I → ℝ) (rac : I → DehumCoef) (i : I) : ℝ := brxcNonDh i + (rac i).brxc

/-- `core/sequence.py` 235: latent load, humidifying positive. -/
noncomputable def lCl (rac : I → DehumCoef) (xR : I → ℝ) (i : I) : ℝ :=
  -((Matrix.diagonal fun l => (rac l).brmx).mulVec xR i - (rac i).brxc) * lWtr

/-- `core/sequence.py` 238. -/
noncomputable def xFrt (xR : I → ℝ) (i : I) : ℝ :=
  (ss.cLh i * c.xFrt i + dt * ss.gLh i * xR i) / (ss.cLh i + dt * ss.gLh i)

end Tick

/-- `core/sequence.py` 16-283, `run_tick`, after slicing column `k` (37-59). -/
noncomputable def tickAt (ss : PreCalc I J N) (dt : ℝ) (k : Fin N) (c : Cond I J) : Except PyErr (TickVars I J) := do
  let ot ← allRooms fun i => getOtTargetAndHHum (c.thetaR i) (c.thetaMrt i) (c.xR i) (c.mode i) (ss.acDemand k i)
  let thetaRear := Tick.thetaRear ss k c
  let qHum := Tick.qHum ss k c
  let xHum := Tick.xHum ss k c
  let vLeak ← getInfiltration ss.cValue ss.vRoom ss.story ss.pressure c.thetaR (ss.thetaO k)
  let dshA := Tick.dshA ss c
  let dshT := Tick.dshT ss c thetaRear
  let wsv := Tick.wsv ss (Tick.cvl dshA dshT)
  let vNtrl := Tick.vNtrl ss ot
  let vOut := Tick.vOut ss k vLeak vNtrl
  let brc := Tick.brc ss dt k c wsv vOut qHum
  let brm := Tick.brm ss vOut
  let xot ← npInv (Tick.otMat ss ot)
  let xlr := Tick.xlr ss ot xot
  let xc := Tick.xc ss k ot xot wsv
  let brmOt := Tick.brmOt brm xot
  let brlOt := Tick.brlOt ss brm xlr
  let brcOt := Tick.brcOt brc brm xc
  let lt ← calcNextTempAndLoad (Tick.loadInput ss k ot brcOt brmOt brlOt)
  let thetaR := Tick.thetaR xot xlr xc lt.theta lt.lr
  let thetaFrt := Tick.thetaFrt ss dt k c thetaR
  let thetaS := Tick.thetaS ss k thetaR lt.lr wsv
  let thetaMrt := Tick.thetaMrt ss thetaS
  let thetaEi := Tick.thetaEi ss k thetaR lt.lr thetaS
  let qSrf := Tick.qSrf ss thetaEi thetaS
  let brmxNonDh := Tick.brmxNonDh ss dt vOut
  let brxcNonDh := Tick.brxcNonDh ss dt k c vOut xHum
  let inv1 ← npInv brmxNonDh
  let xNonDh := inv1.mulVec brxcNonDh
  let rac := Tick.rac ss lt.lc thetaR xNonDh
  let inv2 ← npInv (Tick.brmx brmxNonDh rac)
  let xR := inv2.mulVec (Tick.brxc brxcNonDh rac)
  let lCl := Tick.lCl rac xR
  let xFrt := Tick.xFrt ss dt c xR
  .ok {
    ot := ot, thetaRear := thetaRear, qHum := qHum, xHum := xHum, vLeak := vLeak, dshA := dshA, dshT := dshT, wsv := wsv,
    vNtrl := vNtrl, vOut := vOut, brc := brc, brm := brm, xot := xot, xlr := xlr, xc := xc, brmOt := brmOt, brlOt := brlOt,
    brcOt := brcOt, thetaOt := lt.theta, lc := lt.lc, lr := lt.lr, thetaR := thetaR, thetaFrt := thetaFrt, thetaS := thetaS,
    thetaMrt := thetaMrt, thetaEi := thetaEi, qSrf := qSrf, brmxNonDh := brmxNonDh, brxcNonDh := brxcNonDh, xNonDh := xNonDh,
    rac := rac, xR := xR, lCl := lCl, xFrt := xFrt }

/-- `core/sequence.py` 16-283, `run_tick` for step number `n` (negative during run-up; 37-59 slice every series at `n`). -/
noncomputable def runTick (n : ℤ) (dt : ℝ) (ss : PreCalc I J N) (c : Cond I J) : Except PyErr (TickVars I J) := do
  let k ← pyIndex N n
  tickAt ss dt k c

end

end HLC
