import Verif.Model.Sequence

/-!
# Logger (`core/log.py`, `core/sequence.py` 240-270)
-/

namespace HLC

/-- One column `[:, n]` of the logger arrays written by `run_tick` (`core/log.py` 14-114). The remarks (`core/sequence.py` 270) are a
function of the mode; they are added when the table is made (`Model/Record.lean`). -/
structure LogRow (I J : Type) where
  mode : I → Option OpMode
  thetaR : I → ℝ
  thetaMrt : I → ℝ
  xR : I → ℝ
  thetaFrt : I → ℝ
  xFrt : I → ℝ
  thetaEi : J → ℝ
  qHum : I → ℝ
  xHum : I → ℝ
  lCs : I → ℝ
  lRs : I → ℝ
  lCl : I → ℝ
  vLeak : I → ℝ
  vNtrl : I → ℝ
  hHumC : I → ℝ
  hHumR : I → ℝ
  thetaOt : I → ℝ
  thetaS : J → ℝ
  thetaRear : J → ℝ
  qiall : J → ℝ

/-- A freshly allocated column (`np.zeros`, `np.empty(dtype=object)`), `core/log.py` 14-114. -/
def LogRow.empty (I J : Type) : LogRow I J where
  mode := fun _ => none
  thetaR := fun _ => 0
  thetaMrt := fun _ => 0
  xR := fun _ => 0
  thetaFrt := fun _ => 0
  xFrt := fun _ => 0
  thetaEi := fun _ => 0
  qHum := fun _ => 0
  xHum := fun _ => 0
  lCs := fun _ => 0
  lRs := fun _ => 0
  lCl := fun _ => 0
  vLeak := fun _ => 0
  vNtrl := fun _ => 0
  hHumC := fun _ => 0
  hHumR := fun _ => 0
  thetaOt := fun _ => 0
  thetaS := fun _ => 0
  thetaRear := fun _ => 0
  qiall := fun _ => 0

/-- `core/sequence.py` 243-268: the values written for one step. -/
def LogRow.ofTick {I J : Type} (t : TickVars I J) : LogRow I J where
  mode := fun i => some (t.ot i).mode
  thetaR := t.thetaR
  thetaMrt := t.thetaMrt
  xR := t.xR
  thetaFrt := t.thetaFrt
  xFrt := t.xFrt
  thetaEi := t.thetaEi
  qHum := t.qHum
  xHum := t.xHum
  lCs := t.lc
  lRs := t.lr
  lCl := t.lCl
  vLeak := t.vLeak
  vNtrl := t.vNtrl
  hHumC := fun i => (t.ot i).hHumC
  hHumR := fun i => (t.ot i).hHumR
  thetaOt := t.thetaOt
  thetaS := t.thetaS
  thetaRear := t.thetaRear
  qiall := t.qSrf

/-- `core/log.py` 8-114: the arrays of a logger with `M` columns. -/
abbrev Logger (I J : Type) (M : ℕ) := Fin M → LogRow I J

/-- `core/log.py` 8-114, the constructor; `np.zeros` with a negative dimension raises ValueError. -/
def newLogger (I J : Type) (nMain : ℤ) : Except PyErr (Logger I J nMain.toNat) :=
  if nMain < 0 then .error .valueError else .ok fun _ => LogRow.empty I J

/-- `core/sequence.py` 243-268: all assignments `logger.x[:, n] = …` of one step. -/
def logWrite {I J : Type} {M : ℕ} (log : Logger I J M) (n : ℤ) (t : TickVars I J) : Except PyErr (Logger I J M) := do
  let k ← pyIndex M n
  .ok (Function.update log k (LogRow.ofTick t))

section
variable {I J : Type} [Fintype I] [DecidableEq I] [Fintype J] [DecidableEq J] {N : ℕ}

/-- `core/log.py` 134-140: relative humidity, %. -/
noncomputable def LogRow.rh (r : LogRow I J) (i : I) : ℝ := getH (getPvR (r.xR i)) (getPvs (r.thetaR i))

/-- `core/log.py` 143: heat from the room air to the furniture, W. -/
def LogRow.qFrt (ss : PreCalc I J N) (r : LogRow I J) (i : I) : ℝ := ss.gSh i * (r.thetaR i - r.thetaFrt i)

/-- `core/log.py` 146: convective surface heat flow, W. -/
def LogRow.qc (ss : PreCalc I J N) (r : LogRow I J) (j : J) : ℝ :=
  ss.hC j * ss.aSrf j * (ss.p.transpose.mulVec r.thetaR j - r.thetaS j)

/-- `core/log.py` 149: radiative surface heat flow, W. -/
def LogRow.qr (ss : PreCalc I J N) (r : LogRow I J) (j : J) : ℝ :=
  ss.hR j * ss.aSrf j * ((ss.p.transpose * ss.fMrt).mulVec r.thetaS j - r.thetaS j)

/-- `core/log.py` 152: vapour from the room air to the furniture, kg/s. -/
def LogRow.qLFrt (ss : PreCalc I J N) (r : LogRow I J) (i : I) : ℝ := ss.gLh i * (r.xR i - r.xFrt i)

/-- `core/log.py` 127: solar heat absorbed by a surface, W (one column). -/
def qisol (ss : PreCalc I J N) (k : Fin N) (j : J) : ℝ := ss.qSol k j * ss.aSrf j

end

end HLC
