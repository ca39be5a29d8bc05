import Verif.Model.Ground
import Verif.Model.Log

/-!
# Specification: what a run is (C19, C22, C24-C30)
-/

namespace HLC.Spec

variable {I J : Type} [Fintype I] [DecidableEq I] [Fintype J] [DecidableEq J] {N : ℕ}

/-- `Run ss dt c ns ts`: starting from state `c`, the steps numbered `ns` are executed one after the other, each on the state
left by the previous one; `ts` are what they computed. -/
inductive Run (ss : PreCalc I J N) (dt : ℝ) : Cond I J → List ℤ → List (TickVars I J) → Prop
  | nil (c : Cond I J) : Run ss dt c [] []
  | cons {c : Cond I J} {n : ℤ} {ns : List ℤ} {t : TickVars I J} {ts : List (TickVars I J)} :
      runTick n dt ss c = .ok t → Run ss dt t.next ns ts → Run ss dt c (n :: ns) (t :: ts)

/-- The state after the last of the steps. -/
def after (c : Cond I J) : List (TickVars I J) → Cond I J
  | [] => c
  | t :: ts => after t.next ts

/-- `GroundRun ss g ns gs`: starting from the ground state `g`, the ground steps numbered `ns` are executed one after the other;
`gs` are the states they leave. -/
inductive GroundRun (ss : PreCalcGround N) : List GroundCell → List ℤ → List (List GroundCell) → Prop
  | nil (g : List GroundCell) : GroundRun ss g [] []
  | cons {g g' : List GroundCell} {n : ℤ} {ns : List ℤ} {gs : List (List GroundCell)} :
      groundTick ss g n = .ok g' → GroundRun ss g' ns gs → GroundRun ss g (n :: ns) (g' :: gs)

/-- The ground state after the last step. -/
def lastGround (g : List GroundCell) : List (List GroundCell) → List GroundCell
  | [] => g
  | g' :: gs => lastGround g' gs

/-- The states from which the steps of a run start. -/
def starts (c : Cond I J) : List (TickVars I J) → List (Cond I J)
  | [] => []
  | t :: ts => c :: starts t.next ts

/-- Response to a history `xs` (oldest first) of a component with weight `φ` and common ratio `r`: the value of `s` steps ago counts
with `φ r^s`. -/
def convolution (r φ : ℝ) (xs : List ℝ) : ℝ := ∑ k : Fin xs.length, r ^ (xs.length - 1 - (k : ℕ)) * (φ * xs[k])

/-- The log column holds the values computed by the step. -/
structure RowOf (t : TickVars I J) (r : LogRow I J) : Prop where
  mode : ∀ i, r.mode i = some (t.ot i).mode
  roomTemperature : r.thetaR = t.thetaR
  meanRadiantTemperature : r.thetaMrt = t.thetaMrt
  roomHumidity : r.xR = t.xR
  furnitureTemperature : r.thetaFrt = t.thetaFrt
  furnitureHumidity : r.xFrt = t.xFrt
  equivalentTemperature : r.thetaEi = t.thetaEi
  heatOfPeople : r.qHum = t.qHum
  moistureOfPeople : r.xHum = t.xHum
  convectiveLoad : r.lCs = t.lc
  radiativeLoad : r.lRs = t.lr
  latentLoad : r.lCl = t.lCl
  infiltration : r.vLeak = t.vLeak
  naturalVentilation : r.vNtrl = t.vNtrl
  convectiveCoefficient : ∀ i, r.hHumC i = (t.ot i).hHumC
  radiativeCoefficient : ∀ i, r.hHumR i = (t.ot i).hHumR
  operativeTemperature : r.thetaOt = t.thetaOt
  surfaceTemperature : r.thetaS = t.thetaS
  rearTemperature : r.thetaRear = t.thetaRear
  surfaceFlux : r.qiall = t.qSrf

end HLC.Spec
