import Verif.Model.Log
import Verif.Model.PreCalc

/-!
# Specification: the same house with other air conditioners (C129)
-/

namespace HLC.Spec

variable {I J : Type}

/-- The house with other air conditioners. -/
def withUnits (h : House I J) (u : I → RacSpec) : House I J := { h with rac := u }

/-- Two rows that agree in everything but the humidity of the air and of the furniture and the latent load. -/
structure SameButMoisture (a b : LogRow I J) : Prop where
  mode : a.mode = b.mode
  air : a.thetaR = b.thetaR
  radiant : a.thetaMrt = b.thetaMrt
  operative : a.thetaOt = b.thetaOt
  furniture : a.thetaFrt = b.thetaFrt
  convective : a.lCs = b.lCs
  radiantLoad : a.lRs = b.lRs
  surfaces : a.thetaS = b.thetaS
  equivalent : a.thetaEi = b.thetaEi
  rear : a.thetaRear = b.thetaRear
  flux : a.qiall = b.qiall
  people : a.qHum = b.qHum
  vapour : a.xHum = b.xHum
  leakage : a.vLeak = b.vLeak
  windows : a.vNtrl = b.vNtrl
  films : a.hHumC = b.hHumC ∧ a.hHumR = b.hHumR

end HLC.Spec
