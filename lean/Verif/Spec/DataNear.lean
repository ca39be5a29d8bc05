import Verif.Spec.Inexact
import Verif.Spec.Idle

/-!
# Specification: weather and gains that are not known exactly (C135)
-/

namespace HLC.Spec

variable {I J : Type}

/-- Two rows of the input tables that agree up to `ε`: temperatures (K) of the outdoor air and behind the parts, heat gains (W) and solar gains (W) of
the rooms. People and local ventilation are the same; humidities and vapour gains may be any. -/
structure DataNear (ε : ℝ) (d d' : Record I J) : Prop where
  outdoor : |d'.thetaO - d.thetaO| ≤ ε
  behind : ∀ j, |d'.thetaOSol j - d.thetaOSol j| ≤ ε
  gains : ∀ i, |d'.qGen i - d.qGen i| ≤ ε
  sun : ∀ i, |d'.qTrsSol i - d.qTrsSol i| ≤ ε
  people : d'.nHum = d.nHum
  ventilation : d'.vLocal = d.vLocal

/-- Two rows of the input tables whose humidity of the outdoor air (kg/kg) and vapour gains (kg/s) agree up to `ξ`. -/
structure MoistDataNear (ξ : ℝ) (d d' : Record I J) : Prop where
  outdoor : |d'.xO - d.xO| ≤ ξ
  gains : ∀ i, |d'.xGen i - d.xGen i| ≤ ξ

end HLC.Spec
