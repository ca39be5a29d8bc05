import Verif.Model.PreCalc

/-!
# Specification: admissible moisture data (C19, C20)
-/

namespace HLC.Spec

variable {I J : Type}

/-- Non-negative humidity, moisture generation, number of people and local ventilation in a record. -/
structure MoistRecord (d : Record I J) : Prop where
  outdoor : 0 ≤ d.xO
  generated : ∀ i, 0 ≤ d.xGen i
  people : ∀ i, 0 ≤ d.nHum i
  localVent : ∀ i, 0 ≤ d.vLocal i

/-- The fan of the air conditioner speeds up with the load fast enough that the air is never cooled by more than 100 K on the coil
(1206 J/(m3 K) heat capacity of air, bypass factor 0.2, air flow per minute). -/
def FanKeepsUp (s : RacSpec) : Prop := 60 * (s.qMax - s.qMin) ≤ 100 * (1206 * 0.8) * (s.vMax - s.vMin)

end HLC.Spec
