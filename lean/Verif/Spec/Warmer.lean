import Verif.Spec.Range
import Verif.Spec.Idle

/-!
# Specification: more heat never makes anything colder (C109)
-/

namespace HLC.Spec

variable {I J : Type}

/-- At least as warm outdoors, at least as much sun and at least as much heat released; the same ventilation and the same people. -/
structure Warmer (a b : Record I J) : Prop where
  air : a.thetaO ≤ b.thetaO
  parts : ∀ j, a.thetaOSol j ≤ b.thetaOSol j
  gains : ∀ i, a.qGen i ≤ b.qGen i
  sun : ∀ i, a.qTrsSol i ≤ b.qTrsSol i
  ventilation : b.vLocal = a.vLocal
  people : b.nHum = a.nHum

/-- No temperature of the first row is above that of the second: rooms, furniture, surfaces, mean radiant and operative temperatures. -/
structure RowBelow (a b : LogRow I J) : Prop where
  rooms : ∀ i, a.thetaR i ≤ b.thetaR i
  furniture : ∀ i, a.thetaFrt i ≤ b.thetaFrt i
  surfaces : ∀ j, a.thetaS j ≤ b.thetaS j
  radiant : ∀ i, a.thetaMrt i ≤ b.thetaMrt i
  operative : ∀ i, a.thetaOt i ≤ b.thetaOt i

/-- The people in a room are not so many that their answer to a warmer room (4 W per person and degree) outweighs the heat stored in the air of
the room in one step: at the default step of 15 minutes, at most one person in 3 m3. -/
def RoomForPeople (h : House I J) (dt : ℝ) (d : Record I J) : Prop :=
  ∀ i, 0 ≤ d.nHum i ∧ 4 * d.nHum i * dt ≤ h.vRoom i * airCap

end HLC.Spec
