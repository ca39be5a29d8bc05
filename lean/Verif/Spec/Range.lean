import Verif.Spec.Executed
import Verif.Spec.Balance

/-!
# Specification: temperatures stay in the range of what drives them (C86)
-/

namespace HLC.Spec

variable {I J : Type} [Fintype I] [DecidableEq I] [Fintype J] [DecidableEq J]

/-- The parts store no heat (such as windows, doors and parts given by a U value): the surface answers at once, a constant rear
temperature is transmitted with factor one, and what is behind a part is a mean of outdoors and the room behind it. -/
structure Storageless (h : House I J) : Prop where
  absorbed : ∀ j m, h.phiA1 j m = 0
  transmitted : ∀ j m, h.phiT1 j m = 0
  steady : ∀ j, h.phiT0 j = 1
  weights : ∀ j, h.kEo j + (match h.kEi j with | none => 0 | some (_, coef) => coef) = 1

/-- Nothing in the record heats or cools the house but the outdoor air: no gains, people, sun or demand for air conditioning. -/
structure Idle (d : Record I J) : Prop where
  noGain : ∀ i, d.qGen i = 0
  noPeople : ∀ i, d.nHum i = 0
  noSun : ∀ i, d.qTrsSol i = 0
  noDemand : ∀ i, d.acDemand i ≤ 0

/-- The outdoor temperature and the equivalent outdoor temperatures of all parts have property `P`. -/
def Outdoors (P : ℝ → Prop) (d : Record I J) : Prop := P d.thetaO ∧ ∀ j, P (d.thetaOSol j)

/-- All temperatures of a row of the log: rooms, furniture and surfaces. -/
def RowTemps (P : ℝ → Prop) (row : LogRow I J) : Prop :=
  (∀ i, P (row.thetaR i)) ∧ (∀ i, P (row.thetaFrt i)) ∧ ∀ j, P (row.thetaS j)

/-- The mean radiant and operative temperatures of a row. -/
def RowMeans (P : ℝ → Prop) (row : LogRow I J) : Prop :=
  (∀ i, P (row.thetaMrt i)) ∧ ∀ i, P (row.thetaOt i)

end HLC.Spec
