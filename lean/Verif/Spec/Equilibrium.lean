import Verif.Spec.Balance
import Verif.Model.Sequence

/-!
# Specification: thermal equilibrium (C22)
-/

namespace HLC.Spec

variable {I J : Type} [Fintype I] [DecidableEq I] [Fintype J] [DecidableEq J]

/-- Rooms, furniture, surfaces and the interior of all walls are at temperature `T`: no heat flows, and the transmitted component of
every wall has the value it takes after an infinitely long time with `T` behind the wall. -/
structure AtRest (h : House I J) (T : ℝ) (c : Cond I J) : Prop where
  room : ∀ i, c.thetaR i = T
  furniture : ∀ i, c.thetaFrt i = T
  equivalent : ∀ j, c.thetaEi j = T
  flux : ∀ j, c.qSrf j = 0
  absorbed : ∀ j m, c.dshA j m = 0
  transmitted : ∀ j m, c.dshT j m = T * h.phiT1 j m / (1 - h.ratio j m)

/-- Outside everything is at `T` and there are no gains. -/
structure Calm (T : ℝ) (d : Record I J) : Prop where
  outdoor : d.thetaO = T
  solAir : ∀ j, d.thetaOSol j = T
  noGain : ∀ i, d.qGen i = 0
  noPeople : ∀ i, d.nHum i = 0
  noSun : ∀ i, d.qTrsSol i = 0

/-- Outside everything is at `T` and there are no gains and no air-conditioning demand. -/
structure Quiet (T : ℝ) (d : Record I J) : Prop extends Calm T d where
  noDemand : ∀ i, d.acDemand i = 0

/-- The walls transmit a constant rear temperature with factor one, and the weights of what is behind a boundary sum to one. -/
structure SteadyWalls (h : House I J) : Prop where
  ratio_ne : ∀ j m, h.ratio j m ≠ 1
  transmission : ∀ j, h.phiT0 j + ∑ m, h.phiT1 j m / (1 - h.ratio j m) = 1
  weights : ∀ j, h.kEo j + (match h.kEi j with | none => 0 | some (_, coef) => coef) = 1

end HLC.Spec
