import Verif.Spec.Balance
import Verif.Model.Log

/-!
# Specification: heat and moisture of a room over a period (C85)

Everything here is formed from the data of the house, the records of the weather and schedules and the rows of the result log.
-/

namespace HLC.Spec

variable {I J : Type} [Fintype I] [DecidableEq I] [Fintype J] [DecidableEq J]

/-- Heat held by the air and the furniture of room `i` at the end of the step of a row, J. -/
noncomputable def storedHeat (h : House I J) (i : I) (row : LogRow I J) : ℝ :=
  h.vRoom i * airCap * row.thetaR i + h.cSh i * row.thetaFrt i

/-- Heat that room `i` receives during the step of a row, W: appliances, occupants, convective and radiative load, sun, outdoor air
(infiltration, mechanical and natural ventilation), air from other rooms, minus what flows into its parts. -/
noncomputable def heatReceived (h : House I J) (i : I) (d : Record I J) (row : LogRow I J) : ℝ :=
  d.qGen i + row.qHum i + row.lCs i + row.lRs i + d.qTrsSol i
    + airCap * (row.vLeak i + (h.vVentEx i + d.vLocal i) + row.vNtrl i) * (d.thetaO - row.thetaR i)
    + interRoomHeat h i row.thetaR - ∑ j ∈ surfaces h i, h.area j * row.qiall j

/-- Vapour held by the air and the furniture of room `i` at the end of the step of a row, kg. -/
noncomputable def storedVapour (h : House I J) (i : I) (row : LogRow I J) : ℝ :=
  1.2 * h.vRoom i * row.xR i + h.cLh i * row.xFrt i

/-- Vapour that room `i` receives during the step of a row, kg/s: appliances, occupants, outdoor air, air from other rooms, and the
latent load (negative for dehumidification) divided by the heat of evaporation. -/
noncomputable def vapourReceived (h : House I J) (i : I) (d : Record I J) (row : LogRow I J) : ℝ :=
  d.xGen i + row.xHum i + 1.2 * (row.vLeak i + (h.vVentEx i + d.vLocal i) + row.vNtrl i) * (d.xO - row.xR i)
    + interRoomVapour h i row.xR + row.lCl i / 2501000

/-- `f` continues a finite sequence to all step numbers. -/
def Continues {α : Type} {n : ℕ} (f : ℕ → α) (s : Fin n → α) : Prop := ∀ k : Fin n, f k = s k

end HLC.Spec
