import Verif.Spec.Executed
import Verif.Spec.Balance

/-!
# Specification: humidities stay in the range of what drives them (C112)
-/

namespace HLC.Spec

variable {I J : Type}

/-- Nothing in the house gives off or takes away moisture: no people, no other sources. -/
structure NoMoisture (d : Record I J) : Prop where
  generated : ∀ i, d.xGen i = 0
  people : ∀ i, d.nHum i = 0

/-- All humidities of a row of the log: rooms and furniture. -/
def RowHumid (P : ℝ → Prop) (row : LogRow I J) : Prop := (∀ i, P (row.xR i)) ∧ ∀ i, P (row.xFrt i)

/-- The humidity from which a calculation starts, in rooms and furniture: 40 % at 20 degC. -/
noncomputable def startHumidity : ℝ := 0.622 * (0.4 * getPvs 20) / (101325 - 0.4 * getPvs 20)

end HLC.Spec
