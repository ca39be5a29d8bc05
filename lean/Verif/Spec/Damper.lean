import Verif.Spec.Idle
import Verif.Spec.Run

/-!
# Specification: more moisture makes no room drier (C139)
-/

namespace HLC.Spec

variable {I J : Type}

/-- Two records that agree in all but moisture and the demand for conditioning, the second with at least as much moisture in the outdoor air
and at least as much released in every room. -/
structure Damper (a b : Record I J) : Prop where
  same : b = moistened a b.xO b.xGen b.acDemand
  outdoor : a.xO ≤ b.xO
  released : ∀ i, a.xGen i ≤ b.xGen i

/-- Two rows of results that agree in all columns except humidities and latent heat: temperatures, modes, air flows, sensible loads. -/
def SameButHumidity (a b : LogRow I J) : Prop := b = { a with xR := b.xR, xFrt := b.xFrt, lCl := b.lCl }

/-- No humidity of a room or its furniture is lower in the second row. -/
structure RowDamper (a b : LogRow I J) : Prop where
  rooms : ∀ i, a.xR i ≤ b.xR i
  furniture : ∀ i, a.xFrt i ≤ b.xFrt i

end HLC.Spec
