import Verif.Spec.Warmer

/-!
# Specification: airing brings a house nearer to outdoors (C137)
-/

namespace HLC.Spec

variable {I J : Type}

/-- The same weather, sun, heat gains and people; ventilation, moisture and demand may differ. -/
structure SameButAir (a b : Record I J) : Prop where
  air : b.thetaO = a.thetaO
  parts : b.thetaOSol = a.thetaOSol
  gains : b.qGen = a.qGen
  sun : b.qTrsSol = a.qTrsSol
  people : b.nHum = a.nHum

/-- The same house with another amount of air supplied by fans all the time. -/
def refanned (h : House I J) (w : I → ℝ) : House I J := { h with vVentEx := w }

/-- A room that takes in `va` of outdoor air and has `θa`, compared with one that takes in `vb` and has `θb`: both take in the same, or the
first takes in more while one of the two is at least as warm as outdoors, or less while one of the two is at most as warm as outdoors. -/
def AiringCools (θo va vb θa θb : ℝ) : Prop :=
  va = vb ∨ (vb ≤ va ∧ (θo ≤ θa ∨ θo ≤ θb)) ∨ (va ≤ vb ∧ (θa ≤ θo ∨ θb ≤ θo))

end HLC.Spec
