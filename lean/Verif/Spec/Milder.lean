import Verif.Spec.Insulated

/-!
# Specification: milder weather and more gains do not raise the heating (C118)
-/

namespace HLC.Spec

variable {I J : Type}

/-- Two rows of the same time and room, of which the second has the milder weather, that can be compared: the windows are closed in both, and the
second room is no warmer (operative temperature) than the first, unless its load is no larger anyway; the house is tight, or the first room is at least as
warm as outdoors (`θo`) and leaks at least as much. -/
structure SettledRows (h : House I J) (i : I) (θo : ℝ) (a b : LogRow I J) : Prop where
  closed : a.mode i ≠ some .stopOpen
  closed' : b.mode i ≠ some .stopOpen
  compare : b.thetaOt i ≤ a.thetaOt i ∨ b.lCs i ≤ a.lCs i
  leak : h.cValue = 0 ∨ (b.vLeak i ≤ a.vLeak i ∧ θo ≤ a.thetaR i)

end HLC.Spec
