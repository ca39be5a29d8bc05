import Verif.Spec.Warmer

/-!
# Specification: a better insulated house needs no more heating (C117)
-/

namespace HLC.Spec

variable {I J : Type}

/-- The same house with other thermal resistances of its parts (behind the inner surface film). -/
def insulated (h : House I J) (R' : J → ℝ) : House I J := { h with phiA0 := R' }

/-- Heat by which the air and the furniture of a room in the first state exceed those in the second, where they do, per time step, W. -/
noncomputable def excess (h : House I J) (dt : ℝ) (i : I) (θ f θ' f' : ℝ) : ℝ :=
  h.vRoom i * airCap / dt * max (θ - θ') 0 + h.cSh i / dt * max (f - f') 0

/-- Two rows of the same time, of a house and of the better insulated one, that can be compared: the windows are closed in both; the better
insulated house is no warmer (operative temperature) than the other, unless its load is no larger anyway; no heat comes in through the
parts that are better insulated; the house is tight, or the other house is at least as warm as outdoors (`θo`) and leaks at least as much. -/
structure ComparableRows (h : House I J) (R' : J → ℝ) (i : I) (θo : ℝ) (a b : LogRow I J) : Prop where
  closed : a.mode i ≠ some .stopOpen
  closed' : b.mode i ≠ some .stopOpen
  compare : b.thetaOt i ≤ a.thetaOt i ∨ b.lCs i ≤ a.lCs i
  loses : ∀ j, h.phiA0 j < R' j → 0 ≤ a.qiall j
  leak : h.cValue = 0 ∨ (b.vLeak i ≤ a.vLeak i ∧ θo ≤ a.thetaR i)

end HLC.Spec
