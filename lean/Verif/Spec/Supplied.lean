import Verif.Spec.Airing

/-!
# Specification: heating makes no room colder, cooling makes no room warmer (C138)
-/

namespace HLC.Spec

variable {I J : Type}

/-- A room that takes in `va` of outdoor air of `θoa` and has `θa`, compared with one that takes in `vb` of `θob` and has `θb`: the exchange
of air makes the first no warmer compared with the second. Both take in the same, or the first takes in more and one of the two is at least
as warm as its outdoor air, or less and one of the two is at most as warm. -/
def AirNoWarmer (θoa θob va vb θa θb : ℝ) : Prop :=
  va = vb ∨ (vb ≤ va ∧ (θoa ≤ θa ∨ θob ≤ θb)) ∨ (va ≤ vb ∧ (θa ≤ θoa ∨ θb ≤ θob))

/-- In one row of two results, with the records of that row: the equipment gives the rooms at least as much heat in the second (less
cooling counts as more heat), convective and radiant, and the leaks and open windows do not favour the first. -/
def MoreSupplied (a b : Record I J) (ra rb : LogRow I J) : Prop :=
  ∀ i, ra.lCs i ≤ rb.lCs i ∧ ra.lRs i ≤ rb.lRs i ∧
    AirNoWarmer a.thetaO b.thetaO (ra.vLeak i + ra.vNtrl i) (rb.vLeak i + rb.vNtrl i) (ra.thetaR i) (rb.thetaR i)

/-- The same records with the equipment switched off: no demand for air conditioning at any time. -/
def switchedOff {N : ℕ} (d : Fin N → Record I J) : Fin N → Record I J := fun k => { d k with acDemand := fun _ => 0 }

end HLC.Spec
