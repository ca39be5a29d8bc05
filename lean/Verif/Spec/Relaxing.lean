import Verif.Spec.Passive
import Verif.Lemmas.Kaluza

/-!
# Parts that take heat up and give it back evenly
-/

namespace HLC.Spec

variable {I J : Type} [Fintype I] [DecidableEq I] [Fintype J] [DecidableEq J]

/-- The temperature in front of the film of part `j` that a heat flow of 1 W/m2 during one step demands in that step and `k` steps later. -/
noncomputable def pulse (h : House I J) (hR : J → ℝ) (j : J) : ℕ → ℝ
  | 0 => h.phiA0 j + 1 / (h.hC j + hR j)
  | k + 1 => ∑ l, h.phiA1 j l * h.ratio j l ^ k

/-- Part `j` holds something of the past. -/
def KeepsPast (h : House I J) (j : J) : Prop := ∃ l, h.phiA1 j l ≠ 0 ∨ h.phiT1 j l ≠ 0

/-- The answer of the parts that store heat to a pulse of heat, the film included, is positive and fades ever more slowly (it is log-convex: so for
layers that are not too light for the time step). Parts between rooms store no heat. -/
structure Relaxing (h : House I J) (hR : J → ℝ) : Prop where
  pulse : ∀ j, h.kEi j = none → KeepsPast h j → LogConvex (pulse h hR j)
  outdoors : ∀ j, h.kEi j = none → 0 ≤ h.kEo j
  between : ∀ j m coef, h.kEi j = some (m, coef) → h.kEo j + coef = 1 ∧ h.phiT0 j = 1 ∧ ∀ l, h.phiA1 j l = 0 ∧ h.phiT1 j l = 0

/-- Behind the parts that store heat the temperatures are the same in both records. -/
def SameBehind (h : House I J) (a b : Record I J) : Prop := ∀ j, KeepsPast h j → b.thetaOSol j = a.thetaOSol j

end HLC.Spec
