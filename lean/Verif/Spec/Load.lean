import Verif.Model.NextCondition

/-!
# Specification vocabulary for the load calculation (C07-C12)
-/

namespace HLC.Spec

variable {I : Type*} [Fintype I] [DecidableEq I]

/-- `nat` are the operative temperatures the rooms would take without any air-conditioning. -/
def IsNatural (a : LoadInput I) (nat : I → ℝ) : Prop := a.brm.mulVec nat = a.brc

/-- The room asks for heating and would otherwise stay below its lower target. -/
def Heated (a : LoadInput I) (nat : I → ℝ) (i : I) : Prop := a.mode i = .heating ∧ nat i < a.lower i

/-- The room asks for cooling and would otherwise rise above its upper target. -/
def Cooled (a : LoadInput I) (nat : I → ℝ) (i : I) : Prop := a.mode i = .cooling ∧ a.upper i < nat i

/-- The radiative system is the one in charge in this room. -/
def RadiantActive (a : LoadInput I) (nat : I → ℝ) (i : I) : Prop :=
  (Heated a nat i ∧ a.isRadHeating i = true) ∨ (Cooled a nat i ∧ a.isRadCooling i = true)

/-- Capacities are given as non-negative numbers. -/
def CapsNonneg (a : LoadInput I) : Prop := ∀ i, 0 ≤ a.capH i ∧ 0 ≤ a.capC i

end HLC.Spec
