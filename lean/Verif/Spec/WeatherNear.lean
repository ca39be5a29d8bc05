import Verif.Spec.WarmBehind

/-!
# Specification: tables that differ in the weather only (C135)

Independent of the model's calculations: two records of the input tables with the same house life, whose temperatures outdoors and behind the parts
differ by at most `e`.
-/

namespace HLC.Spec

open HLC

/-- Two records of the tables of a house without people and without demand for heating, cooling or opened windows, with the same local ventilation,
heat gains and transmitted sun, whose temperatures outdoors and behind the parts differ by at most `e`. -/
structure WeatherWithin {I J : Type} (e : ℝ) (x y : Record I J) : Prop where
  outdoor : |y.thetaO - x.thetaO| ≤ e
  behind : ∀ j, |y.thetaOSol j - x.thetaOSol j| ≤ e
  ventilation : y.vLocal = x.vLocal
  gains : y.qGen = x.qGen
  sun : y.qTrsSol = x.qTrsSol
  blowsIn : ∀ i, 0 ≤ x.vLocal i
  noPeople : ∀ i, x.nHum i = 0 ∧ y.nHum i = 0
  noDemand : ∀ i, x.acDemand i ≤ 0 ∧ y.acDemand i ≤ 0

end HLC.Spec
