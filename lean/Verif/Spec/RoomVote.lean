import Mathlib.Analysis.SpecialFunctions.Exp

/-!
# Specification: comfort of a person at rest in a room, with fixed heat transfer coefficients (C02)

The calculation uses the comfort index with a convective coefficient of 4 W/m2K and the radiative coefficient at 20 degC.
-/

namespace HLC.Spec

/-- Predicted mean vote of a person at rest (58.15 W/m2) with clothing `clo` in air of temperature `air` and absolute humidity `x` kg/kg(DA),
between surfaces of temperature `radiant`: heat produced minus evaporation, breathing and the dry heat loss through the clothing. -/
noncomputable def roomVote (clo air radiant x : ℝ) : ℝ :=
  let pressure := 101325 * x / (x + 0.62198)
  let hc := 4
  let hr := 4 * 3.96e-8 * (20 + 273.15) ^ 3
  let felt := (hc * air + hr * radiant) / (hc + hr)
  let icl := 0.155 * clo
  let fcl := if icl ≤ 0.078 then 1 + 1.29 * icl else 1.05 + 0.645 * icl
  let dry := (35.7 - 0.028 * 58.15 - felt) / (icl + 1 / (fcl * (hc + hr)))
  (0.303 * Real.exp (-0.036 * 58.15) + 0.028) *
    (58.15 - 3.05e-3 * (5733 - 6.99 * 58.15 - pressure) - 1.7e-5 * 58.15 * (5867 - pressure) - 0.0014 * 58.15 * (34 - air) - dry)

end HLC.Spec
