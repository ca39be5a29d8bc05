import Verif.Model.Iso7730

/-!
# Specification: thermal comfort index of ISO 7730 (C55, C69, C88)

Written from the standard, not from the code: heat balance of a clothed person.
-/

namespace HLC.Spec

/-- A situation in a room: metabolic rate and mechanical power in W/m2, clothing in m2K/W, air temperature, mean radiant temperature
°C, air velocity m/s, vapour pressure Pa. -/
structure Climate where
  metabolic : ℝ
  work : ℝ
  clothing : ℝ
  air : ℝ
  radiant : ℝ
  velocity : ℝ
  vapour : ℝ

/-- Ratio of clothed to nude surface area. -/
noncomputable def areaFactor (icl : ℝ) : ℝ := if icl ≤ 0.078 then 1 + 1.29 * icl else 1.05 + 0.645 * icl

/-- Heat loss of the clothing surface at temperature `t`, W/m2: radiation and (natural or forced) convection. -/
noncomputable def dryLoss (c : Climate) (t : ℝ) : ℝ :=
  areaFactor c.clothing * (3.96e-8 * ((t + 273) ^ 4 - (c.radiant + 273) ^ 4)
    + max (12.1 * Real.sqrt c.velocity) (2.38 * |t - c.air| ^ (0.25 : ℝ)) * (t - c.air))

/-- Clothing surface temperature: what the clothing loses is what it conducts from the skin. -/
def IsClothingTemp (c : Climate) (t : ℝ) : Prop :=
  -273 ≤ t ∧ c.clothing * dryLoss c t = 35.7 - 0.028 * (c.metabolic - c.work) - t

/-- Thermal load on the body: heat produced minus evaporation from the skin, sweating, breathing and dry loss. -/
noncomputable def bodyLoad (c : Climate) (t : ℝ) : ℝ :=
  (c.metabolic - c.work) - 3.05e-3 * (5733 - 6.99 * (c.metabolic - c.work) - c.vapour)
    - max (0.42 * (c.metabolic - c.work - 58.15)) 0 - 1.7e-5 * c.metabolic * (5867 - c.vapour)
    - 0.0014 * c.metabolic * (34 - c.air) - dryLoss c t

/-- Predicted mean vote for clothing temperature `t`. -/
noncomputable def voteAt (c : Climate) (t : ℝ) : ℝ := (0.303 * Real.exp (-0.036 * c.metabolic) + 0.028) * bodyLoad c t

/-- A physically possible situation. -/
structure Possible (c : Climate) : Prop where
  metabolic : 0 ≤ c.metabolic
  clothing : 0 ≤ c.clothing
  air : -273 < c.air
  radiant : -273 < c.radiant
  skin : -273 < 35.7 - 0.028 * (c.metabolic - c.work)

/-- What is expected of the root finder: it finds a root, and one above absolute zero, where there is one. -/
structure FindsRoots (newton : (ℝ → ℝ) → ℝ → ℝ) : Prop where
  root : ∀ f : ℝ → ℝ, (∃ x, -273 ≤ x ∧ f x = 0) → f (newton f 0.001) = 0
  physical : ∀ f : ℝ → ℝ, (∃ x, -273 ≤ x ∧ f x = 0) → -273 ≤ newton f 0.001

end HLC.Spec
