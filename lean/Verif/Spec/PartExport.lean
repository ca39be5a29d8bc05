import Verif.Model.PyVal
import Mathlib.Algebra.BigOperators.Group.List.Basic

/-!
# What the initializer reads from an exported building part
-/

namespace HLC.Spec

/-- The exported part `d` has the given area and, from its layers and the two surface resistances, the given U value. -/
def ExportsU (d : PyVal) (area u : ℝ) : Prop :=
  ∃ rIn rOut layers rs, d.getNum "area" = .ok area ∧ d.getNum "inside_heat_transfer_resistance" = .ok rIn ∧
    d.getNum "outside_heat_transfer_resistance" = .ok rOut ∧ d.getList "layers" = .ok layers ∧
    layers.mapM (fun l => l.getNum "thermal_resistance") = .ok rs ∧ u * (rIn + rs.sum + rOut) = 1

/-- The exported parts `ds` replace a part of the given area and heat loss per degree `q`: their areas and area times U value
add up. -/
def ExportsLoss (ds : List PyVal) (area q : ℝ) : Prop :=
  ∃ parts : List (ℝ × ℝ), List.Forall₂ (fun d x => ExportsU d x.1 x.2) ds parts ∧ (parts.map (·.1)).sum = area ∧
    (parts.map fun x => x.1 * x.2).sum = q

end HLC.Spec
