import Mathlib.Data.Real.Basic
import Mathlib.Algebra.BigOperators.Group.List.Basic

/-!
# Distributing a heat loss over parts
-/

namespace HLC.Spec

/-- The factors `f` scale the standard heat losses `qStd` of the parts to the required heat loss `q`: no factor is above
its maximum, the parts below their maximum all have the same factor and no other part has a larger one, and the
scaled losses add up to `q`, or to the largest attainable loss if that is smaller. -/
structure ScalesTo {α : Type} (parts : List α) (qStd fMax f : α → ℝ) (q : ℝ) : Prop where
  nonneg : ∀ p ∈ parts, 0 ≤ f p
  le_max : ∀ p ∈ parts, f p ≤ fMax p
  common : ∀ p ∈ parts, ∀ r ∈ parts, f p < fMax p → f r ≤ f p
  total : (parts.map fun p => qStd p * f p).sum = min q (parts.map fun p => qStd p * fMax p).sum

end HLC.Spec
