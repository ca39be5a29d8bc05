import Verif.Spec.Comfort

/-!
# Specification: an occupant of a room (C88)
-/

namespace HLC.Spec

/-- A person at rest (1 met, no work) in a room: clothing in clo (1 clo = 0.155 m2K/W), air and radiant temperature, air velocity,
vapour pressure. -/
noncomputable def atRest (clo air radiant velocity vapour : ℝ) : Climate where
  metabolic := 58.15
  work := 0
  clothing := 0.155 * clo
  air := air
  radiant := radiant
  velocity := velocity
  vapour := vapour

/-- `v` is the predicted mean vote of the situation: the vote at the clothing temperature. -/
def IsVote (c : Climate) (v : ℝ) : Prop := ∃ t, IsClothingTemp c t ∧ v = voteAt c t

end HLC.Spec
