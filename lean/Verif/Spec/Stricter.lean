import Verif.Model.UPsi

/-!
# A house that is better insulated part by part
-/

namespace HLC.Spec

open HLC.Conv

/-- The houses consist of the same parts in the same order, and no part of `e` lets more heat through than the same part of `e'`. -/
structure NoWorse (e e' : Envelope) : Prop where
  gps : List.Forall₂ (fun g g' : GP => g.toGPNoSpec = g'.toGPNoSpec ∧ ∃ u u', g.spec.getU = .ok u ∧ g'.spec.getU = .ok u' ∧ u ≤ u') e.gps e'.gps
  ws : List.Forall₂ (fun g g' : Win => g.toWinNoSpec = g'.toWinNoSpec ∧ g.spec.u ≤ g'.spec.u) e.ws e'.ws
  ds : List.Forall₂ (fun g g' : Door => g.toDoorNoSpec = g'.toDoorNoSpec ∧ g.u ≤ g'.u) e.ds e'.ds
  eps : List.Forall₂ (fun g g' : Efp => g.toEfpNoSpec = g'.toEfpNoSpec ∧ g.psi ≤ g'.psi) e.eps e'.eps
  ecs : e.ecs = e'.ecs

/-- No window of `e` lets less of the sun in than the same window of `e'`, in the given season. -/
def NoDarker (season : String) (e e' : Envelope) : Prop :=
  List.Forall₂ (fun g g' : Win => ∃ x x', g.spec.getEtaD season = .ok x ∧ g'.spec.getEtaD season = .ok x' ∧ x' ≤ x) e.ws e'.ws

end HLC.Spec
