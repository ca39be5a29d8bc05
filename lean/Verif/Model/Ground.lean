import Verif.Model.Sequence
import Mathlib.Data.List.FinRange

/-!
# Ground run-up (`core/sequence_ground.py`), boolean masks, hand-over to the building (`core/conditions.py`)

Arrays over the ground boundaries are lists in boundary order. Boundaries are `Fin m` here because masks depend on their order.
-/

namespace HLC

/-- `a[mask]` / `a[mask, :]` for a boolean mask: the selected entries in order. -/
def maskSelect {m : ℕ} {α : Type} (mask : Fin m → Bool) (f : Fin m → α) : List α :=
  ((List.finRange m).filter mask).map f

/-- Writes the values one after the other at the true entries of the mask. -/
def scatter {α : Type} : List (Bool × α) → List α → List α
  | (true, _) :: r, v :: vs => v :: scatter r vs
  | (false, a) :: r, vs => a :: scatter r vs
  | r, [] => r.map Prod.snd
  | [], _ => []

/-- `a[mask, :] = vals` (numpy): one row per true entry, or a single row for all of them (broadcast), otherwise ValueError. -/
def maskAssign {m : ℕ} {α : Type} (mask : Fin m → Bool) (old : Fin m → α) (vals : List α) : Except PyErr (Fin m → α) :=
  let n := ((List.finRange m).filter mask).length
  if vals.length = n then .ok fun j => (scatter ((List.finRange m).map fun l => (mask l, old l)) vals).getD j (old j)
  else match vals with
    | [v] => .ok fun j => if mask j then v else old j
    | _ => .error .valueError

/-- One row of `PreCalcParametersGround`, `core/pre_calc_parameters.py` 187-212. -/
structure GroundWall where
  ratio : Fin 12 → ℝ
  phiA0 : ℝ
  phiA1 : Fin 12 → ℝ
  hR : ℝ
  hC : ℝ

/-- `PreCalcParametersGround`, `core/pre_calc_parameters.py` 187-212. -/
structure PreCalcGround (N : ℕ) where
  nGrounds : ℕ
  walls : List GroundWall
  thetaO : Fin N → ℝ
  thetaOAve : ℝ

/-- `core/pre_calc_parameters.py` 421, 611-620. -/
noncomputable def makePreCalcGround {I : Type} {m N : ℕ} (ss : PreCalc I (Fin m) N) : PreCalcGround N where
  nGrounds := ((List.finRange m).filter ss.isGround).length
  walls := maskSelect ss.isGround fun j => ⟨ss.ratio j, ss.phiA0 j, ss.phiA1 j, ss.hR j, ss.hC j⟩
  thetaO := ss.thetaO
  thetaOAve := ss.thetaOAve

/-- One row of `GroundConditions`, `core/conditions.py` 60-68. -/
structure GroundCell where
  dshA : Fin 12 → ℝ
  qSrf : ℝ

/-- `core/conditions.py` 129-142. -/
def initialGround (nGrounds : ℕ) : List GroundCell := List.replicate nGrounds ⟨fun _ => 0, 0⟩

/-- `core/sequence_ground.py` 12. -/
def groundDshA (w : GroundWall) (g : GroundCell) (m : Fin 12) : ℝ := w.phiA1 m * g.qSrf + w.ratio m * g.dshA m

/-- `core/sequence_ground.py` 14-16 (10 for `h_i`). -/
noncomputable def groundThetaS (w : GroundWall) (thetaO ave : ℝ) (dshA : Fin 12 → ℝ) : ℝ :=
  (w.phiA0 * (w.hR + w.hC) * thetaO + (∑ m, dshA m) + ave) / (1 + w.phiA0 * (w.hR + w.hC))

/-- `core/sequence_ground.py` 8-24 for one ground boundary. -/
noncomputable def groundStep (w : GroundWall) (thetaO ave : ℝ) (g : GroundCell) : GroundCell where
  dshA := groundDshA w g
  qSrf := (w.hR + w.hC) * (thetaO - groundThetaS w thetaO ave (groundDshA w g))

/-- `core/sequence_ground.py` 8-24, `run_tick` of the ground, for step number `n`. All arrays have `n_grounds` rows. -/
noncomputable def groundTick {N : ℕ} (ss : PreCalcGround N) (gc : List GroundCell) (n : ℤ) : Except PyErr (List GroundCell) := do
  let k ← pyIndex N n
  .ok (List.zipWith (fun w g => groundStep w (ss.thetaO k) ss.thetaOAve g) ss.walls gc)

/-- `core/conditions.py` 145-151, `update_conditions_by_ground_conditions`. -/
def updateByGround {I : Type} {m : ℕ} (isGround : Fin m → Bool) (c : Cond I (Fin m)) (gc : List GroundCell) :
    Except PyErr (Cond I (Fin m)) := do
  let dshA ← maskAssign isGround c.dshA (gc.map GroundCell.dshA)
  let qSrf ← maskAssign isGround c.qSrf (gc.map GroundCell.qSrf)
  .ok { c with dshA := dshA, qSrf := qSrf }

end HLC
