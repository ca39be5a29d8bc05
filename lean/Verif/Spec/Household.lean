import Mathlib.Algebra.BigOperators.Group.Finset.Basic
import Mathlib.Data.Fintype.BigOperators
import Verif.Model.Initializer
import Verif.Spec.Schedule

/-!
# Specification: what a day of a schedule adds up to (C130, C131)
-/

namespace HLC.Spec

/-- Floor area of all rooms of an input, m2. -/
def totalArea (d : Init.Input) : ℝ := (d.rooms.map Init.RoomDict.floorArea).sum

/-- Sum of a series over the 96 quarter hours of a day of the year. -/
noncomputable def overDay (f : Fin 35040 → ℝ) (d : Fin 365) : ℝ := ∑ q : Fin 96, f (quarter d q)

/-- Number of quarter hours of a day in which a series is positive. -/
noncomputable def quartersOf (f : Fin 35040 → ℝ) (d : Fin 365) : ℕ := by
  classical exact (Finset.univ.filter fun q : Fin 96 => 0 < f (quarter d q)).card

/-- The same house with other floor areas of its rooms. -/
def resized (d : Init.Input) (a : Init.RoomDict → ℝ) : Init.Input := { d with rooms := d.rooms.map fun r => { r with floorArea := a r } }

end HLC.Spec
