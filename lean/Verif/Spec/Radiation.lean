import Verif.Spec.Balance
import Mathlib.Analysis.Real.Sqrt

/-!
# Specification: Nagata's shape factors of the surfaces of a room (C33, C34)
-/

namespace HLC.Spec

/-- Shape factor of a surface with area share `r`, seen from a small sphere, for the room constant `v`. -/
noncomputable def factor (v r : ℝ) : ℝ :=
  if 4 * r ≤ v then (1 - Real.sqrt (1 - 4 * r / v)) / 2 else (1 + Real.sqrt (4 * r / v - 1)) / 2

variable {k m : ℕ}

/-- Total area of the surfaces of room `i`. -/
def roomArea (area : Fin m → ℝ) (room : Fin m → Fin k) (i : Fin k) : ℝ := ∑ l ∈ Finset.univ.filter (fun l => room l = i), area l

/-- Share of boundary `j` in the total area of the surfaces of its room. -/
noncomputable def share (area : Fin m → ℝ) (room : Fin m → Fin k) (j : Fin m) : ℝ := area j / roomArea area room (room j)

/-- The room constant is the positive number for which the factors of the surfaces of room `i` sum to one. -/
def IsRoomConst (area : Fin m → ℝ) (room : Fin m → Fin k) (i : Fin k) (v : ℝ) : Prop :=
  0 < v ∧ ∑ l ∈ Finset.univ.filter (fun l => room l = i), factor v (share area room l) = 1

/-- Radiative coefficient of a surface of emissivity 0.9 and shape factor `f` at 20 degC, W/(m2 K). -/
noncomputable def radiative (f : ℝ) : ℝ := 0.9 / (1 - 0.9 * f) * 4 * (5.67 * (10 : ℝ) ^ (-8 : ℤ)) * 293.15 ^ 3

end HLC.Spec
