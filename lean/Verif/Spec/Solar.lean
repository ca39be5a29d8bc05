import Verif.Model.Solar
import Verif.Spec.Weather
import Mathlib.MeasureTheory.Measure.Lebesgue.Basic

/-!
# Specification: solar radiation on surfaces (C45 to C48)
-/

namespace HLC.Spec

/-- Scalar product of vectors (west, south, up). -/
def dot (u v : ℝ × ℝ × ℝ) : ℝ := u.1 * v.1 + u.2.1 * v.2.1 + u.2.2 * v.2.2

/-- Outward unit normal (west, south, up) of a surface with azimuth `α` (south 0, west positive) and tilt `β` (0 facing up). -/
noncomputable def normal (α β : ℝ) : ℝ × ℝ × ℝ := (Real.sin β * Real.sin α, Real.sin β * Real.cos α, Real.cos β)

/-- The normals of the ten named directions, written out; `r` is the square root of one half. -/
noncomputable def namedNormal (direction : String) : Option (ℝ × ℝ × ℝ) :=
  let r := Real.sqrt 2 / 2
  if direction = "s" then some (0, 1, 0)
  else if direction = "sw" then some (r, r, 0)
  else if direction = "w" then some (1, 0, 0)
  else if direction = "nw" then some (r, -r, 0)
  else if direction = "n" then some (0, -1, 0)
  else if direction = "ne" then some (-r, -r, 0)
  else if direction = "e" then some (-1, 0, 0)
  else if direction = "se" then some (-r, r, 0)
  else if direction = "top" then some (0, 0, 1)
  else if direction = "bottom" then some (0, 0, -1)
  else none

/-- Points of a window (distance `y` below its upper edge) from which the sun is hidden by an infinitely long horizontal overhang: the
ray to the sun moves outward by `out` and upward by `up`; it reaches the height of the overhang, `dE + y` higher, at the distance
`(dE + y) * out / up` from the wall, and is hidden if that is within the depth of the overhang. -/
def shaded (depth dE out up : ℝ) : Set ℝ := {y | (dE + y) * out ≤ depth * up}

end HLC.Spec
