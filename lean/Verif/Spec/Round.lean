import Mathlib.Data.Real.Basic

/-!
# What rounding to decimal digits means
-/

namespace HLC.Spec

/-- `y` is `x` rounded to `d` decimal digits, ties going away from zero: `y` is a whole number of units `10^-d`, no
such number is nearer to `x`, and when `x` is exactly half way, `y` is the one of larger magnitude. -/
structure RoundsHalfAway (x : ℝ) (d : ℤ) (y : ℝ) : Prop where
  /-- `y` is a multiple of the unit. -/
  multiple : ∃ k : ℤ, y = k * (10 : ℝ) ^ (-d)
  /-- No multiple of the unit is nearer. -/
  nearest : ∀ k : ℤ, |x - y| ≤ |x - k * (10 : ℝ) ^ (-d)|
  /-- An equally near multiple of the unit is not larger in magnitude. -/
  ties : ∀ k : ℤ, |x - k * (10 : ℝ) ^ (-d)| = |x - y| → |(k : ℝ) * (10 : ℝ) ^ (-d)| ≤ |y|

end HLC.Spec
