import Verif.Model.Py
import Mathlib.Algebra.Order.Floor.Ring
import Mathlib.Algebra.Order.Archimedean.Real.Basic

/-!
# Decimal rounding (`convert/general_functions.py`)
-/

namespace HLC.Conv

/-- `convert/general_functions.py` 30: `math.copysign(1, num)`; the two float zeros give the same result below. -/
noncomputable def signOf (x : ℝ) : ℝ := if x < 0 then -1 else 1

/-- `convert/general_functions.py` 4-31, `round_num`. -/
noncomputable def roundNum (num : ℝ) (digit : ℤ) : ℝ :=
  let power : ℝ := 10 ^ digit
  let sign := signOf num
  (⌊sign * power * num + 0.5⌋ : ℝ) / (sign * power)

end HLC.Conv
