import Verif.Model.Core
import Mathlib.Analysis.Real.Sqrt
import Mathlib.Data.Real.Sign

/-!
# Shape factors and radiative coefficients (`core/shape_factor.py`)

`scipy.optimize.fsolve` is a parameter `solve`: it maps the area ratios of a room to the number it returns. What is assumed about
it (that the number is a root) is a hypothesis of the theorems.
-/

namespace HLC

/-- `core/shape_factor.py` 85-95, `_get_f_j`. Division by `f_ver = 0` gives inf in numpy and 0 here. -/
noncomputable def getFj (fVer r : ℝ) : ℝ := 0.5 * (1 - Real.sign (1 - 4 * r / fVer) * Real.sqrt |1 - 4 * r / fVer|)

/-- `core/shape_factor.py` 79-80: the function whose root is sought. -/
noncomputable def shapeEq (rs : List ℝ) (fVer : ℝ) : ℝ := (rs.map (getFj fVer)).sum - 1

/-- `core/shape_factor.py` 55: area ratios. -/
noncomputable def areaRatios (as : List ℝ) : List ℝ := as.map (· / as.sum)

/-- `core/shape_factor.py` 45-67, `_get_f_i_js` (the message of 64-65 is not modelled). -/
noncomputable def getFi (solve : List ℝ → ℝ) (as : List ℝ) : List ℝ :=
  (areaRatios as).map (getFj (solve (areaRatios as)))

/-- `core/shape_factor.py` 31-33: radiative coefficient from the shape factor. -/
noncomputable def hrOfShape (f : ℝ) : ℝ := eps / (1 - eps * f) * 4 * sgm * (273.15 + 20) ^ 3

/-- `core/shape_factor.py` 8-35, `get_h_r_js`: the coefficients of room 0, then of room 1, ... concatenated. -/
noncomputable def getHrList {k m : ℕ} (solve : List ℝ → ℝ) (area : Fin m → ℝ) (room : Fin m → Fin k) : List ℝ :=
  ((List.finRange k).flatMap fun i => getFi solve (maskSelect (fun j => decide (room j = i)) area)).map hrOfShape

/-- `core/shape_factor.py` 35: `[j, 1]` array; entry `j` is used for boundary `j` (`core/pre_calc_parameters.py` 463-469). -/
noncomputable def getHr {k m : ℕ} (solve : List ℝ → ℝ) (area : Fin m → ℝ) (room : Fin m → Fin k) (j : Fin m) : ℝ :=
  (getHrList solve area room).getD j 0

/-- `core/core.py` 12-89 with the radiative coefficients computed as in `core/pre_calc_parameters.py` 463. -/
noncomputable def program {k m N : ℕ} (solve : List ℝ → ℝ) (h : House (Fin k) (Fin m)) (data : Fin N → Record (Fin k) (Fin m))
    (hourly dMain dRunUp dRunUpBuild : ℤ) : Except PyErr (CalcResult (Fin k) m N) :=
  coreCalc h (getHr solve h.area h.room) data hourly dMain dRunUp dRunUpBuild

end HLC
