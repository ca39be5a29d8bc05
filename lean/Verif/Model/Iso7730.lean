import Verif.Model.Psychrometrics
import Mathlib.Analysis.SpecialFunctions.Pow.Real

/-!
# PMV and PPD of ISO 7730 (`external/iso7730.py`)

`scipy.optimize.newton` is a parameter `newton`: it maps the function and the start value to the number it returns; a failure to
converge (RuntimeError) is not modelled. `math.sqrt` of a negative air velocity (ValueError) and `math.log` of a non-positive
temperature (ValueError) are not modelled.
-/

namespace HLC.Iso

/-- `external/iso7730.py` 56-68, `get_h_c`. -/
noncomputable def hC (ta tcl var : ℝ) : ℝ := max (12.1 * Real.sqrt var) (2.38 * |tcl - ta| ^ (0.25 : ℝ))

/-- `external/iso7730.py` 96-107, `get_skin_temperature`. -/
noncomputable def skin (m w : ℝ) : ℝ := 35.7 - 0.028 * (m - w)

/-- `external/iso7730.py` 110-122, `get_radiative_heat_loss_from_clothing`. -/
noncomputable def radLoss (fcl tcl tr : ℝ) : ℝ := 3.96 * 10 ^ (-8 : ℤ) * fcl * ((tcl + 273) ^ 4 - (tr + 273) ^ 4)

/-- `external/iso7730.py` 200-213, `get_convective_heat_loss_from_clothing`. -/
noncomputable def convLoss (fcl hc ta tcl : ℝ) : ℝ := fcl * hc * (tcl - ta)

/-- `external/iso7730.py` 71-93, `get_t_cl`. -/
noncomputable def tclEq (fcl icl ta tcl var tr m w : ℝ) : ℝ :=
  skin m w - icl * (radLoss fcl tcl tr + convLoss fcl (hC ta tcl var) ta tcl)

/-- `external/iso7730.py` 159-170, `get_latent_heat_loss_from_skin`. -/
noncomputable def skinLatent (m pa w : ℝ) : ℝ := 3.05 * 10 ^ (-3 : ℤ) * (5733 - 6.99 * (m - w) - pa)

/-- `external/iso7730.py` 173-184, `get_latent_heat_loss_with_breathing`. -/
noncomputable def breathLatent (m pa : ℝ) : ℝ := 1.7 * 10 ^ (-5 : ℤ) * m * (5867 - pa)

/-- `external/iso7730.py` 187-197, `get_sensible_heat_loss_with_breathing`. -/
noncomputable def breathSensible (m ta : ℝ) : ℝ := 0.0014 * m * (34 - ta)

/-- `external/iso7730.py` 216-227, `get_the_sweating_heat_loss`. -/
noncomputable def sweating (m w : ℝ) : ℝ := max (0.42 * ((m - w) - 58.15)) 0

/-- `external/iso7730.py` 292-305, `get_ppd`. -/
noncomputable def ppd (pmv : ℝ) : ℝ := 100 - 95 * Real.exp (-0.03353 * pmv ^ 4 - 0.2179 * pmv ^ 2)

/-- `external/iso7730.py` 125-156, `get_pmv`. -/
noncomputable def pmvOf (fcl hc m pa ta tcl tr w : ℝ) : ℝ :=
  (0.303 * Real.exp (-0.036 * m) + 0.028) * ((m - w) - skinLatent m pa w - sweating m w - breathLatent m pa - breathSensible m ta
    - radLoss fcl tcl tr - convLoss fcl hc ta tcl)

/-- `external/iso7730.py` 308-334, `saturated_vapor_pressure_SONNTAG`. -/
noncomputable def sonntag (status : String) (t : ℝ) : Except PyErr (ℝ × ℝ) :=
  if status = "water" then
    .ok (Real.exp (-6096.9385 / t + 21.2409642 + -0.02711193 * t + 0.00001673952 * t ^ 2 + 2.433502 * Real.log t),
      Real.exp (-6096.9385 / t + 21.2409642 + -0.02711193 * t + 0.00001673952 * t ^ 2 + 2.433502 * Real.log t)
        * (-(-6096.9385) / t ^ 2 + -0.02711193 + 2 * 0.00001673952 * t + 2.433502 / t))
  else if status = "ice" then
    .ok (Real.exp (-6024.5282 / t + 29.32707 + 0.010613863 * t + -0.000013198825 * t ^ 2 + -0.49382577 * Real.log t),
      Real.exp (-6024.5282 / t + 29.32707 + 0.010613863 * t + -0.000013198825 * t ^ 2 + -0.49382577 * Real.log t)
        * (-(-6024.5282) / t ^ 2 + 0.010613863 + 2 * -0.000013198825 * t + -0.49382577 / t))
  else .error .keyError

/-- `external/iso7730.py` 230-245, `get_p_a`. -/
noncomputable def getPa (rh ta : ℝ) : Except PyErr ℝ := do
  let s ← sonntag "water" (ta + 273.15)
  .ok (rh / 100 * s.1)

/-- `external/iso7730.py` 273-289, `get_f_cl`. -/
noncomputable def fCl (icl : ℝ) : ℝ := if icl ≤ 0.078 then 1 + 1.290 * icl else 1.05 + 0.645 * icl

/-- `external/iso7730.py` 6-53, `get_pmv_ppd` (248-270 for the unit conversions). -/
noncomputable def pmvPpd (newton : (ℝ → ℝ) → ℝ → ℝ) (met peff ta tr clo var rh : ℝ) : Except PyErr (ℝ × ℝ) := do
  let pa ← getPa rh ta
  let icl := clo * 0.155
  let m := met * 58.15
  let w := peff * 58.15
  let tcl := newton (fun t => tclEq (fCl icl) icl ta t var tr m w - t) 0.001
  let pmv := pmvOf (fCl icl) (hC ta tcl var) m pa ta tcl tr w
  .ok (pmv, ppd pmv)

end HLC.Iso
