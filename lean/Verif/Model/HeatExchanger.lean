import Verif.Model.Psychrometrics

/-!
# Cooling coil (`core/heat_exchanger.py`), elementwise per room
-/

namespace HLC

/-- Specification of a room air conditioner, `core/pre_calc_parameters.py` 290-293, 546-551. -/
structure RacSpec where
  qMin : ℝ
  qMax : ℝ
  vMin : ℝ
  vMax : ℝ

/-- `core/heat_exchanger.py` 59-62: blown air volume, m3/s. `q_max = q_min` would give inf/nan in numpy. -/
noncomputable def getVac (s : RacSpec) (qs : ℝ) : ℝ :=
  (s.vMin + (s.vMax - s.vMin) / (s.qMax - s.qMin) * (qs - s.qMin)) / 60

/-- `core/heat_exchanger.py` 26: bypass factor. -/
noncomputable def bypass : ℝ := 0.2

/-- `core/heat_exchanger.py` 48-56: saturation humidity at the coil outlet temperature. -/
noncomputable def getXeOut (qs thetaR vac : ℝ) : ℝ :=
  getX (getPvs (thetaR - qs / (cAir * rhoAir * vac * (1 - bypass))))

/-- The pair `(brmx_rac, brxc_rac)` of one room (the matrix is diagonal). -/
structure DehumCoef where
  brmx : ℝ
  brxc : ℝ

/-- `core/heat_exchanger.py` 8-45, `get_dehumid_coeff` for one room. -/
noncomputable def getDehumidCoeff (lcs thetaR : ℝ) (s : RacSpec) (xNonDh : ℝ) : DehumCoef :=
  let qs := -lcs
  let dh : Bool := decide (qs > 0.001)
  let vac0 := if dh then getVac s qs else 0
  let xe := if dh then getXeOut qs thetaR vac0 else 0
  let vac := vac0 * (1 - bypass)
  { brmx := if xe > xNonDh then 0 else rhoAir * vac
    brxc := if xe > xNonDh then 0 else rhoAir * vac * xe }

end HLC
