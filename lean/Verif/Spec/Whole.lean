import Verif.Model.Initializer
import Verif.Spec.Weather
import Verif.Spec.Schedule

/-!
# Specification: what the files say about a quarter of an hour of the year (C122)
-/

namespace HLC.Spec

open HLC.Init HLC.Weather

/-- An hourly column of the file at quarter `k` of the year: linear between the values of the hours before and after. -/
noncomputable def atQuarter (data : Fin 8760 → ℝ) (k : ℕ) : ℝ :=
  (1 - ((k % 4 : ℕ) : ℝ) / 4) * atHour data (by norm_num) (k / 4) + ((k % 4 : ℕ) : ℝ) / 4 * atHour data (by norm_num) (k / 4 + 1)

/-- The weather at quarter `k` of the year at a place (latitude, longitude): the data of the file for that time (the temperature rounded to three
decimals), with the sun where it is on that day at that time. -/
structure LineAt (place : ℝ × ℝ) (W : Columns 8760) (k : ℕ) (s : Step) : Prop where
  temperature : |s.thetaO - atQuarter W.temperature k| ≤ 0.0005
  direct : s.iDn = atQuarter W.directNormal k
  sky : s.iSky = atQuarter W.skyHorizontal k
  night : s.rN = atQuarter W.outward k
  sun : ofAngles s.hSun s.aSun = sunVector place.1 (sunAngles place.2 ((k / 96 : ℕ) + 1) (((k % 96 : ℕ) : ℝ) / 4)).1
    (sunAngles place.2 ((k / 96 : ℕ) + 1) (((k % 96 : ℕ) : ℝ) / 4)).2

/-- `g` is the solar gain that the initializer works out for the part `b` in a weather that consists of the line `s` only. -/
def PartGain (b : BoundaryDict) (s : Step) (g : ℝ) : Prop := ∃ x, getBoundarySimple [s] b = .ok x ∧ x.qTrsSol.head? = some g

end HLC.Spec
