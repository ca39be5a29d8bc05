import Verif.Model.Py
import Mathlib.Analysis.SpecialFunctions.Complex.Arg
import Mathlib.Analysis.SpecialFunctions.Trigonometric.Arctan
import Mathlib.Data.List.OfFn

/-!
# Weather data (`weather/`)

A series of `n` hourly values is a function `Fin n → ℝ` (`n = 8760` in the data files). `np.nan` is `none`.
-/

namespace HLC.Weather

/-- `weather/calc_interval.py` 6-25, `get_n_hour`. -/
def nHour (interval : String) : Except PyErr ℕ :=
  if interval = "1h" then .ok 1 else if interval = "30m" then .ok 2 else if interval = "15m" then .ok 4 else .error .keyError

/-- `np.roll(a, 1)`: entry `k` of the result is entry `k - 1` of the argument, cyclically. -/
def roll1 {n : ℕ} (a : Fin n → ℝ) (k : Fin n) : ℝ := a ⟨(k + (n - 1)) % n, Nat.mod_lt _ (Nat.lt_of_le_of_lt (Nat.zero_le _) k.isLt)⟩

/-- `weather/weather_data.py` 92-98, the lookup of `alpha`. -/
noncomputable def alphas (interval : String) : Except PyErr (List ℝ) :=
  if interval = "30m" then .ok [1, 0.5] else if interval = "15m" then .ok [1, 0.75, 0.5, 0.25] else .error .keyError

/-- `weather/weather_data.py` 100-110: the two-dimensional interpolation and `flatten`. -/
noncomputable def interp2d {n : ℕ} (alpha : List ℝ) (data1 data2 : Fin n → ℝ) : List ℝ :=
  (List.ofFn fun k => alpha.map fun a => a * data1 k + (1 - a) * data2 k).flatten

/-- `weather/weather_data.py` 68-110, `_interpolate`. -/
noncomputable def interpolate {n : ℕ} (data : Fin n → ℝ) (interval : String) : Except PyErr (List ℝ) :=
  if interval = "1h" then .ok (List.ofFn (roll1 data))
  else do
    let alpha ← alphas interval
    .ok (interp2d alpha (roll1 data) data)

/-- `weather/weather_data.py` 113-135, `_get_filename`. -/
def filename (region : ℤ) : Except PyErr String :=
  if region = 1 then .ok "01_kitami.csv"
  else if region = 2 then .ok "02_iwamizawa.csv"
  else if region = 3 then .ok "03_morioka.csv"
  else if region = 4 then .ok "04_nagano.csv"
  else if region = 5 then .ok "05_utsunomiya.csv"
  else if region = 6 then .ok "06_okayama.csv"
  else if region = 7 then .ok "07_miyazaki.csv"
  else if region = 8 then .ok "08_naha.csv"
  else .error .keyError

/-- The five columns of a weather file. -/
structure Columns (n : ℕ) where
  temperature : Fin n → ℝ
  directNormal : Fin n → ℝ
  skyHorizontal : Fin n → ℝ
  outward : Fin n → ℝ
  humidity : Fin n → ℝ

/-- Result of `load`. -/
structure Series where
  thetaO : List ℝ
  iDn : List ℝ
  iSky : List ℝ
  rN : List ℝ
  xO : List ℝ

/-- `weather/weather_data.py` 11-65, `load`; `np.loadtxt` (42) is the parameter `read`. -/
noncomputable def load {n : ℕ} (read : String → Except PyErr (Columns n)) (region : ℤ) (interval : String) : Except PyErr Series := do
  let name ← filename region
  let w ← read name
  let thetaO ← interpolate w.temperature interval
  let iDn ← interpolate w.directNormal interval
  let iSky ← interpolate w.skyHorizontal interval
  let rN ← interpolate w.outward interval
  let xO ← interpolate w.humidity interval
  .ok ⟨thetaO, iDn, iSky, rN, xO.map (· / 1000)⟩

/-- `math.radians`, `np.radians`. -/
noncomputable def radians (x : ℝ) : ℝ := x * Real.pi / 180

/-- `weather/region_location.py` 7-33. -/
noncomputable def location (region : ℤ) : Except PyErr (ℝ × ℝ) :=
  if region = 1 then .ok (radians 43.82, radians 143.91)
  else if region = 2 then .ok (radians 43.21, radians 141.79)
  else if region = 3 then .ok (radians 39.70, radians 141.17)
  else if region = 4 then .ok (radians 36.66, radians 138.20)
  else if region = 5 then .ok (radians 36.55, radians 139.87)
  else if region = 6 then .ok (radians 34.66, radians 133.92)
  else if region = 7 then .ok (radians 31.94, radians 131.42)
  else if region = 8 then .ok (radians 26.21, radians 127.685)
  else .error .keyError

/-- `weather/solar_position.py` 78-87. -/
noncomputable def meridian : ℝ := radians 135

/-- `weather/solar_position.py` 90-114: day of the year at step `i` (`np.repeat(np.arange(365) + 1, 24 * n_hour)`). -/
def dayOf (nh i : ℕ) : ℕ := i / (24 * nh) + 1

/-- `weather/solar_position.py` 117-128: years since 1968. -/
def yearDiff : ℕ := 1989 - 1968

/-- `weather/solar_position.py` 131-142; `int` truncates a positive number. -/
noncomputable def perihelion (n : ℕ) : ℝ := 3.71 + 0.2596 * n - (⌊((n : ℝ) + 3) / 4⌋ : ℝ)

/-- `weather/solar_position.py` 145-162, mean anomaly. -/
noncomputable def meanAnomaly (d d0 : ℝ) : ℝ := 2 * Real.pi * (d - d0) / 365.2596

/-- `weather/solar_position.py` 165-177. -/
noncomputable def solstice (m : ℝ) (n : ℕ) : ℝ := radians (12.3901 + 0.0172 * (n + m / (2 * Real.pi)))

/-- `weather/solar_position.py` 180-191, true anomaly. -/
noncomputable def trueAnomaly (m : ℝ) : ℝ := m + radians (1.914 * Real.sin m + 0.02 * Real.sin (2 * m))

/-- `weather/solar_position.py` 194-207, equation of time, rad. -/
noncomputable def equationOfTime (m e v : ℝ) : ℝ :=
  (m - v) - Real.arctan (0.043 * Real.sin (2 * (v + e)) / (1 - 0.043 * Real.cos (2 * (v + e))))

/-- `weather/solar_position.py` 210-231, declination. -/
noncomputable def declination (e v : ℝ) : ℝ := Real.arcsin (Real.cos (v + e) * Real.sin (radians (-23.4393)))

/-- `weather/solar_position.py` 248-252: step length, h. -/
noncomputable def stepHours (interval : String) : Except PyErr ℝ :=
  if interval = "1h" then .ok 1 else if interval = "30m" then .ok 0.5 else if interval = "15m" then .ok 0.25 else .error .keyError

/-- `weather/solar_position.py` 234-257: standard time at step `i` (`np.tile(np.arange(24 * n_hour) * int_interval, 365)`). -/
noncomputable def timeOf (nh : ℕ) (step : ℝ) (i : ℕ) : ℝ := ((i % (24 * nh) : ℕ) : ℝ) * step

/-- `weather/solar_position.py` 260-274, hour angle. -/
noncomputable def hourAngle (t lambdaLoc lambdaMer et : ℝ) : ℝ := radians ((t - 12) * 15) + (lambdaLoc - lambdaMer) + et

/-- `weather/solar_position.py` 277-295, altitude. `np.arcsin` gives nan outside [-1, 1]; see the theorems. -/
noncomputable def altitude (phi omega delta : ℝ) : ℝ :=
  Real.arcsin (Real.sin phi * Real.sin delta + Real.cos phi * Real.cos delta * Real.cos omega)

/-- `np.arctan2(y, x)`. -/
noncomputable def arctan2 (y x : ℝ) : ℝ := Complex.arg ⟨x, y⟩

/-- `weather/solar_position.py` 298-337, azimuth; not a number at the zenith. -/
noncomputable def azimuth (omega phi delta h : ℝ) : Option ℝ :=
  if h ≠ Real.pi / 2 then
    some (arctan2 (Real.cos delta * Real.sin omega / Real.cos h)
      ((Real.sin h * Real.sin phi - Real.sin delta) / (Real.cos h * Real.cos phi)))
  else none

/-- `weather/solar_position.py` 10-75 for day of the year `d` and standard time `t`: declination and hour angle. -/
noncomputable def sunAngles (lambdaLoc d t : ℝ) : ℝ × ℝ :=
  let m := meanAnomaly d (perihelion yearDiff)
  let e := solstice m yearDiff
  let v := trueAnomaly m
  (declination e v, hourAngle t lambdaLoc meridian (equationOfTime m e v))

/-- `weather/solar_position.py` 10-75 at step `i`. -/
noncomputable def sunAt (phi lambdaLoc : ℝ) (nh : ℕ) (step : ℝ) (i : ℕ) : ℝ × Option ℝ :=
  let a := sunAngles lambdaLoc (dayOf nh i) (timeOf nh step i)
  let h := altitude phi a.2 a.1
  (h, azimuth a.2 phi a.1 h)

/-- `weather/solar_position.py` 10-75, `calc_solar_position`. -/
noncomputable def calcSolarPosition (phi lambdaLoc : ℝ) (interval : String) : Except PyErr (List (ℝ × Option ℝ)) := do
  let nh ← nHour interval
  let step ← stepHours interval
  .ok (List.ofFn fun i : Fin (365 * (24 * nh)) => sunAt phi lambdaLoc nh step i)

/-- The columns of the DataFrame. -/
structure Frame where
  temperature : List ℝ
  humidity : List ℝ
  directNormal : List ℝ
  skyHorizontal : List ℝ
  outward : List ℝ
  sun : List (ℝ × Option ℝ)

/-- `weather/weather.py` 54: assigning a column of another length than the index raises ValueError. -/
def setColumn {α : Type} (len : ℕ) (l : List α) : Except PyErr (List α) := if l.length = len then .ok l else .error .valueError

/-- `weather/weather.py` 9-71, `make_weather`; `rnd d` is `np.round` to `d` decimals (the tie rule of floating point numbers is not
modelled, see the hypotheses of the theorems). Writing the csv file is not modelled. -/
noncomputable def makeWeather {n : ℕ} (read : String → Except PyErr (Columns n)) (rnd : ℕ → ℝ → ℝ) (region : ℤ) (interval : String) :
    Except PyErr Frame := do
  let w ← load read region interval
  let loc ← location region
  let sun ← calcSolarPosition loc.1 loc.2 interval
  let nh ← nHour interval
  let temperature ← setColumn (8760 * nh) (w.thetaO.map (rnd 3))
  let humidity ← setColumn (8760 * nh) (w.xO.map (rnd 6))
  let directNormal ← setColumn (8760 * nh) w.iDn
  let skyHorizontal ← setColumn (8760 * nh) w.iSky
  let outward ← setColumn (8760 * nh) w.rN
  let sun ← setColumn (8760 * nh) sun
  .ok ⟨temperature, humidity, directNormal, skyHorizontal, outward, sun⟩

end HLC.Weather
