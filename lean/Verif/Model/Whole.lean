import Verif.Model.Reader
import Verif.Model.Record
import Verif.Model.ShapeFactor

/-!
# Both programs one after the other

The way the examples use the package: `initializer.make_house` writes the intermediate files and `core.calc` reads them from the same directory
(`example/example1.py` 17-21).
-/

namespace HLC.Init

/-- The column 'temperature' of `weather.csv` (`core/pre_calc_parameters.py` 374); missing lines are not modelled (0 here). -/
noncomputable def temperatureColumn (w : List Step) (t : Fin 35040) : ℝ := (w[t.1]?.map Step.thetaO).getD 0

/-- `core/core.py` 12-105, `calc`, on the files `o` written by `make_house`. -/
noncomputable def calcFiles (rnd : ℕ → ℝ → ℝ) (solve : List ℝ → ℝ) (temp hum : Fin 35040 → ℝ) (hourly dMain dRunUp dRunUpBuild : ℤ) (o : Output) :
    Except PyErr (Digest × Table) := do
  let h ← readHouse o
  calcTables rnd h (getHr solve h.area h.room) (readRecord temp hum o) hourly dMain dRunUp dRunUpBuild

/-- `make_house` and `calc` one after the other (`example/example1.py` 17-21): the digest and the detailed table. `w` are the lines of
`weather.csv`, `hum` is its column 'absolute humidity', `f` is `schedules.json`, `d` the input file. -/
noncomputable def calculate (rnd : ℕ → ℝ → ℝ) (solve : List ℝ → ℝ) (w : List Step) (hum : Fin 35040 → ℝ) (f : ScheduleFile)
    (hourly dMain dRunUp dRunUpBuild : ℤ) (d : Input) : Except PyErr (Digest × Table) := do
  let o ← makeHouse rnd w f d
  calcFiles rnd solve (temperatureColumn w) hum hourly dMain dRunUp dRunUpBuild o

/-- The lines of `weather.csv` as the initializer reads them (`initializer/initializer.py` 244-277), from the columns written by `make_weather`. A sun
in the zenith (no azimuth) is not modelled (0 here); by `C44_year` it does not occur. -/
noncomputable def frameSteps (fr : Weather.Frame) : List Step :=
  (List.range fr.temperature.length).map fun i =>
    ⟨fr.temperature.getD i 0, fr.directNormal.getD i 0, fr.skyHorizontal.getD i 0, fr.outward.getD i 0, (fr.sun.getD i (0, none)).1,
      ((fr.sun.getD i (0, none)).2).getD 0⟩

/-- `example/example1.py` 9-21: the three programs one after the other. `read` is the reading of the weather file of a region, `region` is
`d['common']['region']`. -/
noncomputable def runAll (read : String → Except PyErr (Weather.Columns 8760)) (rnd : ℕ → ℝ → ℝ) (solve : List ℝ → ℝ) (region : ℤ) (f : ScheduleFile)
    (hourly dMain dRunUp dRunUpBuild : ℤ) (d : Input) : Except PyErr (Digest × Table) := do
  let fr ← Weather.makeWeather read rnd region "15m"
  calculate rnd solve (frameSteps fr) (fun t => fr.humidity.getD t.1 0) f hourly dMain dRunUp dRunUpBuild d

end HLC.Init
