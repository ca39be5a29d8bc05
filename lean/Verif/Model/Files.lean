import Verif.Model.Whole

/-!
# The files in the working directory (`initializer/initializer.py` 145-189, `core/pre_calc_parameters.py` 215-410)

`make_house` writes eight files one after the other; `calc` reads them. The directory is modelled as a map from the names of these files to their
contents, and a run of `make_house` as the list of its effects on it, so that a run can be stopped after any of them.
-/

namespace HLC.Init

/-! ## Numbers as they are written -/

/-- A number of a JSON file: `json.load` makes an integer of `60` and a float of `60.0`. -/
inductive JNum
  | int (n : ℤ)
  | float (x : ℝ)

/-- The number. -/
def JNum.value : JNum → ℝ
  | .int n => n
  | .float x => x

/-- Whether it is written as an integer. -/
def JNum.isInt : JNum → Bool
  | .int _ => true
  | .float _ => false

/-- An element of a numpy array of numbers. -/
inductive NpNum
  | int64 (x : ℝ)
  | float64 (x : ℝ)

/-- `np.array([r['volume'] for r in rooms])` (`initializer/initializer.py` 347): an array of integers if all numbers are integers, otherwise of floats.
Integers that do not fit in 64 bits are not modelled. -/
def npArray (l : List JNum) : List NpNum := if l.all JNum.isInt then l.map (fun x => .int64 x.value) else l.map (fun x => .float64 x.value)

/-- `json.dump` of a number: `np.float64` is a Python float; `np.int64` is not a Python integer and raises TypeError. -/
def dumpNum : NpNum → Except PyErr ℝ
  | .int64 _ => .error .typeError
  | .float64 x => .ok x

/-- `json.dump(wd, f, indent=4)` (`initializer/initializer.py` 153-154). Of the numbers in `wd` only the volumes are elements of an array whose type
depends on the input (575: `v_room_cap_is[i]`); the others are Python numbers or results of a division. `vols` are the volumes as they are written in the
input. -/
def dumpHouse (vols : List JNum) (h : HouseFile) : Except PyErr HouseFile := do
  let v ← (npArray vols).mapM dumpNum
  return { h with spaces := List.zipWith (fun s x => { s with volume := x }) h.spaces v }

/-! ## The directory -/

/-- The files written by `make_house` (`initializer/initializer.py` 153, 157, 162, 167, 172, 177, 182, 187). -/
inductive FileName
  | house
  | localVent
  | heatGeneration
  | moistureGeneration
  | occupants
  | acDemand
  | qTrsSol
  | thetaOSol
  deriving DecidableEq

/-- What is in a file. `torn`: opened for writing, and not, or not completely, written. -/
inductive Content
  | house (h : HouseFile)
  | table (rows : List (List ℝ))
  | torn

/-- The directory: the contents of the files that exist. -/
abbrev Dir := FileName → Option Content

/-- What happens to the directory: `open(name, 'w')` empties the file or creates it; at the end of the `with` block the contents are there. -/
inductive Effect
  | opened (name : FileName)
  | closed (name : FileName) (c : Content)

/-- The directory after an effect. -/
def Effect.apply (dir : Dir) : Effect → Dir
  | .opened name => Function.update dir name (some .torn)
  | .closed name c => Function.update dir name (some c)

/-- A table with the series as columns (`.T.tolist()` and `writerows`, `initializer/initializer.py` 157-179). -/
def rowsOf (cols : List (Fin 35040 → ℝ)) : List (List ℝ) := List.ofFn fun t => cols.map fun c => c t

/-- A table with the series as columns (`initializer/initializer.py` 182-189), for series of one length (that of the first). -/
def rowsOfSeries (l : List (List ℝ)) : List (List ℝ) := (List.range (l.headD []).length).map fun t => l.map fun s => s.getD t 0

/-- `initializer/initializer.py` 147-189: the files in the order in which they are written. -/
def contents (h : HouseFile) (o : Output) : List (FileName × Content) :=
  [(.house, .house h), (.localVent, .table (rowsOf (o.schedules.map Compiled.vLocal))), (.heatGeneration, .table (rowsOf (o.schedules.map Compiled.qGen))),
   (.moistureGeneration, .table (rowsOf (o.schedules.map Compiled.xGen))), (.occupants, .table (rowsOf (o.schedules.map Compiled.nHum))),
   (.acDemand, .table (rowsOf (o.schedules.map Compiled.acDemand))), (.qTrsSol, .table (rowsOfSeries o.qTrsSol)),
   (.thetaOSol, .table (rowsOfSeries o.thetaOSol))]

/-- A run of a program that writes files: its effects and how it ends. -/
structure FileRun where
  effects : List Effect
  result : Except PyErr Unit

/-- The directory after the first `k` effects. -/
def FileRun.after (r : FileRun) (k : ℕ) (dir : Dir) : Dir := (r.effects.take k).foldl Effect.apply dir

/-- The directory at the end. -/
def FileRun.final (r : FileRun) (dir : Dir) : Dir := r.effects.foldl Effect.apply dir

/-- `initializer/initializer.py` 76-189, `make_house`, with the writing of the files. Everything is computed before the first file is opened; `json.dump`
may then raise an error with the first file open. -/
noncomputable def makeHouseRun (rnd : ℕ → ℝ → ℝ) (w : List Step) (f : ScheduleFile) (vols : List JNum) (d : Input) : FileRun :=
  match makeHouse rnd w f d with
  | .error e => ⟨[], .error e⟩
  | .ok o =>
    match dumpHouse vols ⟨o.building, o.spaces, o.boundaries⟩ with
    | .error e => ⟨[.opened .house], .error e⟩
    | .ok h => ⟨(contents h o).flatMap fun c => [.opened c.1, .closed c.1 c.2], .ok ()⟩

/-! ## Reading -/

/-- `core/pre_calc_parameters.py` 217-218: a file that does not exist raises FileNotFoundError, a torn one JSONDecodeError, which is a ValueError (no
proper beginning of the text of a JSON object is the text of one). -/
def readHouseFile : Option Content → Except PyErr HouseFile
  | some (.house h) => .ok h
  | none => .error .exception
  | _ => .error .valueError

/-- `core/pre_calc_parameters.py` 377-410: a table, `np.array([row for row in r]).T`. Torn tables and tables that have not 35040 rows of `n` entries are not
modelled (an error here). -/
noncomputable def readTable (n : ℕ) : Option Content → Except PyErr (Fin n → Fin 35040 → ℝ)
  | some (.table rows) =>
    if rows.length = 35040 ∧ ∀ r ∈ rows, r.length = n then .ok fun i t => (rows.getD t.1 []).getD i.1 0 else .error .valueError
  | none => .error .exception
  | _ => .error .valueError

/-- `core/pre_calc_parameters.py` 217-410: all files. -/
noncomputable def Dir.read (dir : Dir) : Except PyErr Output := do
  let h ← readHouseFile (dir .house)
  let v ← readTable h.spaces.length (dir .localVent)
  let q ← readTable h.spaces.length (dir .heatGeneration)
  let x ← readTable h.spaces.length (dir .moistureGeneration)
  let n ← readTable h.spaces.length (dir .occupants)
  let a ← readTable h.spaces.length (dir .acDemand)
  let s ← readTable h.spaces.length (dir .qTrsSol)
  let t ← readTable h.boundaries.length (dir .thetaOSol)
  return { building := h.building
           spaces := h.spaces
           boundaries := h.boundaries
           schedules := List.ofFn fun i => ⟨q i, x i, v i, n i, a i⟩
           qTrsSol := List.ofFn fun i => List.ofFn (s i)
           thetaOSol := List.ofFn fun j => List.ofFn (t j) }

/-- `core/core.py` 12-105, `calc`, on a directory. `temp` and `hum` are the columns of `weather.csv`. -/
noncomputable def calcDir (rnd : ℕ → ℝ → ℝ) (solve : List ℝ → ℝ) (temp hum : Fin 35040 → ℝ) (hourly dMain dRunUp dRunUpBuild : ℤ) (dir : Dir) :
    Except PyErr (Digest × Table) := do
  let o ← dir.read
  calcFiles rnd solve temp hum hourly dMain dRunUp dRunUpBuild o

end HLC.Init
