import Verif.Model.Core
import Verif.Model.Files

/-!
# Tables of different lengths (`core/pre_calc_parameters.py` 372-410, `core/sequence.py` 37-59)

Every table of the working directory is read as it is; nothing compares their numbers of rows. `run_tick` takes column `n` of each, so a negative
step number counts from the end of the table it is applied to. `coreCalc` is the case of tables of one length (`C133_equal`).
-/

namespace HLC

/-- The series read from the csv files (`core/pre_calc_parameters.py` 372-410), each with its own number of rows; `weather.csv` has `W`. -/
structure Sheets (I J : Type) (W : ℕ) where
  thetaO : Fin W → ℝ
  xO : Fin W → ℝ
  nVent : ℕ
  vLocal : Fin nVent → I → ℝ
  nHeat : ℕ
  qGen : Fin nHeat → I → ℝ
  nMoist : ℕ
  xGen : Fin nMoist → I → ℝ
  nPeople : ℕ
  nHum : Fin nPeople → I → ℝ
  nDemand : ℕ
  acDemand : Fin nDemand → I → ℝ
  nSun : ℕ
  qTrsSol : Fin nSun → I → ℝ
  nOut : ℕ
  thetaOSol : Fin nOut → J → ℝ

/-- `core/sequence.py` 37-59, 95: the columns of step `n`, as far as they come from the files. The derived series have the lengths of the tables they
are computed from: `v_mec_vent` that of the local ventilation (`core/pre_calc_parameters.py` 472), `q_sol_frt` and `q_sol` that of the sun (478, 484),
`theta_dstrb` that of the outdoor temperatures (488); the length of WSC (503-515) is the larger of the last two if they differ (`broadcast`), and its
column `n` is that of the columns `n` of both. Which of several errors comes first is not modelled. -/
def Sheets.row {I J : Type} {W : ℕ} (S : Sheets I J W) (n : ℤ) : Except PyErr (Record I J) := do
  let a ← pyIndex S.nDemand n
  let o ← pyIndex S.nOut n
  let p ← pyIndex S.nPeople n
  let q ← pyIndex S.nHeat n
  let x ← pyIndex S.nMoist n
  let v ← pyIndex S.nVent n
  let s ← pyIndex S.nSun n
  let w ← pyIndex W n
  .ok {
    thetaO := S.thetaO w, xO := S.xO w, vLocal := S.vLocal v, qGen := S.qGen q, xGen := S.xGen x, nHum := S.nHum p, acDemand := S.acDemand a,
    qTrsSol := S.qTrsSol s, thetaOSol := S.thetaOSol o }

/-- The sum of arrays with `a` and `b` columns in numpy: equal numbers, or one of them 1; otherwise ValueError. -/
def broadcast (a b : ℕ) : Except PyErr Unit := if a = b ∨ a = 1 ∨ b = 1 then .ok () else .error .valueError

section
variable {I : Type} [Fintype I] [DecidableEq I] {m W : ℕ}

/-- What `calc` has computed before the result tables are assembled (`core/core.py` 89), without the parameters. -/
structure SheetResult (I : Type) (m : ℕ) where
  nMain : ℤ
  ground : List GroundCell
  final : Cond I (Fin m)
  log : Logger I (Fin m) nMain.toNat

/-- `core/pre_calc_parameters.py` 611-620. -/
noncomputable def sheetGround (h : House I (Fin m)) (hR : Fin m → ℝ) (S : Sheets I (Fin m) W) : PreCalcGround W where
  nGrounds := ((List.finRange m).filter h.isGround).length
  walls := maskSelect h.isGround fun j => ⟨h.ratio j, h.phiA0 j, h.phiA1 j, hR j, h.hC j⟩
  thetaO := S.thetaO
  thetaOAve := (∑ n, S.thetaO n) / W

/-- `core/sequence.py` 16-283 for step `n`: all parameters that depend on time are taken for the columns of that step. -/
noncomputable def sheetTick (h : House I (Fin m)) (hR : Fin m → ℝ) (dt : ℝ) (ivs : Matrix (Fin m) (Fin m) ℝ) (S : Sheets I (Fin m) W) {M : ℕ}
    (runUp : Bool) (s : Cond I (Fin m) × Logger I (Fin m) M) (n : ℤ) : Except PyErr (Cond I (Fin m) × Logger I (Fin m) M) := do
  let d ← S.row n
  let t ← tickAt (preCalcOf h hR dt (fun _ : Fin 1 => d) ivs) dt 0 s.1
  let log ← logUnless runUp s.2 n t
  .ok (t.next, log)

/-- `core/core.py` 12-89, `calc`, with tables of any lengths. -/
noncomputable def sheetCalc (h : House I (Fin m)) (hR : Fin m → ℝ) (S : Sheets I (Fin m) W) (hourly dMain dRunUp dRunUpBuild : ℤ) :
    Except PyErr (SheetResult I m) := do
  let steps ← getNStep hourly dMain dRunUp dRunUpBuild
  let dt ← deltaT hourly
  let ivs ← npInv (h.ax hR)
  broadcast S.nSun S.nOut
  let ppg := sheetGround h hR S
  let gc ← (pyRange (-steps.runUp) (-steps.runUpBuild)).foldlM (groundTick ppg) (initialGround ppg.nGrounds)
  let log0 ← newLogger I (Fin m) steps.main
  let c0 ← updateByGround h.isGround (initialConditions I (Fin m)) gc
  let (c1, log1) ← (pyRange (-steps.runUpBuild) 0).foldlM (sheetTick h hR dt ivs S true) (c0, log0)
  let (c2, log2) ← (pyRange 0 steps.main).foldlM (sheetTick h hR dt ivs S false) (c1, log1)
  .ok { nMain := steps.main, ground := gc, final := c2, log := log2 }

end

namespace Init

/-- `np.array([row for row in r]).T` of a csv file: a table of equally long rows of `n` numbers, of any number of rows. Rows of different lengths are a
ValueError (numpy 1.24 and later); a table with another number of columns is not modelled (a ValueError here). -/
noncomputable def readSheet (n : ℕ) : Option Content → Except PyErr (List (List ℝ))
  | some (.table rows) => if ∀ r ∈ rows, r.length = n then .ok rows else .error .valueError
  | none => .error .exception
  | _ => .error .valueError

/-- A table as a series of columns of the array. -/
noncomputable def sheetRow {n : ℕ} (rows : List (List ℝ)) (t : Fin rows.length) (i : Fin n) : ℝ := (rows.getD t.1 []).getD i.1 0

/-- The series of the tables read (`core/pre_calc_parameters.py` 372-410). -/
noncomputable def sheetsOf {W n m : ℕ} (temp hum : Fin W → ℝ) (v q x p a s o : List (List ℝ)) : Sheets (Fin n) (Fin m) W where
  thetaO := temp
  xO := hum
  nVent := v.length
  vLocal := sheetRow v
  nHeat := q.length
  qGen := sheetRow q
  nMoist := x.length
  xGen := sheetRow x
  nPeople := p.length
  nHum := sheetRow p
  nDemand := a.length
  acDemand := sheetRow a
  nSun := s.length
  qTrsSol := sheetRow s
  nOut := o.length
  thetaOSol := sheetRow o

/-- `core/core.py` 12-89, `calc`, on a directory whose tables may have any number of rows: everything before the result tables are assembled. -/
noncomputable def simulateDir (solve : List ℝ → ℝ) {W : ℕ} (temp hum : Fin W → ℝ) (hourly dMain dRunUp dRunUpBuild : ℤ) (dir : Dir) :
    Except PyErr Unit := do
  let f ← readHouseFile (dir .house)
  let h ← readHouse { building := f.building, spaces := f.spaces, boundaries := f.boundaries, schedules := [], qTrsSol := [], thetaOSol := [] }
  let v ← readSheet f.spaces.length (dir .localVent)
  let q ← readSheet f.spaces.length (dir .heatGeneration)
  let x ← readSheet f.spaces.length (dir .moistureGeneration)
  let p ← readSheet f.spaces.length (dir .occupants)
  let a ← readSheet f.spaces.length (dir .acDemand)
  let s ← readSheet f.spaces.length (dir .qTrsSol)
  let o ← readSheet f.boundaries.length (dir .thetaOSol)
  let _ ← sheetCalc h (getHr solve h.area h.room) (sheetsOf temp hum v q x p a s o) hourly dMain dRunUp dRunUpBuild
  .ok ()

end Init

end HLC
