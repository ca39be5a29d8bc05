import Verif.Model.Core
import Verif.Model.Psychrometrics

/-!
# The result tables (`core/log.py` 116-241)

A `pandas.DataFrame` is the list of its columns. Writing the csv files (217-218, 238-239) is not modelled.
-/

namespace HLC

/-- `core/ot_target_pmv.py` 135-140: the remark on a room, the json text of a dictionary with the keys `pmv_target`, `v_hum m/s` and `clo`. The
text is modelled as its three numbers. -/
structure Remark where
  pmvTarget : ℝ
  vHum : ℝ
  clo : ℝ

/-- `core/ot_target_pmv.py` 105-140: the remark on a room in a given operation mode. -/
noncomputable def remarkOf (mode : OpMode) (isRadHeating isRadCooling : Bool) : Remark where
  pmvTarget := getPmvTarget mode
  vHum := getVHum mode isRadHeating isRadCooling
  clo := getClo mode

/-- A column: numbers, the operation modes (`None` before they are written) or the remarks (the empty text before they are written). -/
inductive Column
  | nums (l : List ℝ)
  | modes (l : List (Option OpMode))
  | remarks (l : List (Option Remark))

/-- Number of entries. -/
def Column.length : Column → ℕ
  | .nums l => l.length
  | .modes l => l.length
  | .remarks l => l.length

/-- A `DataFrame` with `rows` rows. -/
structure Table where
  rows : ℕ
  cols : List (String × Column)

/-- Replaces the column of that name or appends a new one. -/
def setAssoc (name : String) (c : Column) : List (String × Column) → List (String × Column)
  | [] => [(name, c)]
  | (k, d) :: l => if k = name then (name, c) :: l else (k, d) :: setAssoc name c l

/-- `dd[name] = column`: ValueError if the length is not that of the index. -/
def Table.set (t : Table) (name : String) (c : Column) : Except PyErr Table :=
  if c.length = t.rows then .ok { t with cols := setAssoc name c t.cols } else .error .valueError

/-- `dd[name]`. -/
def Table.get (t : Table) (name : String) : Except PyErr Column :=
  match t.cols.lookup name with
  | some c => .ok c
  | none => .error .keyError

/-- The columns of a room, `core/log.py` 167-192. -/
inductive RoomQ
  | acOperate | occupancy | hcHum | hrHum | tR | rhR | xR | mrt | ot | qSolT | qSExceptHum | qLExceptHum | qHumS | qHumL
  | lSC | lSR | lLC | tFun | qSFun | qSSolFun | xFun | qLFun | vReak | vNtrl | remarks
  deriving DecidableEq

/-- `core/log.py` 167-192, the names. -/
def RoomQ.suffix : RoomQ → String
  | .acOperate => "ac_operate"
  | .occupancy => "occupancy"
  | .hcHum => "hc_hum"
  | .hrHum => "hr_hum"
  | .tR => "t_r"
  | .rhR => "rh_r"
  | .xR => "x_r"
  | .mrt => "mrt"
  | .ot => "ot"
  | .qSolT => "q_sol_t"
  | .qSExceptHum => "q_s_except_hum"
  | .qLExceptHum => "q_l_except_hum"
  | .qHumS => "q_hum_s"
  | .qHumL => "q_hum_l"
  | .lSC => "l_s_c"
  | .lSR => "l_s_r"
  | .lLC => "l_l_c"
  | .tFun => "t_fun"
  | .qSFun => "q_s_fun"
  | .qSSolFun => "q_s_sol_fun"
  | .xFun => "x_fun"
  | .qLFun => "q_l_fun"
  | .vReak => "v_reak"
  | .vNtrl => "v_ntrl"
  | .remarks => "remarks"

/-- `core/log.py` 167-192, in order. -/
def RoomQ.all : List RoomQ :=
  [.acOperate, .occupancy, .hcHum, .hrHum, .tR, .rhR, .xR, .mrt, .ot, .qSolT, .qSExceptHum, .qLExceptHum, .qHumS, .qHumL, .lSC, .lSR,
   .lLC, .tFun, .qSFun, .qSSolFun, .xFun, .qLFun, .vReak, .vNtrl, .remarks]

/-- The columns of a part, `core/log.py` 196-213. -/
inductive PartQ
  | tS | tE | tB | hirS | qirS | hicS | qicS | qisolS | qiallS
  deriving DecidableEq

/-- `core/log.py` 196-213, the names. -/
def PartQ.suffix : PartQ → String
  | .tS => "t_s"
  | .tE => "t_e"
  | .tB => "t_b"
  | .hirS => "hir_s"
  | .qirS => "qir_s"
  | .hicS => "hic_s"
  | .qicS => "qic_s"
  | .qisolS => "qisol_s"
  | .qiallS => "qiall_s"

/-- `core/log.py` 196-213, in order. -/
def PartQ.all : List PartQ := [.tS, .tE, .tB, .hirS, .qirS, .hicS, .qicS, .qisolS, .qiallS]

/-- A column of the detailed table. In `part i k q` the number `k` counts the parts of room `i` (`enumerate`, `core/log.py` 196-213). -/
inductive Col
  | outTemp
  | outAbsHumid
  | room (i : ℕ) (q : RoomQ)
  | part (i k : ℕ) (q : PartQ)

/-- `core/log.py` 161-162, 166-192, 196-213: the name of a column. -/
def Col.name : Col → String
  | .outTemp => "out_temp"
  | .outAbsHumid => "out_abs_humid"
  | .room i q => "rm" ++ toString i ++ "_" ++ q.suffix
  | .part i k q => "rm" ++ toString i ++ "_" ++ "b" ++ toString k ++ "_" ++ q.suffix

section
variable {n m N : ℕ}

/-- `logger.x[…][0:n_step_main]` for one of the series of the logger, which have `M` entries (`core/log.py` 14-114): all entries. -/
noncomputable def logCol {M : ℕ} (f : Fin M → ℝ) : Column := .nums (List.ofFn f)

/-- `logger.x_ns[…][0:n_step_main]` for one of the series of `pre_logging` (`core/log.py` 116-127), which have `N` entries. -/
noncomputable def preCol (M : ℕ) (f : Fin N → ℝ) : Column := .nums ((List.ofFn f).take M)

/-- `core/log.py` 161-192, with the derived values of `pre_logging` (116-129) and `post_logging` (131-152): the column of a room. The
remark is stored together with the mode (`core/sequence.py` 243-270) and is a function of the mode and of two constants of the room, so it is
recovered here from the mode of the same entry. -/
noncomputable def roomCol (r : CalcResult (Fin n) m N) (i : Fin n) : RoomQ → Column
  | .acOperate => .modes (List.ofFn fun k => (r.log k).mode i)
  | .occupancy => preCol r.nMain.toNat fun k => r.ss.acDemand k i
  | .hcHum => logCol fun k => (r.log k).hHumC i
  | .hrHum => logCol fun k => (r.log k).hHumR i
  | .tR => logCol fun k => (r.log k).thetaR i
  | .rhR => logCol fun k => (r.log k).rh i
  | .xR => logCol fun k => (r.log k).xR i
  | .mrt => logCol fun k => (r.log k).thetaMrt i
  | .ot => logCol fun k => (r.log k).thetaOt i
  | .qSolT => preCol r.nMain.toNat fun k => r.ss.qTrsSol k i
  | .qSExceptHum => preCol r.nMain.toNat fun k => r.ss.qGen k i
  | .qLExceptHum => preCol r.nMain.toNat fun k => r.ss.xGen k i
  | .qHumS => logCol fun k => (r.log k).qHum i
  | .qHumL => logCol fun k => (r.log k).xHum i
  | .lSC => logCol fun k => (r.log k).lCs i
  | .lSR => logCol fun k => (r.log k).lRs i
  | .lLC => logCol fun k => (r.log k).lCl i
  | .tFun => logCol fun k => (r.log k).thetaFrt i
  | .qSFun => logCol fun k => (r.log k).qFrt r.ss i
  | .qSSolFun => preCol r.nMain.toNat fun k => r.ss.qSolFrt k i
  | .xFun => logCol fun k => (r.log k).xFrt i
  | .qLFun => logCol fun k => (r.log k).qLFrt r.ss i
  | .vReak => logCol fun k => (r.log k).vLeak i
  | .vNtrl => logCol fun k => (r.log k).vNtrl i
  | .remarks => .remarks (List.ofFn fun k => ((r.log k).mode i).map fun x => remarkOf x (r.ss.isRadHeating i) (r.ss.isRadCooling i))

/-- `core/log.py` 196-213, with `pre_logging` (127-129) and `post_logging` (146-149): the column of a part. -/
noncomputable def partCol (r : CalcResult (Fin n) m N) (j : Fin m) : PartQ → Column
  | .tS => logCol fun k => (r.log k).thetaS j
  | .tE => logCol fun k => (r.log k).thetaEi j
  | .tB => logCol fun k => (r.log k).thetaRear j
  | .hirS => logCol fun _ : Fin r.nMain.toNat => r.ss.hR j
  | .qirS => logCol fun k => (r.log k).qr r.ss j
  | .hicS => logCol fun _ : Fin r.nMain.toNat => r.ss.hC j
  | .qicS => logCol fun k => (r.log k).qc r.ss j
  | .qisolS => preCol r.nMain.toNat fun k => qisol r.ss k j
  | .qiallS => logCol fun k => (r.log k).qiall j

open Classical in
/-- `selected = pps.p_is_js[i] == 1` (`core/log.py` 193): the parts of room `i`, in order. -/
noncomputable def selected (r : CalcResult (Fin n) m N) (i : Fin n) : List (Fin m) :=
  (List.finRange m).filter fun j => decide (r.ss.p i j = 1)

/-- `core/log.py` 196-213: for one quantity, the columns of the parts of room `i`. -/
noncomputable def partCols (r : CalcResult (Fin n) m N) (i : Fin n) (q : PartQ) : List (Col × Column) :=
  (selected r i).zipIdx.map fun x => (.part i x.2 q, partCol r x.1 q)

/-- `core/log.py` 164-213: the columns of room `i`. -/
noncomputable def roomCols (r : CalcResult (Fin n) m N) (i : Fin n) : List (Col × Column) :=
  RoomQ.all.map (fun q => (Col.room i q, roomCol r i q)) ++ (PartQ.all.map (partCols r i)).flatten

/-- `core/log.py` 161-213: all columns in the order they are assigned. -/
noncomputable def allCols (r : CalcResult (Fin n) m N) : List (Col × Column) :=
  (.outTemp, preCol r.nMain.toNat r.ss.thetaO) :: (.outAbsHumid, preCol r.nMain.toNat r.ss.xO)
    :: ((List.finRange n).map (roomCols r)).flatten

/-- `core/log.py` 155-213: the detailed table. -/
noncomputable def recordDetail (r : CalcResult (Fin n) m N) : Except PyErr Table :=
  (allCols r).foldlM (fun t c => t.set c.1.name c.2) { rows := r.nMain.toNat, cols := [] }

open Classical in
/-- `core/log.py` 131-134 with `external/psychrometrics.py` 62-96: what can go wrong in `post_logging`. `np.vectorize` raises ValueError if
there is nothing to evaluate (no room, or no step in the main period), and `math.log` raises ValueError if the absolute temperature of a
room is not positive in some step. (At exactly absolute zero Python may raise ZeroDivisionError instead. Overflow of `math.exp` at
temperatures of thousands of degrees is not modelled, like every overflow of floats.) -/
noncomputable def postLogging (r : CalcResult (Fin n) m N) : Except PyErr Unit :=
  if n = 0 ∨ r.nMain.toNat = 0 then .error .valueError
  else if ∃ (k : Fin r.nMain.toNat) (i : Fin n), (r.log k).thetaR i + 273.15 ≤ 0 then .error .valueError
  else .ok ()

end

/-! ## The digest -/

/-- The numbers of a column; arithmetic on the modes or the remarks raises an exception. -/
def Column.numbers : Column → Except PyErr (List ℝ)
  | .nums l => .ok l
  | .modes _ => .error .typeError
  | .remarks _ => .error .typeError

/-- The modes of a column. -/
def Column.operation : Column → Except PyErr (List (Option OpMode))
  | .nums _ => .error .typeError
  | .modes l => .ok l
  | .remarks _ => .error .typeError

/-- The rows of hour `t`. The index has a row every 15 minutes whatever the length of a step (`core/log.py` 157). -/
def hourRows (l : List ℝ) (t : ℕ) : List ℝ := (l.drop (4 * t)).take 4

/-- `.resample('H').mean()` at hour `t` after alignment with the index of the digest; not a number if the hour has no row. -/
noncomputable def hourMean (l : List ℝ) (t : ℕ) : Option ℝ :=
  if hourRows l t = [] then none else some ((hourRows l t).sum / (hourRows l t).length)

/-- `.resample('H').sum()` at hour `t` after alignment with the index of the digest. -/
noncomputable def hourSum (l : List ℝ) (t : ℕ) : Option ℝ :=
  if hourRows l t = [] then none else some (hourRows l t).sum

/-- `.asfreq('H')` at hour `t` after alignment: the row at the full hour. -/
def atHour {α : Type} (l : List α) (t : ℕ) : Option α := l[4 * t]?

/-- The columns of the digest for one room, `core/log.py` 230-236. -/
structure DigestRoom where
  acOperate : List (Option (Option OpMode))
  tR : List (Option ℝ)
  xR : List (Option ℝ)
  ot : List (Option ℝ)
  lSC : List (Option ℝ)
  lSR : List (Option ℝ)
  lLC : List (Option ℝ)

/-- The digest: 24 rows per day of the main period. `none` is not a number. -/
structure Digest where
  rows : ℕ
  outTemp : List (Option ℝ)
  outAbsHumid : List (Option ℝ)
  rooms : List DigestRoom

/-- `dd[name].resample('H').mean().round(d)` (`core/log.py` 224-225, 231-233); `rnd d` is rounding to `d` decimals. -/
noncomputable def meanCol (rnd : ℕ → ℝ → ℝ) (dd : Table) (hours : ℕ) (c : Col) (d : ℕ) : Except PyErr (List (Option ℝ)) := do
  let l ← (← dd.get c.name).numbers
  return (List.range hours).map fun t => (hourMean l t).map (rnd d)

/-- `dd[name].resample('H').sum().round(0)` (`core/log.py` 234-236). -/
noncomputable def sumCol (rnd : ℕ → ℝ → ℝ) (dd : Table) (hours : ℕ) (c : Col) : Except PyErr (List (Option ℝ)) := do
  let l ← (← dd.get c.name).numbers
  return (List.range hours).map fun t => (hourSum l t).map (rnd 0)

/-- `core/log.py` 230-236: one room. -/
noncomputable def digestRoom (rnd : ℕ → ℝ → ℝ) (dd : Table) (hours i : ℕ) : Except PyErr DigestRoom := do
  let ms ← (← dd.get (Col.room i .acOperate).name).operation
  let tR ← meanCol rnd dd hours (.room i .tR) 2
  let xR ← meanCol rnd dd hours (.room i .xR) 4
  let ot ← meanCol rnd dd hours (.room i .ot) 2
  let lSC ← sumCol rnd dd hours (.room i .lSC)
  let lSR ← sumCol rnd dd hours (.room i .lSR)
  let lLC ← sumCol rnd dd hours (.room i .lLC)
  return { acOperate := (List.range hours).map (atHour ms), tR := tR, xR := xR, ot := ot, lSC := lSC, lSR := lSR, lLC := lLC }

/-- `core/log.py` 220-241: the digest of the detailed table of a house with `n` rooms; a negative number of rows raises ValueError. -/
noncomputable def recordDigest (rnd : ℕ → ℝ → ℝ) (dd : Table) (n : ℕ) (dMain : ℤ) : Except PyErr Digest :=
  if dMain * 24 < 0 then .error .valueError
  else do
    let hours := (dMain * 24).toNat
    let outTemp ← meanCol rnd dd hours .outTemp 2
    let outAbsHumid ← meanCol rnd dd hours .outAbsHumid 2
    let rooms ← (List.range n).mapM (digestRoom rnd dd hours)
    return { rows := hours, outTemp := outTemp, outAbsHumid := outAbsHumid, rooms := rooms }

/-- `core/core.py` 12-105, `calc`, for given radiative coefficients and parsed inputs: the digest and the detailed table. `rnd d` is rounding
to `d` decimals. -/
noncomputable def calcTables (rnd : ℕ → ℝ → ℝ) {n m N : ℕ} (h : House (Fin n) (Fin m)) (hR : Fin m → ℝ) (data : Fin N → Record (Fin n) (Fin m))
    (hourly dMain dRunUp dRunUpBuild : ℤ) : Except PyErr (Digest × Table) := do
  let r ← coreCalc h hR data hourly dMain dRunUp dRunUpBuild
  postLogging r
  let dd ← recordDetail r
  let ds ← recordDigest rnd dd n dMain
  return (ds, dd)

end HLC
