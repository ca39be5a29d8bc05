import Verif.Model.Solar

/-!
# Number of residents and schedules (`initializer/residents_number.py`, `initializer/schedule_loader.py`)
-/

namespace HLC.Init

open Classical in
/-- `initializer/residents_number.py` 2-17, `get_total_number_of_residents`. -/
noncomputable def residents (aFloorTotal : ℝ) : ℝ :=
  if aFloorTotal < 30 then 1
  else if aFloorTotal < 120 then aFloorTotal / 30
  else 4

open Classical in
/-- `initializer/schedule_loader.py` 222-246, `_get_ceil_floor_np`: (upper, lower) household size. -/
noncomputable def ceilFloor (np : ℝ) : Except PyErr (ℕ × ℕ) :=
  if 1 ≤ np ∧ np < 2 then .ok (2, 1)
  else if 2 ≤ np ∧ np < 3 then .ok (3, 2)
  else if 3 ≤ np ∧ np ≤ 4 then .ok (4, 3)
  else .error .valueError

/-- 96 quarter hours of one day. -/
abbrev Day := Fin 96 → ℝ

/-- `initializer/schedule_loader.py` 200-219, `_get_interpolated_schedule`. The keys '1' to '4' of the dictionary are the numbers 1 to 4. -/
noncomputable def interpolated (np : ℝ) (daily : ℕ → Day) : Except PyErr Day := do
  let (c, f) ← ceilFloor np
  .ok fun q => daily c q * (np - (f : ℝ)) + daily f q * ((c : ℝ) - np)

/-- `schedules.json` (`initializer/schedule_loader.py` 148-154): the calendar and, for household size, room name, kind of day and kind of
schedule, 96 values. Missing keys are `none`. Simplification: the calendar has 365 entries and every list 96, as in the file. -/
structure ScheduleFile where
  calendar : Fin 365 → String
  daily : ℕ → String → String → String → Option Day

/-- `initializer/schedule_loader.py` 179-185, `convert_schedule`. Sizes other than 1 to 4 are not keys of the result. -/
def convertSchedule (f : ScheduleFile) (room dayType kind : String) : Except PyErr (ℕ → Day) := do
  let d1 ← key (f.daily 1 room dayType kind)
  let d2 ← key (f.daily 2 room dayType kind)
  let d3 ← key (f.daily 3 room dayType kind)
  let d4 ← key (f.daily 4 room dayType kind)
  .ok fun k => if k = 1 then d1 else if k = 2 then d2 else if k = 3 then d3 else if k = 4 then d4 else fun _ => 0

/-- `d_365_96[calendar == kind] = row` (`initializer/schedule_loader.py` 192-194). -/
def setRows (f : ScheduleFile) (kind : String) (row : Day) (t : Fin 365 → Day) : Fin 365 → Day :=
  fun d => if f.calendar d = kind then row else t d

/-- `initializer/schedule_loader.py` 157-197, `_get_schedule`: the values of the year, flattened. -/
noncomputable def getSchedule (f : ScheduleFile) (room : String) (np : ℝ) (kind : String) : Except PyErr (Fin 35040 → ℝ) := do
  let dWeekday ← convertSchedule f room "平日" kind
  let dOut ← convertSchedule f room "休日外" kind
  let dIn ← convertSchedule f room "休日在" kind
  let t0 : Fin 365 → Day := fun _ _ => -1
  let w ← interpolated np dWeekday
  let t1 := setRows f "平日" w t0
  let o ← interpolated np dOut
  let t2 := setRows f "休日外" o t1
  let i ← interpolated np dIn
  let t3 := setRows f "休日在" i t2
  .ok fun n => t3 ⟨n.1 / 96, by omega⟩ ⟨n.1 % 96, by omega⟩

/-- The five results of `get_compiled_schedules` for one room. -/
structure Compiled where
  qGen : Fin 35040 → ℝ
  xGen : Fin 35040 → ℝ
  vLocal : Fin 35040 → ℝ
  nHum : Fin 35040 → ℝ
  acDemand : Fin 35040 → ℝ

/-- `initializer/schedule_loader.py` 7-46 and 49-145, `get_compiled_schedules` and `_get_each_schedules`, for one room.
Simplification: in Python each of the seven kinds is read for all rooms before the next kind. -/
noncomputable def compiled (f : ScheduleFile) (np : ℝ) (room : String) (aFloor : ℝ) : Except PyErr Compiled := do
  let vLocal ← getSchedule f room np "local_vent_amount"
  let qApp ← getSchedule f room np "heat_generation_appliances"
  let qCkg ← getSchedule f room np "vapor_generation_cooking"
  let xCkg ← getSchedule f room np "heat_generation_cooking"
  let qLght ← getSchedule f room np "heat_generation_lighting"
  let nHum ← getSchedule f room np "number_of_people"
  let ac ← getSchedule f room np "is_temp_limit_set"
  .ok {
    qGen := fun n => qApp n + qCkg n + qLght n * aFloor
    xGen := fun n => xCkg n / 1000 / 3600
    vLocal := fun n => vLocal n / 3600
    nHum := nHum
    acDemand := ac }

end HLC.Init
