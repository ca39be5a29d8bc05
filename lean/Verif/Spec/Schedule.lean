import Verif.Model.Schedule

/-!
# Specification: schedules (C42, C71)
-/

namespace HLC.Spec
open HLC.Init

/-- The kinds of day the calendar may contain. -/
def KnownDays (f : ScheduleFile) : Prop := ∀ d, f.calendar d = "平日" ∨ f.calendar d = "休日外" ∨ f.calendar d = "休日在"

/-- The file has a list for this room and kind of schedule, for every household size 1 to 4 and every kind of day; `table k day` is
the list for `k` persons. -/
def HasTable (f : ScheduleFile) (room kind : String) (table : ℕ → String → Day) : Prop :=
  ∀ k, 1 ≤ k → k ≤ 4 → ∀ day, day = "平日" ∨ day = "休日外" ∨ day = "休日在" → f.daily k room day kind = some (table k day)

/-- Number of the quarter hour `q` of day `d` in the year. -/
def quarter (d : Fin 365) (q : Fin 96) : Fin 35040 := ⟨d.1 * 96 + q.1, by omega⟩

/-- The seven lists a room needs. -/
structure RoomTables where
  appliances : ℕ → String → Day
  cookingHeat : ℕ → String → Day
  cookingVapour : ℕ → String → Day
  lighting : ℕ → String → Day
  people : ℕ → String → Day
  localVent : ℕ → String → Day
  demand : ℕ → String → Day

/-- The file contains all lists of a room. -/
structure HasRoom (f : ScheduleFile) (room : String) (t : RoomTables) : Prop where
  appliances : HasTable f room "heat_generation_appliances" t.appliances
  cookingHeat : HasTable f room "heat_generation_cooking" t.cookingHeat
  cookingVapour : HasTable f room "vapor_generation_cooking" t.cookingVapour
  lighting : HasTable f room "heat_generation_lighting" t.lighting
  people : HasTable f room "number_of_people" t.people
  localVent : HasTable f room "local_vent_amount" t.localVent
  demand : HasTable f room "is_temp_limit_set" t.demand

/-- Linear interpolation between the lists of `k` and `k + 1` persons. -/
noncomputable def between (table : ℕ → String → Day) (k : ℕ) (np : ℝ) (day : String) (q : Fin 96) : ℝ :=
  table k day q + (np - k) * (table (k + 1) day q - table k day q)

end HLC.Spec
