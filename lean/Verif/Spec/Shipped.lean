import Verif.Spec.Schedule
import Verif.Model.ShippedSchedule
import Verif.Model.Initializer

/-!
# Specification: the schedule file of the project (C126-C128)
-/

namespace HLC.Spec
open HLC.Init

/-- The names a room must have to be found in the schedule file. -/
def scheduledNames : List String := ["main_occupant_room", "other_occupant_room", "non_occupant_room"]

/-- Number of people in all rooms together in a quarter hour of the year. -/
noncomputable def peopleInHouse (schedules : List Compiled) (n : Fin 35040) : ℝ := (schedules.map fun c => c.nHum n).sum

/-- The same house with other names and kinds of rooms. -/
def relabel (d : Input) (name kind : RoomDict → String) : Input :=
  { d with rooms := d.rooms.map fun r => { r with name := name r, roomType := kind r } }

end HLC.Spec
