import Verif.Model.Schedule

/-!
# The schedule file of the project (`initializer/schedules.json`)

Generated by `tools/gen_schedule.py` from the file of the repository. Lists of equal values are stored as runs (length, value), numbers in
units of 1/10000 (no number of the file has more than four decimals).
-/

namespace HLC.Init

/-- Entry `q` of a list given by its runs; 0 behind the end. -/
def runAt : List (ℕ × ℕ) → ℕ → ℕ
  | [], _ => 0
  | (c, v) :: l, q => if q < c then v else runAt l (q - c)

/-- The names of the rooms, `initializer/schedules.json`: keys below each household size, the same for all. -/
def shippedRooms : List String := ["main_occupant_room", "other_occupant_room", "non_occupant_room"]

/-- The kinds of days, `initializer/schedules.json`: keys below each room, the same for all. -/
def shippedDays : List String := ["平日", "休日外", "休日在"]

/-- The kinds of schedules, `initializer/schedules.json`: keys below each kind of day, the same for all. -/
def shippedKinds : List String :=
  ["number_of_people", "heat_generation_appliances", "heat_generation_lighting", "heat_generation_cooking", "vapor_generation_cooking", "local_vent_amount", "is_temp_limit_set"]

/-- `initializer/schedules.json`, 'calendar': the kinds of the days of the year as runs (number of days, index in `shippedDays`). -/
def shippedCalendar : List (ℕ × ℕ) :=
  [
   (1, 2), (5, 0), (1, 2), (1, 1), (5, 0), (2, 2), (5, 0), (1, 2), (1, 1), (5, 0), (2, 2), (5, 0), (1, 2), (1, 1), (5, 0), (2, 2), (5, 0), (1, 2),
   (1, 1), (5, 0), (2, 2), (5, 0), (1, 2), (1, 1), (5, 0), (2, 2), (5, 0), (1, 2), (1, 1), (1, 0), (1, 2), (3, 0), (2, 2), (5, 0), (1, 2), (1, 1),
   (5, 0), (2, 2), (5, 0), (1, 2), (1, 1), (5, 0), (2, 2), (5, 0), (1, 2), (1, 1), (2, 0), (2, 1), (3, 2), (5, 0), (1, 2), (1, 1), (5, 0), (2, 2),
   (5, 0), (1, 2), (1, 1), (5, 0), (2, 2), (5, 0), (1, 2), (1, 1), (5, 0), (2, 2), (5, 0), (1, 2), (1, 1), (5, 0), (2, 2), (5, 0), (1, 2), (1, 1),
   (5, 0), (2, 2), (3, 0), (1, 2), (1, 0), (1, 2), (1, 1), (5, 0), (2, 2), (5, 0), (1, 2), (1, 1), (5, 0), (2, 2), (5, 0), (1, 2), (1, 1), (5, 0),
   (2, 2), (5, 0), (1, 2), (1, 1), (5, 0), (2, 2), (4, 0), (1, 1), (1, 2), (1, 1), (5, 0), (2, 2), (5, 0), (1, 2), (1, 1), (5, 0), (2, 2), (1, 0),
   (1, 2), (3, 0), (1, 2), (1, 1), (5, 0), (2, 2), (5, 0), (1, 2), (1, 1), (4, 0), (3, 2), (5, 0), (1, 2), (1, 1), (5, 0), (2, 2), (3, 0), (1, 2),
   (1, 0), (1, 2), (1, 1), (5, 0), (2, 2), (5, 0), (1, 2), (1, 1), (5, 0), (2, 2), (5, 0), (1, 2), (1, 1), (5, 0), (1, 1), (1, 2)]

/-- `initializer/schedules.json`, 'daily_schedule', '1', 'main_occupant_room', '平日': the lists in the order of `shippedKinds`. -/
def shipped100 : List (List (ℕ × ℕ)) :=
  [[(29, 0), (1, 10000), (52, 0), (12, 10000), (2, 0)],
   [(4, 1350000), (1, 103000), (2, 413000), (1, 103000), (2, 413000), (1, 103000), (2, 413000), (1, 103000), (2, 413000), (1, 103000), (2, 413000), (1, 103000), (2, 413000), (1, 103000), (2, 413000), (1, 103000), (1, 413000), (1, 4680000), (1, 459000), (2, 770000), (1, 459000), (2, 770000), (1, 459000), (1, 770000), (1, 5750000), (1, 459000), (2, 770000), (1, 103000), (2, 413000), (1, 103000), (2, 413000), (1, 103000), (1, 413000), (1, 5030000), (1, 459000), (2, 770000), (1, 103000), (2, 413000), (1, 103000), (2, 413000), (1, 103000), (2, 413000), (1, 103000), (2, 413000), (1, 103000), (2, 413000), (1, 103000), (1, 2320000), (1, 770000), (1, 459000), (1, 770000), (1, 2200000), (1, 1890000), (1, 4920000), (1, 2200000), (1, 610000), (2, 921000), (1, 610000), (2, 770000), (1, 459000), (2, 770000), (1, 459000), (2, 770000), (1, 1540000), (1, 1850000), (1, 1490000), (1, 1180000), (4, 1350000)],
   [(28, 0), (4, 28900), (52, 0), (4, 64400), (8, 59900)],
   [(28, 0), (4, 296000), (48, 0), (4, 1440000), (12, 0)],
   [(28, 0), (4, 86300), (48, 0), (4, 419000), (12, 0)],
   [(27, 0), (1, 307000), (20, 0), (1, 307000), (25, 0), (4, 307000), (18, 0)],
   [(29, 0), (1, 10000), (52, 0), (12, 10000), (2, 0)]]

/-- `initializer/schedules.json`, 'daily_schedule', '1', 'main_occupant_room', '休日外': the lists in the order of `shippedKinds`. -/
def shipped101 : List (List (ℕ × ℕ)) :=
  [[(32, 0), (3, 10000), (2, 0), (2, 10000), (41, 0), (10, 10000), (6, 0)],
   [(4, 1350000), (1, 103000), (2, 413000), (1, 103000), (2, 413000), (1, 103000), (2, 413000), (1, 103000), (2, 413000), (1, 103000), (2, 413000), (1, 103000), (2, 413000), (1, 103000), (2, 413000), (1, 103000), (2, 413000), (1, 459000), (1, 770000), (1, 5750000), (1, 459000), (1, 770000), (1, 5030000), (1, 459000), (1, 770000), (1, 413000), (1, 103000), (2, 413000), (1, 103000), (2, 413000), (1, 103000), (2, 413000), (1, 103000), (2, 413000), (1, 103000), (2, 413000), (1, 103000), (2, 413000), (1, 103000), (2, 413000), (1, 103000), (2, 413000), (1, 103000), (2, 413000), (1, 103000), (2, 413000), (1, 103000), (2, 413000), (1, 103000), (2, 413000), (1, 103000), (2, 413000), (1, 103000), (2, 413000), (1, 103000), (1, 2320000), (1, 770000), (1, 459000), (2, 770000), (1, 459000), (2, 1850000), (1, 213000), (2, 413000), (1, 103000), (4, 1350000)],
   [(32, 0), (4, 28900), (4, 55700), (40, 0), (4, 30000), (8, 59900), (4, 0)],
   [(32, 0), (4, 296000), (60, 0)],
   [(32, 0), (4, 86300), (60, 0)],
   [(33, 0), (2, 307000), (61, 0)],
   [(32, 0), (3, 10000), (2, 0), (2, 10000), (41, 0), (10, 10000), (6, 0)]]

/-- `initializer/schedules.json`, 'daily_schedule', '1', 'main_occupant_room', '休日在': the lists in the order of `shippedKinds`. -/
def shipped102 : List (List (ℕ × ℕ)) :=
  [[(32, 0), (3, 10000), (2, 0), (2, 10000), (9, 0), (42, 10000), (6, 0)],
   [(4, 1350000), (1, 103000), (2, 413000), (1, 103000), (2, 413000), (1, 103000), (2, 413000), (1, 103000), (2, 413000), (1, 103000), (2, 413000), (1, 103000), (2, 413000), (1, 103000), (2, 413000), (1, 103000), (2, 413000), (1, 103000), (2, 413000), (1, 1650000), (1, 3490000), (1, 770000), (1, 459000), (2, 770000), (1, 5440000), (2, 770000), (1, 1540000), (2, 1850000), (1, 1540000), (2, 1850000), (1, 1540000), (1, 1850000), (1, 5030000), (1, 459000), (2, 770000), (1, 103000), (2, 413000), (1, 103000), (2, 413000), (1, 103000), (2, 413000), (1, 103000), (2, 413000), (1, 1760000), (2, 880000), (1, 569000), (2, 880000), (1, 4720000), (2, 2310000), (1, 2000000), (2, 1030000), (1, 720000), (1, 1030000), (1, 880000), (1, 459000), (2, 770000), (1, 459000), (2, 770000), (1, 459000), (2, 1850000), (1, 459000), (2, 770000), (1, 459000), (4, 1350000)],
   [(32, 0), (4, 28900), (4, 55700), (8, 0), (4, 28900), (4, 58900), (20, 59900), (4, 56700), (4, 63400), (8, 59900), (4, 0)],
   [(32, 0), (4, 296000), (12, 0), (4, 303000), (24, 0), (4, 1440000), (16, 0)],
   [(32, 0), (4, 86300), (12, 0), (4, 88200), (24, 0), (4, 419000), (16, 0)],
   [(32, 0), (1, 307000), (15, 0), (1, 307000), (21, 0), (4, 307000), (22, 0)],
   [(32, 0), (3, 10000), (2, 0), (2, 10000), (9, 0), (42, 10000), (6, 0)]]

/-- `initializer/schedules.json`, 'daily_schedule', '1', 'other_occupant_room', '平日': the lists in the order of `shippedKinds`. -/
def shipped110 : List (List (ℕ × ℕ)) :=
  [[(28, 10000), (2, 0), (1, 10000), (65, 0)],
   [(39, 0), (1, 3390000), (56, 0)],
   [(4, 6900), (24, 0), (4, 6900), (64, 0)],
   [(96, 0)],
   [(96, 0)],
   [(96, 0)],
   [(28, 10000), (2, 0), (1, 10000), (65, 0)]]

/-- `initializer/schedules.json`, 'daily_schedule', '1', 'other_occupant_room', '休日外': the lists in the order of `shippedKinds`. -/
def shipped111 : List (List (ℕ × ℕ)) :=
  [[(31, 10000), (8, 0), (1, 10000), (52, 0), (4, 10000)],
   [(96, 0)],
   [(32, 0), (8, 6900), (52, 0), (4, 6900)],
   [(96, 0)],
   [(96, 0)],
   [(96, 0)],
   [(31, 10000), (8, 0), (1, 10000), (52, 0), (4, 10000)]]

/-- `initializer/schedules.json`, 'daily_schedule', '1', 'other_occupant_room', '休日在': the lists in the order of `shippedKinds`. -/
def shipped112 : List (List (ℕ × ℕ)) :=
  [[(31, 10000), (8, 0), (1, 10000), (52, 0), (4, 10000)],
   [(64, 0), (1, 3390000), (31, 0)],
   [(32, 0), (8, 6900), (52, 0), (4, 6900)],
   [(96, 0)],
   [(96, 0)],
   [(96, 0)],
   [(31, 10000), (8, 0), (1, 10000), (52, 0), (4, 10000)]]

/-- `initializer/schedules.json`, 'daily_schedule', '1', 'non_occupant_room', '平日': the lists in the order of `shippedKinds`. -/
def shipped120 : List (List (ℕ × ℕ)) :=
  [[(28, 0), (1, 10000), (65, 0), (2, 10000)],
   [(26, 224000), (1, 1420000), (1, 224000), (2, 1420000), (1, 224000), (3, 571000), (53, 224000), (1, 1420000), (4, 224000), (1, 1420000), (3, 224000)],
   [(4, 11900), (24, 0), (4, 11400), (4, 6800), (44, 0), (4, 2410), (12, 0)],
   [(96, 0)],
   [(96, 0)],
   [(26, 0), (1, 20800), (1, 0), (1, 20800), (1, 0), (1, 20800), (1, 0), (1, 20800), (2, 0), (1, 20800), (6, 0), (1, 20800), (5, 0), (1, 20800), (6, 0), (1, 20800), (8, 0), (1, 20800), (4, 0), (1, 20800), (2, 0), (1, 20800), (3, 0), (1, 20800), (3, 0), (1, 20800), (3, 0), (1, 20800), (3, 0), (1, 170000), (3, 149000), (2, 170000), (1, 149000), (1, 170000)],
   [(28, 0), (1, 10000), (65, 0), (2, 10000)]]

/-- `initializer/schedules.json`, 'daily_schedule', '1', 'non_occupant_room', '休日外': the lists in the order of `shippedKinds`. -/
def shipped121 : List (List (ℕ × ℕ)) :=
  [[(31, 0), (1, 10000), (3, 0), (2, 10000), (53, 0), (2, 10000), (4, 0)],
   [(26, 224000), (1, 1420000), (1, 224000), (3, 571000), (2, 224000), (1, 1420000), (53, 224000), (1, 1420000), (4, 224000), (1, 1420000), (3, 224000)],
   [(32, 0), (4, 11400), (4, 15500), (4, 19100), (36, 0), (4, 2410), (8, 0), (4, 11900)],
   [(96, 0)],
   [(96, 0)],
   [(26, 0), (1, 20800), (4, 0), (3, 20800), (1, 0), (1, 41700), (44, 0), (1, 41700), (3, 0), (1, 20800), (3, 0), (1, 20800), (1, 0), (1, 149000), (2, 170000), (3, 149000)],
   [(31, 0), (1, 10000), (3, 0), (2, 10000), (53, 0), (2, 10000), (4, 0)]]

/-- `initializer/schedules.json`, 'daily_schedule', '1', 'non_occupant_room', '休日在': the lists in the order of `shippedKinds`. -/
def shipped122 : List (List (ℕ × ℕ)) :=
  [[(31, 0), (1, 10000), (3, 0), (2, 10000), (53, 0), (2, 10000), (4, 0)],
   [(29, 224000), (1, 1420000), (3, 224000), (1, 571000), (1, 1770000), (1, 571000), (51, 224000), (1, 1420000), (3, 224000), (1, 1420000), (4, 224000)],
   [(32, 0), (4, 11400), (4, 15500), (4, 19100), (4, 0), (4, 2410), (40, 0), (4, 11900)],
   [(96, 0)],
   [(96, 0)],
   [(29, 0), (1, 20800), (1, 0), (2, 20800), (1, 0), (1, 41700), (2, 0), (1, 20800), (4, 0), (1, 41700), (4, 0), (1, 20800), (3, 0), (2, 20800), (11, 0), (1, 41700), (3, 0), (1, 20800), (3, 0), (1, 20800), (7, 0), (1, 20800), (3, 0), (1, 170000), (3, 149000), (1, 170000), (2, 149000), (2, 170000), (1, 149000), (2, 0)],
   [(31, 0), (1, 10000), (3, 0), (2, 10000), (53, 0), (2, 10000), (4, 0)]]

/-- `initializer/schedules.json`, 'daily_schedule', '2', 'main_occupant_room', '平日': the lists in the order of `shippedKinds`. -/
def shipped200 : List (List (ℕ × ℕ)) :=
  [[(25, 0), (1, 10000), (2, 20000), (1, 10000), (2, 0), (7, 10000), (10, 0), (8, 10000), (8, 0), (15, 10000), (8, 20000), (6, 10000), (3, 0)],
   [(4, 1350000), (1, 103000), (2, 413000), (1, 103000), (2, 413000), (1, 103000), (2, 413000), (1, 103000), (2, 413000), (1, 103000), (2, 413000), (1, 103000), (2, 413000), (1, 103000), (2, 413000), (1, 103000), (1, 413000), (1, 6220000), (1, 817000), (2, 1130000), (1, 817000), (2, 1130000), (1, 817000), (1, 1130000), (1, 6110000), (1, 817000), (2, 1130000), (1, 103000), (2, 413000), (1, 103000), (2, 413000), (1, 103000), (1, 413000), (1, 6940000), (1, 817000), (2, 1130000), (1, 103000), (2, 413000), (1, 103000), (2, 413000), (1, 103000), (2, 413000), (1, 103000), (2, 413000), (1, 103000), (2, 413000), (1, 103000), (1, 4220000), (1, 1130000), (1, 817000), (1, 1130000), (1, 2560000), (1, 2250000), (1, 5280000), (1, 2560000), (1, 968000), (2, 1280000), (1, 968000), (2, 1130000), (1, 817000), (2, 1130000), (1, 817000), (2, 1130000), (1, 1890000), (1, 2200000), (1, 1490000), (1, 1180000), (4, 1350000)],
   [(24, 0), (4, 10400), (4, 54900), (4, 53200), (4, 54700), (8, 0), (4, 25800), (4, 30700), (8, 0), (4, 27400), (8, 54700), (4, 45000), (4, 56600), (4, 65200), (4, 54700), (4, 41000)],
   [(24, 0), (4, 443000), (20, 0), (4, 317000), (24, 0), (4, 1500000), (16, 0)],
   [(24, 0), (4, 123000), (20, 0), (4, 88200), (24, 0), (4, 419000), (16, 0)],
   [(27, 0), (1, 615000), (20, 0), (1, 615000), (25, 0), (4, 615000), (18, 0)],
   [(25, 0), (4, 10000), (2, 0), (7, 10000), (10, 0), (8, 10000), (8, 0), (29, 10000), (3, 0)]]

/-- `initializer/schedules.json`, 'daily_schedule', '2', 'main_occupant_room', '休日外': the lists in the order of `shippedKinds`. -/
def shipped201 : List (List (ℕ × ℕ)) :=
  [[(31, 0), (1, 10000), (4, 20000), (1, 10000), (43, 0), (7, 20000), (5, 10000), (4, 0)],
   [(4, 1350000), (1, 103000), (2, 413000), (1, 103000), (2, 413000), (1, 103000), (2, 413000), (1, 103000), (2, 413000), (1, 103000), (2, 413000), (1, 103000), (2, 413000), (1, 103000), (2, 413000), (1, 103000), (2, 413000), (1, 817000), (1, 1130000), (1, 6110000), (1, 817000), (1, 1130000), (1, 6940000), (1, 817000), (1, 1130000), (1, 413000), (1, 103000), (2, 413000), (1, 103000), (2, 413000), (1, 103000), (2, 413000), (1, 103000), (2, 413000), (1, 103000), (2, 413000), (1, 103000), (2, 413000), (1, 103000), (2, 413000), (1, 103000), (2, 413000), (1, 103000), (2, 413000), (1, 103000), (2, 413000), (1, 103000), (2, 413000), (1, 103000), (2, 413000), (1, 103000), (2, 413000), (1, 103000), (2, 413000), (1, 103000), (1, 4220000), (1, 1130000), (1, 817000), (2, 1130000), (1, 817000), (2, 2200000), (1, 213000), (2, 413000), (1, 103000), (4, 1350000)],
   [(32, 0), (4, 49900), (4, 66800), (40, 0), (4, 27400), (8, 54700), (4, 27400)],
   [(28, 0), (4, 310000), (64, 0)],
   [(28, 0), (4, 86300), (64, 0)],
   [(33, 0), (2, 615000), (61, 0)],
   [(31, 0), (6, 10000), (43, 0), (12, 10000), (4, 0)]]

/-- `initializer/schedules.json`, 'daily_schedule', '2', 'main_occupant_room', '休日在': the lists in the order of `shippedKinds`. -/
def shipped202 : List (List (ℕ × ℕ)) :=
  [[(29, 0), (3, 10000), (2, 20000), (2, 10000), (16, 20000), (17, 0), (18, 20000), (5, 10000), (4, 0)],
   [(4, 1350000), (1, 103000), (2, 413000), (1, 103000), (2, 413000), (1, 103000), (2, 413000), (1, 103000), (2, 413000), (1, 103000), (2, 413000), (1, 103000), (2, 413000), (1, 103000), (2, 413000), (1, 103000), (2, 413000), (1, 103000), (2, 413000), (1, 3200000), (1, 3850000), (1, 1130000), (1, 817000), (2, 1130000), (1, 5800000), (2, 1130000), (1, 1890000), (2, 2200000), (1, 1890000), (2, 2200000), (1, 1890000), (1, 2200000), (1, 6940000), (1, 817000), (2, 1130000), (1, 103000), (2, 413000), (1, 103000), (2, 413000), (1, 103000), (2, 413000), (1, 103000), (2, 413000), (1, 3310000), (2, 1240000), (1, 927000), (2, 1240000), (1, 5080000), (2, 2670000), (1, 2360000), (2, 1390000), (1, 1080000), (1, 1390000), (1, 1240000), (1, 817000), (2, 1130000), (1, 817000), (2, 1130000), (1, 817000), (2, 2200000), (1, 817000), (2, 1130000), (1, 817000), (4, 1350000)],
   [(28, 0), (4, 13700), (4, 63600), (4, 66800), (8, 54700), (4, 68500), (4, 39500), (12, 0), (4, 13700), (4, 75600), (4, 79000), (4, 66800), (8, 54700), (4, 27400)],
   [(28, 0), (4, 310000), (12, 0), (4, 317000), (24, 0), (4, 1500000), (20, 0)],
   [(28, 0), (4, 86300), (12, 0), (4, 88200), (24, 0), (4, 419000), (20, 0)],
   [(32, 0), (1, 615000), (15, 0), (1, 615000), (21, 0), (4, 615000), (22, 0)],
   [(29, 0), (23, 10000), (17, 0), (23, 10000), (4, 0)]]

/-- `initializer/schedules.json`, 'daily_schedule', '2', 'other_occupant_room', '平日': the lists in the order of `shippedKinds`. -/
def shipped210 : List (List (ℕ × ℕ)) :=
  [[(24, 20000), (1, 10000), (3, 0), (1, 10000), (9, 0), (2, 10000), (52, 0), (1, 10000), (3, 20000)],
   [(39, 0), (1, 3390000), (56, 0)],
   [(24, 0), (4, 12600), (4, 0), (4, 6300), (56, 0), (4, 12600)],
   [(96, 0)],
   [(96, 0)],
   [(96, 0)],
   [(25, 10000), (3, 0), (1, 10000), (9, 0), (2, 10000), (52, 0), (4, 10000)]]

/-- `initializer/schedules.json`, 'daily_schedule', '2', 'other_occupant_room', '休日外': the lists in the order of `shippedKinds`. -/
def shipped211 : List (List (ℕ × ℕ)) :=
  [[(27, 20000), (4, 10000), (5, 0), (1, 10000), (1, 20000), (54, 0), (4, 20000)],
   [(96, 0)],
   [(28, 0), (12, 6300), (52, 0), (4, 6300)],
   [(96, 0)],
   [(96, 0)],
   [(96, 0)],
   [(31, 10000), (5, 0), (2, 10000), (54, 0), (4, 10000)]]

/-- `initializer/schedules.json`, 'daily_schedule', '2', 'other_occupant_room', '休日在': the lists in the order of `shippedKinds`. -/
def shipped212 : List (List (ℕ × ℕ)) :=
  [[(27, 20000), (4, 10000), (21, 0), (1, 20000), (39, 0), (4, 20000)],
   [(64, 0), (1, 3390000), (31, 0)],
   [(28, 0), (12, 6300), (52, 0), (4, 6300)],
   [(96, 0)],
   [(96, 0)],
   [(96, 0)],
   [(31, 10000), (21, 0), (1, 10000), (39, 0), (4, 10000)]]

/-- `initializer/schedules.json`, 'daily_schedule', '2', 'non_occupant_room', '平日': the lists in the order of `shippedKinds`. -/
def shipped220 : List (List (ℕ × ℕ)) :=
  [[(24, 0), (2, 10000), (3, 0), (2, 10000), (56, 0), (5, 10000), (4, 0)],
   [(26, 224000), (1, 2620000), (1, 224000), (2, 2620000), (1, 224000), (3, 571000), (53, 224000), (1, 2620000), (4, 224000), (1, 2620000), (3, 224000)],
   [(24, 0), (4, 19900), (4, 10300), (4, 18300), (4, 0), (4, 10500), (4, 0), (4, 2110), (4, 0), (4, 2110), (4, 0), (4, 2110), (12, 0), (4, 2110), (4, 0), (4, 10200), (4, 12900)],
   [(96, 0)],
   [(96, 0)],
   [(26, 0), (1, 41700), (1, 0), (1, 41700), (1, 0), (1, 41700), (1, 0), (1, 41700), (2, 0), (1, 41700), (6, 0), (1, 41700), (5, 0), (1, 41700), (6, 0), (1, 41700), (8, 0), (1, 41700), (4, 0), (1, 41700), (2, 0), (1, 41700), (3, 0), (1, 41700), (3, 0), (1, 41700), (3, 0), (1, 41700), (3, 0), (1, 339000), (3, 297000), (2, 339000), (1, 297000), (1, 339000)],
   [(24, 0), (2, 10000), (3, 0), (2, 10000), (56, 0), (5, 10000), (4, 0)]]

/-- `initializer/schedules.json`, 'daily_schedule', '2', 'non_occupant_room', '休日外': the lists in the order of `shippedKinds`. -/
def shipped221 : List (List (ℕ × ℕ)) :=
  [[(27, 0), (5, 10000), (55, 0), (5, 10000), (4, 0)],
   [(26, 224000), (1, 2620000), (1, 224000), (3, 571000), (2, 224000), (1, 2620000), (53, 224000), (1, 2620000), (4, 224000), (1, 2620000), (3, 224000)],
   [(28, 0), (4, 17500), (4, 14300), (4, 23600), (4, 2110), (36, 0), (4, 2110), (4, 0), (4, 10200), (4, 10300)],
   [(96, 0)],
   [(96, 0)],
   [(26, 0), (1, 41700), (4, 0), (3, 41700), (1, 0), (1, 83300), (44, 0), (1, 83300), (3, 0), (1, 41700), (3, 0), (1, 41700), (1, 0), (1, 297000), (2, 339000), (3, 297000)],
   [(27, 0), (5, 10000), (55, 0), (5, 10000), (4, 0)]]

/-- `initializer/schedules.json`, 'daily_schedule', '2', 'non_occupant_room', '休日在': the lists in the order of `shippedKinds`. -/
def shipped222 : List (List (ℕ × ℕ)) :=
  [[(27, 0), (2, 10000), (2, 0), (1, 10000), (2, 0), (2, 10000), (51, 0), (5, 10000), (4, 0)],
   [(29, 224000), (1, 2620000), (3, 224000), (1, 571000), (1, 2960000), (1, 571000), (51, 224000), (1, 2620000), (3, 224000), (1, 2620000), (4, 224000)],
   [(28, 0), (4, 14300), (4, 9930), (4, 21500), (12, 0), (4, 7330), (12, 0), (4, 2110), (16, 0), (4, 10200), (4, 10300)],
   [(96, 0)],
   [(96, 0)],
   [(29, 0), (1, 41700), (1, 0), (2, 41700), (1, 0), (1, 83300), (2, 0), (1, 41700), (4, 0), (1, 83300), (4, 0), (1, 41700), (3, 0), (2, 41700), (11, 0), (1, 83300), (3, 0), (1, 41700), (3, 0), (1, 41700), (7, 0), (1, 41700), (3, 0), (1, 339000), (3, 297000), (1, 339000), (2, 297000), (2, 339000), (1, 297000), (2, 0)],
   [(27, 0), (2, 10000), (2, 0), (1, 10000), (2, 0), (2, 10000), (51, 0), (5, 10000), (4, 0)]]

/-- `initializer/schedules.json`, 'daily_schedule', '3', 'main_occupant_room', '平日': the lists in the order of `shippedKinds`. -/
def shipped300 : List (List (ℕ × ℕ)) :=
  [[(25, 0), (1, 5000), (1, 10000), (1, 20000), (1, 25000), (1, 5000), (1, 15000), (1, 10000), (1, 15000), (5, 10000), (4, 5000), (6, 0), (8, 10000), (8, 0), (5, 10000), (3, 15000), (2, 20000), (4, 15000), (1, 25000), (2, 30000), (2, 25000), (4, 20000), (1, 15000), (6, 10000), (2, 0)],
   [(4, 1350000), (1, 103000), (2, 414000), (1, 103000), (2, 414000), (1, 103000), (2, 414000), (1, 103000), (2, 414000), (1, 103000), (2, 414000), (1, 103000), (2, 414000), (1, 103000), (2, 414000), (1, 103000), (1, 414000), (1, 7770000), (1, 1170000), (2, 1480000), (1, 1170000), (2, 1480000), (1, 1170000), (1, 1480000), (1, 6470000), (1, 1170000), (2, 1480000), (1, 103000), (2, 414000), (1, 103000), (2, 414000), (1, 103000), (1, 414000), (1, 8840000), (1, 1170000), (2, 1480000), (1, 103000), (2, 414000), (1, 103000), (2, 414000), (1, 103000), (2, 414000), (1, 103000), (2, 414000), (1, 103000), (2, 414000), (1, 103000), (1, 6120000), (1, 1480000), (1, 1170000), (1, 1480000), (1, 2920000), (1, 2610000), (1, 5640000), (1, 2920000), (1, 1330000), (2, 1640000), (1, 1330000), (2, 1480000), (1, 1170000), (2, 1480000), (1, 1170000), (2, 1480000), (1, 2250000), (1, 2560000), (1, 1490000), (1, 1180000), (4, 1350000)],
   [(24, 0), (4, 4150), (4, 48600), (4, 39100), (4, 56400), (4, 17300), (4, 0), (4, 20600), (4, 34200), (4, 5770), (4, 0), (4, 23100), (4, 42900), (4, 46100), (4, 57900), (4, 51000), (4, 54400), (4, 46100), (4, 40400)],
   [(24, 0), (4, 534000), (16, 0), (4, 382000), (28, 0), (4, 1820000), (16, 0)],
   [(24, 0), (4, 123000), (16, 0), (4, 88200), (28, 0), (4, 419000), (16, 0)],
   [(27, 0), (1, 922000), (20, 0), (1, 922000), (25, 0), (4, 922000), (18, 0)],
   [(25, 0), (17, 10000), (6, 0), (8, 10000), (8, 0), (30, 10000), (2, 0)]]

/-- `initializer/schedules.json`, 'daily_schedule', '3', 'main_occupant_room', '休日外': the lists in the order of `shippedKinds`. -/
def shipped301 : List (List (ℕ × ℕ)) :=
  [[(27, 0), (4, 5000), (1, 10000), (1, 25000), (1, 20000), (1, 30000), (1, 20000), (1, 5000), (43, 0), (2, 30000), (1, 25000), (3, 20000), (1, 15000), (1, 10000), (2, 5000), (2, 10000), (4, 0)],
   [(4, 1350000), (1, 103000), (2, 414000), (1, 103000), (2, 414000), (1, 103000), (2, 414000), (1, 103000), (2, 414000), (1, 103000), (2, 414000), (1, 103000), (2, 414000), (1, 103000), (2, 414000), (1, 103000), (2, 414000), (1, 1170000), (1, 1480000), (1, 6470000), (1, 1170000), (1, 1480000), (1, 8840000), (1, 1170000), (1, 1480000), (1, 414000), (1, 103000), (2, 414000), (1, 103000), (2, 414000), (1, 103000), (2, 414000), (1, 103000), (2, 414000), (1, 103000), (2, 414000), (1, 103000), (2, 414000), (1, 103000), (2, 414000), (1, 103000), (2, 414000), (1, 103000), (2, 414000), (1, 103000), (2, 414000), (1, 103000), (2, 414000), (1, 103000), (2, 414000), (1, 103000), (2, 414000), (1, 103000), (2, 414000), (1, 103000), (1, 6120000), (1, 1480000), (1, 1170000), (2, 1480000), (1, 1170000), (2, 2560000), (1, 214000), (2, 414000), (1, 103000), (4, 1350000)],
   [(28, 0), (4, 17300), (4, 45800), (4, 43700), (40, 0), (4, 23100), (8, 46100), (4, 23100)],
   [(32, 0), (4, 374000), (60, 0)],
   [(32, 0), (4, 86300), (60, 0)],
   [(33, 0), (2, 922000), (61, 0)],
   [(27, 0), (10, 10000), (43, 0), (12, 10000), (4, 0)]]

/-- `initializer/schedules.json`, 'daily_schedule', '3', 'main_occupant_room', '休日在': the lists in the order of `shippedKinds`. -/
def shipped302 : List (List (ℕ × ℕ)) :=
  [[(29, 0), (2, 5000), (1, 10000), (1, 20000), (1, 25000), (16, 20000), (1, 25000), (1, 20000), (1, 10000), (11, 0), (1, 10000), (4, 5000), (1, 15000), (4, 25000), (6, 30000), (7, 20000), (1, 15000), (1, 10000), (1, 5000), (2, 10000), (4, 0)],
   [(4, 1350000), (1, 103000), (2, 414000), (1, 103000), (2, 414000), (1, 103000), (2, 414000), (1, 103000), (2, 414000), (1, 103000), (2, 414000), (1, 103000), (2, 414000), (1, 103000), (2, 414000), (1, 103000), (2, 414000), (1, 103000), (2, 414000), (1, 4740000), (1, 4200000), (1, 1480000), (1, 1170000), (2, 1480000), (1, 6160000), (2, 1480000), (1, 2250000), (2, 2560000), (1, 2250000), (2, 2560000), (1, 2250000), (1, 2560000), (1, 8840000), (1, 1170000), (2, 1480000), (1, 103000), (2, 414000), (1, 103000), (2, 414000), (1, 103000), (2, 414000), (1, 103000), (2, 414000), (1, 4850000), (2, 1590000), (1, 1280000), (2, 1590000), (1, 5440000), (2, 3030000), (1, 2720000), (2, 1750000), (1, 1440000), (1, 1750000), (1, 1590000), (1, 1170000), (2, 1480000), (1, 1170000), (2, 1480000), (1, 1170000), (2, 2560000), (1, 1170000), (2, 1480000), (1, 1170000), (4, 1350000)],
   [(28, 0), (4, 5770), (4, 42100), (4, 71300), (8, 46100), (4, 55600), (4, 42100), (8, 0), (4, 11500), (4, 28800), (4, 71000), (4, 56800), (4, 59000), (8, 46100), (4, 23100)],
   [(32, 0), (4, 374000), (8, 0), (4, 382000), (24, 0), (4, 1820000), (20, 0)],
   [(32, 0), (4, 86300), (8, 0), (4, 88200), (24, 0), (4, 419000), (20, 0)],
   [(32, 0), (1, 922000), (15, 0), (1, 922000), (21, 0), (4, 922000), (22, 0)],
   [(29, 0), (24, 10000), (11, 0), (28, 10000), (4, 0)]]

/-- `initializer/schedules.json`, 'daily_schedule', '3', 'other_occupant_room', '平日': the lists in the order of `shippedKinds`. -/
def shipped310 : List (List (ℕ × ℕ)) :=
  [[(24, 30000), (1, 25000), (1, 20000), (2, 10000), (1, 5000), (2, 0), (1, 5000), (6, 0), (2, 5000), (34, 0), (4, 5000), (3, 0), (7, 5000), (4, 10000), (1, 15000), (1, 20000), (2, 30000)],
   [(39, 2000), (1, 3390000), (41, 2000), (4, 326000), (3, 2000), (3, 326000), (2, 216000), (3, 2000)],
   [(4, 8560), (20, 0), (4, 7950), (4, 5870), (4, 2650), (4, 11900), (36, 0), (4, 11700), (4, 2950), (4, 11800), (4, 17600), (4, 25900)],
   [(96, 0)],
   [(96, 0)],
   [(96, 0)],
   [(29, 10000), (2, 0), (1, 10000), (6, 0), (2, 10000), (34, 0), (4, 10000), (3, 0), (15, 10000)]]

/-- `initializer/schedules.json`, 'daily_schedule', '3', 'other_occupant_room', '休日外': the lists in the order of `shippedKinds`. -/
def shipped311 : List (List (ℕ × ℕ)) :=
  [[(26, 30000), (1, 25000), (4, 20000), (1, 10000), (1, 5000), (2, 0), (1, 10000), (1, 5000), (1, 10000), (44, 0), (4, 5000), (2, 10000), (2, 15000), (2, 10000), (1, 25000), (3, 30000)],
   [(80, 2000), (5, 112000), (3, 2000), (4, 216000), (4, 2000)],
   [(24, 0), (8, 2650), (4, 11200), (4, 8530), (44, 0), (4, 2920), (4, 17600), (4, 19700)],
   [(96, 0)],
   [(96, 0)],
   [(96, 0)],
   [(33, 10000), (2, 0), (3, 10000), (44, 0), (14, 10000)]]

/-- `initializer/schedules.json`, 'daily_schedule', '3', 'other_occupant_room', '休日在': the lists in the order of `shippedKinds`. -/
def shipped312 : List (List (ℕ × ℕ)) :=
  [[(27, 30000), (2, 25000), (1, 20000), (1, 25000), (1, 10000), (2, 5000), (1, 0), (1, 5000), (12, 10000), (1, 5000), (2, 0), (1, 5000), (1, 10000), (11, 0), (1, 5000), (5, 10000), (4, 5000), (6, 0), (5, 10000), (3, 5000), (1, 10000), (1, 15000), (2, 10000), (1, 25000), (3, 30000)],
   [(37, 2000), (3, 216000), (2, 326000), (6, 216000), (16, 2000), (1, 3720000), (9, 326000), (6, 112000), (5, 326000), (3, 112000), (4, 326000), (4, 2000)],
   [(28, 0), (4, 5300), (4, 11200), (4, 20400), (8, 23500), (4, 14700), (4, 2920), (8, 0), (4, 5910), (8, 11800), (4, 0), (4, 11700), (4, 20500), (4, 17600), (4, 19700)],
   [(96, 0)],
   [(96, 0)],
   [(96, 0)],
   [(34, 10000), (1, 0), (14, 10000), (2, 0), (2, 10000), (11, 0), (10, 10000), (6, 0), (16, 10000)]]

/-- `initializer/schedules.json`, 'daily_schedule', '3', 'non_occupant_room', '平日': the lists in the order of `shippedKinds`. -/
def shipped320 : List (List (ℕ × ℕ)) :=
  [[(24, 0), (2, 5000), (1, 10000), (2, 0), (1, 15000), (1, 5000), (52, 0), (4, 5000), (5, 10000), (1, 5000), (3, 0)],
   [(26, 447000), (1, 4040000), (1, 447000), (2, 4040000), (1, 447000), (3, 794000), (53, 447000), (1, 4040000), (4, 447000), (1, 4040000), (3, 447000)],
   [(4, 1820), (20, 0), (4, 9280), (4, 9520), (4, 12400), (4, 6650), (4, 5850), (4, 803), (4, 1610), (4, 0), (4, 3550), (4, 0), (4, 1610), (16, 803), (4, 4820), (4, 10600), (4, 9800)],
   [(96, 0)],
   [(96, 0)],
   [(26, 0), (1, 62500), (1, 0), (1, 62500), (1, 0), (1, 62500), (1, 0), (1, 62500), (2, 0), (1, 62500), (6, 0), (1, 62500), (5, 0), (1, 62500), (6, 0), (1, 62500), (8, 0), (1, 62500), (4, 0), (1, 62500), (2, 0), (1, 62500), (3, 0), (1, 62500), (3, 0), (1, 62500), (3, 0), (1, 62500), (3, 0), (1, 509000), (3, 446000), (2, 509000), (1, 446000), (1, 509000)],
   [(24, 0), (3, 10000), (2, 0), (2, 10000), (52, 0), (10, 10000), (3, 0)]]

/-- `initializer/schedules.json`, 'daily_schedule', '3', 'non_occupant_room', '休日外': the lists in the order of `shippedKinds`. -/
def shipped321 : List (List (ℕ × ℕ)) :=
  [[(26, 0), (5, 5000), (1, 10000), (1, 0), (1, 10000), (49, 0), (4, 5000), (5, 10000), (1, 5000), (3, 0)],
   [(26, 447000), (1, 4040000), (1, 447000), (3, 794000), (2, 447000), (1, 4040000), (53, 447000), (1, 4040000), (4, 447000), (1, 4040000), (3, 447000)],
   [(24, 0), (4, 1800), (4, 8940), (4, 14700), (4, 9630), (4, 803), (36, 0), (4, 1610), (4, 4820), (4, 10600), (4, 10800)],
   [(96, 0)],
   [(96, 0)],
   [(26, 0), (1, 62500), (4, 0), (3, 62500), (1, 0), (1, 125000), (44, 0), (1, 125000), (3, 0), (1, 62500), (3, 0), (1, 62500), (1, 0), (1, 446000), (2, 509000), (3, 446000)],
   [(26, 0), (6, 10000), (1, 0), (1, 10000), (49, 0), (10, 10000), (3, 0)]]

/-- `initializer/schedules.json`, 'daily_schedule', '3', 'non_occupant_room', '休日在': the lists in the order of `shippedKinds`. -/
def shipped322 : List (List (ℕ × ℕ)) :=
  [[(27, 0), (3, 5000), (1, 0), (1, 10000), (1, 5000), (1, 0), (1, 10000), (1, 5000), (32, 0), (2, 5000), (15, 0), (2, 5000), (5, 10000), (1, 5000), (3, 0)],
   [(29, 447000), (1, 4040000), (3, 447000), (1, 794000), (1, 4380000), (1, 794000), (51, 447000), (1, 4040000), (3, 447000), (1, 4040000), (4, 447000)],
   [(28, 0), (4, 8880), (4, 13700), (4, 16100), (4, 5850), (4, 0), (4, 2790), (4, 6340), (8, 0), (4, 3680), (4, 4490), (4, 0), (8, 993), (4, 1930), (4, 10600), (4, 10500)],
   [(96, 0)],
   [(96, 0)],
   [(29, 0), (1, 62500), (1, 0), (2, 62500), (1, 0), (1, 125000), (2, 0), (1, 62500), (4, 0), (1, 125000), (4, 0), (1, 62500), (3, 0), (2, 62500), (11, 0), (1, 125000), (3, 0), (1, 62500), (3, 0), (1, 62500), (7, 0), (1, 62500), (3, 0), (1, 509000), (3, 446000), (1, 509000), (2, 446000), (2, 509000), (1, 446000), (2, 0)],
   [(27, 0), (3, 10000), (1, 0), (2, 10000), (1, 0), (2, 10000), (32, 0), (2, 10000), (15, 0), (8, 10000), (3, 0)]]

/-- `initializer/schedules.json`, 'daily_schedule', '4', 'main_occupant_room', '平日': the lists in the order of `shippedKinds`. -/
def shipped400 : List (List (ℕ × ℕ)) :=
  [[(27, 0), (1, 20000), (1, 40000), (1, 10000), (1, 30000), (1, 10000), (1, 20000), (9, 10000), (6, 0), (8, 10000), (8, 0), (5, 10000), (3, 20000), (2, 30000), (4, 20000), (3, 40000), (2, 30000), (5, 20000), (5, 10000), (1, 20000), (2, 0)],
   [(4, 1350000), (1, 103000), (2, 414000), (1, 103000), (2, 414000), (1, 103000), (2, 414000), (1, 103000), (2, 414000), (1, 103000), (2, 414000), (1, 103000), (2, 414000), (1, 103000), (2, 414000), (1, 103000), (1, 414000), (1, 7770000), (1, 1170000), (2, 1480000), (1, 1170000), (2, 1480000), (1, 1170000), (1, 1480000), (1, 6470000), (1, 1170000), (2, 1480000), (1, 103000), (2, 414000), (1, 103000), (2, 414000), (1, 103000), (1, 414000), (1, 8840000), (1, 1170000), (2, 1480000), (1, 103000), (2, 414000), (1, 103000), (2, 414000), (1, 103000), (2, 414000), (1, 103000), (2, 414000), (1, 103000), (2, 414000), (1, 103000), (1, 6120000), (1, 1480000), (1, 1170000), (1, 1480000), (1, 2920000), (1, 2610000), (1, 5640000), (1, 2920000), (1, 1330000), (2, 1640000), (1, 1330000), (2, 1480000), (1, 1170000), (2, 1480000), (1, 1170000), (2, 1480000), (1, 2250000), (1, 2560000), (1, 1490000), (1, 1180000), (4, 1350000)],
   [(28, 0), (4, 46500), (4, 31400), (4, 59800), (4, 31400), (4, 0), (4, 18000), (4, 38900), (4, 10500), (4, 0), (4, 20900), (4, 35300), (4, 41800), (4, 70700), (4, 50100), (4, 49000), (8, 41800)],
   [(24, 0), (4, 626000), (16, 0), (4, 448000), (28, 0), (4, 2130000), (16, 0)],
   [(24, 0), (4, 123000), (16, 0), (4, 88200), (28, 0), (4, 419000), (16, 0)],
   [(27, 0), (1, 1230000), (20, 0), (1, 1230000), (25, 0), (4, 1230000), (18, 0)],
   [(27, 0), (15, 10000), (6, 0), (8, 10000), (8, 0), (30, 10000), (2, 0)]]

/-- `initializer/schedules.json`, 'daily_schedule', '4', 'main_occupant_room', '休日外': the lists in the order of `shippedKinds`. -/
def shipped401 : List (List (ℕ × ℕ)) :=
  [[(27, 0), (5, 10000), (1, 30000), (1, 20000), (1, 40000), (1, 20000), (44, 0), (2, 40000), (1, 30000), (3, 20000), (2, 10000), (2, 0), (2, 10000), (4, 0)],
   [(4, 1350000), (1, 103000), (2, 414000), (1, 103000), (2, 414000), (1, 103000), (2, 414000), (1, 103000), (2, 414000), (1, 103000), (2, 414000), (1, 103000), (2, 414000), (1, 103000), (2, 414000), (1, 103000), (2, 414000), (1, 1170000), (1, 1480000), (1, 6470000), (1, 1170000), (1, 1480000), (1, 8840000), (1, 1170000), (1, 1480000), (1, 414000), (1, 103000), (2, 414000), (1, 103000), (2, 414000), (1, 103000), (2, 414000), (1, 103000), (2, 414000), (1, 103000), (2, 414000), (1, 103000), (2, 414000), (1, 103000), (2, 414000), (1, 103000), (2, 414000), (1, 103000), (2, 414000), (1, 103000), (2, 414000), (1, 103000), (2, 414000), (1, 103000), (2, 414000), (1, 103000), (2, 414000), (1, 103000), (2, 414000), (1, 103000), (1, 6120000), (1, 1480000), (1, 1170000), (2, 1480000), (1, 1170000), (2, 2560000), (1, 214000), (2, 414000), (1, 103000), (4, 1350000)],
   [(28, 0), (4, 31400), (4, 45800), (4, 28500), (40, 0), (4, 20900), (8, 41800), (4, 20900)],
   [(32, 0), (4, 438000), (60, 0)],
   [(32, 0), (4, 86300), (60, 0)],
   [(33, 0), (2, 1230000), (61, 0)],
   [(27, 0), (9, 10000), (44, 0), (8, 10000), (2, 0), (2, 10000), (4, 0)]]

/-- `initializer/schedules.json`, 'daily_schedule', '4', 'main_occupant_room', '休日在': the lists in the order of `shippedKinds`. -/
def shipped402 : List (List (ℕ × ℕ)) :=
  [[(31, 0), (1, 10000), (1, 20000), (3, 30000), (14, 20000), (1, 30000), (2, 20000), (11, 0), (1, 20000), (5, 10000), (4, 30000), (6, 40000), (8, 20000), (1, 10000), (1, 0), (2, 10000), (4, 0)],
   [(4, 1350000), (1, 103000), (2, 414000), (1, 103000), (2, 414000), (1, 103000), (2, 414000), (1, 103000), (2, 414000), (1, 103000), (2, 414000), (1, 103000), (2, 414000), (1, 103000), (2, 414000), (1, 103000), (2, 414000), (1, 103000), (2, 414000), (1, 4740000), (1, 4200000), (1, 1480000), (1, 1170000), (2, 1480000), (1, 6160000), (2, 1480000), (1, 2250000), (2, 2560000), (1, 2250000), (2, 2560000), (1, 2250000), (1, 2560000), (1, 8840000), (1, 1170000), (2, 1480000), (1, 103000), (2, 414000), (1, 103000), (2, 414000), (1, 103000), (2, 414000), (1, 103000), (2, 414000), (1, 4850000), (2, 1590000), (1, 1280000), (2, 1590000), (1, 5440000), (2, 3030000), (1, 2720000), (2, 1750000), (1, 1440000), (1, 1750000), (1, 1590000), (1, 1170000), (2, 1480000), (1, 1170000), (2, 1480000), (1, 1170000), (2, 2560000), (1, 1170000), (2, 1480000), (1, 1170000), (4, 1350000)],
   [(32, 0), (4, 28500), (4, 77900), (8, 41800), (4, 49400), (4, 46100), (8, 0), (4, 20900), (4, 41800), (4, 70700), (4, 43200), (4, 56300), (8, 41800), (4, 20900)],
   [(32, 0), (4, 438000), (8, 0), (4, 448000), (24, 0), (4, 2130000), (20, 0)],
   [(32, 0), (4, 86300), (8, 0), (4, 88200), (24, 0), (4, 419000), (20, 0)],
   [(32, 0), (1, 1230000), (15, 0), (1, 1230000), (21, 0), (4, 1230000), (22, 0)],
   [(31, 0), (22, 10000), (11, 0), (25, 10000), (1, 0), (2, 10000), (4, 0)]]

/-- `initializer/schedules.json`, 'daily_schedule', '4', 'other_occupant_room', '平日': the lists in the order of `shippedKinds`. -/
def shipped410 : List (List (ℕ × ℕ)) :=
  [[(26, 40000), (2, 20000), (3, 0), (1, 10000), (42, 0), (4, 10000), (3, 0), (7, 10000), (6, 20000), (2, 40000)],
   [(39, 8670), (1, 3400000), (32, 8670), (4, 1500000), (5, 8670), (4, 333000), (3, 8670), (3, 333000), (2, 223000), (3, 8670)],
   [(4, 15400), (20, 0), (4, 4800), (4, 10500), (4, 0), (4, 21400), (36, 0), (4, 20900), (4, 5280), (4, 21100), (4, 31400), (4, 36800)],
   [(96, 0)],
   [(96, 0)],
   [(96, 0)],
   [(28, 10000), (3, 0), (1, 10000), (42, 0), (4, 10000), (3, 0), (15, 10000)]]

/-- `initializer/schedules.json`, 'daily_schedule', '4', 'other_occupant_room', '休日外': the lists in the order of `shippedKinds`. -/
def shipped411 : List (List (ℕ × ℕ)) :=
  [[(26, 40000), (5, 30000), (1, 20000), (1, 10000), (2, 0), (1, 20000), (46, 0), (4, 10000), (2, 20000), (2, 30000), (2, 20000), (1, 30000), (3, 40000)],
   [(80, 8670), (5, 1610000), (2, 1500000), (1, 8670), (4, 223000), (4, 8670)],
   [(24, 0), (4, 4800), (4, 0), (4, 15300), (4, 10500), (44, 0), (4, 5210), (4, 31400), (4, 30600)],
   [(96, 0)],
   [(96, 0)],
   [(96, 0)],
   [(33, 10000), (2, 0), (1, 10000), (46, 0), (14, 10000)]]

/-- `initializer/schedules.json`, 'daily_schedule', '4', 'other_occupant_room', '休日在': the lists in the order of `shippedKinds`. -/
def shipped412 : List (List (ℕ × ℕ)) :=
  [[(29, 40000), (1, 30000), (1, 40000), (1, 20000), (2, 10000), (1, 0), (1, 10000), (12, 20000), (1, 10000), (2, 0), (1, 10000), (12, 0), (1, 10000), (5, 20000), (4, 10000), (6, 0), (5, 20000), (3, 10000), (1, 20000), (1, 30000), (2, 20000), (1, 30000), (3, 40000)],
   [(37, 8670), (3, 223000), (2, 333000), (6, 223000), (16, 8670), (1, 5220000), (9, 1820000), (2, 1610000), (4, 119000), (5, 333000), (3, 119000), (4, 333000), (4, 8670)],
   [(28, 0), (4, 4800), (4, 15300), (4, 31800), (8, 42000), (4, 26200), (4, 5210), (8, 0), (4, 10600), (8, 21100), (4, 0), (4, 21000), (4, 36700), (4, 31400), (4, 30600)],
   [(96, 0)],
   [(96, 0)],
   [(96, 0)],
   [(34, 10000), (1, 0), (14, 10000), (2, 0), (1, 10000), (12, 0), (10, 10000), (6, 0), (16, 10000)]]

/-- `initializer/schedules.json`, 'daily_schedule', '4', 'non_occupant_room', '平日': the lists in the order of `shippedKinds`. -/
def shipped420 : List (List (ℕ × ℕ)) :=
  [[(26, 0), (1, 20000), (2, 0), (1, 20000), (53, 0), (10, 10000), (3, 0)],
   [(26, 447000), (1, 4040000), (1, 447000), (2, 4040000), (1, 447000), (3, 794000), (53, 447000), (1, 4040000), (4, 447000), (1, 4040000), (3, 447000)],
   [(4, 2990), (20, 0), (4, 3030), (4, 9470), (4, 9150), (4, 11000), (4, 3220), (8, 1360), (4, 0), (4, 4570), (4, 0), (16, 1360), (4, 0), (4, 8040), (4, 11300), (4, 8180)],
   [(96, 0)],
   [(96, 0)],
   [(26, 0), (1, 83300), (1, 0), (1, 83300), (1, 0), (1, 83300), (1, 0), (1, 83300), (2, 0), (1, 83300), (6, 0), (1, 83300), (5, 0), (1, 83300), (6, 0), (1, 83300), (8, 0), (1, 83300), (4, 0), (1, 83300), (2, 0), (1, 83300), (3, 0), (1, 83300), (3, 0), (1, 83300), (3, 0), (1, 83300), (3, 0), (1, 678000), (3, 595000), (2, 678000), (1, 595000), (1, 678000)],
   [(26, 0), (1, 10000), (2, 0), (1, 10000), (53, 0), (10, 10000), (3, 0)]]

/-- `initializer/schedules.json`, 'daily_schedule', '4', 'non_occupant_room', '休日外': the lists in the order of `shippedKinds`. -/
def shipped421 : List (List (ℕ × ℕ)) :=
  [[(26, 0), (1, 10000), (4, 0), (1, 10000), (1, 0), (1, 20000), (49, 0), (10, 10000), (3, 0)],
   [(26, 447000), (1, 4040000), (1, 447000), (3, 794000), (2, 447000), (1, 4040000), (53, 447000), (1, 4040000), (4, 447000), (1, 4040000), (3, 447000)],
   [(24, 0), (4, 3030), (4, 3940), (4, 15500), (4, 1360), (40, 0), (4, 1360), (4, 8040), (4, 11300), (4, 11500)],
   [(96, 0)],
   [(96, 0)],
   [(26, 0), (1, 83300), (4, 0), (3, 83300), (1, 0), (1, 167000), (44, 0), (1, 167000), (3, 0), (1, 83300), (3, 0), (1, 83300), (1, 0), (1, 595000), (2, 678000), (3, 595000)],
   [(26, 0), (1, 10000), (4, 0), (1, 10000), (1, 0), (1, 10000), (49, 0), (10, 10000), (3, 0)]]

/-- `initializer/schedules.json`, 'daily_schedule', '4', 'non_occupant_room', '休日在': the lists in the order of `shippedKinds`. -/
def shipped422 : List (List (ℕ × ℕ)) :=
  [[(29, 0), (1, 10000), (1, 0), (2, 10000), (1, 0), (1, 10000), (33, 0), (2, 10000), (15, 0), (8, 10000), (3, 0)],
   [(29, 447000), (1, 4040000), (3, 447000), (1, 794000), (1, 4380000), (1, 794000), (51, 447000), (1, 4040000), (3, 447000), (1, 4040000), (4, 447000)],
   [(28, 0), (4, 5830), (4, 16600), (4, 13400), (4, 9630), (4, 0), (4, 4710), (4, 6070), (8, 0), (4, 6180), (4, 6150), (4, 0), (8, 1680), (4, 3250), (4, 11300), (4, 11000)],
   [(96, 0)],
   [(96, 0)],
   [(29, 0), (1, 83300), (1, 0), (2, 83300), (1, 0), (1, 167000), (2, 0), (1, 83300), (4, 0), (1, 167000), (4, 0), (1, 83300), (3, 0), (2, 83300), (11, 0), (1, 167000), (3, 0), (1, 83300), (3, 0), (1, 83300), (7, 0), (1, 83300), (3, 0), (1, 678000), (3, 595000), (1, 678000), (2, 595000), (2, 678000), (1, 595000), (2, 0)],
   [(29, 0), (1, 10000), (1, 0), (2, 10000), (1, 0), (1, 10000), (33, 0), (2, 10000), (15, 0), (8, 10000), (3, 0)]]

/-- `initializer/schedules.json`, 'daily_schedule': household sizes 1 to 4, rooms, kinds of days, kinds of schedules. -/
def shippedRuns : List (List (List (List (List (ℕ × ℕ))))) :=
  [[[shipped100, shipped101, shipped102], [shipped110, shipped111, shipped112], [shipped120, shipped121, shipped122]],
   [[shipped200, shipped201, shipped202], [shipped210, shipped211, shipped212], [shipped220, shipped221, shipped222]],
   [[shipped300, shipped301, shipped302], [shipped310, shipped311, shipped312], [shipped320, shipped321, shipped322]],
   [[shipped400, shipped401, shipped402], [shipped410, shipped411, shipped412], [shipped420, shipped421, shipped422]]]

/-- The list for household size `n + 1` and the room, kind of day and kind of schedule with these numbers. -/
def shippedAt (n r t k q : ℕ) : ℕ := runAt (((((shippedRuns.getD n []).getD r []).getD t []).getD k [])) q

/-- `initializer/schedules.json` as it is read by `_load_schedule` (`initializer/schedule_loader.py` 148-154). -/
noncomputable def shippedSchedule : ScheduleFile where
  calendar := fun d => shippedDays.getD (runAt shippedCalendar d) ""
  daily := fun n room day kind => do
    let r ← shippedRooms.idxOf? room
    let t ← shippedDays.idxOf? day
    let k ← shippedKinds.idxOf? kind
    if 1 ≤ n ∧ n ≤ 4 then some fun q => (shippedAt (n - 1) r t k q : ℝ) / 10000 else none

end HLC.Init
