"""Writes lean/Verif/Model/ShippedSchedule.lean: the contents of heat_load_calc/initializer/schedules.json as Lean data."""
import json
from itertools import groupby

src = '/repo/heat_load_calc/initializer/schedules.json'
d = json.load(open(src, encoding='utf-8'))
rooms = ['main_occupant_room', 'other_occupant_room', 'non_occupant_room']
days = ['平日', '休日外', '休日在']
kinds = ['number_of_people', 'heat_generation_appliances', 'heat_generation_lighting', 'heat_generation_cooking',
         'vapor_generation_cooking', 'local_vent_amount', 'is_temp_limit_set']
D = d['daily_schedule']
assert set(d) == {'calendar', 'daily_schedule'} and set(D) == set('1234') and len(d['calendar']) == 365


def runs(xs):
    return [(len(list(g)), v) for v, g in groupby(xs)]


def ten_thousandths(x):
    y = round(x * 10000)
    assert abs(y - x * 10000) < 1e-6
    return y


def wrap(items, indent, width=150):
    lines, cur = [], ''
    for k, it in enumerate(items):
        it = it + (', ' if k < len(items) - 1 else '')
        if cur and len(indent) + len(cur) + len(it) > width:
            lines.append(indent + cur.rstrip())
            cur = ''
        cur += it
    lines.append(indent + cur)
    return '\n'.join(lines)


def lit(rs):
    return '[' + ', '.join(f'({c}, {v})' for c, v in rs) + ']'


out = []
out.append('''import Verif.Model.Schedule

/-!
# The schedule file of the project (`initializer/schedules.json`)

Generated by `tools/gen_schedule.py` from the file of the repository. Lists of equal values are stored as runs (length, value), numbers in
units of 1/10000 (no number of the file has more than four decimals).
-/

namespace HLC.Init

/-- Entry `q` of a list given by its runs; 0 behind the end. -/
def runAt : List (ℕ × ℕ) → ℕ → ℕ
  | [], _ => 0
  | (c, v) :: l, q => if q < c then v else runAt l (q - c)

/-- The names of the rooms, `initializer/schedules.json`: keys below each household size, the same for all. -/
def shippedRooms : List String := [''' + ', '.join(f'"{r}"' for r in rooms) + ''']

/-- The kinds of days, `initializer/schedules.json`: keys below each room, the same for all. -/
def shippedDays : List String := [''' + ', '.join(f'"{r}"' for r in days) + ''']

/-- The kinds of schedules, `initializer/schedules.json`: keys below each kind of day, the same for all. -/
def shippedKinds : List String :=
  [''' + ', '.join(f'"{r}"' for r in kinds) + ''']

/-- `initializer/schedules.json`, 'calendar': the kinds of the days of the year as runs (number of days, index in `shippedDays`). -/
def shippedCalendar : List (ℕ × ℕ) :=
  [
''' + wrap([f'({c}, {days.index(v)})' for c, v in runs(d['calendar'])], '   ') + ''']
''')
for n in '1234':
    assert set(D[n]) == set(rooms)
    for ri, r in enumerate(rooms):
        assert set(D[n][r]) == set(days)
        for ti, t in enumerate(days):
            assert set(D[n][r][t]) == set(kinds)
            rows = []
            for k in kinds:
                xs = D[n][r][t][k]
                assert len(xs) == 96
                rows.append(lit([(c, ten_thousandths(v)) for c, v in runs(xs)]))
            out.append(f'''/-- `initializer/schedules.json`, 'daily_schedule', '{n}', '{r}', '{t}': the lists in the order of `shippedKinds`. -/
def shipped{n}{ri}{ti} : List (List (ℕ × ℕ)) :=
  [''' + ',\n   '.join(rows) + ''']
''')
out.append('''/-- `initializer/schedules.json`, 'daily_schedule': household sizes 1 to 4, rooms, kinds of days, kinds of schedules. -/
def shippedRuns : List (List (List (List (List (ℕ × ℕ))))) :=
  [''' + ',\n   '.join('[' + ', '.join('[' + ', '.join(f'shipped{n}{r}{t}' for t in range(3)) + ']' for r in range(3)) + ']' for n in '1234') + ''']

/-- The list for household size `n + 1` and the room, kind of day and kind of schedule with these numbers. -/
def shippedAt (n r t k q : ℕ) : ℕ := runAt (((((shippedRuns.getD n []).getD r []).getD t []).getD k [])) q

/-- `initializer/schedules.json` as it is read by `_load_schedule` (`initializer/schedule_loader.py` 148-154). -/
noncomputable def shippedSchedule : ScheduleFile where
  calendar := fun d => shippedDays.getD (runAt shippedCalendar d) ""
  daily := fun n room day kind => do
    let r ← shippedRooms.idxOf? room
    let t ← shippedDays.idxOf? day
    let k ← shippedKinds.idxOf? kind
    if 1 ≤ n ∧ n ≤ 4 then some fun q => (shippedAt (n - 1) r t k q : ℝ) / 10000 else none

end HLC.Init
''')
open('/verif/lean/Verif/Model/ShippedSchedule.lean', 'w', encoding='utf-8').write('\n'.join(out))
