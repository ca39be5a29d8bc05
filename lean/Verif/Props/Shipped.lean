import Verif.Spec.Shipped
import Verif.Props.Pipeline

/-!
# The schedule file of the project (C126-C128, C71)

The checks on the numbers of the file (`…_data`) are complete: they go through all of them and are evaluated by the kernel.
-/

namespace HLC.Init

set_option linter.unusedSectionVars false

open HLC.Spec

/-! ## The file -/

theorem calendar_data : ∀ d < 365, runAt shippedCalendar d < 3 := by decide +kernel

theorem people_demand_data : ∀ n < 4, ∀ r < 3, ∀ t < 3, ∀ q < 96,
    (shippedAt n r t 0 q = 0 ↔ shippedAt n r t 6 q = 0) ∧ shippedAt n r t 6 q ≤ 10000 := by decide +kernel

theorem people_data : ∀ n < 4, ∀ t < 3, ∀ q < 96, shippedAt n 0 t 0 q + shippedAt n 1 t 0 q + shippedAt n 2 t 0 q ≤ (n + 1) * 10000 := by
  decide +kernel

theorem midnight_data : ∀ n < 4, ∀ t < 3, shippedAt n 0 t 0 0 = 0 ∧ shippedAt n 1 t 0 0 = (n + 1) * 10000 ∧ shippedAt n 2 t 0 0 = 0 := by
  decide +kernel

/-- On the first day (a holiday at home) every room is used by households of every size: the quarter hours differ. -/
theorem used_data : ∀ n < 3, ∀ r < 3, ∃ q < 96, 0 < shippedAt n r 2 0 q ∧ 0 < shippedAt (n + 1) r 2 0 q := by decide +kernel

theorem first_day_data : runAt shippedCalendar 0 = 2 := by decide +kernel

theorem cooking_data : ∀ n < 4, ∀ t < 3, ∀ q < 96, 34 * shippedAt n 0 t 4 q ≤ 10 * shippedAt n 0 t 3 q ∧
    (shippedAt n 0 t 4 q = 0 ↔ shippedAt n 0 t 3 q = 0) := by decide +kernel

/-- The number of the kind of day `d`. -/
def dayIndex (d : Fin 365) : ℕ := runAt shippedCalendar d

theorem dayIndex_lt (d : Fin 365) : dayIndex d < 3 := calendar_data d.1 d.2

theorem shipped_calendar (d : Fin 365) : shippedDays.idxOf (shippedSchedule.calendar d) = dayIndex d := by
  have h := dayIndex_lt d
  show shippedDays.idxOf (shippedDays.getD (dayIndex d) "") = dayIndex d
  generalize dayIndex d = i at h ⊢
  interval_cases i <;> decide

theorem shipped_days : KnownDays shippedSchedule := by
  intro d
  have h := dayIndex_lt d
  show shippedDays.getD (dayIndex d) "" = _ ∨ shippedDays.getD (dayIndex d) "" = _ ∨ shippedDays.getD (dayIndex d) "" = _
  generalize dayIndex d = i at h ⊢
  interval_cases i <;> decide

/-- The lists of a room of the file. -/
noncomputable def shippedTable (r k n : ℕ) (day : String) : Day := fun q => (shippedAt (n - 1) r (shippedDays.idxOf day) k q : ℝ) / 10000

/-- All lists of a room of the file. -/
noncomputable def shippedTables (r : ℕ) : RoomTables where
  appliances := shippedTable r 1
  cookingHeat := shippedTable r 3
  cookingVapour := shippedTable r 4
  lighting := shippedTable r 2
  people := shippedTable r 0
  localVent := shippedTable r 5
  demand := shippedTable r 6

theorem shipped_table {room kind : String} {r k : ℕ} (hr : shippedRooms.idxOf? room = some r) (hk : shippedKinds.idxOf? kind = some k) :
    HasTable shippedSchedule room kind (shippedTable r k) := by
  intro n h1 h4 day hd
  have ht : shippedDays.idxOf? day = some (shippedDays.idxOf day) := by
    rcases hd with rfl | rfl | rfl <;> decide
  show (do
    let r ← shippedRooms.idxOf? room
    let t ← shippedDays.idxOf? day
    let k ← shippedKinds.idxOf? kind
    if 1 ≤ n ∧ n ≤ 4 then some fun q : Fin 96 => (shippedAt (n - 1) r t k q : ℝ) / 10000 else none) = _
  rw [hr, ht, hk]
  show (if 1 ≤ n ∧ n ≤ 4 then some fun q : Fin 96 => (shippedAt (n - 1) r (shippedDays.idxOf day) k q : ℝ) / 10000 else none) = _
  rw [if_pos ⟨h1, h4⟩]
  rfl

theorem shipped_room {room : String} {r : ℕ} (hr : shippedRooms.idxOf? room = some r) : HasRoom shippedSchedule room (shippedTables r) where
  appliances := shipped_table hr (by decide)
  cookingHeat := shipped_table hr (by decide)
  cookingVapour := shipped_table hr (by decide)
  lighting := shipped_table hr (by decide)
  people := shipped_table hr (by decide)
  localVent := shipped_table hr (by decide)
  demand := shipped_table hr (by decide)

theorem shipped_index {room : String} (h : room ∈ scheduledNames) : ∃ r < 3, shippedRooms.idxOf? room = some r := by
  simp only [scheduledNames, List.mem_cons, List.not_mem_nil, or_false] at h
  rcases h with rfl | rfl | rfl
  · exact ⟨0, by norm_num, by decide⟩
  · exact ⟨1, by norm_num, by decide⟩
  · exact ⟨2, by norm_num, by decide⟩

theorem shipped_absent {room : String} (h : room ∉ scheduledNames) (n : ℕ) (day kind : String) : shippedSchedule.daily n room day kind = none := by
  have : shippedRooms.idxOf? room = none := by
    rw [List.idxOf?_eq_none_iff]
    exact h
  show (do
    let r ← shippedRooms.idxOf? room
    let t ← shippedDays.idxOf? day
    let k ← shippedKinds.idxOf? kind
    if 1 ≤ n ∧ n ≤ 4 then some fun q : Fin 96 => (shippedAt (n - 1) r t k q : ℝ) / 10000 else none) = _
  rw [this]
  rfl

/-! ## Interpolated values -/

/-- Interpolation between two entries of the file. -/
noncomputable def mix (θ : ℝ) (a b : ℕ) : ℝ := (a + θ * ((b : ℝ) - a)) / 10000

theorem mix_nonneg {θ : ℝ} (h0 : 0 ≤ θ) (h1 : θ ≤ 1) (a b : ℕ) : 0 ≤ mix θ a b := by
  have : (a : ℝ) + θ * ((b : ℝ) - a) = (1 - θ) * a + θ * b := by ring
  rw [mix, this]
  have ha : (0 : ℝ) ≤ a := Nat.cast_nonneg a
  have hb : (0 : ℝ) ≤ b := Nat.cast_nonneg b
  have : 0 ≤ 1 - θ := by linarith
  positivity

theorem mix_pos_iff {θ : ℝ} (h0 : 0 ≤ θ) (h1 : θ ≤ 1) (a b : ℕ) : 0 < mix θ a b ↔ (θ < 1 ∧ a ≠ 0) ∨ (0 < θ ∧ b ≠ 0) := by
  have e : mix θ a b = ((1 - θ) * a + θ * b) / 10000 := by rw [mix]; congr 1; ring
  have ha : (0 : ℝ) ≤ a := Nat.cast_nonneg a
  have hb : (0 : ℝ) ≤ b := Nat.cast_nonneg b
  have hθ : 0 ≤ 1 - θ := by linarith
  constructor
  · intro h
    by_contra hc
    push Not at hc
    have e1 : (1 - θ) * (a : ℝ) = 0 := by
      rcases h1.lt_or_eq with h | h
      · rw [hc.1 h]; simp
      · rw [h]; simp
    have e2 : θ * (b : ℝ) = 0 := by
      rcases h0.lt_or_eq with h | h
      · rw [hc.2 h]; simp
      · rw [← h]; simp
    rw [e, e1, e2] at h
    norm_num at h
  · rintro (⟨h, hn⟩ | ⟨h, hn⟩)
    · have ha' : (0 : ℝ) < a := by exact_mod_cast Nat.pos_of_ne_zero hn
      have : 0 < (1 - θ) * (a : ℝ) := mul_pos (by linarith) ha'
      have : 0 ≤ θ * (b : ℝ) := mul_nonneg h0 hb
      rw [e]; positivity
    · have hb' : (0 : ℝ) < b := by exact_mod_cast Nat.pos_of_ne_zero hn
      have : 0 < θ * (b : ℝ) := mul_pos h hb'
      have : 0 ≤ (1 - θ) * (a : ℝ) := mul_nonneg hθ ha
      rw [e]; positivity

theorem mix_le {θ : ℝ} (h0 : 0 ≤ θ) (h1 : θ ≤ 1) {a b : ℕ} {x y : ℝ} (ha : (a : ℝ) ≤ x * 10000) (hb : (b : ℝ) ≤ y * 10000) :
    mix θ a b ≤ (1 - θ) * x + θ * y := by
  have e : mix θ a b = ((1 - θ) * a + θ * b) / 10000 := by rw [mix]; congr 1; ring
  rw [e, div_le_iff₀ (by norm_num)]
  have := mul_le_mul_of_nonneg_left ha (show 0 ≤ 1 - θ by linarith)
  have := mul_le_mul_of_nonneg_left hb h0
  nlinarith

theorem household (np : ℝ) (h1 : 1 ≤ np) (h4 : np ≤ 4) : ∃ k : ℕ, 1 ≤ k ∧ k ≤ 3 ∧ (k : ℝ) ≤ np ∧ np ≤ k + 1 := by
  by_cases h2 : np ≤ 2
  · exact ⟨1, by norm_num, by norm_num, by simpa using h1, by norm_num; exact h2⟩
  by_cases h3 : np ≤ 3
  · exact ⟨2, by norm_num, by norm_num, by push_cast; linarith, by push_cast; linarith⟩
  · exact ⟨3, by norm_num, by norm_num, by push_cast; linarith, by push_cast; linarith⟩

/-- Entry of the file for the kind of day `d`. -/
def tenThousandths (r k n : ℕ) (d : Fin 365) (q : Fin 96) : ℕ := shippedAt n r (dayIndex d) k q

theorem between_shipped (r k n : ℕ) (_ : 1 ≤ n) (np : ℝ) (d : Fin 365) (q : Fin 96) :
    between (shippedTable r k) n np (shippedSchedule.calendar d) q = mix (np - n) (tenThousandths r k (n - 1) d q) (tenThousandths r k n d q) := by
  simp only [between, shippedTable, shipped_calendar, mix, tenThousandths, Nat.add_sub_cancel]
  ring

/-- The compiled schedules of a room of the file. -/
theorem compiled_shipped {room : String} {r : ℕ} (hr : shippedRooms.idxOf? room = some r) {np : ℝ} {n : ℕ} (h1 : 1 ≤ n) (h3 : n ≤ 3)
    (hl : (n : ℝ) ≤ np) (hu : np ≤ n + 1) {a : ℝ} {c : Compiled} (H : compiled shippedSchedule np room a = .ok c) (d : Fin 365) (q : Fin 96) :
    c.nHum (quarter d q) = mix (np - n) (tenThousandths r 0 (n - 1) d q) (tenThousandths r 0 n d q) ∧
    c.acDemand (quarter d q) = mix (np - n) (tenThousandths r 6 (n - 1) d q) (tenThousandths r 6 n d q) ∧
    c.vLocal (quarter d q) = mix (np - n) (tenThousandths r 5 (n - 1) d q) (tenThousandths r 5 n d q) / 3600 ∧
    c.qGen (quarter d q) = mix (np - n) (tenThousandths r 1 (n - 1) d q) (tenThousandths r 1 n d q) + mix (np - n) (tenThousandths r 4 (n - 1) d q) (tenThousandths r 4 n d q)
      + mix (np - n) (tenThousandths r 2 (n - 1) d q) (tenThousandths r 2 n d q) * a ∧
    c.xGen (quarter d q) = mix (np - n) (tenThousandths r 3 (n - 1) d q) (tenThousandths r 3 n d q) / 1000 / 3600 := by
  obtain ⟨c', hc, h⟩ := C71_compiled_partial shippedSchedule shipped_days room _ (shipped_room hr) np n h1 h3 hl hu a
  cases H.symm.trans hc
  have := h d q
  simpa only [shippedTables, between_shipped _ _ n h1] using this

/-! ## Names of rooms (C126) -/

/-- **C126 (names).** With the schedule file of the project the schedules of a room are found just if its *name* is one of three words; otherwise
`make_house` fails with a KeyError. -/
theorem C126_names (np : ℝ) (h1 : 1 ≤ np) (h4 : np ≤ 4) (room : String) (a : ℝ) :
    (room ∈ scheduledNames → ∃ c, compiled shippedSchedule np room a = .ok c) ∧
    (room ∉ scheduledNames → compiled shippedSchedule np room a = .error .keyError) := by
  refine ⟨fun h => ?_, fun h => ?_⟩
  · obtain ⟨r, -, hr⟩ := shipped_index h
    obtain ⟨k, k1, k3, kl, ku⟩ := household np h1 h4
    obtain ⟨c, hc, -⟩ := C71_compiled_partial shippedSchedule shipped_days room _ (shipped_room hr) np k k1 k3 kl ku a
    exact ⟨c, hc⟩
  · unfold compiled
    rw [((C42_rejected shippedSchedule room _ np).2.1 (shipped_absent h _ _ _))]
    rfl

theorem make_names {rnd : ℕ → ℝ → ℝ} {w : List Step} {d : Input} {o : Output} (H : makeHouse rnd w shippedSchedule d = .ok o) {r : RoomDict}
    (hr : r ∈ d.rooms) : r.name ∈ scheduledNames := by
  obtain ⟨bss, -, -, hs, -⟩ := makeHouse_inv H
  obtain ⟨i, hi, rfl⟩ := List.mem_iff_getElem.1 hr
  by_contra hc
  obtain ⟨-, h1, h4, -⟩ := C42_residents (d.rooms.map RoomDict.floorArea).sum 0
  have := mapM_getElem hs hi
  rw [(C126_names _ h1 h4 _ _).2 hc] at this
  cases this

/-- **C126 violated (names).** No house with a room of another name is accepted, whatever the room is used for. -/
theorem C126_names_violated (rnd : ℕ → ℝ → ℝ) (w : List Step) (d : Input) (r : RoomDict) (hr : r ∈ d.rooms) (hn : r.name ∉ scheduledNames) :
    ∃ e, makeHouse rnd w shippedSchedule d = .error e := by
  cases h : makeHouse rnd w shippedSchedule d with
  | error e => exact ⟨e, rfl⟩
  | ok o => exact absurd (make_names h hr) hn

theorem schedule_at {rnd : ℕ → ℝ → ℝ} {w : List Step} {f : ScheduleFile} {d : Input} {o : Output} (H : makeHouse rnd w f d = .ok o) {i : ℕ}
    (hi : i < d.rooms.length) : ∃ h : i < o.schedules.length,
      compiled f (residents (d.rooms.map RoomDict.floorArea).sum) d.rooms[i].name d.rooms[i].floorArea = .ok o.schedules[i] := by
  obtain ⟨bss, -, -, hs, -⟩ := makeHouse_inv H
  exact ⟨by rw [mapM_length hs]; exact hi, mapM_getElem hs hi⟩

/-- **C126 violated (kind of room).** Every room of every accepted house, also an underfloor space, has people in it on New Year's Day. -/
theorem C126_type_violated (rnd : ℕ → ℝ → ℝ) (w : List Step) (d : Input) (o : Output) (H : makeHouse rnd w shippedSchedule d = .ok o) (i : ℕ)
    (hi : i < d.rooms.length) : ∃ (h : i < o.schedules.length) (q : Fin 96), 0 < (o.schedules[i]).nHum (quarter 0 q) := by
  obtain ⟨h, hc⟩ := schedule_at H hi
  obtain ⟨r, hr3, hr⟩ := shipped_index (make_names H (List.getElem_mem hi))
  obtain ⟨-, h1, h4, -⟩ := C42_residents (d.rooms.map RoomDict.floorArea).sum 0
  obtain ⟨k, k1, k3, kl, ku⟩ := household _ h1 h4
  obtain ⟨q, hq, q1, q2⟩ := used_data (k - 1) (by omega) r hr3
  refine ⟨h, ⟨q, hq⟩, ?_⟩
  rw [(compiled_shipped hr k1 k3 kl ku hc 0 ⟨q, hq⟩).1, mix_pos_iff (by linarith) (by linarith)]
  have e : dayIndex 0 = 2 := first_day_data
  rw [show k - 1 + 1 = k by omega] at q2
  simp only [tenThousandths, e]
  rcases lt_or_ge (residents (d.rooms.map RoomDict.floorArea).sum - k) 1 with h | h
  · exact .inl ⟨h, by omega⟩
  · exact .inr ⟨by linarith, by omega⟩

/-! ## Demand (C127) -/

/-- **C127.** With the schedule file of the project, in every quarter hour of the year and every room of every accepted house: comfort is asked for just
if someone is in the room, the demand is at most 1, and nothing is negative. -/
theorem C127_demand (rnd : ℕ → ℝ → ℝ) (w : List Step) (d : Input) (o : Output) (H : makeHouse rnd w shippedSchedule d = .ok o) (i : ℕ)
    (hi : i < d.rooms.length) (n : Fin 35040) : ∃ h : i < o.schedules.length,
      (0 < (o.schedules[i]).acDemand n ↔ 0 < (o.schedules[i]).nHum n) ∧ 0 ≤ (o.schedules[i]).acDemand n ∧ (o.schedules[i]).acDemand n ≤ 1 ∧
      0 ≤ (o.schedules[i]).nHum n ∧ 0 ≤ (o.schedules[i]).vLocal n ∧ 0 ≤ (o.schedules[i]).xGen n ∧
      (0 ≤ (d.rooms[i]).floorArea → 0 ≤ (o.schedules[i]).qGen n) := by
  obtain ⟨h, hc⟩ := schedule_at H hi
  obtain ⟨r, hr3, hr⟩ := shipped_index (make_names H (List.getElem_mem hi))
  obtain ⟨-, h1, h4, -⟩ := C42_residents (d.rooms.map RoomDict.floorArea).sum 0
  obtain ⟨k, k1, k3, kl, ku⟩ := household _ h1 h4
  obtain ⟨dd, q, rfl⟩ := quarter_surj n
  obtain ⟨e1, e2, e3, e4, e5⟩ := compiled_shipped hr k1 k3 kl ku hc dd q
  have t0 : 0 ≤ residents (d.rooms.map RoomDict.floorArea).sum - k := by linarith
  have t1 : residents (d.rooms.map RoomDict.floorArea).sum - k ≤ 1 := by linarith
  have da := people_demand_data (k - 1) (by omega) r hr3 (dayIndex dd) (dayIndex_lt dd) q q.2
  have db := people_demand_data k (by omega) r hr3 (dayIndex dd) (dayIndex_lt dd) q q.2
  refine ⟨h, ?_, ?_, ?_, ?_, ?_, ?_, ?_⟩
  · rw [e1, e2, mix_pos_iff t0 t1, mix_pos_iff t0 t1]
    simp only [tenThousandths, ne_eq, da.1, db.1]
  · rw [e2]; exact mix_nonneg t0 t1 _ _
  · rw [e2]
    refine (mix_le t0 t1 (x := 1) (y := 1) ?_ ?_).trans (by linarith)
    · rw [one_mul]; exact_mod_cast da.2
    · rw [one_mul]; exact_mod_cast db.2
  · rw [e1]; exact mix_nonneg t0 t1 _ _
  · rw [e3]; have := mix_nonneg t0 t1 (tenThousandths r 5 (k - 1) dd q) (tenThousandths r 5 k dd q); positivity
  · rw [e5]; have := mix_nonneg t0 t1 (tenThousandths r 3 (k - 1) dd q) (tenThousandths r 3 k dd q); positivity
  · intro ha
    rw [e4]
    have := mix_nonneg t0 t1 (tenThousandths r 1 (k - 1) dd q) (tenThousandths r 1 k dd q)
    have := mix_nonneg t0 t1 (tenThousandths r 4 (k - 1) dd q) (tenThousandths r 4 k dd q)
    have := mix_nonneg t0 t1 (tenThousandths r 2 (k - 1) dd q) (tenThousandths r 2 k dd q)
    positivity

/-! ## People in the house (C128) -/

/-- People in the room with this number of the file. -/
noncomputable def peopleOf (np : ℝ) (k : ℕ) (dd : Fin 365) (q : Fin 96) (r : ℕ) : ℝ := mix (np - k) (tenThousandths r 0 (k - 1) dd q) (tenThousandths r 0 k dd q)

theorem house_people {rnd : ℕ → ℝ → ℝ} {w : List Step} {d : Input} {o : Output} (H : makeHouse rnd w shippedSchedule d = .ok o) {k : ℕ} (k1 : 1 ≤ k)
    (k3 : k ≤ 3) (kl : (k : ℝ) ≤ residents (d.rooms.map RoomDict.floorArea).sum) (ku : residents (d.rooms.map RoomDict.floorArea).sum ≤ k + 1)
    (dd : Fin 365) (q : Fin 96) : peopleInHouse o.schedules (quarter dd q)
      = ((d.rooms.map RoomDict.name).map fun s => peopleOf (residents (d.rooms.map RoomDict.floorArea).sum) k dd q (shippedRooms.idxOf s)).sum := by
  obtain ⟨bss, -, -, hs, -⟩ := makeHouse_inv H
  have hl := mapM_length hs
  unfold peopleInHouse
  congr 1
  apply List.ext_getElem
  · simp [hl]
  intro i h1 h2
  have hi : i < d.rooms.length := by simpa using h2
  obtain ⟨h, hc⟩ := schedule_at H hi
  obtain ⟨r, hr3, hr⟩ := shipped_index (make_names H (List.getElem_mem hi))
  have : shippedRooms.idxOf d.rooms[i].name = r := by
    rw [List.idxOf_eq_getD_idxOf?, hr]; rfl
  simp only [List.getElem_map]
  rw [(compiled_shipped hr k1 k3 kl ku hc dd q).1, this]
  rfl

/-- **C128 (people).** With the schedule file of the project, and if no two rooms have the same name, there are never more people in the house than it has
residents. -/
theorem C128_people_partial (rnd : ℕ → ℝ → ℝ) (w : List Step) (d : Input) (o : Output) (H : makeHouse rnd w shippedSchedule d = .ok o)
    (hn : (d.rooms.map RoomDict.name).Nodup) (n : Fin 35040) :
    peopleInHouse o.schedules n ≤ residents (d.rooms.map RoomDict.floorArea).sum := by
  obtain ⟨-, h1, h4, -⟩ := C42_residents (d.rooms.map RoomDict.floorArea).sum 0
  obtain ⟨k, k1, k3, kl, ku⟩ := household _ h1 h4
  obtain ⟨dd, q, rfl⟩ := quarter_surj n
  rw [house_people H k1 k3 kl ku]
  set np := residents (d.rooms.map RoomDict.floorArea).sum with hnp
  have t0 : 0 ≤ np - k := by linarith
  have t1 : np - k ≤ 1 := by linarith
  set g : String → ℝ := fun s => peopleOf np k dd q (shippedRooms.idxOf s) with hg
  have hsub : (d.rooms.map RoomDict.name).toFinset ⊆ scheduledNames.toFinset := by
    intro s hs
    rw [List.mem_toFinset] at hs ⊢
    obtain ⟨r, hr, rfl⟩ := List.mem_map.1 hs
    exact make_names H hr
  have hle : ((d.rooms.map RoomDict.name).map g).sum ≤ (scheduledNames.map g).sum := by
    rw [← List.sum_toFinset g hn, ← List.sum_toFinset g (by decide : scheduledNames.Nodup)]
    exact Finset.sum_le_sum_of_subset_of_nonneg hsub fun s _ _ => mix_nonneg t0 t1 _ _
  refine hle.trans ?_
  have e0 : shippedRooms.idxOf "main_occupant_room" = 0 := by decide
  have e1 : shippedRooms.idxOf "other_occupant_room" = 1 := by decide
  have e2 : shippedRooms.idxOf "non_occupant_room" = 2 := by decide
  have da := people_data (k - 1) (by omega) (dayIndex dd) (dayIndex_lt dd) q q.2
  have db := people_data k (by omega) (dayIndex dd) (dayIndex_lt dd) q q.2
  simp only [scheduledNames, List.map_cons, List.map_nil, List.sum_cons, List.sum_nil, hg, e0, e1, e2, peopleOf, tenThousandths, add_zero]
  have hsum : ∀ a b c a' b' c' : ℕ, mix (np - k) a a' + (mix (np - k) b b' + mix (np - k) c c') = mix (np - k) (a + b + c) (a' + b' + c') := by
    intro a b c a' b' c'
    simp only [mix]
    push_cast
    ring
  rw [hsum]
  have hk : ((k - 1 : ℕ) : ℝ) = k - 1 := by rw [Nat.cast_sub k1]; simp
  refine (mix_le t0 t1 (x := k) (y := k + 1) ?_ ?_).trans (by nlinarith)
  · have : (((k - 1 + 1) * 10000 : ℕ) : ℝ) = (k : ℝ) * 10000 := by rw [show k - 1 + 1 = k by omega]; push_cast; ring
    rw [← this]; exact_mod_cast da
  · have : (((k + 1) * 10000 : ℕ) : ℝ) = ((k : ℝ) + 1) * 10000 := by push_cast; ring
    rw [← this]; exact_mod_cast db

/-- **C128 (midnight).** At midnight of every day the house holds all its residents once for every room called `other_occupant_room`. -/
theorem C128_midnight (rnd : ℕ → ℝ → ℝ) (w : List Step) (d : Input) (o : Output) (H : makeHouse rnd w shippedSchedule d = .ok o) (dd : Fin 365) :
    peopleInHouse o.schedules (quarter dd 0)
      = (d.rooms.map RoomDict.name).count "other_occupant_room" * residents (d.rooms.map RoomDict.floorArea).sum := by
  obtain ⟨-, h1, h4, -⟩ := C42_residents (d.rooms.map RoomDict.floorArea).sum 0
  obtain ⟨k, k1, k3, kl, ku⟩ := household _ h1 h4
  rw [house_people H k1 k3 kl ku]
  set np := residents (d.rooms.map RoomDict.floorArea).sum with hnp
  have da := midnight_data (k - 1) (by omega) (dayIndex dd) (dayIndex_lt dd)
  have db := midnight_data k (by omega) (dayIndex dd) (dayIndex_lt dd)
  have hval : ∀ s ∈ d.rooms.map RoomDict.name, peopleOf np k dd 0 (shippedRooms.idxOf s) = if s = "other_occupant_room" then np else 0 := by
    intro s hs
    obtain ⟨r, hr, rfl⟩ := List.mem_map.1 hs
    have hm := make_names H hr
    simp only [scheduledNames, List.mem_cons, List.not_mem_nil, or_false] at hm
    rcases hm with e | e | e <;> rw [e]
    · rw [show shippedRooms.idxOf "main_occupant_room" = 0 by decide, if_neg (by decide)]
      simp [peopleOf, tenThousandths, da.1, db.1, mix]
    · rw [show shippedRooms.idxOf "other_occupant_room" = 1 by decide, if_pos rfl]
      have hk : ((k - 1 : ℕ) : ℝ) = k - 1 := by rw [Nat.cast_sub k1]; simp
      simp only [peopleOf, tenThousandths, Fin.val_zero, da.2.1, db.2.1, mix]
      push_cast
      rw [hk]
      ring
    · rw [show shippedRooms.idxOf "non_occupant_room" = 2 by decide, if_neg (by decide)]
      simp [peopleOf, tenThousandths, da.2.2, db.2.2, mix]
  generalize d.rooms.map RoomDict.name = l at hval
  induction l with
  | nil => simp
  | cons s l ih =>
    rw [List.map_cons, List.sum_cons, ih (fun s' h => hval s' (List.mem_cons_of_mem _ h)), hval s List.mem_cons_self, List.count_cons]
    by_cases e : s = "other_occupant_room"
    · simp [e]; ring
    · simp [e]

/-- **C128 violated.** A house with two rooms of that name holds more people than it has residents, every night. -/
theorem C128_violated (rnd : ℕ → ℝ → ℝ) (w : List Step) (d : Input) (o : Output) (H : makeHouse rnd w shippedSchedule d = .ok o)
    (h2 : 2 ≤ (d.rooms.map RoomDict.name).count "other_occupant_room") (dd : Fin 365) :
    2 * residents (d.rooms.map RoomDict.floorArea).sum ≤ peopleInHouse o.schedules (quarter dd 0) := by
  rw [C128_midnight rnd w d o H dd]
  have h1 := (C42_residents (d.rooms.map RoomDict.floorArea).sum 0).2.1
  exact mul_le_mul_of_nonneg_right (by exact_mod_cast h2) (by linarith)

end HLC.Init
