import Verif.Spec.Schedule
import Mathlib.Tactic.Linarith
import Mathlib.Tactic.NormNum
import Mathlib.Tactic.Ring
import Mathlib.Tactic.IntervalCases
import Mathlib.Tactic.LinearCombination

/-!
# Residents and schedules (C42, C71)
-/

namespace HLC.Init
open HLC.Spec

/-- **C42 (residents).** One person per 30 m² of floor, at least 1 and at most 4; monotone in the floor area. -/
theorem C42_residents (a b : ℝ) :
    residents a = max 1 (min 4 (a / 30)) ∧ 1 ≤ residents a ∧ residents a ≤ 4 ∧ (a ≤ b → residents a ≤ residents b) := by
  have e : ∀ a, residents a = max 1 (min 4 (a / 30)) := by
    intro a
    unfold residents
    split_ifs with h1 h2
    · rw [min_eq_right (by linarith), max_eq_left (by linarith)]
    · rw [min_eq_right (by linarith), max_eq_right (by linarith)]
    · rw [min_eq_left (by linarith), max_eq_right (by norm_num)]
  refine ⟨e a, by rw [e]; exact le_max_left _ _, by rw [e]; exact max_le (by norm_num) (min_le_left _ _), fun h => ?_⟩
  rw [e, e]
  exact max_le_max le_rfl (min_le_min le_rfl (by linarith))

theorem interpolated_ok {np : ℝ} (h1 : 1 ≤ np) (h4 : np ≤ 4) (daily : ℕ → Day) :
    ∃ r, interpolated np daily = .ok r ∧ ∀ k : ℕ, 1 ≤ k → k ≤ 3 → (k : ℝ) ≤ np → np ≤ k + 1 →
      ∀ q, r q = daily k q + (np - k) * (daily (k + 1) q - daily k q) := by
  unfold interpolated ceilFloor
  split_ifs with a b c
  · refine ⟨_, rfl, ?_⟩
    intro k hk1 hk3 hl hu q
    interval_cases k
    · push_cast; ring
    · have : np = 2 := le_antisymm a.2.le (by exact_mod_cast hl)
      linarith [a.2]
    · norm_num at hl; linarith [a.2]
  · refine ⟨_, rfl, ?_⟩
    intro k hk1 hk3 hl hu q
    interval_cases k
    · have : np = 2 := le_antisymm (by norm_num at hu; linarith) b.1
      subst this; norm_num
    · push_cast; ring
    · norm_num at hl; linarith [b.2]
  · refine ⟨_, rfl, ?_⟩
    intro k hk1 hk3 hl hu q
    interval_cases k
    · norm_num at hu; linarith [c.1]
    · have : np = 3 := le_antisymm (by norm_num at hu; linarith) c.1
      subst this; norm_num
    · push_cast; ring
  · exfalso
    rcases lt_or_ge np 2 with h | h
    · exact a ⟨h1, h⟩
    · rcases lt_or_ge np 3 with h' | h'
      · exact b ⟨h, h'⟩
      · exact c ⟨h', h4⟩

theorem interpolated_error {np : ℝ} (h : ¬ (1 ≤ np ∧ np ≤ 4)) (daily : ℕ → Day) : interpolated np daily = .error .valueError := by
  unfold interpolated ceilFloor
  rw [if_neg, if_neg, if_neg] <;> [rfl; skip; skip; skip] <;> rintro ⟨a, b⟩ <;> exact h ⟨by linarith, by linarith⟩

theorem convertSchedule_ok {f : ScheduleFile} {room kind : String} {table : ℕ → String → Day} (ht : HasTable f room kind table)
    {day : String} (hd : day = "平日" ∨ day = "休日外" ∨ day = "休日在") :
    ∃ d, convertSchedule f room day kind = .ok d ∧ ∀ k, 1 ≤ k → k ≤ 4 → d k = table k day := by
  unfold convertSchedule
  rw [ht 1 (by omega) (by omega) day hd, ht 2 (by omega) (by omega) day hd, ht 3 (by omega) (by omega) day hd,
    ht 4 (by omega) (by omega) day hd]
  refine ⟨_, rfl, ?_⟩
  intro k h1 h4
  interval_cases k <;> rfl

/-- **C42 (schedules).** For every file with all lists and every household size from 1 to 4 the schedule exists; on every quarter hour
of the year it is the linear interpolation between the lists of the neighbouring household sizes for that kind of day, so it
lies between them and equals the list at integer sizes. -/
theorem C42_interpolation (f : ScheduleFile) (hc : KnownDays f) (room kind : String) (table : ℕ → String → Day)
    (ht : HasTable f room kind table) (np : ℝ) (h1 : 1 ≤ np) (h4 : np ≤ 4) :
    ∃ s, getSchedule f room np kind = .ok s ∧
      (∀ (k : ℕ), 1 ≤ k → k ≤ 3 → (k : ℝ) ≤ np → np ≤ k + 1 → ∀ d q,
        s (quarter d q) = table k (f.calendar d) q + (np - k) * (table (k + 1) (f.calendar d) q - table k (f.calendar d) q) ∧
        min (table k (f.calendar d) q) (table (k + 1) (f.calendar d) q) ≤ s (quarter d q) ∧
        s (quarter d q) ≤ max (table k (f.calendar d) q) (table (k + 1) (f.calendar d) q)) ∧
      (∀ (k : ℕ), np = k → ∀ d q, s (quarter d q) = table k (f.calendar d) q) := by
  obtain ⟨dw, ew, hw⟩ := convertSchedule_ok ht (day := "平日") (by simp)
  obtain ⟨dh, eo, ho⟩ := convertSchedule_ok ht (day := "休日外") (by simp)
  obtain ⟨di, ei, hi⟩ := convertSchedule_ok ht (day := "休日在") (by simp)
  obtain ⟨rw_, erw, hrw⟩ := interpolated_ok h1 h4 dw
  obtain ⟨ro, ero, hro⟩ := interpolated_ok h1 h4 dh
  obtain ⟨ri, eri, hri⟩ := interpolated_ok h1 h4 di
  have hval : ∃ s, getSchedule f room np kind = .ok s ∧ ∀ (k : ℕ), 1 ≤ k → k ≤ 3 → (k : ℝ) ≤ np → np ≤ k + 1 → ∀ d q,
        s (quarter d q) = table k (f.calendar d) q + (np - k) * (table (k + 1) (f.calendar d) q - table k (f.calendar d) q) := by
    unfold getSchedule
    rw [ew, eo, ei]
    simp only [bind, Except.bind, erw, ero, eri]
    refine ⟨_, rfl, ?_⟩
    intro k hk1 hk3 hl hu d q
    have hd : (⟨(quarter d q).1 / 96, by omega⟩ : Fin 365) = d := by ext; simp only [quarter]; omega
    have hq : (⟨(quarter d q).1 % 96, by omega⟩ : Fin 96) = q := by ext; simp only [quarter]; omega
    simp only [hd, hq, setRows]
    rcases hc d with h | h | h <;> rw [h]
    · rw [if_neg (by decide), if_neg (by decide), if_pos rfl, hrw k hk1 hk3 hl hu, hw k (by omega) (by omega), hw (k + 1) (by omega) (by omega)]
    · rw [if_neg (by decide), if_pos rfl, hro k hk1 hk3 hl hu, ho k (by omega) (by omega), ho (k + 1) (by omega) (by omega)]
    · rw [if_pos rfl, hri k hk1 hk3 hl hu, hi k (by omega) (by omega), hi (k + 1) (by omega) (by omega)]
  obtain ⟨s, es, hs⟩ := hval
  refine ⟨s, es, ?_, ?_⟩
  · intro k hk1 hk3 hl hu d q
    have e := hs k hk1 hk3 hl hu d q
    refine ⟨e, ?_, ?_⟩
    · rw [e]
      rcases le_total (table k (f.calendar d) q) (table (k + 1) (f.calendar d) q) with h | h
      · rw [min_eq_left h]; nlinarith
      · rw [min_eq_right h]; nlinarith
    · rw [e]
      rcases le_total (table k (f.calendar d) q) (table (k + 1) (f.calendar d) q) with h | h
      · rw [max_eq_right h]; nlinarith
      · rw [max_eq_left h]; nlinarith
  · intro k hk d q
    subst hk
    have a1 : 1 ≤ k := by exact_mod_cast h1
    have a4 : k ≤ 4 := by exact_mod_cast h4
    rcases Nat.lt_or_ge k 4 with h | h
    · rw [hs k a1 (by omega) le_rfl (by linarith) d q]; ring
    · have : k = 4 := by omega
      subst this
      rw [hs 3 (by omega) (by omega) (by norm_num) (by norm_num) d q]
      push_cast; ring

/-- **C42 (rejection).** Household sizes outside 1 to 4 are rejected, and so is a room without lists; a calendar entry of another kind
gives the value -1 on that day. -/
theorem C42_rejected (f : ScheduleFile) (room kind : String) (np : ℝ) :
    (∀ table, HasTable f room kind table → ¬ (1 ≤ np ∧ np ≤ 4) → getSchedule f room np kind = .error .valueError) ∧
    (f.daily 1 room "平日" kind = none → getSchedule f room np kind = .error .keyError) ∧
    (∀ table, HasTable f room kind table → 1 ≤ np → np ≤ 4 → ∃ s, getSchedule f room np kind = .ok s ∧
      ∀ d, f.calendar d ≠ "平日" → f.calendar d ≠ "休日外" → f.calendar d ≠ "休日在" → ∀ q, s (quarter d q) = -1) := by
  refine ⟨fun table ht h => ?_, fun h => ?_, fun table ht h1 h4 => ?_⟩
  · obtain ⟨dw, ew, hw⟩ := convertSchedule_ok ht (day := "平日") (by simp)
    obtain ⟨dh, eo, ho⟩ := convertSchedule_ok ht (day := "休日外") (by simp)
    obtain ⟨di, ei, hi⟩ := convertSchedule_ok ht (day := "休日在") (by simp)
    unfold getSchedule
    rw [ew, eo, ei]
    simp only [bind, Except.bind, interpolated_error h]
  · unfold getSchedule convertSchedule
    rw [h]
    rfl
  · obtain ⟨dw, ew, hw⟩ := convertSchedule_ok ht (day := "平日") (by simp)
    obtain ⟨dh, eo, ho⟩ := convertSchedule_ok ht (day := "休日外") (by simp)
    obtain ⟨di, ei, hi⟩ := convertSchedule_ok ht (day := "休日在") (by simp)
    obtain ⟨rw_, erw, hrw⟩ := interpolated_ok h1 h4 dw
    obtain ⟨ro, ero, hro⟩ := interpolated_ok h1 h4 dh
    obtain ⟨ri, eri, hri⟩ := interpolated_ok h1 h4 di
    unfold getSchedule
    rw [ew, eo, ei]
    simp only [bind, Except.bind, erw, ero, eri]
    refine ⟨_, rfl, ?_⟩
    intro d n1 n2 n3 q
    have hd : (⟨(quarter d q).1 / 96, by omega⟩ : Fin 365) = d := by ext; simp only [quarter]; omega
    simp only [hd, setRows, if_neg n1, if_neg n2, if_neg n3]

theorem quarter_surj (n : Fin 35040) : ∃ d q, quarter d q = n :=
  ⟨⟨n.1 / 96, by omega⟩, ⟨n.1 % 96, by omega⟩, by ext; simp only [quarter]; omega⟩

/-- **C42 (program).** For every total floor area and every file with the lists of the room, the compiled schedules exist. -/
theorem C42_total (f : ScheduleFile) (hc : KnownDays f) (room : String) (t : RoomTables) (ht : HasRoom f room t) (aTotal a : ℝ) :
    ∃ c, compiled f (residents aTotal) room a = .ok c := by
  obtain ⟨-, h1, h4, -⟩ := C42_residents aTotal aTotal
  obtain ⟨s1, e1, -⟩ := C42_interpolation f hc room _ _ ht.localVent _ h1 h4
  obtain ⟨s2, e2, -⟩ := C42_interpolation f hc room _ _ ht.appliances _ h1 h4
  obtain ⟨s3, e3, -⟩ := C42_interpolation f hc room _ _ ht.cookingVapour _ h1 h4
  obtain ⟨s4, e4, -⟩ := C42_interpolation f hc room _ _ ht.cookingHeat _ h1 h4
  obtain ⟨s5, e5, -⟩ := C42_interpolation f hc room _ _ ht.lighting _ h1 h4
  obtain ⟨s6, e6, -⟩ := C42_interpolation f hc room _ _ ht.people _ h1 h4
  obtain ⟨s7, e7, -⟩ := C42_interpolation f hc room _ _ ht.demand _ h1 h4
  unfold compiled
  simp only [bind, Except.bind, e1, e2, e3, e4, e5, e6, e7]
  exact ⟨_, rfl⟩

/-- **C71 (what is proved).** For every household size the compiled schedules of a room contain, on every quarter hour, the interpolated number of
people, the demand flag, the local ventilation converted from m³/h to m³/s, and the heat of appliances and lighting. The remaining
terms are the cooking terms; they use the list of the other quantity, see `C71_violated`. -/
theorem C71_compiled_partial (f : ScheduleFile) (hc : KnownDays f) (room : String) (t : RoomTables) (ht : HasRoom f room t)
    (np : ℝ) (k : ℕ) (h1 : 1 ≤ k) (h3 : k ≤ 3) (hl : (k : ℝ) ≤ np) (hu : np ≤ k + 1) (a : ℝ) :
    ∃ c, compiled f np room a = .ok c ∧ ∀ d q,
      c.nHum (quarter d q) = between t.people k np (f.calendar d) q ∧
      c.acDemand (quarter d q) = between t.demand k np (f.calendar d) q ∧
      c.vLocal (quarter d q) = between t.localVent k np (f.calendar d) q / 3600 ∧
      c.qGen (quarter d q) = between t.appliances k np (f.calendar d) q + between t.cookingVapour k np (f.calendar d) q
        + between t.lighting k np (f.calendar d) q * a ∧
      c.xGen (quarter d q) = between t.cookingHeat k np (f.calendar d) q / 1000 / 3600 := by
  have g1 : (1 : ℝ) ≤ np := le_trans (by exact_mod_cast h1) hl
  have g4 : np ≤ 4 := by
    have : (k : ℝ) ≤ 3 := by exact_mod_cast h3
    linarith
  obtain ⟨s1, e1, v1, -⟩ := C42_interpolation f hc room _ _ ht.localVent _ g1 g4
  obtain ⟨s2, e2, v2, -⟩ := C42_interpolation f hc room _ _ ht.appliances _ g1 g4
  obtain ⟨s3, e3, v3, -⟩ := C42_interpolation f hc room _ _ ht.cookingVapour _ g1 g4
  obtain ⟨s4, e4, v4, -⟩ := C42_interpolation f hc room _ _ ht.cookingHeat _ g1 g4
  obtain ⟨s5, e5, v5, -⟩ := C42_interpolation f hc room _ _ ht.lighting _ g1 g4
  obtain ⟨s6, e6, v6, -⟩ := C42_interpolation f hc room _ _ ht.people _ g1 g4
  obtain ⟨s7, e7, v7, -⟩ := C42_interpolation f hc room _ _ ht.demand _ g1 g4
  unfold compiled
  simp only [bind, Except.bind, e1, e2, e3, e4, e5, e6, e7, between]
  refine ⟨_, rfl, fun d q => ⟨(v6 k h1 h3 hl hu d q).1, (v7 k h1 h3 hl hu d q).1, ?_, ?_, ?_⟩⟩
  · simp only [(v1 k h1 h3 hl hu d q).1]
  · simp only [(v2 k h1 h3 hl hu d q).1, (v3 k h1 h3 hl hu d q).1, (v5 k h1 h3 hl hu d q).1]
  · simp only [(v4 k h1 h3 hl hu d q).1]

/-- Example file: every list is constant; cooking gives 213 W of heat and 41.9 g/h of vapour. -/
noncomputable def exSchedule : ScheduleFile where
  calendar := fun d => if d.1 % 7 = 0 then "休日外" else if d.1 % 7 = 6 then "休日在" else "平日"
  daily := fun k _ _ kind => some fun _ =>
    if kind = "heat_generation_cooking" then 213 else if kind = "vapor_generation_cooking" then 41.9
    else if kind = "number_of_people" then (k : ℝ) else 0

/-- The lists of the example file. -/
noncomputable def exTables : RoomTables where
  appliances := fun _ _ _ => 0
  cookingHeat := fun _ _ _ => 213
  cookingVapour := fun _ _ _ => 41.9
  lighting := fun _ _ _ => 0
  people := fun k _ _ => k
  localVent := fun _ _ _ => 0
  demand := fun _ _ _ => 0

theorem exSchedule_days : KnownDays exSchedule := by
  intro d
  simp only [exSchedule]
  split_ifs <;> simp

theorem exSchedule_room (room : String) : HasRoom exSchedule room exTables := by
  constructor <;> intro k h1 h4 day hd <;> simp [exSchedule, exTables]

/-- **C71 (violation).** The heat released by cooking is not counted as heat but as moisture, and the moisture as heat: with 213 W of cooking
heat and 41.9 g/h of vapour the program uses 41.9 W and 213 g/h. -/
theorem C71_violated : ∃ f t room c, KnownDays f ∧ HasRoom f room t ∧ compiled f 4 room 30 = .ok c ∧ ∀ d q,
    t.cookingHeat 4 (f.calendar d) q = 213 ∧ t.cookingVapour 4 (f.calendar d) q = 41.9 ∧
    t.appliances 4 (f.calendar d) q = 0 ∧ t.lighting 4 (f.calendar d) q = 0 ∧
    c.qGen (quarter d q) = 41.9 ∧ c.xGen (quarter d q) = 213 / 1000 / 3600 := by
  obtain ⟨c, hc, h⟩ := C71_compiled_partial exSchedule exSchedule_days "main_occupant_room" exTables (exSchedule_room _) 4 3
    (by omega) (by omega) (by norm_num) (by norm_num) 30
  refine ⟨exSchedule, exTables, "main_occupant_room", c, exSchedule_days, exSchedule_room _, hc, fun d q => ?_⟩
  obtain ⟨-, -, -, e1, e2⟩ := h d q
  refine ⟨rfl, rfl, rfl, rfl, ?_, ?_⟩
  · rw [e1]; simp [exTables, between]
  · rw [e2]; simp [exTables, between]

/-- The hypotheses of the theorems above are met by the example: 2.5 persons interpolate between the lists of 2 and 3 persons. -/
example : ∃ s, getSchedule exSchedule "main_occupant_room" 2.5 "number_of_people" = .ok s ∧ ∀ d q, s (quarter d q) = 2.5 := by
  obtain ⟨s, hs, h, -⟩ := C42_interpolation exSchedule exSchedule_days "main_occupant_room" _ _ (exSchedule_room "main_occupant_room").people
    2.5 (by norm_num) (by norm_num)
  refine ⟨s, hs, fun d q => ?_⟩
  rw [(h 2 (by omega) (by omega) (by norm_num) (by norm_num) d q).1]
  simp only [exTables]; norm_num

end HLC.Init
