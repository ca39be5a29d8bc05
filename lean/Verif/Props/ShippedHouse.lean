import Verif.Props.Shipped
import Verif.Props.RadiantInputs

/-!
# Houses with the schedule file of the project (C126-C128, C71, C76)
-/

namespace HLC.Init

set_option linter.unusedSectionVars false

open HLC.Spec

theorem isRadiative_relabel (d : Input) (name kind : RoomDict → String) :
    isRadiativeRoom (relabel d name kind).rooms = isRadiativeRoom d.rooms := by
  funext i
  unfold isRadiativeRoom relabel
  rw [List.getElem?_map]
  cases d.rooms[i.toNat]? <;> rfl

theorem relabel_boundaries (rnd : ℕ → ℝ → ℝ) (d : Input) (name kind : RoomDict → String) (bss : List Bs) :
    makeBoundaries rnd (relabel d name kind).rooms d.boundaries bss = makeBoundaries rnd d.rooms d.boundaries bss := by
  have h3 : (relabel d name kind).rooms.length = d.rooms.length := by simp [relabel]
  simp only [makeBoundaries, checkParts, boundaryJson, inRooms, isRadiative_relabel, h3]
  rfl

theorem relabel_area (d : Input) (name kind : RoomDict → String) :
    (relabel d name kind).rooms.map RoomDict.floorArea = d.rooms.map RoomDict.floorArea := by
  simp [relabel]

/-- A house that is accepted remains so if its rooms are given other names of the file and other consistent kinds. The other files are not changed. -/
theorem relabel_accepted {rnd : ℕ → ℝ → ℝ} {w : List Step} {f : ScheduleFile} {d : Input} {o : Output} (H : makeHouse rnd w f d = .ok o)
    (name kind : RoomDict → String) (hn : ∀ r ∈ d.rooms, name r ∈ scheduledNames)
    (hv : ValidRooms (-(d.rooms.length : ℤ)) (relabel d name kind).rooms) :
    ∃ o', makeHouse rnd w shippedSchedule (relabel d name kind) = .ok o' ∧ o'.boundaries = o.boundaries ∧ o'.qTrsSol = o.qTrsSol ∧
      o'.thetaOSol = o.thetaOSol := by
  obtain ⟨bss, h1, h2, h3, h4, h5, h6, h7⟩ := makeHouse_inv H
  have hl : (relabel d name kind).rooms.length = d.rooms.length := by simp [relabel]
  obtain ⟨ss, hss⟩ := (C51_accepted_iff_partial (relabel d name kind).rooms).1.2 (by rw [hl]; exact hv)
  obtain ⟨-, r1, r4, -⟩ := C42_residents (d.rooms.map RoomDict.floorArea).sum 0
  obtain ⟨sch, hsch⟩ := mapM_ok_of (l := (relabel d name kind).rooms)
    (f := fun r : RoomDict => compiled shippedSchedule (residents ((relabel d name kind).rooms.map RoomDict.floorArea).sum) r.name r.floorArea) (by
      intro r hr
      rw [relabel_area]
      refine (C126_names _ r1 r4 _ _).1 ?_
      obtain ⟨r', hr', rfl⟩ := List.mem_map.1 hr
      exact hn r' hr')
  refine ⟨{ o with schedules := sch, spaces := ss }, ?_, rfl, rfl, rfl⟩
  unfold makeHouse
  simp only [bind_ok_iff]
  refine ⟨bss, h1, o.qTrsSol, by rw [hl]; exact h2, sch, hsch, o.building, h4, ss, hss, o.boundaries, ?_, ?_⟩
  · rw [← h6]
    exact relabel_boundaries rnd d name kind bss
  · rw [← h7]

/-- The twin rooms are accepted with the schedule file of the project. -/
theorem exTwins_shipped (rnd : ℕ → ℝ → ℝ) (w : List Step) : ∃ o, makeHouse rnd w shippedSchedule exTwins = .ok o :=
  exTwins_accepted rnd w shipped_days (shipped_room (r := 0) (by decide)) (shipped_room (r := 1) (by decide))

/-- **C126 violated, example.** The twin rooms are accepted; if the main room is called "living room" they are not. With the second room declared an
underfloor space they are accepted, if it has the name of a room of the file, and there are people under the floor on New Year's Day. -/
theorem C126_example (rnd : ℕ → ℝ → ℝ) (w : List Step) :
    (∃ o, makeHouse rnd w shippedSchedule exTwins = .ok o) ∧
    (∃ e, makeHouse rnd w shippedSchedule (relabel exTwins (fun r => if r.id = 0 then "living room" else r.name) RoomDict.roomType) = .error e) ∧
    ∃ o, makeHouse rnd w shippedSchedule (relabel exTwins RoomDict.name fun r => if r.id = 0 then r.roomType else "underfloor") = .ok o ∧
      ∃ c ∈ o.schedules[1]?, ∃ q, 0 < c.nHum (quarter 0 q) := by
  obtain ⟨o, ho⟩ := exTwins_shipped rnd w
  refine ⟨⟨o, ho⟩, ?_, ?_⟩
  · exact C126_names_violated rnd w _ { exTwins.rooms[0]'(by decide) with name := "living room" } (by simp [relabel, exTwins]) (by decide)
  · obtain ⟨o', ho', -⟩ := relabel_accepted ho RoomDict.name (fun r => if r.id = 0 then r.roomType else "underfloor")
      (fun r hr => make_names ho hr) (by
        have hv := exTwins_rooms (-(exTwins.rooms.length : ℤ))
        refine ⟨?_, ?_, ?_, ?_, ?_, ?_, ?_⟩
        · intro i hi
          have : i < 2 := hi
          interval_cases i <;> rfl
        · intro r hr
          simp only [relabel, exTwins, List.map_cons, List.map_nil, List.mem_cons, List.not_mem_nil, or_false] at hr
          rcases hr with rfl | rfl <;> simp [roomTypeNames]
        · simp [occurrences, exTwins, relabel]
        · intro t ht
          simp only [roomTypeNames, List.mem_cons, List.not_mem_nil, or_false] at ht
          rcases ht with rfl | rfl | rfl | rfl <;> simp [occurrences, exTwins, relabel]
        · intro r hr
          obtain ⟨r', hr', rfl⟩ := List.mem_map.1 hr
          exact hv.heating r' hr'
        · intro r hr
          obtain ⟨r', hr', rfl⟩ := List.mem_map.1 hr
          exact hv.cooling r' hr'
        · intro r hr
          obtain ⟨r', hr', rfl⟩ := List.mem_map.1 hr
          simpa [relabel] using hv.upstream r' hr')
    refine ⟨o', ho', ?_⟩
    obtain ⟨h, q, hq⟩ := C126_type_violated rnd w _ o' ho' 1 (by simp [relabel, exTwins])
    exact ⟨_, List.getElem?_eq_getElem h, q, hq⟩

/-- **C128, examples.** The twin rooms have two residents, who sleep in the second room; if both rooms have the name of the second room, there are four people
in the house at midnight. -/
theorem C128_example (rnd : ℕ → ℝ → ℝ) (w : List Step) (dd : Fin 365) :
    (exTwins.rooms.map RoomDict.name).Nodup ∧ residents (exTwins.rooms.map RoomDict.floorArea).sum = 2 ∧
    (∃ o, makeHouse rnd w shippedSchedule exTwins = .ok o ∧ peopleInHouse o.schedules (quarter dd 0) = 2) ∧
    ∃ o, makeHouse rnd w shippedSchedule (relabel exTwins (fun _ => "other_occupant_room") RoomDict.roomType) = .ok o ∧
      peopleInHouse o.schedules (quarter dd 0) = 4 := by
  have hres : residents (exTwins.rooms.map RoomDict.floorArea).sum = 2 := by
    have : (exTwins.rooms.map RoomDict.floorArea).sum = 60 := by simp [exTwins]; norm_num
    rw [this, residents, if_neg (by norm_num), if_pos (by norm_num)]
    norm_num
  obtain ⟨o, ho⟩ := exTwins_shipped rnd w
  refine ⟨by simp [exTwins], hres, ⟨o, ho, ?_⟩, ?_⟩
  · rw [C128_midnight rnd w _ o ho dd, hres]
    simp [exTwins]
  · obtain ⟨o', ho', -⟩ := relabel_accepted ho (fun _ => "other_occupant_room") RoomDict.roomType (fun _ _ => by decide)
      (by
        have hv := exTwins_rooms (-(exTwins.rooms.length : ℤ))
        refine ⟨?_, ?_, ?_, ?_, ?_, ?_, ?_⟩
        · intro i hi
          have : i < 2 := hi
          interval_cases i <;> rfl
        · intro r hr
          obtain ⟨r', hr', rfl⟩ := List.mem_map.1 hr
          exact hv.types r' hr'
        · simp [occurrences, exTwins, relabel]
        · intro t ht
          simp only [roomTypeNames, List.mem_cons, List.not_mem_nil, or_false] at ht
          rcases ht with rfl | rfl | rfl | rfl <;> simp [occurrences, exTwins, relabel]
        · intro r hr
          obtain ⟨r', hr', rfl⟩ := List.mem_map.1 hr
          exact hv.heating r' hr'
        · intro r hr
          obtain ⟨r', hr', rfl⟩ := List.mem_map.1 hr
          exact hv.cooling r' hr'
        · intro r hr
          obtain ⟨r', hr', rfl⟩ := List.mem_map.1 hr
          simpa [relabel] using hv.upstream r' hr')
    refine ⟨o', ho', ?_⟩
    rw [C128_midnight rnd w _ o' ho' dd, relabel_area, hres]
    simp [exTwins, relabel]
    norm_num

/-- **C71 violated (program).** With the schedule file of the project, in every quarter hour, for every size of household: of the heat `H` (W) that the file
gives for cooking in the main room less than 0.3 is counted, and of the vapour `V` (g/h) at least 3.4 times as much. -/
theorem C71_shipped_violated (np : ℝ) (h1 : 1 ≤ np) (h4 : np ≤ 4) (a : ℝ) :
    ∃ c t, ∃ k : ℕ, compiled shippedSchedule np "main_occupant_room" a = .ok c ∧ HasRoom shippedSchedule "main_occupant_room" t ∧ 1 ≤ k ∧ k ≤ 3 ∧
      (k : ℝ) ≤ np ∧ np ≤ k + 1 ∧ ∀ d q,
        let given := fun l : ℕ → String → Day => between l k np (shippedSchedule.calendar d) q
        c.qGen (quarter d q) ≤ given t.appliances + given t.lighting * a + 0.3 * given t.cookingHeat ∧
        3.4 * given t.cookingVapour / 1000 / 3600 ≤ c.xGen (quarter d q) ∧
        (0 < given t.cookingHeat → c.qGen (quarter d q) < given t.appliances + given t.lighting * a + given t.cookingHeat ∧
          given t.cookingVapour / 1000 / 3600 < c.xGen (quarter d q)) := by
  have hr : shippedRooms.idxOf? "main_occupant_room" = some 0 := by decide
  obtain ⟨k, k1, k3, kl, ku⟩ := household np h1 h4
  obtain ⟨c, hc⟩ := (C126_names np h1 h4 "main_occupant_room" a).1 (by decide)
  refine ⟨c, shippedTables 0, k, hc, shipped_room hr, k1, k3, kl, ku, fun d q => ?_⟩
  obtain ⟨-, -, -, e4, e5⟩ := compiled_shipped hr k1 k3 kl ku hc d q
  simp only [shippedTables, between_shipped _ _ k k1]
  have t0 : 0 ≤ np - k := by linarith
  have t1 : np - k ≤ 1 := by linarith
  have da := (cooking_data (k - 1) (by omega) (dayIndex d) (dayIndex_lt d) q q.2).1
  have db := (cooking_data k (by omega) (dayIndex d) (dayIndex_lt d) q q.2).1
  have da' : (34 * tenThousandths 0 4 (k - 1) d q : ℝ) ≤ 10 * tenThousandths 0 3 (k - 1) d q := by exact_mod_cast da
  have db' : (34 * tenThousandths 0 4 k d q : ℝ) ≤ 10 * tenThousandths 0 3 k d q := by exact_mod_cast db
  have key : 3.4 * mix (np - k) (tenThousandths 0 4 (k - 1) d q) (tenThousandths 0 4 k d q) ≤ mix (np - k) (tenThousandths 0 3 (k - 1) d q) (tenThousandths 0 3 k d q) := by
    have e : ∀ x y : ℕ, mix (np - k) x y = ((1 - (np - k)) * x + (np - k) * y) / 10000 := by
      intro x y; rw [mix]; congr 1; ring
    rw [e, e, ← mul_div_assoc, div_le_div_iff_of_pos_right (by norm_num)]
    have z1 := mul_le_mul_of_nonneg_left da' (show 0 ≤ 1 - (np - k) by linarith)
    have z2 := mul_le_mul_of_nonneg_left db' t0
    nlinarith
  have hV := mix_nonneg t0 t1 (tenThousandths 0 4 (k - 1) d q) (tenThousandths 0 4 k d q)
  have hX := mix_nonneg t0 t1 (tenThousandths 0 3 (k - 1) d q) (tenThousandths 0 3 k d q)
  rw [e4, e5]
  generalize mix (np - k) (tenThousandths 0 4 (k - 1) d q) (tenThousandths 0 4 k d q) = V at *
  generalize mix (np - k) (tenThousandths 0 3 (k - 1) d q) (tenThousandths 0 3 k d q) = X at *
  refine ⟨by linarith, ?_, fun hx => ⟨by linarith, ?_⟩⟩
  · rw [div_div, div_div]
    exact div_le_div_of_nonneg_right key (by norm_num)
  · rw [div_div, div_div]
    exact div_lt_div_of_pos_right (by linarith) (by norm_num)

/-- Local ventilation of the file is not negative. -/
theorem shipped_vent (r : ℕ) (k : ℕ) (day : String) (q : Fin 96) : 0 ≤ (shippedTables r).localVent k day q := by
  simp only [shippedTables, shippedTable]
  positivity

/-- **C76 with the schedule file of the project.** Every complete and physically possible input without radiant heating, whose rooms have the names of the
file, is calculated to the end. -/
theorem C76_shipped_partial (rnd : ℕ → ℝ → ℝ) (hr : IsRounding rnd) (w : List Step) (d : Input) (hd : CompleteInput d) (hp : PhysicalInput d 900)
    (hheat : ∀ r ∈ d.rooms, r.heating.kind ≠ "radiative") (o : Output) (H : makeHouse rnd w shippedSchedule d = .ok o)
    (hphi : ∀ h, readHouse o = .ok h → ∀ j b, d.boundaries[j.1]? = some b → ¬ GivenByU b → 0 ≤ h.phiA0 j ∧ 0 ≤ h.phiT0 j ∧ h.phiT0 j ≤ 1) :
    ∃ h, readHouse o = .ok h ∧ ∀ (temp hum : Fin 35040 → ℝ) (solve : List ℝ → ℝ), SolvesRooms solve h.area h.room →
      ∀ dMain dRunUp dRunUpBuild : ℤ, 0 ≤ dMain → dMain ≤ 365 → 0 ≤ dRunUpBuild → dRunUpBuild ≤ dRunUp → dRunUp ≤ 365 →
        ∃ res, program solve h (readRecord temp hum o) 4 dMain dRunUp dRunUpBuild = .ok res := by
  refine C76_chain_completes_partial rnd hr w shippedSchedule shipped_days d hd hp (fun r hr' => ?_) hheat o H hphi
  obtain ⟨i, -, hi⟩ := shipped_index (make_names H hr')
  exact ⟨_, shipped_room hi, shipped_vent i⟩

/-- The hypotheses of `C76_shipped_partial` are met by the example room, whose parts are given by their U values. -/
example (rnd : ℕ → ℝ → ℝ) (w : List Step) : CompleteInput (exInput false exUnit) ∧ PhysicalInput (exInput false exUnit) 900 ∧
    (∀ r ∈ (exInput false exUnit).rooms, r.heating.kind ≠ "radiative") ∧ (∃ o, makeHouse rnd w shippedSchedule (exInput false exUnit) = .ok o) ∧
    ∀ b ∈ (exInput false exUnit).boundaries, GivenByU b := by
  refine ⟨exInput_complete false, exInput_physical false, ?_, exInput_accepted_any rnd w shipped_days (shipped_room (r := 0) (by decide)) false exUnit exUnit_known, ?_⟩
  · intro r hr
    simp only [exInput, List.mem_cons, List.not_mem_nil, or_false] at hr
    subst hr
    decide
  · intro b hb
    simp only [exInput, List.mem_cons, List.not_mem_nil, or_false] at hb
    rcases hb with rfl | rfl <;> exact Or.inr rfl

end HLC.Init
