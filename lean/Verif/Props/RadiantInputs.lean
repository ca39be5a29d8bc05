import Verif.Props.OneRoom
import Verif.Props.RadiantRooms
import Verif.Props.Duplex

/-! # C76 for several rooms with radiant floor heating -/

namespace HLC.Init

open HLC.Spec

theorem acDemand_nonpos {f : ScheduleFile} (hc : KnownDays f) {room : String} {t : RoomTables} (ht : HasRoom f room t)
    (hv : ∀ k day q, t.demand k day q = 0) (A a : ℝ) {c : Compiled} (H : compiled f (residents A) room a = .ok c) (n : Fin 35040) :
    c.acDemand n = 0 := by
  obtain ⟨-, h1, h4, -⟩ := C42_residents A A
  obtain ⟨k, k1, k3, l, u⟩ : ∃ k : ℕ, 1 ≤ k ∧ k ≤ 3 ∧ (k : ℝ) ≤ residents A ∧ residents A ≤ k + 1 := by
    rcases le_total (residents A) 2 with h | h
    · exact ⟨1, by omega, by omega, by exact_mod_cast h1, by push_cast; linarith⟩
    rcases le_total (residents A) 3 with h' | h'
    · exact ⟨2, by omega, by omega, by exact_mod_cast h, by push_cast; linarith⟩
    · exact ⟨3, by omega, by omega, by exact_mod_cast h', by push_cast; linarith⟩
  obtain ⟨c', hc', hh⟩ := C71_compiled_partial f hc room t ht _ k k1 k3 l u a
  cases H.symm.trans hc'
  obtain ⟨d, q, rfl⟩ := quarter_surj n
  rw [(hh d q).2.1]
  simp [between, hv]

/-- The radiant heat of a floor-heated room of the input reaches the room. -/
theorem radiant_input {rnd : ℕ → ℝ → ℝ} (hr : IsRounding rnd) {w : List Step} {f : ScheduleFile} {d : Input} (hd : CompleteInput d) {o : Output}
    (H : makeHouse rnd w f d = .ok o) {h : House (Fin o.spaces.length) (Fin o.boundaries.length)} (Hr : readHouse o = .ok h)
    (hphi : ∀ j b, d.boundaries[j.1]? = some b → ¬ GivenByU b → 0 < h.phiA0 j) :
    RadiantWellFormed h ∧ ∀ i, h.isRadHeating i = true ∨ h.isRadCooling i = true → RadiantReaches h i := by
  obtain ⟨h', Hr', hls, hlb, hroom, hpart, -, -, -, hshare⟩ := C72_read_back_partial rnd hr w f d hd o H
  cases Hr.symm.trans Hr'
  have hsame : ∀ i : Fin o.spaces.length, SameRoom h i (d.rooms[i.1]'(hls ▸ i.2)) := fun i =>
    hroom i _ (List.getElem?_eq_getElem (hls ▸ i.2))
  have hbeta : ∀ i, h.beta i = 0 := fun i => (hsame i).convective
  refine ⟨⟨fun i => by rw [hbeta i]; norm_num, fun j => ((hshare (h.room j)).1 j rfl).2⟩, fun i hi => ?_⟩
  have hheat : h.isRadHeating i = true := by
    rcases hi with hi | hi
    · exact hi
    · rw [(hsame i).cooling.1] at hi; cases hi
  refine Or.inr ⟨by rw [hbeta]; norm_num, ?_⟩
  have hsum : ∑ j with h.room j = i, h.flr j = 1 := by rw [(hshare i).2.2, if_pos hheat]
  obtain ⟨j, hj, hpos⟩ : ∃ j ∈ Finset.univ.filter (fun j => h.room j = i), 0 < h.flr j := by
    by_contra hc
    push Not at hc
    have := Finset.sum_nonpos hc
    linarith
  refine ⟨j, by simpa [surfaces] using hj, hpos, ?_⟩
  have hj' : j.1 < d.boundaries.length := hlb ▸ j.2
  have hget := List.getElem?_eq_getElem hj'
  by_cases c : GivenByU d.boundaries[j.1]
  · obtain ⟨u, hu, -, e2, -, -⟩ := (hpart j _ hget).steady c
    obtain ⟨u0, u1⟩ := hd.uValue _ (List.getElem_mem hj') u hu
    rw [e2, sub_pos, lt_div_iff₀ u0]
    linarith
  · exact hphi j _ hget c

/-- **C76 (partial: floor heating in any of the rooms, no light partitions).** For every complete and physically possible input, with
radiant floor heating in any number of rooms, whose internal parts lead to the same room or do not respond on the far side within a
step, every weather and every schedule with the rooms of the house, the calculation from the files the initializer writes runs to its
end. -/
theorem C76_own_panels_partial (rnd : ℕ → ℝ → ℝ) (hr : IsRounding rnd) (w : List Step) (f : ScheduleFile) (hf : KnownDays f) (d : Input)
    (hd : CompleteInput d) (hp : PhysicalInput d 900)
    (hsched : ∀ r ∈ d.rooms, ∃ t, HasRoom f r.name t ∧ ∀ k day q, 0 ≤ t.localVent k day q) (o : Output) (H : makeHouse rnd w f d = .ok o)
    (hphi : ∀ h, readHouse o = .ok h → ∀ j b, d.boundaries[j.1]? = some b → ¬ GivenByU b → 0 < h.phiA0 j ∧ 0 ≤ h.phiT0 j ∧ h.phiT0 j ≤ 1)
    (hown : ∀ h, readHouse o = .ok h → ∀ j b, d.boundaries[j.1]? = some b → b.boundaryType = "internal" →
      h.phiT0 j = 0 ∨ ∀ (r : ℕ) b', b.rearSurface = some (r : ℤ) → d.boundaries[r]? = some b' → b'.connectedRoom = b.connectedRoom) :
    ∃ h, readHouse o = .ok h ∧ ∀ (temp hum : Fin 35040 → ℝ) (solve : List ℝ → ℝ), SolvesRooms solve h.area h.room →
      ∀ dMain dRunUp dRunUpBuild : ℤ, 0 ≤ dMain → dMain ≤ 365 → 0 ≤ dRunUpBuild → dRunUpBuild ≤ dRunUp → dRunUp ≤ 365 →
        ∃ res, program solve h (readRecord temp hum o) 4 dMain dRunUp dRunUpBuild = .ok res := by
  obtain ⟨h, Hr, hls, hlb, hroom, hpart, -, -, -, -⟩ := C72_read_back_partial rnd hr w f d hd o H
  refine ⟨h, Hr, fun temp hum solve hsolve dMain dRunUp dB m0 m1 b0 b1 r1 => ?_⟩
  have hw := C75_wellformed rnd hr w f d hd 900 hp o H h Hr
    (fun j b hb hn => ⟨(hphi h Hr j b hb hn).1.le, (hphi h Hr j b hb hn).2⟩) solve hsolve
  obtain ⟨hrw, hreach⟩ := radiant_input hr hd H Hr fun j b hb hn => (hphi h Hr j b hb hn).1
  obtain ⟨-, -, -, hsch, -, -, -, -⟩ := makeHouse_inv H
  have hlen := mapM_length hsch
  have hne : 0 < o.spaces.length := by
    rw [hls]
    by_contra h0
    have := hd.rooms.main
    rw [List.eq_nil_of_length_eq_zero (by omega : d.rooms.length = 0)] at this
    exact absurd this (by decide)
  have : Nonempty (Fin o.spaces.length) := ⟨⟨0, hne⟩⟩
  unfold program
  apply C21_program_own_partial
  · norm_num; exact hw
  · exact hrw
  · intro j m x hk
    have hj' : j.1 < d.boundaries.length := hlb ▸ j.2
    have hm' : m.1 < d.boundaries.length := hlb ▸ m.2
    have P := hpart j _ (List.getElem?_eq_getElem hj')
    have Q := hpart m _ (List.getElem?_eq_getElem hm')
    rcases P.kind with c | c | c
    · obtain ⟨tc, htc, -, e1, e2⟩ := P.outdoor c
      rcases (hd.tempDif _ (List.getElem_mem hj') tc htc).2.lt_or_eq with c1 | c1
      · obtain ⟨x', hx', -⟩ := e2 c1
        rw [hk, Option.some.injEq, Prod.mk.injEq] at hx'
        exact Or.inr (Or.inr (by rw [hx'.1]))
      · rw [e1 c1] at hk; cases hk
    · obtain ⟨r, hr', -, l, hl, hl'⟩ := P.internal c
      rw [hk, Option.some.injEq, Prod.mk.injEq] at hl'
      rcases hown h Hr j _ (List.getElem?_eq_getElem hj') c with c1 | c1
      · exact Or.inl c1
      · right; right
        have := c1 m.1 _ (by rw [hr', ← hl, hl'.1]) (List.getElem?_eq_getElem hm')
        rw [← P.room, ← Q.room] at this
        exact Fin.ext (by exact_mod_cast this)
    · rw [(P.below c).2] at hk; cases hk
  · exact hreach
  · intro k i
    have hi : i.1 < d.rooms.length := hls ▸ i.2
    have h1 := mapM_getElem hsch hi
    obtain ⟨t, ht, hv⟩ := hsched _ (List.getElem_mem hi)
    simp only [readRecord]
    rw [List.getElem?_eq_getElem (by rw [hlen]; exact hi)]
    exact vLocal_nonneg hf ht hv _ _ h1 k
  all_goals omega

/-- **C76 (partial: one room in charge).** For every complete and physically possible input without air flow between rooms, with any
partitions and any heating equipment, every weather and every schedule in which at most one room asks for heating or cooling, the
calculation from the files the initializer writes runs to its end. -/
theorem C76_one_in_charge_partial (rnd : ℕ → ℝ → ℝ) (hr : IsRounding rnd) (w : List Step) (f : ScheduleFile) (hf : KnownDays f) (d : Input)
    (hd : CompleteInput d) (hp : PhysicalInput d 900) (hair : ∀ r ∈ d.rooms, r.nextVent = [])
    (i0 : ℕ) (h0 : i0 < d.rooms.length)
    (hsched : ∀ i (r : RoomDict), d.rooms[i]? = some r → ∃ t, HasRoom f r.name t ∧ (∀ k day q, 0 ≤ t.localVent k day q) ∧
      (i ≠ i0 → ∀ k day q, t.demand k day q = 0))
    (o : Output) (H : makeHouse rnd w f d = .ok o)
    (hphi : ∀ h, readHouse o = .ok h → ∀ j b, d.boundaries[j.1]? = some b → ¬ GivenByU b → 0 < h.phiA0 j ∧ 0 ≤ h.phiT0 j ∧ h.phiT0 j ≤ 1) :
    ∃ h, readHouse o = .ok h ∧ ∀ (temp hum : Fin 35040 → ℝ) (solve : List ℝ → ℝ), SolvesRooms solve h.area h.room →
      ∀ dMain dRunUp dRunUpBuild : ℤ, 0 ≤ dMain → dMain ≤ 365 → 0 ≤ dRunUpBuild → dRunUpBuild ≤ dRunUp → dRunUp ≤ 365 →
        ∃ res, program solve h (readRecord temp hum o) 4 dMain dRunUp dRunUpBuild = .ok res := by
  obtain ⟨h, Hr, hls, hlb, hroom, hpart, -, -, -, -⟩ := C72_read_back_partial rnd hr w f d hd o H
  refine ⟨h, Hr, fun temp hum solve hsolve dMain dRunUp dB m0 m1 b0 b1 r1 => ?_⟩
  have hw := C75_wellformed rnd hr w f d hd 900 hp o H h Hr
    (fun j b hb hn => ⟨(hphi h Hr j b hb hn).1.le, (hphi h Hr j b hb hn).2⟩) solve hsolve
  obtain ⟨hrw, hreach⟩ := radiant_input hr hd H Hr fun j b hb hn => (hphi h Hr j b hb hn).1
  obtain ⟨-, -, -, hsch, -, -, -, -⟩ := makeHouse_inv H
  have hlen := mapM_length hsch
  have hk0 : i0 < o.spaces.length := by rw [hls]; exact h0
  have : Nonempty (Fin o.spaces.length) := ⟨⟨i0, hk0⟩⟩
  unfold program
  refine C21_program_one_in_charge_partial (i0 := ⟨i0, hk0⟩) ?_ ?_ ?_ ?_ ?_ ?_ ?_ ?_ ?_ ?_ ?_ ?_
  · norm_num; exact hw
  · exact hrw
  · intro i l
    have hi : i.1 < d.rooms.length := hls ▸ i.2
    rw [(hroom i _ (List.getElem?_eq_getElem hi)).inflow, hair _ (List.getElem_mem hi)]
    simp [flowFrom]
  · exact hreach _
  · intro k i hii
    have hi : i.1 < d.rooms.length := hls ▸ i.2
    have h1 := mapM_getElem hsch hi
    obtain ⟨t, ht, -, hv⟩ := hsched i.1 _ (List.getElem?_eq_getElem hi)
    simp only [readRecord]
    rw [List.getElem?_eq_getElem (by rw [hlen]; exact hi)]
    exact (acDemand_nonpos hf ht (hv fun e => hii (Fin.ext e)) _ _ h1 k).le
  · intro k i
    have hi : i.1 < d.rooms.length := hls ▸ i.2
    have h1 := mapM_getElem hsch hi
    obtain ⟨t, ht, hv, -⟩ := hsched i.1 _ (List.getElem?_eq_getElem hi)
    simp only [readRecord]
    rw [List.getElem?_eq_getElem (by rw [hlen]; exact hi)]
    exact vLocal_nonneg hf ht hv _ _ h1 k
  all_goals omega

/-! ## Examples -/

/-- The house of two rooms with panels on both sides of the partition that cannot be calculated when both rooms are heated (`C21_violated`) is
calculated when only one of them is. -/
example : ∃ res, coreCalc exDuplex exDuplexHR (fun k => { exDuplexData k with acDemand := fun i => if i = 0 then 1 else 0 }) 4 1 0 0 = .ok res := by
  refine C21_program_one_in_charge_partial (i0 := 0) ?_ ?_ ?_ ?_ ?_ ?_ ?_ ?_ ?_ ?_ ?_ ?_
  · norm_num; exact exDuplex_wellFormed
  · exact exDuplex_radiant
  · intro i l; rfl
  · exact fun _ => exDuplex_reaches 0
  · intro k i hi; simp [hi]
  · intro k i; exact le_rfl
  all_goals norm_num

/-- Two rooms side by side without a door, each with a floor above the outdoor air, an outer wall, floor heating and an air conditioner. -/
noncomputable def exTwins : Input where
  building := ⟨2, 2, "balanced"⟩
  rooms := [⟨0, "main_occupant_room", "main_occupant_room", 30, 72, 60, [], 5, exFloorHeating, exUnit⟩,
    ⟨1, "other_occupant_room", "other_occupant_room", 30, 72, 60, [], 5, exFloorHeating, exUnit⟩]
  boundaries :=
    [⟨0, "floor", 0, "external_opaque_part", 30, some false, some 1, none, none, true, true, none, 0.15, 2, none, none, none,
      some ⟨false, none, none, none, none, none⟩, none, none, some 2, none⟩,
     ⟨1, "wall", 0, "external_opaque_part", 100, some false, some 1, none, none, false, false, none, 0.15, 2, none, none, none,
      some ⟨false, none, none, none, none, none⟩, none, none, some 2, none⟩,
     ⟨2, "floor", 1, "external_opaque_part", 30, some false, some 1, none, none, true, true, none, 0.15, 2, none, none, none,
      some ⟨false, none, none, none, none, none⟩, none, none, some 2, none⟩,
     ⟨3, "wall", 1, "external_opaque_part", 100, some false, some 1, none, none, false, false, none, 0.15, 2, none, none, none,
      some ⟨false, none, none, none, none, none⟩, none, none, some 2, none⟩]

theorem exTwins_rooms (low : ℤ) : ValidRooms low exTwins.rooms where
  ids := by
    intro i hi
    have : i < 2 := hi
    interval_cases i <;> rfl
  types := by
    intro r hr
    simp only [exTwins, List.mem_cons, List.not_mem_nil, or_false] at hr
    rcases hr with rfl | rfl <;> simp [roomTypeNames]
  main := by simp [occurrences, exTwins]
  others := by
    intro t ht
    simp only [roomTypeNames, List.mem_cons, List.not_mem_nil, or_false] at ht
    rcases ht with rfl | rfl | rfl | rfl <;> simp [occurrences, exTwins]
  heating := by
    intro r hr
    simp only [exTwins, List.mem_cons, List.not_mem_nil, or_false] at hr
    rcases hr with rfl | rfl <;> exact Or.inr (Or.inr ⟨rfl, rfl⟩)
  cooling := by
    intro r hr
    simp only [exTwins, List.mem_cons, List.not_mem_nil, or_false] at hr
    rcases hr with rfl | rfl <;> exact exUnit_known
  upstream := by
    intro r hr
    simp only [exTwins, List.mem_cons, List.not_mem_nil, or_false] at hr
    rcases hr with rfl | rfl <;> simp

theorem exTwins_complete : CompleteInput exTwins where
  rooms := exTwins_rooms 0
  cooling := by
    intro r hr
    simp only [exTwins, List.mem_cons, List.not_mem_nil, or_false] at hr
    rcases hr with rfl | rfl <;> rfl
  partRoom := by
    intro b hb
    simp only [exTwins, List.mem_cons, List.not_mem_nil, or_false] at hb
    rcases hb with rfl | rfl | rfl | rfl <;> simp [exTwins]
  partId := by
    intro j hj
    have : j < 4 := hj
    interval_cases j <;> rfl
  rear := by
    intro b hb
    simp only [exTwins, List.mem_cons, List.not_mem_nil, or_false] at hb
    rcases hb with rfl | rfl | rfl | rfl <;> simp
  area := by
    intro b hb
    simp only [exTwins, List.mem_cons, List.not_mem_nil, or_false] at hb
    rcases hb with rfl | rfl | rfl | rfl <;> norm_num
  tempDif := by
    intro b hb
    simp only [exTwins, List.mem_cons, List.not_mem_nil, or_false] at hb
    rcases hb with rfl | rfl | rfl | rfl <;> simp
  uValue := by
    intro b hb
    simp only [exTwins, List.mem_cons, List.not_mem_nil, or_false] at hb
    rcases hb with rfl | rfl | rfl | rfl <;> · simp; norm_num
  floor := by
    intro i hi
    have : i < 2 := hi
    interval_cases i <;> simp [exTwins]
  notOnlyFloor := by
    intro i hi
    have : i < 2 := hi
    interval_cases i <;> simp [exTwins]

theorem exTwins_physical : PhysicalInput exTwins 900 where
  dt_pos := by norm_num
  volume := by intro r hr; simp only [exTwins, List.mem_cons, List.not_mem_nil, or_false] at hr; rcases hr with rfl | rfl <;> norm_num
  vent := by intro r hr; simp only [exTwins, List.mem_cons, List.not_mem_nil, or_false] at hr; rcases hr with rfl | rfl <;> norm_num
  natural := by intro r hr; simp only [exTwins, List.mem_cons, List.not_mem_nil, or_false] at hr; rcases hr with rfl | rfl <;> norm_num
  route := by intro r hr; simp only [exTwins, List.mem_cons, List.not_mem_nil, or_false] at hr; rcases hr with rfl | rfl <;> simp
  inflow := by intro r hr; simp only [exTwins, List.mem_cons, List.not_mem_nil, or_false] at hr; rcases hr with rfl | rfl <;> norm_num
  radiant := by
    intro r hr; simp only [exTwins, List.mem_cons, List.not_mem_nil, or_false] at hr
    rcases hr with rfl | rfl <;> (intro s hs; simp only [exFloorHeating, Option.some.injEq] at hs; subst hs; norm_num)
  cooling := by
    intro r hr; simp only [exTwins, List.mem_cons, List.not_mem_nil, or_false] at hr
    rcases hr with rfl | rfl <;> (intro s hs; simp only [exUnit, Option.some.injEq] at hs; subst hs; norm_num)
  hC := by
    intro b hb
    simp only [exTwins, List.mem_cons, List.not_mem_nil, or_false] at hb
    rcases hb with rfl | rfl | rfl | rfl <;> norm_num

theorem exTwins_part (w : List Step) (b : BoundaryDict) (hb : b ∈ exTwins.boundaries) :
    ∃ x : Bs, getBoundarySimple w b = .ok x ∧ x.room = b.connectedRoom ∧ x.qTrsSol.length = 35040 ∧ x.bType = .opaquePart := by
  simp only [exTwins, List.mem_cons, List.not_mem_nil, or_false] at hb
  rcases hb with rfl | rfl | rfl | rfl <;>
  simp [getBoundarySimple, BType.ofString, readSun, isExternal, readHtd, readNextRoom, readRear, readDirection, readHi, Shading.create,
    shadingSunStruck, EqvTemp.create, EqvTemp.series, Transmission.create, Transmission.series, key, bind, Except.bind, -List.reduceReplicate,
    show (0.15 : ℝ) ≠ 0 by norm_num]

theorem exTwins_accepted (rnd : ℕ → ℝ → ℝ) (w : List Step) {f : ScheduleFile} (hf : KnownDays f) {tm tn : RoomTables}
    (hm : HasRoom f "main_occupant_room" tm) (ho : HasRoom f "other_occupant_room" tn) : ∃ o, makeHouse rnd w f exTwins = .ok o := by
  obtain ⟨ss, hss⟩ := (C51_accepted_iff_partial exTwins.rooms).1.2 (exTwins_rooms _)
  obtain ⟨c0, hc0⟩ := C42_total f hf "main_occupant_room" tm hm
    (exTwins.rooms.map RoomDict.floorArea).sum 30
  obtain ⟨c1, hc1⟩ := C42_total f hf "other_occupant_room" tn ho
    (exTwins.rooms.map RoomDict.floorArea).sum 30
  have hsch : (exTwins.rooms.mapM fun x => compiled f (residents (exTwins.rooms.map RoomDict.floorArea).sum) x.name x.floorArea)
      = .ok [c0, c1] := by
    rw [mapM_ok_iff]
    exact List.Forall₂.cons hc0 (List.Forall₂.cons hc1 List.Forall₂.nil)
  obtain ⟨x0, e0, r0, l0, t0⟩ := exTwins_part w (exTwins.boundaries[0]'(by decide)) (List.getElem_mem _)
  obtain ⟨x1, e1, r1, l1, t1⟩ := exTwins_part w (exTwins.boundaries[1]'(by decide)) (List.getElem_mem _)
  obtain ⟨x2, e2, r2, l2, t2⟩ := exTwins_part w (exTwins.boundaries[2]'(by decide)) (List.getElem_mem _)
  obtain ⟨x3, e3, r3, l3, t3⟩ := exTwins_part w (exTwins.boundaries[3]'(by decide)) (List.getElem_mem _)
  have hb : exTwins.boundaries.mapM (getBoundarySimple w) = .ok [x0, x1, x2, x3] :=
    mapM_ok_iff.2 (.cons e0 (.cons e1 (.cons e2 (.cons e3 .nil))))
  have r0 : x0.room = 0 := r0
  have r1 : x1.room = 0 := r1
  have r2 : x2.room = 1 := r2
  have r3 : x3.room = 1 := r3
  have hq : ∃ q, roomSolar [x0, x1, x2, x3] exTwins.rooms.length = .ok q := by
    refine ⟨[List.zipWith (· + ·) x0.qTrsSol x1.qTrsSol, List.zipWith (· + ·) x2.qTrsSol x3.qTrsSol], ?_⟩
    unfold roomSolar
    rw [mapM_ok_iff]
    refine List.Forall₂.cons ?_ (List.Forall₂.cons ?_ List.Forall₂.nil)
    · simp [r0, r1, r2, r3, sumSeries, l0, l1]
    · simp [r0, r1, r2, r3, sumSeries, l2, l3]
  obtain ⟨q, hq⟩ := hq
  have hbj : ∃ bj, makeBoundaries rnd exTwins.rooms exTwins.boundaries [x0, x1, x2, x3] = .ok bj := by
    unfold makeBoundaries
    have h1 : checkParts exTwins.rooms [x0, x1, x2, x3] = .ok () := by
      unfold checkParts
      rw [if_pos]
      intro i hi
      rw [List.mem_range] at hi
      have : i < 2 := hi
      interval_cases i
      · exact ⟨x0, by simp, r0⟩
      · exact ⟨x2, by simp, r2⟩
    have hs : ∀ b ∈ exTwins.boundaries, boundarySpec b .opaquePart = .ok (.uValue "external_opaque_part" 2 0.15) := by
      intro b hb
      simp only [exTwins, List.mem_cons, List.not_mem_nil, or_false] at hb
      rcases hb with rfl | rfl | rfl | rfl <;> simp [boundarySpec, key, bind, Except.bind, BType.value]
    obtain ⟨sp, hsp⟩ : ∃ sp, ((exTwins.boundaries.zip [x0, x1, x2, x3]).mapM fun p => boundarySpec p.1 p.2.bType) = .ok sp := by
      refine ⟨List.replicate 4 (.uValue "external_opaque_part" 2 0.15), ?_⟩
      rw [mapM_ok_iff]
      refine .cons ?_ (.cons ?_ (.cons ?_ (.cons ?_ .nil)))
      · simp only [t0]; exact hs _ (by simp [exTwins])
      · simp only [t1]; exact hs _ (by simp [exTwins])
      · simp only [t2]; exact hs _ (by simp [exTwins])
      · simp only [t3]; exact hs _ (by simp [exTwins])
    simp only [bind_ok_iff]
    exact ⟨_, (), h1, sp, hsp, rfl⟩
  obtain ⟨bj, hbj⟩ := hbj
  have hbd : makeBuilding exTwins.building = .ok ⟨"balance_residential", 2, 2, "balanced"⟩ := by
    simp [makeBuilding, exTwins]
  unfold makeHouse
  simp only [bind_ok_iff]
  exact ⟨_, _, hb, _, hq, _, hsch, _, hbd, _, hss, _, hbj, rfl⟩

/-- The lists of a room that asks for heating and cooling all day. -/
noncomputable def exBusy : RoomTables := { exTables with demand := fun _ _ _ => 1 }

/-- The example file with a demand in the rooms named by `p`. -/
noncomputable def exDemand (p : String → Bool) : ScheduleFile where
  calendar := exSchedule.calendar
  daily := fun k room day kind => if kind = "is_temp_limit_set" ∧ p room then some fun _ => 1 else exSchedule.daily k room day kind

theorem exDemand_days (p : String → Bool) : KnownDays (exDemand p) := exSchedule_days

theorem exDemand_room (p : String → Bool) (room : String) : HasRoom (exDemand p) room (if p room then exBusy else exTables) := by
  cases hp : p room <;> constructor <;> intro k h1 h4 day hd <;> simp [exDemand, exSchedule, exTables, exBusy, hp]

/-- The hypotheses of `C76_own_panels_partial` are met by two rooms with floor heating and demand in both. -/
example (rnd : ℕ → ℝ → ℝ) (hr : IsRounding rnd) (w : List Step) (temp hum : Fin 35040 → ℝ) : ∃ o h solve res,
    makeHouse rnd w (exDemand fun _ => true) exTwins = .ok o ∧ readHouse o = .ok h ∧ (∀ i, h.isRadHeating i = true) ∧
      program solve h (readRecord temp hum o) 4 365 365 183 = .ok res := by
  obtain ⟨o, ho⟩ := exTwins_accepted rnd w (exDemand_days fun _ => true) (exDemand_room _ _) (exDemand_room _ _)
  have hU : ∀ b ∈ exTwins.boundaries, b.boundaryType = "external_opaque_part" := fun b hb => by
    simp only [exTwins, List.mem_cons, List.not_mem_nil, or_false] at hb
    rcases hb with rfl | rfl | rfl | rfl <;> rfl
  obtain ⟨h, hh, H⟩ := C76_own_panels_partial rnd hr w _ (exDemand_days fun _ => true) _ exTwins_complete exTwins_physical
    (fun r _ => ⟨exBusy, exDemand_room _ _, fun _ _ _ => le_refl _⟩) o ho
    (fun h _ j b hb hn => (hn (Or.inr (hU b (List.mem_of_getElem? hb)))).elim)
    (fun h _ j b hb hn => by rw [hU b (List.mem_of_getElem? hb)] at hn; exact absurd hn (by decide))
  obtain ⟨solve, hsol⟩ := exists_solver
  obtain ⟨h', e, hls, hlb, hroom, hpart, -⟩ := C72_read_back_partial rnd hr w _ _ exTwins_complete o ho
  cases hh.symm.trans e
  have hpos : ∀ j, 0 < h.area j := by
    intro j
    have hj : j.1 < exTwins.boundaries.length := hlb ▸ j.2
    rw [(hpart j _ (List.getElem?_eq_getElem hj)).area]
    exact exTwins_complete.area _ (List.getElem_mem hj)
  obtain ⟨res, hres⟩ := H temp hum solve (solvesRooms_of hsol h.room hpos) 365 365 183 (by norm_num) (by norm_num) (by norm_num) (by norm_num) (by norm_num)
  refine ⟨o, h, solve, res, ho, hh, fun i => ?_, hres⟩
  have hi : i.1 < exTwins.rooms.length := hls ▸ i.2
  refine (hroom i _ (List.getElem?_eq_getElem hi)).heating.1.2 ?_
  have : i.1 < 2 := hi
  have key : ∀ r ∈ exTwins.rooms, r.heating.kind = "radiative" := fun r hr => by
    simp only [exTwins, List.mem_cons, List.not_mem_nil, or_false] at hr
    rcases hr with rfl | rfl <;> rfl
  exact key _ (List.getElem_mem hi)

/-- The hypotheses of `C76_one_in_charge_partial` are met by the same rooms if only the main room asks for heating. -/
example (rnd : ℕ → ℝ → ℝ) (hr : IsRounding rnd) (w : List Step) : ∃ o h, makeHouse rnd w (exDemand (· = "main_occupant_room")) exTwins = .ok o ∧
    readHouse o = .ok h ∧ ∀ (temp hum : Fin 35040 → ℝ) (solve : List ℝ → ℝ), SolvesRooms solve h.area h.room →
      ∃ res, program solve h (readRecord temp hum o) 4 365 365 183 = .ok res := by
  obtain ⟨o, ho⟩ := exTwins_accepted rnd w (exDemand_days (· = "main_occupant_room")) (exDemand_room _ _) (exDemand_room _ _)
  have hU : ∀ b ∈ exTwins.boundaries, b.boundaryType = "external_opaque_part" := fun b hb => by
    simp only [exTwins, List.mem_cons, List.not_mem_nil, or_false] at hb
    rcases hb with rfl | rfl | rfl | rfl <;> rfl
  obtain ⟨h, hh, H⟩ := C76_one_in_charge_partial rnd hr w _ (exDemand_days (· = "main_occupant_room")) _ exTwins_complete exTwins_physical
    (fun r hr => by simp only [exTwins, List.mem_cons, List.not_mem_nil, or_false] at hr; rcases hr with rfl | rfl <;> rfl) 0 (by decide)
    (fun i r hi => by
      refine ⟨_, exDemand_room _ _, ?_, fun h0 => ?_⟩
      · intro k day q; split_ifs <;> exact le_refl _
      · have hi' : i < 2 := (List.getElem?_eq_some_iff.1 hi).1
        interval_cases i
        · exact absurd rfl h0
        · have : r.name = "other_occupant_room" := by
            have := (List.getElem?_eq_some_iff.1 hi).2
            rw [← this]; rfl
          rw [this]
          intro k day q
          rfl) o ho
    (fun h _ j b hb hn => (hn (Or.inr (hU b (List.mem_of_getElem? hb)))).elim)
  exact ⟨o, h, ho, hh, fun temp hum solve hs => H temp hum solve hs 365 365 183 (by norm_num) (by norm_num) (by norm_num) (by norm_num) (by norm_num)⟩

end HLC.Init
