import Verif.Props.Entries
import Verif.Props.ColdHouse
import Verif.Props.ResultDigest
import Verif.Props.Insulated
import Verif.Props.RadiantInputs
import Verif.Props.WindowInput
import Verif.Spec.Unheated

/-!
# Heating equipment and heating (C120)
-/

namespace HLC

open Matrix Spec

section
variable {I : Type} [Fintype I] [DecidableEq I] {m N : ℕ} {h : House I (Fin m)} {hR : Fin m → ℝ} {data : Fin N → Record I (Fin m)}
    {dMain dRunUp : ℤ} {r : CalcResult I m N}

/-- In a plain house of one room in cold weather, the room is heated in the first step if it has demand. -/
theorem heated_first [Unique I] (H : coreCalc h hR data 4 dMain dRunUp 0 = .ok r) (hw : WellFormed h hR 900)
    (hst : Storageless h) (hg : ∀ j, h.isGround j = false) (hv : ∀ i l, h.vInt i l = 0) (hrad : ∀ i, h.isRadHeating i = false ∧ h.isRadCooling i = false)
    {k : Fin N} (hk0 : k.1 = 0) (hdem : ∀ i, (data k).acDemand i = 1) (hgen : ∀ i, (data k).qGen i = 0) (hppl : ∀ i, (data k).nHum i = 0)
    (hsun : ∀ i, (data k).qTrsSol i = 0) (hloc : ∀ i, 0 ≤ (data k).vLocal i) (hout : Outdoors (· ≤ 15) (data k))
    (k0 : Fin r.nMain.toNat) (hk00 : (k0 : ℕ) = 0) :
    (∀ i, (r.log k0).mode i = some .heating) ∧ ∀ i, 0 < (r.log k0).lCs i := by
  obtain ⟨-, t, Hp, -, Ht, el⟩ := first_row hg H k0 hk00
  norm_num at Hp Ht
  have hidx : pyIndex N 0 = .ok k := by
    obtain ⟨ivs, k', -, -, hk', -⟩ := step_eqs Hp Ht
    rw [hk']
    congr 1
    have := pyIndex_spec hk'
    exact Fin.ext (by omega)
  obtain ⟨ivs, k', hi, hs, hk', e⟩ := step_eqs Hp Ht
  have : k' = k := Except.ok.inj (hk'.symm.trans hidx)
  subst this
  obtain ⟨q1, q2⟩ := cold_pmv
  have hmode : ∀ i, (t.ot i).mode = .heating := by
    intro i
    have hot := e.ot i
    rw [hs] at hot
    unfold getOtTargetAndHHum at hot
    have c4 : getPvR ((initialConditions I (Fin m)).xR i) = coldP := rfl
    rw [c4] at hot
    have hd1 : (preCalcOf h hR 900 data ivs).acDemand k' i = 1 := hdem i
    rw [hd1] at hot
    simp only [initialConditions, getOperationMode, bind, Except.bind, if_neg (not_le.2 q2), ge_iff_le, if_pos q1, gt_iff_lt, zero_lt_one, if_true] at hot
    rw [← Except.ok.inj hot]
  rw [el]
  refine ⟨fun i => congrArg some (hmode i), ?_⟩
  intro i
  by_contra hno
  have hno : ∀ l, t.lc l ≤ 0 := fun l => Subsingleton.elim i l ▸ not_lt.1 hno
  have hcap : ∀ i, 0 ≤ h.capH i ∧ 0 ≤ h.capC i := fun i => ⟨hw.capH_nonneg i, hw.capC_nonneg i⟩
  have hlr : ∀ i, t.lr i = 0 := no_radiant_load Hp Ht hcap hrad
  have hlc : ∀ i, t.lc i ≤ 0 := hno
  obtain ⟨-, -, A⟩ := step_averages hw hst hv Hp Ht hidx (fun _ _ => rfl) (fun _ _ => rfl)
  have hvo := vOut_nonneg' hw Hp Ht hidx hloc
  have hq : ∀ i, t.qHum i = 0 := by
    intro i
    rw [e.qHum, hs]
    simp [Tick.qHum, preCalcOf, hppl]
  have hqs : ∀ j, h.qSol (data k') j = 0 := fun j => by unfold House.qSol; simp [hsun]
  have hlow := A.neg.floor hw hst.weights (lo := -15) hvo (neg_le_neg hout.1) (fun j => neg_le_neg (hout.2 j)) (fun i => le_refl _)
    (fun i => le_refl _) (fun i => by simp [hgen, hq, hlr, hlc]) (fun i => by simp [hsun])
    (fun j => by simp [hqs, hlr]) (fun j => by cases h.kEi j <;> simp [hqs, hlr])
  obtain ⟨w1, w2⟩ := ot_coefs (e.ot i)
  have htarget := ((C04_target_realises_pmv _ _ _ _ _ _ (e.ot i)).1 (hmode i)).1
  rw [w1, w2] at htarget
  have h15 : 15 < (t.ot i).thetaLower := cold_target htarget
  have hset := ((step_target Hp Ht hidx hcap i (hdem i)).1 (hmode i)).1
  have h13 := C13_operative_temperature Hp Ht i
  have hC0 := hHumC_pos
  have hR0 := hHumR_pos
  have hS : ∑ j ∈ surfaces h i, h.fMrtHum j * t.thetaS j ≤ 15 := by
    calc ∑ j ∈ surfaces h i, h.fMrtHum j * t.thetaS j ≤ ∑ j ∈ surfaces h i, h.fMrtHum j * 15 :=
          Finset.sum_le_sum fun j _ => mul_le_mul_of_nonneg_left (neg_le_neg_iff.1 (hlow.2.2 j)) (hw.fMrtHum_nonneg j)
      _ ≤ 15 := by rw [← Finset.sum_mul]; linarith [hw.fMrtHum_sum i]
  have hRoom : t.thetaR i ≤ 15 := neg_le_neg_iff.1 (hlow.1 i)
  have : t.thetaOt i ≤ 15 := by
    rw [h13, div_le_iff₀ (by linarith)]
    have := mul_le_mul_of_nonneg_left hRoom hC0.le
    have := mul_le_mul_of_nonneg_left hS hR0.le
    linarith
  linarith

end

end HLC

namespace HLC.Init

open HLC.Spec

/-- **C120 (what is entered does not count).** Inputs that differ only in heating equipment other than radiant panels (none, or an air conditioner of any
capacity) give the same tables. -/
theorem C120_ignored (rnd : ℕ → ℝ → ℝ) (solve : List ℝ → ℝ) (w : List Step) (hum : Fin 35040 → ℝ) (f : ScheduleFile)
    (hourly dMain dRunUp dRunUpBuild : ℤ) (d : Input) (rooms' : List RoomDict)
    (H : List.Forall₂ (fun r r' => r' = r ∨ ∃ e, r' = { r with heating := e } ∧ NotRadiant r.heating ∧ NotRadiant e) d.rooms rooms') :
    calculate rnd solve w hum f hourly dMain dRunUp dRunUpBuild { d with rooms := rooms' }
      = calculate rnd solve w hum f hourly dMain dRunUp dRunUpBuild d := by
  refine (calculate_alike rnd solve w hum f hourly dMain dRunUp dRunUpBuild (d := d) (d' := { d with rooms := rooms' })
    ⟨rfl, H.imp ?_, List.forall₂_same.2 fun b _ => ⟨rfl, Or.inl rfl, Or.inl rfl, Or.inl rfl, Or.inl rfl⟩⟩).symm
  rintro r r' (rfl | ⟨e, rfl, h1, h2⟩)
  · exact ⟨rfl, Or.inl rfl⟩
  · exact ⟨rfl, Or.inr ⟨h1, h2⟩⟩

/-- The equivalent outdoor temperature of a plain part out of the sun is that of the air. -/
theorem plain_part {w : List Step} {b : BoundaryDict} {x : Bs} (H : getBoundarySimple w b = .ok x) (hb : b.boundaryType = "external_opaque_part")
    (hs : b.isSunStruck = some false) : x.thetaOSol = w.map Step.thetaO := by
  simp only [getBoundarySimple, bind_ok_iff] at H
  obtain ⟨_, _, _, _, _, _, _, _, _, _, _, _, _, _, p, hpc, oe, hoe, th, hth, tr, htr, q, hq, e⟩ := H
  rw [← Except.ok.inj e]
  have h2 : EqvTemp.create b = .ok .notSunStruck := by simp [EqvTemp.create, hb, hs, key, bind, Except.bind]
  obtain rfl : oe = .notSunStruck := Except.ok.inj (hoe.symm.trans h2)
  exact (Except.ok.inj hth).symm

/-- What the schedules of a room give in the first quarter of an hour of the year. -/
theorem midnight {f : ScheduleFile} (hc : KnownDays f) {room : String} {t : RoomTables} (ht : HasRoom f room t) (ha : AsksAtMidnight t) (A a : ℝ)
    {c : Compiled} (H : compiled f (residents A) room a = .ok c) :
    c.acDemand 0 = 1 ∧ c.nHum 0 = 0 ∧ c.qGen 0 = 0 := by
  obtain ⟨-, h1, h4, -⟩ := C42_residents A A
  obtain ⟨k, k1, k3, l, u⟩ : ∃ k : ℕ, 1 ≤ k ∧ k ≤ 3 ∧ (k : ℝ) ≤ residents A ∧ residents A ≤ k + 1 := by
    rcases le_total (residents A) 2 with h | h
    · exact ⟨1, by omega, by omega, by exact_mod_cast h1, by push_cast; linarith⟩
    rcases le_total (residents A) 3 with h' | h'
    · exact ⟨2, by omega, by omega, by exact_mod_cast h, by push_cast; linarith⟩
    · exact ⟨3, by omega, by omega, by exact_mod_cast h', by push_cast; linarith⟩
  obtain ⟨c', hc', hh⟩ := C71_compiled_partial f hc room t ht _ k k1 k3 l u a
  cases H.symm.trans hc'
  obtain ⟨g1, g2, -, g4, -⟩ := hh 0 0
  have e : quarter 0 0 = 0 := rfl
  rw [e] at g1 g2 g4
  rw [g1, g2, g4]
  simp [between, ha.demand, ha.people, ha.appliances, ha.cookingVapour, ha.lighting]

/-- The house and the first record of a plain house. -/
theorem plain_house (rnd : ℕ → ℝ → ℝ) (hr : IsRounding rnd) (w : List Step) (f : ScheduleFile) (d : Input)
    (hd : CompleteInput d) (hp : PhysicalInput d 900) (hpl : PlainUnheated d) (o : Output) (H : makeHouse rnd w f d = .ok o) :
    ∃ h, readHouse o = .ok h ∧ Storageless h ∧ (∀ j, h.isGround j = false) ∧ (∀ i l, h.vInt i l = 0) ∧
      (∀ i, h.isRadHeating i = false ∧ h.isRadCooling i = false) ∧
      (∀ solve, SolvesRooms solve h.area h.room → WellFormed h (getHr solve h.area h.room) 900) ∧
      ∀ (temp hum : Fin 35040 → ℝ) (t : Fin 35040), (∀ i, (readRecord temp hum o t).qTrsSol i = 0) ∧
        ∀ j, (readRecord temp hum o t).thetaOSol j = temperatureColumn w t := by
  obtain ⟨h, e, hls, hlb, hroom, hpart, b1, b2, b3, hshare⟩ := C72_read_back_partial rnd hr w f d hd o H
  have hR : ∀ i : Fin o.spaces.length, ∃ r ∈ d.rooms, SameRoom h i r := fun i =>
    have hi : i.1 < d.rooms.length := hls ▸ i.2
    ⟨d.rooms[i.1], List.getElem_mem hi, hroom i _ (List.getElem?_eq_getElem hi)⟩
  have hB : ∀ j : Fin o.boundaries.length, ∃ b ∈ d.boundaries, SamePart h j b := fun j =>
    have hj : j.1 < d.boundaries.length := hlb ▸ j.2
    ⟨d.boundaries[j.1], List.getElem_mem hj, hpart j _ (List.getElem?_eq_getElem hj)⟩
  have hU : ∀ b ∈ d.boundaries, GivenByU b := fun b hb => Or.inr (hpl.parts b hb).1
  refine ⟨h, e, ⟨?_, ?_, ?_, ?_⟩, ?_, ?_, ?_, ?_, ?_⟩
  · intro j k
    obtain ⟨b, hb, hs⟩ := hB j
    obtain ⟨u, -, -, -, -, z⟩ := hs.steady (hU b hb)
    exact z k
  · intro j k
    obtain ⟨b, hb, hs⟩ := hB j
    obtain ⟨u, -, -, -, z, -⟩ := hs.steady (hU b hb)
    exact z k
  · intro j
    obtain ⟨b, hb, hs⟩ := hB j
    obtain ⟨u, -, z, -⟩ := hs.steady (hU b hb)
    exact z
  · intro j
    obtain ⟨b, hb, hs⟩ := hB j
    obtain ⟨c, hc, k1, k2, -⟩ := hs.outdoor (by rw [(hpl.parts b hb).1]; decide)
    rw [(hpl.parts b hb).2.2] at hc
    cases hc
    rw [k1, k2 rfl]
    norm_num
  · intro j
    obtain ⟨b, hb, hs⟩ := hB j
    refine Bool.eq_false_iff.2 fun hc => ?_
    have := hs.ground.1 hc
    rw [(hpl.parts b hb).1] at this
    exact absurd this (by decide)
  · intro i l
    obtain ⟨r, hm, hs⟩ := hR i
    rw [hs.inflow l, hpl.air r hm]
    simp [flowFrom]
  · intro i
    obtain ⟨r, hm, hs⟩ := hR i
    refine ⟨Bool.eq_false_iff.2 fun hc => ?_, hs.cooling.1⟩
    have := hs.heating.1.1 hc
    rw [hpl.heating r hm] at this
    exact absurd this (by decide)
  · intro solve hsol
    exact C75_wellformed rnd hr w f d hd 900 hp o H h e (fun j b hb hn => (hn (hU b (List.mem_of_getElem? hb))).elim) solve hsol
  · intro temp hum t
    obtain ⟨-, -, -, bss, hbss, hq, hth, -⟩ := C74_records rnd w f d o H temp hum t
    have hlen := mapM_length hbss
    constructor
    · intro i
      rw [hq i]
      refine List.sum_eq_zero fun y hy => ?_
      obtain ⟨x, hx, rfl⟩ := List.mem_map.1 hy
      obtain ⟨n, hn, rfl⟩ := List.mem_iff_getElem.1 (List.mem_filter.1 hx).1
      have hb := mapM_getElem hbss (i := n) (hlen ▸ hn)
      obtain ⟨z1, z2⟩ := C47_no_gain hb (Or.inl (by rw [(hpl.parts _ (List.getElem_mem _)).1]; decide))
      unfold at'
      cases hz : bss[n].qTrsSol[t.1]? with
      | none => rfl
      | some y => exact z2 y (List.mem_of_getElem? hz)
    · intro j
      have hj : j.1 < bss.length := by rw [hlen, ← hlb]; exact j.2
      rw [hth j _ (List.getElem?_eq_getElem hj)]
      have hb := mapM_getElem hbss (i := j.1) (hlen ▸ hj)
      have hm := hpl.parts _ (List.getElem_mem (l := d.boundaries) (n := j.1) (hlen ▸ hj))
      rw [plain_part hb hm.1 hm.2.1]
      unfold at' temperatureColumn
      rw [List.getElem?_map]

/-- **C120 violated.** In every complete and physically possible input for one room of plain outer parts out of the sun **without any heating equipment**:
if the first quarter of an hour asks for comfort, is not warmer than 15 degC and nothing warms the room, then the detailed table of every calculation
that completes shows the room in heating mode with a positive load of an air conditioner that does not exist. -/
theorem C120_violated (rnd : ℕ → ℝ → ℝ) (hr : IsRounding rnd) (solve : List ℝ → ℝ) (w : List Step) (hum : Fin 35040 → ℝ) (f : ScheduleFile)
    (hf : KnownDays f) (d : Input) (hd : CompleteInput d) (hp : PhysicalInput d 900) (hpl : PlainUnheated d) (hone : d.rooms.length = 1)
    (hsched : ∀ r ∈ d.rooms, ∃ t, HasRoom f r.name t ∧ AsksAtMidnight t) (hcold : temperatureColumn w 0 ≤ 15)
    (hsol : ∀ o h, makeHouse rnd w f d = .ok o → readHouse o = .ok h → SolvesRooms solve h.area h.room) (dMain dRunUp : ℤ)
    (ds : Digest) (tab : Table) (H : calculate rnd solve w hum f 4 dMain dRunUp 0 d = .ok (ds, tab)) :
    ModeCell tab (roomColumn 0 "ac_operate") 0 .heating ∧ ∃ x, 0 < x ∧ Cell tab (roomColumn 0 "l_s_c") 0 x := by
  unfold calculate calcFiles at H
  simp only [bind_ok_iff] at H
  obtain ⟨o, ho, h, hh, H⟩ := H
  obtain ⟨h', e, hst, hg, hv, hrad, hw, hrec⟩ := plain_house rnd hr w f d hd hp hpl o ho
  cases hh.symm.trans e
  obtain ⟨-, -, hrooms, -⟩ := C74_records rnd w f d o ho (temperatureColumn w) hum 0
  obtain ⟨-, -, hls, -⟩ := C72_read_back_partial rnd hr w f d hd o ho
  rw [hone] at hls
  have : Unique (Fin o.spaces.length) := by rw [hls]; infer_instance
  obtain ⟨r, H1, H2, H3, -⟩ := calcTables_run H
  obtain ⟨-, hpos, -⟩ := postLogging_ok_iff.1 H2
  have hday : ∀ i, ∃ c : Compiled, c.acDemand 0 = 1 ∧ c.nHum 0 = 0 ∧ c.qGen 0 = 0 ∧ 0 ≤ c.vLocal 0 ∧
      (readRecord (temperatureColumn w) hum o 0).nHum i = c.nHum 0 ∧ (readRecord (temperatureColumn w) hum o 0).qGen i = c.qGen 0 ∧
      (readRecord (temperatureColumn w) hum o 0).vLocal i = c.vLocal 0 ∧ (readRecord (temperatureColumn w) hum o 0).acDemand i = c.acDemand 0 := by
    intro i
    have hi : i.1 < d.rooms.length := by have := i.2; omega
    obtain ⟨c, hc, z1, z2, -, z4, z5⟩ := hrooms i _ (List.getElem?_eq_getElem hi)
    obtain ⟨t, ht, ha⟩ := hsched _ (List.getElem_mem hi)
    obtain ⟨y1, y2, y3⟩ := midnight hf ht ha _ _ hc
    exact ⟨c, y1, y2, y3, vLocal_nonneg hf ht ha.localVent _ _ hc 0, z1, z2, z4, z5⟩
  obtain ⟨hmode, hload⟩ := heated_first (k := 0) H1 (hw solve (hsol o h ho hh)) hst hg hv hrad rfl
    (fun i => by obtain ⟨c, y1, y2, y3, y4, z1, z2, z3, z4⟩ := hday i; rw [z4, y1])
    (fun i => by obtain ⟨c, y1, y2, y3, y4, z1, z2, z3, z4⟩ := hday i; rw [z2, y3])
    (fun i => by obtain ⟨c, y1, y2, y3, y4, z1, z2, z3, z4⟩ := hday i; rw [z1, y2])
    (hrec _ _ 0).1 (fun i => by obtain ⟨c, y1, y2, y3, y4, z1, z2, z3, z4⟩ := hday i; rw [z3]; exact y4)
    ⟨hcold, fun j => by rw [(hrec _ _ 0).2 j]; exact hcold⟩ ⟨0, hpos⟩ rfl
  rw [recordDetail_eq (nMain_le H1)] at H3
  cases H3
  have hi : 0 < o.spaces.length := by omega
  exact ⟨⟨_, mem_room ⟨0, hi⟩ .acOperate, by simp [hpos, hmode]⟩,
    _, hload ⟨0, hi⟩, cell_log hpos (mem_room ⟨0, hi⟩ .lSC) rfl⟩

/-! ## A house that meets the hypotheses -/

/-- Example file: comfort is asked for in the first quarter of an hour of every day; all other lists are zero. -/
noncomputable def exAsk : ScheduleFile where
  calendar := exSchedule.calendar
  daily := fun _ _ _ kind => some fun q => if kind = "is_temp_limit_set" ∧ q = 0 then 1 else 0

/-- The lists of this file. -/
noncomputable def exAskTables : RoomTables where
  appliances := fun _ _ _ => 0
  cookingHeat := fun _ _ _ => 0
  cookingVapour := fun _ _ _ => 0
  lighting := fun _ _ _ => 0
  people := fun _ _ _ => 0
  localVent := fun _ _ _ => 0
  demand := fun _ _ q => if q = 0 then 1 else 0

theorem exAsk_room (room : String) : HasRoom exAsk room exAskTables := by
  constructor <;> intro k h1 h4 day hd <;> simp [exAsk, exAskTables]

theorem exAsk_midnight : AsksAtMidnight exAskTables := by
  constructor <;> intros <;> simp [exAskTables]

theorem exInput_plain : PlainUnheated (exInput false exUnit) where
  heating := by intro r hr; simp only [exInput, List.mem_cons, List.not_mem_nil, or_false] at hr; subst hr; rfl
  air := by intro r hr; simp only [exInput, List.mem_cons, List.not_mem_nil, or_false] at hr; subst hr; rfl
  parts := by
    intro b hb
    simp only [exInput, List.mem_cons, List.not_mem_nil, or_false] at hb
    rcases hb with rfl | rfl <;> exact ⟨rfl, rfl, rfl⟩

/-- The schedules of this file at all times. -/
theorem exAsk_values (A a : ℝ) {room : String} {c : Compiled} (H : compiled exAsk (residents A) room a = .ok c) (n : Fin 35040) :
    c.nHum n = 0 ∧ c.qGen n = 0 ∧ c.vLocal n = 0 ∧ (n.1 < 96 → n.1 ≠ 0 → c.acDemand n = 0) := by
  obtain ⟨-, h1, h4, -⟩ := C42_residents A A
  obtain ⟨k, k1, k3, l, u⟩ : ∃ k : ℕ, 1 ≤ k ∧ k ≤ 3 ∧ (k : ℝ) ≤ residents A ∧ residents A ≤ k + 1 := by
    rcases le_total (residents A) 2 with h | h
    · exact ⟨1, by omega, by omega, by exact_mod_cast h1, by push_cast; linarith⟩
    rcases le_total (residents A) 3 with h' | h'
    · exact ⟨2, by omega, by omega, by exact_mod_cast h, by push_cast; linarith⟩
    · exact ⟨3, by omega, by omega, by exact_mod_cast h', by push_cast; linarith⟩
  obtain ⟨c', hc', hh⟩ := C71_compiled_partial exAsk exSchedule_days room _ (exAsk_room room) _ k k1 k3 l u a
  cases H.symm.trans hc'
  obtain ⟨d, q, rfl⟩ := quarter_surj n
  obtain ⟨g1, g2, g3, g4, -⟩ := hh d q
  rw [g1, g2, g3, g4]
  refine ⟨by simp [between, exAskTables], by simp [between, exAskTables], by simp [between, exAskTables], fun h0 h1 => ?_⟩
  have : q ≠ 0 := by
    rintro rfl
    simp only [quarter] at h0 h1
    have : (0 : Fin 96).1 = 0 := rfl
    omega
  simp [between, exAskTables, this]

/-- The hypotheses of `C120_violated` are met: the example room has no heating equipment, and with any weather between -100 and 15 degC the calculation of
one day completes. It reports a heating load. -/
theorem C120_violated_example (rnd : ℕ → ℝ → ℝ) (hr : IsRounding rnd) (w : List Step) (hw : ∀ s ∈ w, -100 ≤ s.thetaO ∧ s.thetaO ≤ 15)
    (hum : Fin 35040 → ℝ) : ∃ solve ds tab, calculate rnd solve w hum exAsk 4 1 0 0 (exInput false exUnit) = .ok (ds, tab) ∧
      (exInput false exUnit).rooms.map (fun r => r.heating.kind) = ["not_installed"] ∧
      ∃ x, 0 < x ∧ Cell tab (roomColumn 0 "l_s_c") 0 x := by
  have htc : ∀ t, -100 ≤ temperatureColumn w t ∧ temperatureColumn w t ≤ 15 := by
    intro t
    unfold temperatureColumn
    cases hz : w[t.1]? with
    | none => norm_num
    | some s => exact hw s (List.mem_of_getElem? hz)
  obtain ⟨solve, hsolve⟩ := exists_solver
  obtain ⟨o, ho⟩ := exInput_accepted_any rnd w exSchedule_days (f := exAsk) (exAsk_room _) false exUnit exUnit_known
  have hd := exInput_complete false
  have hp := exInput_physical false
  obtain ⟨h, e, hst, hg, hv, hrad, hwf, hrec⟩ := plain_house rnd hr w exAsk _ hd hp exInput_plain o ho
  obtain ⟨h', e', hls, hlb, hroom, hpart, -, -, -, hshare⟩ := C72_read_back_partial rnd hr w _ _ hd o ho
  cases e.symm.trans e'
  have hpos : ∀ j, 0 < h.area j := by
    intro j
    have hj : j.1 < (exInput false exUnit).boundaries.length := hlb ▸ j.2
    rw [(hpart j _ (List.getElem?_eq_getElem hj)).area]
    exact hd.area _ (List.getElem_mem hj)
  have hsol : SolvesRooms solve h.area h.room := solvesRooms_of hsolve h.room hpos
  have hW := hwf solve hsol
  have hU : ∀ b ∈ (exInput false exUnit).boundaries, GivenByU b := fun b hb => Or.inr (exInput_plain.parts b hb).1
  obtain ⟨h', e', hrun⟩ := C76_chain_completes_partial rnd hr w exAsk exSchedule_days _ hd hp
    (fun r _ => ⟨_, exAsk_room _, exAsk_midnight.localVent⟩)
    (fun r hr => by rw [exInput_plain.heating r hr]; decide) o ho (fun h _ j b hb hn => (hn (hU b (List.mem_of_getElem? hb))).elim)
  cases e.symm.trans e'
  obtain ⟨r, H⟩ := hrun (temperatureColumn w) hum solve hsol 1 0 0 (by norm_num) (by norm_num) (by norm_num) (by norm_num) (by norm_num)
  change coreCalc h (getHr solve h.area h.room) (readRecord (temperatureColumn w) hum o) 4 1 0 0 = .ok r at H
  have hls1 : o.spaces.length = 1 := hls
  have : Unique (Fin o.spaces.length) := by rw [hls1]; infer_instance
  have hcap : ∀ i, 0 ≤ h.capH i ∧ 0 ≤ h.capC i := fun i => ⟨hW.capH_nonneg i, hW.capC_nonneg i⟩
  have hday : ∀ t i, ∃ c : Compiled, (t = 0 → c.acDemand t = 1) ∧ (c.nHum t = 0 ∧ c.qGen t = 0 ∧ c.vLocal t = 0 ∧
      (t.1 < 96 → t.1 ≠ 0 → c.acDemand t = 0)) ∧
      (readRecord (temperatureColumn w) hum o t).nHum i = c.nHum t ∧ (readRecord (temperatureColumn w) hum o t).qGen i = c.qGen t ∧
      (readRecord (temperatureColumn w) hum o t).vLocal i = c.vLocal t ∧ (readRecord (temperatureColumn w) hum o t).acDemand i = c.acDemand t := by
    intro t i
    obtain ⟨-, -, hrooms, -⟩ := C74_records rnd w exAsk _ o ho (temperatureColumn w) hum t
    have hi : i.1 < (exInput false exUnit).rooms.length := by have := i.2; omega
    obtain ⟨c, hc, z1, z2, -, z4, z5⟩ := hrooms i _ (List.getElem?_eq_getElem hi)
    refine ⟨c, ?_, exAsk_values _ _ hc t, z1, z2, z4, z5⟩
    rintro rfl
    exact (midnight (f := exAsk) exSchedule_days (exAsk_room _) exAsk_midnight _ _ hc).1
  have hfirst := heated_first (k := 0) H hW hst hg hv hrad rfl
    (fun i => by obtain ⟨c, y0, ⟨y1, y2, y3, y4⟩, z1, z2, z3, z4⟩ := hday 0 i; rw [z4, y0 rfl])
    (fun i => by obtain ⟨c, y0, ⟨y1, y2, y3, y4⟩, z1, z2, z3, z4⟩ := hday 0 i; rw [z2, y2])
    (fun i => by obtain ⟨c, y0, ⟨y1, y2, y3, y4⟩, z1, z2, z3, z4⟩ := hday 0 i; rw [z1, y1])
    (hrec _ _ 0).1 (fun i => by obtain ⟨c, y0, ⟨y1, y2, y3, y4⟩, z1, z2, z3, z4⟩ := hday 0 i; rw [z3, y3])
    ⟨(htc 0).2, fun j => by rw [(hrec _ _ 0).2 j]; exact (htc 0).2⟩
  have hnM : r.nMain = 96 := by
    obtain ⟨gs, c0, up, mn, T⟩ := coreCalc_ok H
    rw [T.nMain_eq]; norm_num
  have hrows : ∀ k : Fin r.nMain.toNat, ∀ i, 0 ≤ (r.log k).qHum i ∧ 0 ≤ (r.log k).lCs i ∧ 0 ≤ (r.log k).lRs i := by
    intro k i
    obtain ⟨k', c, t, e1, e2, Hp, Ht, el⟩ := logged_step H k
    have hlr : (r.log k).lRs i = 0 := by
      rw [el]
      exact no_radiant_load Hp Ht hcap hrad i
    have hq : (r.log k).qHum i = 0 := by
      rw [el]
      refine (C37_logged Hp Ht e2 i).2.trans ?_
      obtain ⟨c, y0, ⟨y1, y2, y3, y4⟩, z1, z2, z3, z4⟩ := hday k' i
      rw [z1, y1]
      simp
    rw [hlr, hq]
    refine ⟨le_rfl, ?_, le_rfl⟩
    by_cases h0 : (k : ℕ) = 0
    · exact ((hfirst k h0).2 i).le
    · obtain ⟨c, y0, ⟨y1, y2, y3, y4⟩, z1, z2, z3, z4⟩ := hday k' i
      obtain ⟨z1, -⟩ := C08_program hcap H k k' e1 i (by rw [z4, y4 (by omega) (by omega)])
      rw [z1]
  have habove : ∀ (k : Fin r.nMain.toNat) (i : Fin o.spaces.length), -100 ≤ (r.log k).thetaR i := by
    intro k i
    refine (C86_floor_partial (lo := -100) (by norm_num; exact hW) hst hg hv (fun i => ?_) (fun j => ?_) H (by norm_num) ?_ ?_ k).1 i
    · have hi : i.1 < (exInput false exUnit).rooms.length := by have := i.2; omega
      rw [(hroom i _ (List.getElem?_eq_getElem hi)).convective]
      norm_num
    · exact ((hshare (h.room j)).1 j rfl).2
    · intro k
      refine ⟨⟨(htc k).1, fun j => by rw [(hrec _ _ k).2 j]; exact (htc k).1⟩, fun i => ?_, fun i => ?_, fun i => ?_⟩
      all_goals obtain ⟨c, y0, ⟨y1, y2, y3, y4⟩, z1, z2, z3, z4⟩ := hday k i
      all_goals first | (rw [(hrec _ _ k).1 i]) | (rw [z2, y2]) | (rw [z3, y3])
    · rintro t ⟨c0, ts, hc0, hrun, hmem⟩ i
      obtain ⟨gs, c0', up, mn, T⟩ := coreCalc_ok H
      have e0 : c0' = c0 := Except.ok.inj (T.start.symm.trans hc0)
      subst e0
      have hall := T.runUp.append T.main
      have hts := hrun.unique hall
      have hup : up = [] := by
        have := T.runUp.length_eq
        rw [pyRange_length] at this
        exact List.length_eq_zero_iff.mp (by simpa using this)
      rw [hts, hup, List.nil_append] at hmem
      obtain ⟨q, hq, rfl⟩ := List.mem_iff_getElem.1 hmem
      have hq' : q < r.nMain.toNat := by rw [← T.mn_length]; exact hq
      have := hrows ⟨q, hq'⟩ i
      rw [T.logged ⟨q, hq'⟩ hq] at this
      exact this
  obtain ⟨ds, tab, Ht⟩ := (C79_returns rnd).2 ⟨by omega, by norm_num, by norm_num, r, H, fun k i => by have := habove k i; linarith⟩
  have Hc : calculate rnd solve w hum exAsk 4 1 0 0 (exInput false exUnit) = .ok (ds, tab) := by
    unfold calculate calcFiles
    simp only [bind_ok_iff]
    exact ⟨o, ho, h, e, Ht⟩
  refine ⟨solve, ds, tab, Hc, rfl, (C120_violated rnd hr solve w hum exAsk exSchedule_days _ hd hp exInput_plain rfl
    (fun r _ => ⟨_, exAsk_room _, exAsk_midnight⟩) (htc 0).2 (fun o' h' ho' hh' => ?_) 1 0 ds tab Hc).2⟩
  cases ho.symm.trans ho'
  cases e.symm.trans hh'
  exact hsol

end HLC.Init
