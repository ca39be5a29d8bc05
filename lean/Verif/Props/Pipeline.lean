import Verif.Spec.Pipeline
import Verif.Props.Reader
import Verif.Props.Schedule
import Verif.Props.ShapeFactor
import Verif.Props.Completes
import Verif.Props.Runs
import Verif.Props.Program
import Mathlib.Tactic.IntervalCases

/-!
# From the input file to the calculation: rejected houses, ground temperature, time series, well-formed houses (C72-C75)
-/

namespace HLC.Init
open HLC.Spec

/-! ## Inversion of the reader -/

theorem readHouse_inv {o : Output} {h : House (Fin o.spaces.length) (Fin o.boundaries.length)} (H : readHouse o = .ok h) :
    ∃ s p, (∀ i : Fin o.spaces.length, readSpace o.spaces.length o.spaces[i] = .ok (s i)) ∧
      (∀ j : Fin o.boundaries.length, readPart o.spaces.length o.boundaries.length o.boundaries[j] = .ok (p j)) ∧ h = houseOf o.building s p := by
  unfold readHouse at H
  simp only [bind_ok_iff] at H
  obtain ⟨s, hs, p, hp, ⟨⟩, -, e⟩ := H
  exact ⟨s, p, forFin_ok.1 hs, forFin_ok.1 hp, (Except.ok.inj e).symm⟩

theorem readPart_inv {n m : ℕ} {b : BoundaryJson} {p : PartIn n m} (H : readPart n m b = .ok p) :
    p.kEo = b.kOutside ∧ readLink m b.kInside = .ok p.kEi := by
  unfold readPart at H
  simp only [bind_ok_iff] at H
  obtain ⟨g, -, r, -, rf, -, x, -, a, -, y, -, k, hk, e⟩ := H
  cases e
  exact ⟨rfl, hk⟩

theorem makeHouse_inv {rnd : ℕ → ℝ → ℝ} {w : List Step} {f : ScheduleFile} {d : Input} {o : Output} (H : makeHouse rnd w f d = .ok o) :
    ∃ bss, d.boundaries.mapM (getBoundarySimple w) = .ok bss ∧ roomSolar bss d.rooms.length = .ok o.qTrsSol ∧
      (d.rooms.mapM fun r => compiled f (residents (d.rooms.map RoomDict.floorArea).sum) r.name r.floorArea) = .ok o.schedules ∧
      makeBuilding d.building = .ok o.building ∧ makeSpaces d.rooms = .ok o.spaces ∧
      makeBoundaries rnd d.rooms d.boundaries bss = .ok o.boundaries ∧ o.thetaOSol = bss.map Bs.thetaOSol := by
  unfold makeHouse at H
  simp only [bind_ok_iff] at H
  obtain ⟨bss, hb, q, hq, sch, hs, bd, hbd, ss, hss, bj, hbj, e⟩ := H
  cases e
  exact ⟨bss, hb, hq, hs, hbd, hss, hbj, rfl⟩

/-- **C72 (violation).** A house with a room without air conditioner (not cooled, or cooled by a radiant system) is accepted by the
initializer, but the calculation cannot read it. -/
theorem C72_violated (rnd : ℕ → ℝ → ℝ) (w : List Step) (f : ScheduleFile) (d : Input) (o : Output) (H : makeHouse rnd w f d = .ok o)
    (hr : ∃ r ∈ d.rooms, r.cooling.kind ≠ "convective") : ∃ e, readHouse o = .error e := by
  cases e : readHouse o with
  | error x => exact ⟨x, rfl⟩
  | ok h =>
    exfalso
    obtain ⟨bss, -, -, -, -, hss, -, -⟩ := makeHouse_inv H
    obtain ⟨s, p, hs, -, -⟩ := readHouse_inv e
    obtain ⟨hl, hg⟩ := makeSpaces_get hss
    obtain ⟨r, hm, hne⟩ := hr
    obtain ⟨i, hi, rfl⟩ := List.mem_iff_getElem.1 hm
    obtain ⟨he, ce, row, -, hce, -, hsp⟩ := hg i hi
    have h1 := hs ⟨i, hl.symm ▸ hi⟩
    have h2 := (Equip.read_radiative hce).2.2.2.2 hne
    rw [show o.spaces[(⟨i, hl.symm ▸ hi⟩ : Fin o.spaces.length)] = makeSpace d.rooms[i] he ce row from hsp] at h1
    unfold readSpace at h1
    simp only [bind_ok_iff] at h1
    obtain ⟨_, -, -, -, rac, h3, -⟩ := h1
    unfold readRac makeSpace at h3
    simp only [h2] at h3
    cases h3

/-! ## Ground -/

/-- **C73 (partial).** The file contains, for every part in contact with the ground, the annual mean of the outdoor temperature. -/
theorem C73_file_partial (rnd : ℕ → ℝ → ℝ) (w : List Step) (f : ScheduleFile) (d : Input) (o : Output) (H : makeHouse rnd w f d = .ok o) (j : ℕ)
    (b : BoundaryDict) (hj : d.boundaries[j]? = some b) (hb : b.boundaryType = "ground") :
    o.thetaOSol[j]? = some (List.replicate 35040 ((w.map Step.thetaO).sum / w.length)) := by
  obtain ⟨bss, hbs, -, -, -, -, hbj, hth⟩ := makeHouse_inv H
  have hlb := mapM_length hbs
  have hj' : j < d.boundaries.length := (List.getElem?_eq_some_iff.1 hj).1
  rw [List.getElem?_eq_getElem hj', Option.some.injEq] at hj
  have hget := mapM_getElem hbs hj'
  rw [hj] at hget
  rw [hth, List.getElem?_map, List.getElem?_eq_getElem (hlb.symm ▸ hj'), Option.map_some, Option.some.injEq]
  unfold getBoundarySimple at hget
  simp only [bind_ok_iff] at hget
  obtain ⟨_, -, _, -, _, -, _, -, _, -, _, -, _, -, _, -, oet, ho, ts, hts, _, -, _, -, e⟩ := hget
  have : oet = .ground := by
    simp [EqvTemp.create, hb] at ho
    exact ho.symm
  subst this
  have e' := congrArg Bs.thetaOSol (Except.ok.inj e)
  rw [← e']
  simp only [EqvTemp.series] at hts
  exact (Except.ok.inj hts).symm

/-- **C73 (violation).** Whatever the weather and the house, behind every part in contact with the ground the calculation puts 0 °C in every
step, although the ground run-up before it uses the annual mean of the outdoor temperature (`C25_ground_wall`) and the file contains that
mean (`C73_file_partial`). -/
theorem C73_violated (rnd : ℕ → ℝ → ℝ) (w : List Step) (f : ScheduleFile) (d : Input) (o : Output) (H : makeHouse rnd w f d = .ok o)
    (h : House (Fin o.spaces.length) (Fin o.boundaries.length)) (Hr : readHouse o = .ok h) (j : Fin o.boundaries.length) (b : BoundaryDict)
    (hj : d.boundaries[j.1]? = some b) (hb : b.boundaryType = "ground") {N : ℕ} (hR : Fin o.boundaries.length → ℝ) (dt : ℝ)
    (data : Fin N → Record (Fin o.spaces.length) (Fin o.boundaries.length)) (ss : PreCalc (Fin o.spaces.length) (Fin o.boundaries.length) N) (n : ℤ)
    (c : Cond (Fin o.spaces.length) (Fin o.boundaries.length)) (t : TickVars (Fin o.spaces.length) (Fin o.boundaries.length))
    (Hp : makePreCalc h hR dt data = .ok ss) (Ht : runTick n dt ss c = .ok t) : t.thetaRear j = 0 := by
  obtain ⟨bss, hbs, -, -, -, -, hbj, -⟩ := makeHouse_inv H
  obtain ⟨s, p, -, hp, rfl⟩ := readHouse_inv Hr
  obtain ⟨hlb, hlj, hpart⟩ := makeBoundaries_get hbs hbj
  have hj' : j.1 < d.boundaries.length := hlj ▸ j.2
  rw [List.getElem?_eq_getElem hj', Option.some.injEq] at hj
  have hget := mapM_getElem hbs hj'
  rw [hj] at hget
  obtain ⟨-, -, -, -, -, -, e7, e8, -⟩ := getBoundarySimple_eq hget
  have ht : (bss[j.1]'(hlb.symm ▸ hj')).bType = .ground := by
    rw [hb] at e7; exact (Except.ok.inj e7).symm
  have hz : (bss[j.1]'(hlb.symm ▸ hj')).hTd = 0 := by
    unfold readHtd at e8
    rw [if_neg (by rw [hb]; decide)] at e8
    exact (Except.ok.inj e8).symm
  obtain ⟨spec, -, hs⟩ := hpart j.1 hj'
  obtain ⟨k1, k2⟩ := readPart_inv (hp j)
  rw [show o.boundaries[j] = boundaryJson rnd d.rooms bss (bss[j.1]'(hlb.symm ▸ hj')) spec from hs] at k1 k2
  have hk1 : (p j).kEo = 0 := k1.trans hz
  have hk2 : (p j).kEi = none := by
    have e : (boundaryJson rnd d.rooms bss (bss[j.1]'(hlb.symm ▸ hj')) spec).kInside = none := by
      simp [boundaryJson, kInside, ht, BType.isExternal]
    rw [e] at k2
    exact (Except.ok.inj k2).symm
  obtain ⟨ivs, k', -, -, hk', -⟩ := step_eqs Hp Ht
  rw [C24_rear_temperature Hp Ht hk' j]
  simp only [rearTemp, houseOf, hk1, hk2, zero_mul, add_zero]

/-! ## Time series -/

theorem foldl_zipWith (ls : List (List ℝ)) (l : List ℝ) (h : ∀ m ∈ ls, m.length = l.length) :
    (ls.foldl (List.zipWith (· + ·)) l).length = l.length ∧
    ∀ t, at' (ls.foldl (List.zipWith (· + ·)) l) t = at' l t + (ls.map fun m => at' m t).sum := by
  induction ls generalizing l with
  | nil => exact ⟨rfl, fun t => by simp⟩
  | cons m ls ih =>
    rw [List.forall_mem_cons] at h
    have hz : (List.zipWith (· + ·) l m).length = l.length := by rw [List.length_zipWith, h.1, min_self]
    obtain ⟨i1, i2⟩ := ih (List.zipWith (· + ·) l m) (fun x hx => (h.2 x hx).trans hz.symm)
    refine ⟨i1.trans hz, fun t => ?_⟩
    rw [List.foldl_cons, i2, List.map_cons, List.sum_cons, ← add_assoc]
    congr 1
    unfold at'
    rw [List.getElem?_zipWith]
    by_cases c : t < l.length
    · rw [List.getElem?_eq_getElem c, List.getElem?_eq_getElem (by rw [h.1]; exact c)]
      rfl
    · rw [List.getElem?_eq_none (by omega), List.getElem?_eq_none (by rw [h.1]; omega)]
      simp

/-- **C74.** In every house the initializer accepts, the record read for quarter hour `t` contains for every room the schedules compiled for that room and
the sum of the solar gains of the windows of that room, for every part the outdoor temperature of that part, and for the whole house the outdoor air of
that quarter hour. The gains of all rooms together are the gains of all windows. -/
theorem C74_records (rnd : ℕ → ℝ → ℝ) (w : List Step) (f : ScheduleFile) (d : Input) (o : Output) (H : makeHouse rnd w f d = .ok o)
    (temp hum : Fin 35040 → ℝ) (t : Fin 35040) :
    (readRecord temp hum o t).thetaO = temp t ∧ (readRecord temp hum o t).xO = hum t ∧
    (∀ i r, d.rooms[i.1]? = some r → ∃ c, compiled f (residents (d.rooms.map RoomDict.floorArea).sum) r.name r.floorArea = .ok c ∧
      (readRecord temp hum o t).nHum i = c.nHum t ∧ (readRecord temp hum o t).qGen i = c.qGen t ∧ (readRecord temp hum o t).xGen i = c.xGen t ∧
      (readRecord temp hum o t).vLocal i = c.vLocal t ∧ (readRecord temp hum o t).acDemand i = c.acDemand t) ∧
    ∃ bss, d.boundaries.mapM (getBoundarySimple w) = .ok bss ∧
      (∀ i, (readRecord temp hum o t).qTrsSol i = ((bss.filter fun b => b.room = (i.1 : ℤ)).map fun b => at' b.qTrsSol t.1).sum) ∧
      (∀ j b, bss[j.1]? = some b → (readRecord temp hum o t).thetaOSol j = at' b.thetaOSol t.1) ∧
      ((∀ b ∈ d.boundaries, 0 ≤ b.connectedRoom ∧ b.connectedRoom < d.rooms.length) →
        ∑ i, (readRecord temp hum o t).qTrsSol i = (bss.map fun b => at' b.qTrsSol t.1).sum) := by
  obtain ⟨bss, hbs, hq, hsch, -, hss, hbj, hth⟩ := makeHouse_inv H
  obtain ⟨hl, -⟩ := makeSpaces_get hss
  have hroom : ∀ i : Fin o.spaces.length, (readRecord temp hum o t).qTrsSol i = ((bss.filter fun b => b.room = (i.1 : ℤ)).map fun b => at' b.qTrsSol t.1).sum := by
    intro i
    have hi : i.1 < d.rooms.length := hl ▸ i.2
    unfold roomSolar at hq
    have hlq := mapM_length hq
    rw [List.length_range] at hlq
    have h1 := mapM_getElem hq (i := i.1) (by rw [List.length_range]; exact hi)
    rw [List.getElem_range] at h1
    simp only [readRecord]
    rw [List.getElem?_eq_getElem (by rw [hlq]; exact hi)]
    generalize o.qTrsSol[i.1] = L at h1
    show at' L t.1 = _
    generalize bss.filter (fun b => decide (b.room = (i.1 : ℤ))) = F at h1 ⊢
    cases F with
    | nil => cases h1
    | cons b bs =>
      simp only [List.map_cons, sumSeries] at h1
      split at h1
      · rename_i hlen
        cases h1
        rw [(foldl_zipWith _ _ hlen).2 t.1, List.map_cons, List.sum_cons, List.map_map]
        rfl
      · cases h1
  refine ⟨rfl, rfl, fun i r hr => ?_, bss, hbs, hroom, fun j b hb => ?_, fun hrange => ?_⟩
  · have hi : i.1 < d.rooms.length := hl ▸ i.2
    rw [List.getElem?_eq_getElem hi, Option.some.injEq] at hr
    subst hr
    have h1 := mapM_getElem hsch hi
    have hls := mapM_length hsch
    refine ⟨_, h1, ?_, ?_, ?_, ?_, ?_⟩ <;>
    · simp only [readRecord]
      rw [List.getElem?_eq_getElem (by rw [hls]; exact hi)]
      rfl
  · simp only [readRecord, hth, List.getElem?_map, hb]
    rfl
  · simp only [hroom]
    have hb : ∀ b ∈ bss, 0 ≤ b.room ∧ b.room < (o.spaces.length : ℤ) := by
      intro b hb
      obtain ⟨j, hj, rfl⟩ := List.mem_iff_getElem.1 hb
      have hlb := mapM_length hbs
      rw [(getBoundarySimple_eq (mapM_getElem hbs (i := j) (hlb ▸ hj))).2.1, hl]
      exact hrange _ (List.getElem_mem _)
    clear hroom hbj hth hq hbs
    induction bss with
    | nil => simp
    | cons b bss ih =>
      rw [List.forall_mem_cons] at hb
      rw [List.map_cons, List.sum_cons, ← ih hb.2]
      have : ∀ i : Fin o.spaces.length, (((b :: bss).filter fun b => decide (b.room = (i.1 : ℤ))).map fun b => at' b.qTrsSol t.1).sum
          = (if i = ⟨b.room.toNat, by omega⟩ then at' b.qTrsSol t.1 else 0)
            + ((bss.filter fun b => decide (b.room = (i.1 : ℤ))).map fun b => at' b.qTrsSol t.1).sum := by
        intro i
        rw [List.filter_cons]
        by_cases c : b.room = (i.1 : ℤ)
        · rw [if_pos (by simpa using c), if_pos (by rw [Fin.ext_iff]; simp only; omega), List.map_cons, List.sum_cons]
        · rw [if_neg (by simpa using c), if_neg (by rw [Fin.ext_iff]; simp only; omega), zero_add]
      simp only [this, Finset.sum_add_distrib, Finset.sum_ite_eq', Finset.mem_univ, if_true]

/-! ## Well-formed houses -/

theorem flow_nonneg {vs : List NextVent} (h : ∀ v ∈ vs, 0 ≤ v.volume) (k : ℕ) : 0 ≤ flowFrom vs k :=
  List.sum_nonneg fun x hx => by
    obtain ⟨v, hv, rfl⟩ := List.mem_map.1 hx
    exact h v (List.mem_filter.1 hv).1

theorem flow_sum {n : ℕ} {vs : List NextVent} (h : ∀ v ∈ vs, 0 ≤ v.upstream ∧ v.upstream < n) :
    ∑ k : Fin n, flowFrom vs k.1 = (vs.map NextVent.volume).sum := by
  induction vs with
  | nil => simp [flowFrom]
  | cons v vs ih =>
    rw [List.forall_mem_cons] at h
    rw [List.map_cons, List.sum_cons, ← ih h.2]
    have : ∀ k : Fin n, flowFrom (v :: vs) k.1 = (if k = ⟨v.upstream.toNat, by omega⟩ then v.volume else 0) + flowFrom vs k.1 := by
      intro k
      unfold flowFrom
      rw [List.filter_cons]
      by_cases c : v.upstream = (k.1 : ℤ)
      · rw [if_pos (by simpa using c), if_pos (by rw [Fin.ext_iff]; simp only; omega), List.map_cons, List.sum_cons]
      · rw [if_neg (by simpa using c), if_neg (by rw [Fin.ext_iff]; simp only; omega), zero_add]
    simp only [this, Finset.sum_add_distrib, Finset.sum_ite_eq', Finset.mem_univ, if_true]

/-- **C75.** Every complete and physically possible input that the initializer accepts gives the calculation a physically well-formed house, with the
radiative coefficients it computes itself. For layered parts this needs first terms of the response factors in their physical range; parts given by their
U value always satisfy this. -/
theorem C75_wellformed (rnd : ℕ → ℝ → ℝ) (hr : IsRounding rnd) (w : List Step) (f : ScheduleFile) (d : Input) (hd : CompleteInput d) (dt : ℝ)
    (hp : PhysicalInput d dt) (o : Output) (H : makeHouse rnd w f d = .ok o)
    (h : House (Fin o.spaces.length) (Fin o.boundaries.length)) (Hr : readHouse o = .ok h)
    (hphi : ∀ j b, d.boundaries[j.1]? = some b → ¬ GivenByU b → 0 ≤ h.phiA0 j ∧ 0 ≤ h.phiT0 j ∧ h.phiT0 j ≤ 1)
    (solve : List ℝ → ℝ) (hsolve : SolvesRooms solve h.area h.room) : WellFormed h (getHr solve h.area h.room) dt := by
  obtain ⟨h', e, hls, hlb, hroom, hpart, b1, b2, b3, hshare⟩ := C72_read_back_partial rnd hr w f d hd o H
  cases Hr.symm.trans e
  have hR : ∀ i : Fin o.spaces.length, ∃ r ∈ d.rooms, SameRoom h i r := fun i =>
    have hi : i.1 < d.rooms.length := hls ▸ i.2
    ⟨d.rooms[i.1], List.getElem_mem hi, hroom i _ (List.getElem?_eq_getElem hi)⟩
  have hB : ∀ j : Fin o.boundaries.length, ∃ b ∈ d.boundaries, d.boundaries[j.1]? = some b ∧ SamePart h j b := fun j =>
    have hj : j.1 < d.boundaries.length := hlb ▸ j.2
    ⟨d.boundaries[j.1], List.getElem_mem hj, List.getElem?_eq_getElem hj, hpart j _ (List.getElem?_eq_getElem hj)⟩
  choose r hr' hsame using hR
  choose b hb' hbget hsameB using hB
  have harea : ∀ j, 0 < h.area j := fun j => by rw [(hsameB j).area]; exact hd.area _ (hb' j)
  have hvol : ∀ i, 0 < (r i).volume := fun i => hp.volume _ (hr' i)
  have hphi' : ∀ j, 0 ≤ h.phiA0 j ∧ 0 ≤ h.phiT0 j ∧ h.phiT0 j ≤ 1 := by
    intro j
    by_cases c : GivenByU (b j)
    · obtain ⟨u, hu, e1, e2, -, -⟩ := (hsameB j).steady c
      obtain ⟨u0, u1⟩ := hd.uValue _ (hb' j) u hu
      rw [e1, e2]
      refine ⟨?_, by norm_num⟩
      rw [sub_nonneg, le_div_iff₀ u0]
      linarith
    · exact hphi j _ (hbget j) c
  have hbuild : (h.story = 1 ∨ h.story = 2) ∧ (h.pressure = "balanced" ∨ h.pressure = "positive" ∨ h.pressure = "negative") := by
    obtain ⟨-, -, -, -, hbd, -, -, -⟩ := makeHouse_inv H
    unfold makeBuilding at hbd
    split_ifs at hbd with h1 h2
    rw [b1, b3]
    refine ⟨h1, ?_⟩
    rcases h2 with h | h | h <;> simp [h]
  have hcool : ∀ i, ∃ s, (r i).cooling.convective = some s := by
    intro i
    rcases hd.rooms.cooling _ (hr' i) with h | ⟨-, h⟩ | ⟨h, -⟩
    · rw [hd.cooling _ (hr' i)] at h; exact absurd h (by decide)
    · exact Option.isSome_iff_exists.1 h
    · rw [hd.cooling _ (hr' i)] at h; exact absurd h (by decide)
  refine
    { dt_pos := hp.dt_pos
      vRoom_pos := fun i => by rw [(hsame i).volume]; exact hvol i
      cSh_nonneg := fun i => by rw [(hsame i).furnitureHeat.1]; have := hvol i; positivity
      gSh_nonneg := fun i => by rw [(hsame i).furnitureHeat.2]; have := hvol i; positivity
      cLh_nonneg := fun i => by rw [(hsame i).furnitureMoisture.1]; have := hvol i; positivity
      gLh_nonneg := fun i => by rw [(hsame i).furnitureMoisture.2]; have := hvol i; positivity
      frtSh_pos := fun i => by rw [(hsame i).furnitureHeat.1, (hsame i).furnitureHeat.2]; have := hvol i; positivity
      frtLh_pos := fun i => by rw [(hsame i).furnitureMoisture.1, (hsame i).furnitureMoisture.2]; have := hvol i; positivity
      area_pos := harea
      hC_pos := fun j => by rw [(hsameB j).coefficient]; exact hp.hC _ (hb' j)
      hR_pos := fun j => by
        obtain ⟨p0, p1, -⟩ := C33_coefficients solve h.area h.room harea hsolve j
        linarith
      phiA0_nonneg := fun j => (hphi' j).1
      phiT0_mem := fun j => (hphi' j).2
      kEi_mem := ?_
      fMrtHum_nonneg := fun j => ((hshare (h.room j)).1 j rfl).1.le
      fMrtHum_sum := fun i => (hshare i).2.1.le
      vInt_nonneg := fun i l => by
        rw [(hsame i).inflow]
        exact div_nonneg (flow_nonneg (hp.route _ (hr' i)) _) (by norm_num)
      vInt_lt := fun i => by
        have e : ∑ l, h.vInt i l = ((r i).nextVent.map NextVent.volume).sum / 3600 := by
          rw [← flow_sum (n := o.spaces.length) (vs := (r i).nextVent) (fun v hv => by rw [hls]; exact hd.rooms.upstream _ (hr' i) v hv), Finset.sum_div]
          exact Finset.sum_congr rfl fun l _ => (hsame i).inflow l
        rw [e, (hsame i).volume]
        exact hp.inflow _ (hr' i)
      vVentEx_nonneg := fun i => by
        rw [(hsame i).ventilation]; exact div_nonneg (hp.vent _ (hr' i)) (by norm_num)
      vNtrl_nonneg := fun i => by
        rw [(hsame i).natural]; exact div_nonneg (mul_nonneg (hvol i).le (hp.natural _ (hr' i))) (by norm_num)
      capH_nonneg := fun i => ?_
      capC_nonneg := fun i => ?_
      story_mem := hbuild.1
      pressure_mem := hbuild.2
      rac_q := fun i => by
        obtain ⟨s, hs⟩ := hcool i
        rw [(hsame i).cooling.2 s hs]; exact (hp.cooling _ (hr' i) s hs).1
      rac_v := fun i => by
        obtain ⟨s, hs⟩ := hcool i
        rw [(hsame i).cooling.2 s hs]; exact (hp.cooling _ (hr' i) s hs).2.1
      rac_fan := fun i => by
        obtain ⟨s, hs⟩ := hcool i
        rw [(hsame i).cooling.2 s hs]; exact (hp.cooling _ (hr' i) s hs).2.2 }
  · -- rear sides
    intro j m c hk
    by_cases hx : isExternal (b j).boundaryType = true
    · obtain ⟨c0, hc0, -, k1, k2⟩ := (hsameB j).outdoor hx
      rcases (hd.tempDif _ (hb' j) c0 hc0).2.lt_or_eq with hlt | heq
      · obtain ⟨w', e, w0, w1, -⟩ := k2 hlt
        rw [e] at hk
        cases hk
        exact ⟨w0, w1⟩
      · rw [k1 heq] at hk; cases hk
    · by_cases hi : (b j).boundaryType = "internal"
      · obtain ⟨r0, -, -, k, -, e⟩ := (hsameB j).internal hi
        rw [e] at hk
        cases hk
        norm_num
      · -- ground
        obtain ⟨s, p, -, hp', rfl⟩ := readHouse_inv Hr
        obtain ⟨bss, hbs, -, -, -, -, hbj, -⟩ := makeHouse_inv H
        obtain ⟨hlb', hlj, hpt⟩ := makeBoundaries_get hbs hbj
        have hj' : j.1 < d.boundaries.length := hlj ▸ j.2
        obtain ⟨spec, -, hs⟩ := hpt j.1 hj'
        obtain ⟨-, k2⟩ := readPart_inv (hp' j)
        rw [show o.boundaries[j] = boundaryJson rnd d.rooms bss (bss[j.1]'(hlb'.symm ▸ hj')) spec from hs] at k2
        have hget := mapM_getElem hbs hj'
        have hbj' := hbget j
        rw [List.getElem?_eq_getElem hj', Option.some.injEq] at hbj'
        rw [hbj'] at hget
        obtain ⟨-, -, -, -, -, -, e7, -, -⟩ := getBoundarySimple_eq hget
        have hv := BType.ofString_value e7
        have ht : (bss[j.1]'(hlb'.symm ▸ hj')).bType = .ground := by
          generalize (bss[j.1]'(hlb'.symm ▸ hj')).bType = T at hv
          cases T with
          | ground => rfl
          | internal => exact absurd hv hi
          | generalPart => rw [hv] at hx; exact absurd rfl hx
          | transparentPart => rw [hv] at hx; exact absurd rfl hx
          | opaquePart => rw [hv] at hx; exact absurd rfl hx
        have e0 : (boundaryJson rnd d.rooms bss (bss[j.1]'(hlb'.symm ▸ hj')) spec).kInside = none := by
          simp [boundaryJson, kInside, ht, BType.isExternal]
        rw [e0] at k2
        have : (p j).kEi = none := (Except.ok.inj k2).symm
        rw [show (houseOf o.building s p).kEi j = (p j).kEi from rfl, this] at hk
        cases hk
  · by_cases c : (r i).heating.kind = "radiative"
    · rcases hd.rooms.heating _ (hr' i) with h1 | ⟨h1, -⟩ | ⟨-, h1⟩
      · rw [c] at h1; exact absurd h1 (by decide)
      · rw [c] at h1; exact absurd h1 (by decide)
      · obtain ⟨s, hs⟩ := Option.isSome_iff_exists.1 h1
        rw [(hsame i).heating.2.2 c s hs]
        exact hp.radiant _ (hr' i) s hs
    · rw [(hsame i).heating.2.1 c]
  · obtain ⟨s, p, -, -, rfl⟩ := readHouse_inv Hr
    exact le_refl (0 : ℝ)

/-! ## The whole chain -/

theorem vLocal_nonneg {f : ScheduleFile} (hc : KnownDays f) {room : String} {t : RoomTables} (ht : HasRoom f room t)
    (hv : ∀ k day q, 0 ≤ t.localVent k day q) (A a : ℝ) {c : Compiled} (H : compiled f (residents A) room a = .ok c) (n : Fin 35040) : 0 ≤ c.vLocal n := by
  obtain ⟨-, h1, h4, -⟩ := C42_residents A A
  obtain ⟨k, k1, k3, l, u⟩ : ∃ k : ℕ, 1 ≤ k ∧ k ≤ 3 ∧ (k : ℝ) ≤ residents A ∧ residents A ≤ k + 1 := by
    rcases le_total (residents A) 2 with h | h
    · exact ⟨1, by omega, by omega, by exact_mod_cast h1, by push_cast; linarith⟩
    rcases le_total (residents A) 3 with h' | h'
    · exact ⟨2, by omega, by omega, by exact_mod_cast h, by push_cast; linarith⟩
    · exact ⟨3, by omega, by omega, by exact_mod_cast h', by push_cast; linarith⟩
  obtain ⟨c', hc', hh⟩ := C71_compiled_partial f hc room t ht _ k k1 k3 l u a
  cases H.symm.trans hc'
  obtain ⟨d, q, rfl⟩ := quarter_surj n
  rw [(hh d q).2.2.1]
  apply div_nonneg _ (by norm_num)
  have e : between t.localVent k (residents A) (f.calendar d) q
      = (1 - (residents A - k)) * t.localVent k (f.calendar d) q + (residents A - k) * t.localVent (k + 1) (f.calendar d) q := by
    unfold between; ring
  rw [e]
  exact add_nonneg (mul_nonneg (by linarith) (hv _ _ _)) (mul_nonneg (by linarith) (hv _ _ _))

/-- **C76 (partial: no radiant heating).** For every complete and physically possible input that the initializer accepts, every weather and every schedule
with the rooms of the house, the calculation from the files the initializer writes runs to its end. -/
theorem C76_chain_completes_partial (rnd : ℕ → ℝ → ℝ) (hr : IsRounding rnd) (w : List Step) (f : ScheduleFile) (hf : KnownDays f) (d : Input)
    (hd : CompleteInput d) (hp : PhysicalInput d 900)
    (hsched : ∀ r ∈ d.rooms, ∃ t, HasRoom f r.name t ∧ ∀ k day q, 0 ≤ t.localVent k day q)
    (hheat : ∀ r ∈ d.rooms, r.heating.kind ≠ "radiative") (o : Output) (H : makeHouse rnd w f d = .ok o)
    (hphi : ∀ h, readHouse o = .ok h → ∀ j b, d.boundaries[j.1]? = some b → ¬ GivenByU b → 0 ≤ h.phiA0 j ∧ 0 ≤ h.phiT0 j ∧ h.phiT0 j ≤ 1) :
    ∃ h, readHouse o = .ok h ∧ ∀ (temp hum : Fin 35040 → ℝ) (solve : List ℝ → ℝ), SolvesRooms solve h.area h.room →
      ∀ dMain dRunUp dRunUpBuild : ℤ, 0 ≤ dMain → dMain ≤ 365 → 0 ≤ dRunUpBuild → dRunUpBuild ≤ dRunUp → dRunUp ≤ 365 →
        ∃ res, program solve h (readRecord temp hum o) 4 dMain dRunUp dRunUpBuild = .ok res := by
  obtain ⟨h, Hr, hls, hlb, hroom, -, -, -, -, -⟩ := C72_read_back_partial rnd hr w f d hd o H
  refine ⟨h, Hr, fun temp hum solve hsolve dMain dRunUp dB m0 m1 b0 b1 r1 => ?_⟩
  have hw := C75_wellformed rnd hr w f d hd 900 hp o H h Hr (hphi h Hr) solve hsolve
  obtain ⟨-, -, -, hsch, -, -, -, -⟩ := makeHouse_inv H
  have hlen := mapM_length hsch
  have hne : 0 < o.spaces.length := by
    rw [hls]
    by_contra h0
    have := hd.rooms.main
    rw [List.eq_nil_of_length_eq_zero (by omega : d.rooms.length = 0)] at this
    exact absurd this (by decide)
  have : Nonempty (Fin o.spaces.length) := ⟨⟨0, hne⟩⟩
  have hR : ∀ i : Fin o.spaces.length, ∃ r ∈ d.rooms, d.rooms[i.1]? = some r ∧ SameRoom h i r := fun i =>
    have hi : i.1 < d.rooms.length := hls ▸ i.2
    ⟨d.rooms[i.1], List.getElem_mem hi, List.getElem?_eq_getElem hi, hroom i _ (List.getElem?_eq_getElem hi)⟩
  unfold program
  apply C21_program_partial
  · norm_num; exact hw
  · intro i
    obtain ⟨r, hm, -, hs⟩ := hR i
    exact Bool.eq_false_iff.2 fun c => hheat r hm (hs.heating.1.1 c)
  · intro i
    obtain ⟨r, hm, -, hs⟩ := hR i
    exact hs.cooling.1
  · intro k i
    have hi : i.1 < d.rooms.length := hls ▸ i.2
    have h1 := mapM_getElem hsch hi
    obtain ⟨t, ht, hv⟩ := hsched _ (List.getElem_mem hi)
    simp only [readRecord]
    rw [List.getElem?_eq_getElem (by rw [hlen]; exact hi)]
    exact vLocal_nonneg hf ht hv _ _ h1 k
  all_goals omega

/-! ## Example -/

/-- An air conditioner. -/
noncomputable def exUnit : EquipDict := ⟨"convective", some ⟨500, 2200, 6, 12⟩, none⟩

/-- One room with a floor on the ground or above the outdoor air and an outer wall in the shade. -/
noncomputable def exInput (ground : Bool) (cool : EquipDict) (rIn : ℝ := 0.15) (heat : EquipDict := exNoEquip) : Input where
  building := ⟨2, 2, "balanced"⟩
  rooms := [⟨0, "main_occupant_room", "main_occupant_room", 30, 72, 60, [], 5, heat, cool⟩]
  boundaries :=
    [⟨0, "floor", 0, if ground then "ground" else "external_opaque_part", 30, some false, some 1, none, none, true, true, none, 0.15, 2, none, none, none,
      some ⟨false, none, none, none, none, none⟩, none, none, some 2, some [(12, 0.1)]⟩,
     ⟨1, "wall", 0, "external_opaque_part", 100, some false, some 1, none, none, false, false, none, rIn, 2, none, none, none,
      some ⟨false, none, none, none, none, none⟩, none, none, some 2, none⟩]

theorem exInput_rooms (g : Bool) (cool : EquipDict) (hc : KnownEquipment cool) (low : ℤ) (r : ℝ := 0.15) (heat : EquipDict := exNoEquip)
    (hh : KnownEquipment heat := by exact Or.inl rfl) : ValidRooms low (exInput g cool r heat).rooms where
  ids := by
    intro i hi
    have : i < 1 := hi
    interval_cases i; rfl
  types := by
    intro r hr
    simp only [exInput, List.mem_cons, List.not_mem_nil, or_false] at hr
    subst hr; simp [roomTypeNames]
  main := by simp [occurrences, exInput]
  others := by
    intro t ht
    simp only [roomTypeNames, List.mem_cons, List.not_mem_nil, or_false] at ht
    rcases ht with rfl | rfl | rfl | rfl <;> simp [occurrences, exInput]
  heating := by
    intro r hr
    simp only [exInput, List.mem_cons, List.not_mem_nil, or_false] at hr
    subst hr; exact hh
  cooling := by
    intro r hr
    simp only [exInput, List.mem_cons, List.not_mem_nil, or_false] at hr
    subst hr; exact hc
  upstream := by
    intro r hr
    simp only [exInput, List.mem_cons, List.not_mem_nil, or_false] at hr
    subst hr; simp

theorem exUnit_known : KnownEquipment exUnit := Or.inr (Or.inl ⟨rfl, rfl⟩)

theorem exInput_complete (g : Bool) (r : ℝ := 0.15) (h : 2 * r < 1 := by norm_num) (heat : EquipDict := exNoEquip)
    (hh : KnownEquipment heat := by exact Or.inl rfl) : CompleteInput (exInput g exUnit r heat) where
  rooms := exInput_rooms g _ exUnit_known 0 r heat hh
  cooling := by
    intro r hr
    simp only [exInput, List.mem_cons, List.not_mem_nil, or_false] at hr
    subst hr; rfl
  partRoom := by
    intro b hb
    simp only [exInput, List.mem_cons, List.not_mem_nil, or_false] at hb
    rcases hb with rfl | rfl <;> simp [exInput]
  partId := by
    intro j hj
    have : j < 2 := hj
    interval_cases j <;> rfl
  rear := by
    intro b hb
    simp only [exInput, List.mem_cons, List.not_mem_nil, or_false] at hb
    rcases hb with rfl | rfl <;> simp
  area := by
    intro b hb
    simp only [exInput, List.mem_cons, List.not_mem_nil, or_false] at hb
    rcases hb with rfl | rfl <;> norm_num
  tempDif := by
    intro b hb
    simp only [exInput, List.mem_cons, List.not_mem_nil, or_false] at hb
    rcases hb with rfl | rfl <;> simp
  uValue := by
    intro b hb
    simp only [exInput, List.mem_cons, List.not_mem_nil, or_false] at hb
    rcases hb with rfl | rfl
    · simp; norm_num
    · simpa using h
  floor := by
    intro i hi
    have : i < 1 := hi
    interval_cases i; simp [exInput]
  notOnlyFloor := by
    intro i hi
    have : i < 1 := hi
    interval_cases i; simp [exInput]

theorem exInput_physical (g : Bool) (r : ℝ := 0.15) (heat : EquipDict := exNoEquip)
    (hh : ∀ s, heat.radiative = some s → 0 ≤ s.maxCapacity * s.area := by simp [exNoEquip]) : PhysicalInput (exInput g exUnit r heat) 900 where
  dt_pos := by norm_num
  volume := by intro r hr; simp only [exInput, List.mem_cons, List.not_mem_nil, or_false] at hr; subst hr; norm_num
  vent := by intro r hr; simp only [exInput, List.mem_cons, List.not_mem_nil, or_false] at hr; subst hr; norm_num
  natural := by intro r hr; simp only [exInput, List.mem_cons, List.not_mem_nil, or_false] at hr; subst hr; norm_num
  route := by intro r hr; simp only [exInput, List.mem_cons, List.not_mem_nil, or_false] at hr; subst hr; simp
  inflow := by intro r hr; simp only [exInput, List.mem_cons, List.not_mem_nil, or_false] at hr; subst hr; norm_num
  radiant := by intro r hr; simp only [exInput, List.mem_cons, List.not_mem_nil, or_false] at hr; subst hr; exact hh
  cooling := by
    intro r hr; simp only [exInput, List.mem_cons, List.not_mem_nil, or_false] at hr; subst hr
    intro s hs; simp only [exUnit, Option.some.injEq] at hs; subst hs; norm_num
  hC := by
    intro b hb
    simp only [exInput, List.mem_cons, List.not_mem_nil, or_false] at hb
    rcases hb with rfl | rfl <;> norm_num

/-- The initializer accepts the example, with any weather and any schedules for the room. -/
theorem exInput_accepted_any (rnd : ℕ → ℝ → ℝ) (w : List Step) {f : ScheduleFile} (hf : KnownDays f) {tm : RoomTables}
    (hm : HasRoom f "main_occupant_room" tm) (g : Bool) (cool : EquipDict) (hc : KnownEquipment cool) (r : ℝ := 0.15)
    (h : r ≠ 0 := by norm_num) (heat : EquipDict := exNoEquip) (hh : KnownEquipment heat := by exact Or.inl rfl) : ∃ o, makeHouse rnd w f (exInput g cool r heat) = .ok o := by
  obtain ⟨ss, hss⟩ := (C51_accepted_iff_partial (exInput g cool r heat).rooms).1.2 (exInput_rooms g cool hc _ r heat hh)
  obtain ⟨c, hcomp⟩ := C42_total f hf "main_occupant_room" tm hm
    ((exInput g cool r heat).rooms.map RoomDict.floorArea).sum 30
  have hsch : ((exInput g cool r heat).rooms.mapM fun x => compiled f (residents ((exInput g cool r heat).rooms.map RoomDict.floorArea).sum) x.name x.floorArea)
      = .ok [c] := by
    rw [mapM_ok_iff]
    exact List.Forall₂.cons hcomp List.Forall₂.nil
  have hb : ∃ x y : Bs, (exInput g cool r heat).boundaries.mapM (getBoundarySimple w) = .ok [x, y] ∧ x.room = 0 ∧ y.room = 0 ∧ x.qTrsSol.length = 35040 ∧
      y.qTrsSol.length = 35040 ∧ (x.bType = .ground ∨ x.bType = .opaquePart) ∧ y.bType = .opaquePart := by
    have h0 : ∃ x : Bs, getBoundarySimple w ((exInput g cool r heat).boundaries[0]'Nat.zero_lt_two) = .ok x ∧ x.room = 0 ∧ x.qTrsSol.length = 35040 ∧
        (x.bType = .ground ∨ x.bType = .opaquePart) := by
      cases g <;> simp only [exInput, List.getElem_cons_zero] <;>
      simp [getBoundarySimple, BType.ofString, readSun, isExternal, readHtd, readNextRoom, readRear, readDirection, readHi, Shading.create,
        shadingSunStruck, EqvTemp.create, EqvTemp.series, Transmission.create, Transmission.series, key, bind, Except.bind, -List.reduceReplicate,
        show (0.15 : ℝ) ≠ 0 by norm_num]
    have h1 : ∃ y : Bs, getBoundarySimple w ((exInput g cool r heat).boundaries[1]'Nat.one_lt_two) = .ok y ∧ y.room = 0 ∧ y.qTrsSol.length = 35040 ∧
        y.bType = .opaquePart := by
      simp only [exInput, List.getElem_cons_succ, List.getElem_cons_zero]
      simp [getBoundarySimple, BType.ofString, readSun, isExternal, readHtd, readNextRoom, readRear, readDirection, readHi, Shading.create,
        shadingSunStruck, EqvTemp.create, EqvTemp.series, Transmission.create, Transmission.series, key, bind, Except.bind, -List.reduceReplicate,
        h]
    obtain ⟨x, ex, x1, x2, x3⟩ := h0
    obtain ⟨y, ey, y1, y2, y3⟩ := h1
    exact ⟨x, y, mapM_ok_iff.2 (List.Forall₂.cons ex (List.Forall₂.cons ey List.Forall₂.nil)), x1, y1, x2, y2, x3, y3⟩
  obtain ⟨x, y, hxy, hx, hy, lx, ly, tx, ty⟩ := hb
  have hq : ∃ q, roomSolar [x, y] (exInput g cool r heat).rooms.length = .ok q := by
    refine ⟨[List.zipWith (· + ·) x.qTrsSol y.qTrsSol], ?_⟩
    unfold roomSolar
    rw [mapM_ok_iff]
    refine List.Forall₂.cons ?_ List.Forall₂.nil
    simp [hx, hy, sumSeries, lx, ly]
  obtain ⟨q, hq⟩ := hq
  have hbj : ∃ bj, makeBoundaries rnd (exInput g cool r heat).rooms (exInput g cool r heat).boundaries [x, y] = .ok bj := by
    unfold makeBoundaries
    have h1 : checkParts (exInput g cool r heat).rooms [x, y] = .ok () := by
      unfold checkParts
      rw [if_pos]
      intro i hi
      rw [List.mem_range] at hi
      have : i = 0 := by have : i < 1 := hi; omega
      exact ⟨x, by simp, by rw [hx, this]; rfl⟩
    obtain ⟨sp, hsp⟩ : ∃ sp, (((exInput g cool r heat).boundaries.zip [x, y]).mapM fun p => boundarySpec p.1 p.2.bType) = .ok sp := by
      rcases tx with tx | tx
      · refine ⟨[.layersGround "ground" [(12, 0.1)], .uValue "external_opaque_part" 2 r], ?_⟩
        rw [mapM_ok_iff]
        refine List.Forall₂.cons ?_ (List.Forall₂.cons ?_ List.Forall₂.nil)
        · simp [boundarySpec, tx, key, bind, Except.bind, BType.value]
        · simp [boundarySpec, ty, key, bind, Except.bind, BType.value]
      · refine ⟨[.uValue "external_opaque_part" 2 0.15, .uValue "external_opaque_part" 2 r], ?_⟩
        rw [mapM_ok_iff]
        refine List.Forall₂.cons ?_ (List.Forall₂.cons ?_ List.Forall₂.nil)
        · simp [boundarySpec, tx, key, bind, Except.bind, BType.value]
        · simp [boundarySpec, ty, key, bind, Except.bind, BType.value]
    simp only [bind_ok_iff]
    exact ⟨_, (), h1, sp, hsp, rfl⟩
  obtain ⟨bj, hbj⟩ := hbj
  have hbd : makeBuilding (exInput g cool r heat).building = .ok ⟨"balance_residential", 2, 2, "balanced"⟩ := by
    simp [makeBuilding, exInput]
  unfold makeHouse
  simp only [bind_ok_iff]
  exact ⟨_, _, hxy, _, hq, _, hsch, _, hbd, _, hss, _, hbj, rfl⟩

/-- The initializer accepts the example, with any weather. -/
theorem exInput_accepted (rnd : ℕ → ℝ → ℝ) (w : List Step) (g : Bool) (cool : EquipDict) (hc : KnownEquipment cool) (r : ℝ := 0.15)
    (h : r ≠ 0 := by norm_num) (heat : EquipDict := exNoEquip) (hh : KnownEquipment heat := by exact Or.inl rfl) : ∃ o, makeHouse rnd w exSchedule (exInput g cool r heat) = .ok o :=
  exInput_accepted_any rnd w exSchedule_days (exSchedule_room _) g cool hc r h heat hh

/-- C72 (violation), concretely: the example house without cooling is accepted by the initializer and cannot be read. -/
theorem C72_violated_example (rnd : ℕ → ℝ → ℝ) (w : List Step) :
    ∃ o e, makeHouse rnd w exSchedule (exInput true exNoEquip) = .ok o ∧ readHouse o = .error e := by
  obtain ⟨o, ho⟩ := exInput_accepted rnd w true exNoEquip (Or.inl rfl)
  obtain ⟨e, he⟩ := C72_violated rnd w _ _ o ho ⟨_, List.mem_cons_self, by decide⟩
  exact ⟨o, e, ho, he⟩

/-- C73 (violation), concretely: the floor on the ground of the example house. -/
example (rnd : ℕ → ℝ → ℝ) (hr : IsRounding rnd) (w : List Step) :
    ∃ o h, makeHouse rnd w exSchedule (exInput true exUnit) = .ok o ∧ readHouse o = .ok h ∧
      ∃ (j : Fin o.boundaries.length) (b : BoundaryDict), (exInput true exUnit).boundaries[j.1]? = some b ∧ b.boundaryType = "ground" := by
  obtain ⟨o, ho⟩ := exInput_accepted rnd w true exUnit exUnit_known
  obtain ⟨h, hh, -, hl, -⟩ := C72_read_back_partial rnd hr w _ _ (exInput_complete true) o ho
  exact ⟨o, h, ho, hh, ⟨0, by rw [hl]; exact Nat.zero_lt_two⟩, _, rfl, rfl⟩

/-- The hypotheses of C75 and C76 are met by the example house above the outdoor air. -/
example (rnd : ℕ → ℝ → ℝ) (hr : IsRounding rnd) (w : List Step) (temp hum : Fin 35040 → ℝ) : ∃ o h solve res,
    makeHouse rnd w exSchedule (exInput false exUnit) = .ok o ∧ readHouse o = .ok h ∧ program solve h (readRecord temp hum o) 4 365 365 183 = .ok res := by
  obtain ⟨o, ho⟩ := exInput_accepted rnd w false exUnit exUnit_known
  obtain ⟨h, hh, H⟩ := C76_chain_completes_partial rnd hr w exSchedule exSchedule_days _ (exInput_complete false) (exInput_physical false)
    (fun r _ => ⟨exTables, exSchedule_room _, fun _ _ _ => le_refl _⟩)
    (fun r hr => by simp only [exInput, List.mem_cons, List.not_mem_nil, or_false] at hr; subst hr; decide) o ho
    (fun h _ j b hb hn => by
      exfalso
      apply hn
      have := List.mem_of_getElem? hb
      simp only [exInput, List.mem_cons, List.not_mem_nil, or_false] at this
      rcases this with rfl | rfl <;> exact Or.inr rfl)
  obtain ⟨solve, hsol⟩ := exists_solver
  have hpos : ∀ j, 0 < h.area j := by
    intro j
    obtain ⟨h', e, -, hlb, -, hpart, -⟩ := C72_read_back_partial rnd hr w _ _ (exInput_complete false) o ho
    cases hh.symm.trans e
    have hj : j.1 < (exInput false exUnit).boundaries.length := hlb ▸ j.2
    rw [(hpart j _ (List.getElem?_eq_getElem hj)).area]
    exact (exInput_complete false).area _ (List.getElem_mem hj)
  obtain ⟨res, hres⟩ := H temp hum solve (solvesRooms_of hsol h.room hpos) 365 365 183 (by norm_num) (by norm_num) (by norm_num) (by norm_num) (by norm_num)
  exact ⟨o, h, solve, res, ho, hh, hres⟩

end HLC.Init
