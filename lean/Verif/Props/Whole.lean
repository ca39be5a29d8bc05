import Verif.Model.Whole
import Verif.Spec.Whole
import Verif.Props.WeatherTable
import Verif.Props.Pipeline
import Verif.Props.ResultDigest
import Verif.Props.Unheated

/-!
# From the files to the columns of the result (C122)
-/

namespace HLC.Init

open HLC.Spec HLC.Weather

/-- The solar gain of a part in a step depends on the line of the weather of that step only. -/
theorem gain_local {w : List Step} {b : BoundaryDict} {x : Bs} (H : getBoundarySimple w b = .ok x) {k : ℕ} (hk : k < 35040) {s : Step}
    (hs : w[k]? = some s) : PartGain b s (at' x.qTrsSol k) := by
  simp only [getBoundarySimple, bind_ok_iff] at H
  obtain ⟨t, ht, sun, hsun, htd, hhtd, nx, hnx, re, hre, dir, hdir, hI, hhI, p, hp, oe, hoe, th, hth, tr, htr, q, hq, e⟩ := H
  have hx : x.qTrsSol = q := by rw [← Except.ok.inj e]
  rw [hx]
  obtain ⟨th', hth'⟩ : ∃ th', oe.series [s] = .ok th' := by
    unfold EqvTemp.series at hth ⊢
    cases oe with
    | wall d a e' r =>
      simp only [bind_ok_iff] at hth ⊢
      obtain ⟨ab, hab, -⟩ := hth
      exact ⟨_, ab, hab, rfl⟩
    | window d e' r =>
      simp only [bind_ok_iff] at hth ⊢
      obtain ⟨ab, hab, -⟩ := hth
      exact ⟨_, ab, hab, rfl⟩
    | internal => exact ⟨_, rfl⟩
    | notSunStruck => exact ⟨_, rfl⟩
    | ground => exact ⟨_, rfl⟩
  obtain ⟨q', hq', hv⟩ : ∃ q', tr.series [s] = .ok q' ∧ q'.head? = some (at' q k) := by
    unfold Transmission.series at hq ⊢
    cases tr with
    | struck direction area sh g eta =>
      simp only [bind_ok_iff] at hq
      obtain ⟨ab, hab, hq⟩ := hq
      obtain ⟨hlt, rfl⟩ := List.getElem?_eq_some_iff.1 hs
      have h1 := mapM_getElem hq hlt
      refine ⟨[q[k]'(by rw [mapM_length hq]; exact hlt)], ?_, ?_⟩
      · simp only [bind_ok_iff]
        exact ⟨ab, hab, mapM_ok_iff.2 (.cons h1 .nil)⟩
      · unfold at'
        rw [List.getElem?_eq_getElem (by rw [mapM_length hq]; exact hlt)]
        rfl
    | none =>
      refine ⟨_, rfl, ?_⟩
      rw [← Except.ok.inj hq]
      unfold at'
      rw [List.getElem?_replicate, if_pos (by omega)]
      rfl
  refine ⟨{ x with thetaOSol := th', qTrsSol := q' }, ?_, hv⟩
  rw [← Except.ok.inj e]
  simp only [getBoundarySimple, bind_ok_iff]
  exact ⟨t, ht, sun, hsun, htd, hhtd, nx, hnx, re, hre, dir, hdir, hI, hhI, p, hp, oe, hoe, th', hth', tr, htr, q', hq', rfl⟩

theorem interpolate_at {data : Fin 8760 → ℝ} {l : List ℝ} (H : interpolate data "15m" = .ok l) {k : ℕ} (hk : k < 35040) :
    l.getD k 0 = atQuarter data k := by
  obtain ⟨l', h', -, hv⟩ := C43_interpolation data (by norm_num) "15m" (Or.inr (Or.inr rfl))
  obtain rfl := Except.ok.inj (h'.symm.trans H)
  have hp : perHour "15m" = 4 := rfl
  have := hv (k / 4) (by omega) (k % 4) (by rw [hp]; omega)
  rw [hp, show k / 4 * 4 + k % 4 = k by omega] at this
  rw [List.getD_eq_getElem?_getD, this]
  rfl

/-- **C122 (lines).** Every line of the weather the two programs read holds the data of the region's file for that time, with the sun at its place. -/
theorem C122_lines (read : String → Except PyErr (Columns 8760)) (rnd : ℕ → ℝ → ℝ) (hr : IsRounding rnd) (region : ℤ) (h1 : 1 ≤ region) (h8 : region ≤ 8)
    {W : Columns 8760} (hW : read (weatherFile region) = .ok W) : ∃ fr place, makeWeather read rnd region "15m" = .ok fr ∧ location region = .ok place ∧
      (frameSteps fr).length = 35040 ∧
      ∀ k : ℕ, k < 35040 → (∃ s, (frameSteps fr)[k]? = some s ∧ LineAt place W k s) ∧
        |fr.humidity.getD k 0 - atQuarter W.humidity k / 1000| ≤ 0.0000005 := by
  obtain ⟨fr, place, θ, x, hfr, hpl, e1, e2, e3, e4, e5, e6, l1, l2, l3, l4, l5, l6, hv⟩ :=
    C70_table read rnd hr region "15m" h1 h8 (Or.inr (Or.inr rfl)) hW
  obtain ⟨place', sun, hpl', hsun, hlen, hpos⟩ := C44_year region "15m" h1 h8 (Or.inr (Or.inr rfl))
  obtain rfl := Except.ok.inj (hpl'.symm.trans hpl)
  obtain rfl := Except.ok.inj (hsun.symm.trans e6)
  have hp : perHour "15m" = 4 := rfl
  rw [hp] at l1 hpos hv
  refine ⟨fr, place', hfr, hpl, by simp [frameSteps, l1], fun k hk => ?_⟩
  obtain ⟨v1, v2⟩ := hv k (by omega)
  rw [interpolate_at e1 hk] at v1
  rw [interpolate_at e2 hk] at v2
  refine ⟨⟨_, by rw [frameSteps, List.getElem?_map, List.getElem?_range (by omega)]; rfl, v1, ?_, ?_, ?_, ?_⟩, v2⟩
  · exact interpolate_at e3 hk
  · exact interpolate_at e4 hk
  · exact interpolate_at e5 hk
  · obtain ⟨hs, as, hq, -, -, -, -, hvec⟩ := hpos (k / 96) (by omega) (k % 96) (by omega)
    rw [show k / 96 * (24 * 4) + k % 96 = k by omega] at hq
    simp only [List.getD_eq_getElem?_getD, hq, Option.getD_some]
    exact_mod_cast hvec

/-- **C122.** Run the three programs for one of the eight regions with any input, schedule file and main period. In row `k` of the detailed table the
columns of given values are those of quarter `k` of the year: the outdoor temperature and humidity of the region's file (rounded), and for every room
of the input, in the columns with its number, the demand and the internal heat of its own schedules for the kind of that day, and the
solar gains of its own parts in the weather of that quarter, with the sun where it is at that time. -/
theorem C122_given (read : String → Except PyErr (Columns 8760)) (rnd : ℕ → ℝ → ℝ) (hr : IsRounding rnd) (solve : List ℝ → ℝ) (region : ℤ)
    (h1 : 1 ≤ region) (h8 : region ≤ 8) {W : Columns 8760} (hW : read (weatherFile region) = .ok W) (f : ScheduleFile) (hf : KnownDays f)
    (dMain dRunUp dRunUpBuild : ℤ) (d : Input) (ds : Digest) (tab : Table)
    (H : runAll read rnd solve region f 4 dMain dRunUp dRunUpBuild d = .ok (ds, tab)) :
    (tab.rows : ℤ) = dMain * 96 ∧ tab.rows ≤ 35040 ∧ ∃ place, location region = .ok place ∧
    ∀ (k : ℕ) (_ : k < tab.rows) (hk' : k < 35040), ∃ s x, LineAt place W k s ∧ Cell tab "out_temp" k s.thetaO ∧
      Cell tab "out_abs_humid" k x ∧ |x - atQuarter W.humidity k / 1000| ≤ 0.0000005 ∧
      ∀ (i : ℕ) (r : RoomDict), d.rooms[i]? = some r →
        (∃ gs : List ℝ, List.Forall₂ (fun b g => PartGain b s g) (d.boundaries.filter fun b => b.connectedRoom = (i : ℤ)) gs ∧
          Cell tab (roomColumn i "q_sol_t") k gs.sum) ∧
        ∀ (t : RoomTables), HasRoom f r.name t → ∀ n : ℕ, 1 ≤ n → n ≤ 3 → (n : ℝ) ≤ residents (d.rooms.map RoomDict.floorArea).sum →
          residents (d.rooms.map RoomDict.floorArea).sum ≤ n + 1 →
          let now := fun table : ℕ → String → Day => between table n (residents (d.rooms.map RoomDict.floorArea).sum)
            (f.calendar ⟨k / 96, by omega⟩) ⟨k % 96, by omega⟩
          Cell tab (roomColumn i "occupancy") k (now t.demand) ∧
          Cell tab (roomColumn i "q_s_except_hum") k (now t.appliances + now t.cookingVapour + now t.lighting * r.floorArea) := by
  obtain ⟨fr, place, hfr, hpl, hlen, hline⟩ := C122_lines read rnd hr region h1 h8 hW
  unfold runAll at H
  simp only [bind_ok_iff] at H
  obtain ⟨fr', hfr', H⟩ := H
  obtain rfl := Except.ok.inj (hfr'.symm.trans hfr)
  unfold calculate calcFiles at H
  simp only [bind_ok_iff] at H
  obtain ⟨o, ho, h, hh, H⟩ := H
  obtain ⟨-, hrows, r0, c1, mn, hl, hN, hrun, -, hcell⟩ := C79_table H
  refine ⟨by rw [hrows]; ring, hN, place, hpl, fun k hk hk' => ?_⟩
  obtain ⟨⟨s, hs, hL⟩, hx⟩ := hline k hk'
  obtain ⟨q1, q2, q3, -⟩ := hcell k hk
  obtain ⟨-, -, hroom, bss, hbss, hq, -, -⟩ := C74_records rnd _ f d o ho (temperatureColumn (frameSteps fr')) (fun t => fr'.humidity.getD t.1 0) ⟨k, hk'⟩
  obtain ⟨bss', hbss', -, -, -, hss, -, -⟩ := makeHouse_inv ho
  obtain ⟨hlr, -⟩ := makeSpaces_get hss
  refine ⟨s, _, hL, ?_, q2, hx, fun i r hi => ?_⟩
  · have e : temperatureColumn (frameSteps fr') ⟨k, hk'⟩ = s.thetaO := by
      unfold temperatureColumn
      simp only [hs]
      rfl
    rw [← e]
    exact q1
  · have hi' : i < o.spaces.length := by rw [hlr]; exact (List.getElem?_eq_some_iff.1 hi).1
    have R := q3 ⟨i, hi'⟩
    constructor
    · refine ⟨(bss.filter fun b => b.room = (i : ℤ)).map fun b => at' b.qTrsSol k, ?_, ?_⟩
      · have hall := mapM_ok_iff.1 hbss
        clear hbss hq
        generalize d.boundaries = bd at hall ⊢
        induction hall with
        | nil => exact .nil
        | @cons b x bs xs hb _ ih =>
          have hroom : x.room = b.connectedRoom := (getBoundarySimple_eq hb).2.1
          simp only [List.filter_cons]
          rw [hroom]
          split_ifs
          · rw [List.map_cons]
            exact .cons (gain_local hb hk' hs) ih
          · exact ih
      · have := R.transmittedSun
        rw [hq ⟨i, hi'⟩] at this
        exact this
    · intro t ht n n1 n3 nl nu now
      obtain ⟨c, hc, z1, z2, z3, z4, z5⟩ := hroom ⟨i, hi'⟩ r hi
      obtain ⟨c', hc', hv⟩ := C71_compiled_partial f hf r.name t ht _ n n1 n3 nl nu r.floorArea
      cases hc.symm.trans hc'
      obtain ⟨-, y2, -, y4, -⟩ := hv ⟨k / 96, by omega⟩ ⟨k % 96, by omega⟩
      have hqk : quarter ⟨k / 96, by omega⟩ ⟨k % 96, by omega⟩ = (⟨k, hk'⟩ : Fin 35040) := Fin.ext (by simp only [quarter]; omega)
      rw [hqk] at y2 y4
      have o1 := R.occupancy
      have o2 := R.internalHeat
      rw [z5, y2] at o1
      rw [z2, y4] at o2
      exact ⟨o1, o2⟩

/-- A weather file with 10 degC, 5 g/kg, 200 and 100 W/m2 of sun and 30 W/m2 of nocturnal radiation throughout. -/
noncomputable def exFlatFile : Columns 8760 where
  temperature := fun _ => 10
  humidity := fun _ => 5
  directNormal := fun _ => 200
  skyHorizontal := fun _ => 100
  outward := fun _ => 30

/-- The hypotheses of `C122_given` are met: in region 6 with such a file the three programs complete for the example room. -/
example (rnd : ℕ → ℝ → ℝ) (hr : IsRounding rnd) : ∃ solve ds tab, KnownDays exAsk ∧ HasRoom exAsk "main_occupant_room" exAskTables ∧
    runAll (fun _ => .ok exFlatFile) rnd solve 6 exAsk 4 1 0 0 (exInput false exUnit) = .ok (ds, tab) := by
  obtain ⟨fr, place, hfr, -, hlen, hline⟩ := C122_lines (fun _ => .ok exFlatFile) rnd hr 6 (by norm_num) (by norm_num) rfl
  obtain ⟨solve, ds, tab, H, -⟩ := C120_violated_example rnd hr (frameSteps fr) (by
    intro s hs
    obtain ⟨k, hk, rfl⟩ := List.getElem_of_mem hs
    obtain ⟨⟨s', e, L⟩, -⟩ := hline k (by omega)
    rw [List.getElem?_eq_getElem hk] at e
    cases e
    have h1 := L.temperature
    have h2 : atQuarter exFlatFile.temperature k = 10 := by
      have : ∀ j, Spec.atHour exFlatFile.temperature (by norm_num) j = 10 := fun _ => rfl
      rw [atQuarter, this, this]
      ring
    rw [h2, abs_le] at h1
    constructor <;> linarith) (fun t => fr.humidity.getD t.1 0)
  refine ⟨solve, ds, tab, exSchedule_days, exAsk_room _, ?_⟩
  simp only [runAll, hfr]
  exact H

end HLC.Init
