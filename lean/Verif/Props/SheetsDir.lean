import Verif.Props.Sheets

/-!
# Directories with tables that are too short or damaged (C124, C133)
-/

namespace HLC

open Spec

set_option linter.unusedSectionVars false

section
variable {I : Type} [Fintype I] [DecidableEq I] {m N : ℕ} {h : House I (Fin m)} {hR : Fin m → ℝ}

/-- The tables continued with zeros. -/
noncomputable def padded (S : Sheets I (Fin m) N) (t : Fin N) : Record I (Fin m) where
  thetaO := S.thetaO t
  xO := S.xO t
  vLocal := fun i => if h : t.1 < S.nVent then S.vLocal ⟨t, h⟩ i else 0
  qGen := fun i => if h : t.1 < S.nHeat then S.qGen ⟨t, h⟩ i else 0
  xGen := fun i => if h : t.1 < S.nMoist then S.xGen ⟨t, h⟩ i else 0
  nHum := fun i => if h : t.1 < S.nPeople then S.nHum ⟨t, h⟩ i else 0
  acDemand := fun i => if h : t.1 < S.nDemand then S.acDemand ⟨t, h⟩ i else 0
  qTrsSol := fun i => if h : t.1 < S.nSun then S.qTrsSol ⟨t, h⟩ i else 0
  thetaOSol := fun j => if h : t.1 < S.nOut then S.thetaOSol ⟨t, h⟩ j else 0

theorem padded_cut (S : Sheets I (Fin m) N) (h1 : S.nVent ≤ N) (h2 : S.nHeat ≤ N) (h3 : S.nMoist ≤ N) (h4 : S.nPeople ≤ N) (h5 : S.nDemand ≤ N)
    (h6 : S.nSun ≤ N) (h7 : S.nOut ≤ N) : CutOf S (padded S) where
  temperature := fun _ => rfl
  humidity := fun _ => rfl
  vent := ⟨h1, fun t ht => funext fun i => by simp only [padded, t.2, dite_true]⟩
  heat := ⟨h2, fun t ht => funext fun i => by simp only [padded, t.2, dite_true]⟩
  moisture := ⟨h3, fun t ht => funext fun i => by simp only [padded, t.2, dite_true]⟩
  people := ⟨h4, fun t ht => funext fun i => by simp only [padded, t.2, dite_true]⟩
  demand := ⟨h5, fun t ht => funext fun i => by simp only [padded, t.2, dite_true]⟩
  sun := ⟨h6, fun t ht => funext fun i => by simp only [padded, t.2, dite_true]⟩
  outdoors := ⟨h7, fun t ht => funext fun i => by simp only [padded, t.2, dite_true]⟩

/-- Any tables that are long enough are calculated to the end. -/
theorem sheetCalc_completes [Nonempty I] (S : Sheets I (Fin m) N) (hourly dMain dRunUp dRunUpBuild : ℤ)
    (hw : WellFormed h hR (3600 / (hourly : ℝ))) (hH : ∀ i, h.isRadHeating i = false) (hC : ∀ i, h.isRadCooling i = false)
    (hloc : ∀ k i, 0 ≤ S.vLocal k i) (h0 : 0 < hourly) (hM : 0 ≤ dMain) (hB0 : 0 ≤ dRunUpBuild) (hd : dRunUpBuild ≤ dRunUp)
    (hsun : S.nSun = S.nOut) (hm : AtLeast S (dMain * hourly * 24)) (hB : AtLeast S (dRunUpBuild * hourly * 24)) (hR' : dRunUp * hourly * 24 ≤ N)
    (h1 : S.nVent ≤ N) (h2 : S.nHeat ≤ N) (h3 : S.nMoist ≤ N) (h4 : S.nPeople ≤ N) (h5 : S.nDemand ≤ N) (h6 : S.nSun ≤ N)
    (hN : dMain * hourly * 24 + dRunUpBuild * hourly * 24 ≤ N ∨
      S.nVent = N ∧ S.nHeat = N ∧ S.nMoist = N ∧ S.nPeople = N ∧ S.nDemand = N ∧ S.nSun = N) :
    ∃ r, sheetCalc h hR S hourly dMain dRunUp dRunUpBuild = .ok r := by
  have hl : ∀ k i, 0 ≤ (padded S k).vLocal i := by
    intro k i
    simp only [padded]
    split_ifs
    · exact hloc _ _
    · exact le_rfl
  rcases hN with hN | hN
  · obtain ⟨r, -, hr⟩ := C133_violated (padded_cut S h1 h2 h3 h4 h5 h6 (hsun ▸ h6)) hourly dMain dRunUp dRunUpBuild hw hH hC hl h0 hM hB0 hd hsun hm hB hR' hN
    exact ⟨_, hr⟩
  · obtain ⟨r, e⟩ := C21_program_partial (data := padded S) hw hH hC hl h0 hM hB0 hd hR' hm.weather
    refine ⟨withoutParameters r, ?_⟩
    obtain ⟨thetaO, xO, n1, v, n2, q, n3, x, n4, p, n5, a, n6, s, n7, o⟩ := S
    obtain ⟨e1, e2, e3, e4, e5, e6⟩ := hN
    simp only at e1 e2 e3 e4 e5 e6 hsun
    subst e1 e2 e3 e4 e5 e6 hsun
    rw [C133_rows _ (padded _) _ _ _ _ (.inl rfl) (fun _ => rfl) fun n _ => ?_, e]
    · rfl
    · unfold Sheets.row
      simp only
      cases pyIndex _ n with
      | error => rfl
      | ok k =>
        simp only [bind, Except.bind, Except.map, padded, k.2, dite_true]

end

namespace Init

variable {rnd : ℕ → ℝ → ℝ} {w : List Step} {f : ScheduleFile} {d : Input} {vols : List JNum}

theorem readSheet_ok {n : ℕ} {c : Option Content} {rows : List (List ℝ)} (H : readSheet n c = .ok rows) : c = some (.table rows) := by
  unfold readSheet at H
  split at H
  · split_ifs at H
    rw [Except.ok.inj H]
  · cases H
  · cases H

/-- **C133, C124 (refused).** A calculation that completes has found in every table of the directory at least as many rows as there are steps. A calculation
of the whole year refuses a directory with a table of which rows are missing. -/
theorem C133_directory_refused (solve : List ℝ → ℝ) {W : ℕ} (temp hum : Fin W → ℝ) (hourly dMain dRunUp dRunUpBuild : ℤ) (dir : Dir)
    (H : simulateDir solve temp hum hourly dMain dRunUp dRunUpBuild dir = .ok ()) (name : FileName) (rows : List (List ℝ))
    (hc : dir name = some (.table rows)) : dMain * hourly * 24 ≤ rows.length ∧ dRunUpBuild * hourly * 24 ≤ rows.length := by
  unfold simulateDir at H
  simp only [bind_ok_iff] at H
  obtain ⟨hf, h0, h, -, v, hv, q, hq, x, hx, p, hp, a, ha, s, hs, o, ho, r, hr, -⟩ := H
  obtain ⟨⟨-, m1, m2, m3, m4, m5, m6, m7⟩, ⟨-, b1, b2, b3, b4, b5, b6, b7⟩, -, -⟩ := C133_refused _ _ _ _ _ hr
  have key : ∀ {n : ℕ} {t : List (List ℝ)}, readSheet n (dir name) = .ok t → t = rows := by
    intro n t ht
    have := readSheet_ok ht
    rw [hc] at this
    cases this
    rfl
  cases name with
  | house => rw [hc] at h0; cases h0
  | localVent => rw [← key hv]; exact ⟨m1, b1⟩
  | heatGeneration => rw [← key hq]; exact ⟨m2, b2⟩
  | moistureGeneration => rw [← key hx]; exact ⟨m3, b3⟩
  | occupants => rw [← key hp]; exact ⟨m4, b4⟩
  | acDemand => rw [← key ha]; exact ⟨m5, b5⟩
  | qTrsSol => rw [← key hs]; exact ⟨m6, b6⟩
  | thetaOSol => rw [← key ho]; exact ⟨m7, b7⟩

theorem readSheet_rows {n : ℕ} {rows : List (List ℝ)} (h : ∀ r ∈ rows, r.length = n) : readSheet n (some (.table rows)) = .ok rows := by
  unfold readSheet
  simp only [if_pos h]

theorem rowsOf_width (cols : List (Fin 35040 → ℝ)) {n : ℕ} (h : cols.length = n) : ∀ r ∈ rowsOf cols, r.length = n := by
  intro r hr
  obtain ⟨t, rfl⟩ := List.mem_ofFn.1 hr
  rw [List.length_map, h]

theorem rowsOfSeries_width (l : List (List ℝ)) {n : ℕ} (h : l.length = n) : ∀ r ∈ rowsOfSeries l, r.length = n := by
  intro r hr
  obtain ⟨t, -, rfl⟩ := List.mem_map.1 hr
  rw [List.length_map, h]

theorem rowsOfSeries_year (l : List (List ℝ)) {n : ℕ} (h : l.length = n) (hn : 0 < n) (hl : ∀ s ∈ l, s.length = 35040) : (rowsOfSeries l).length = 35040 := by
  rw [rowsOfSeries, List.length_map, List.length_range]
  cases l with
  | nil => simp at h; omega
  | cons a l => exact hl a List.mem_cons_self

theorem sheets_complete {n m : ℕ} [Nonempty (Fin n)] {h : House (Fin n) (Fin m)} {solve : List ℝ → ℝ} (temp hum : Fin 35040 → ℝ)
    (v q x p a s o : List (List ℝ)) (dMain dRunUp dB : ℤ) (hw : WellFormed h (getHr solve h.area h.room) 900) (hH : ∀ i, h.isRadHeating i = false)
    (hC : ∀ i, h.isRadCooling i = false) (hloc : ∀ k, k < 35040 → ∀ i : Fin n, 0 ≤ (v.getD k []).getD i.1 0) (m0 : 0 ≤ dMain) (m1 : dMain ≤ 365)
    (b0 : 0 ≤ dB) (b1 : dB ≤ dRunUp) (r1 : dRunUp ≤ 365) (lv : v.length = 35040) (ls : s.length = 35040) (lo : o.length = 35040)
    (lq : q.length ≤ 35040 ∧ dMain * 96 ≤ q.length ∧ dB * 96 ≤ q.length) (lx : x.length ≤ 35040 ∧ dMain * 96 ≤ x.length ∧ dB * 96 ≤ x.length)
    (lp : p.length ≤ 35040 ∧ dMain * 96 ≤ p.length ∧ dB * 96 ≤ p.length) (la : a.length ≤ 35040 ∧ dMain * 96 ≤ a.length ∧ dB * 96 ≤ a.length)
    (hN : dMain + dB ≤ 365 ∨ q.length = 35040 ∧ x.length = 35040 ∧ p.length = 35040 ∧ a.length = 35040) :
    ∃ r, sheetCalc h (getHr solve h.area h.room) (sheetsOf temp hum v q x p a s o) 4 dMain dRunUp dB = .ok r := by
  refine sheetCalc_completes (sheetsOf temp hum v q x p a s o) 4 dMain dRunUp dB (by norm_num; exact hw) hH hC (fun k i => ?_) (by norm_num) m0 b0 b1
    (ls.trans lo.symm) ⟨?_, ?_, ?_, ?_, ?_, ?_, ?_, ?_⟩ ⟨?_, ?_, ?_, ?_, ?_, ?_, ?_, ?_⟩ ?_ lv.le lq.1 lx.1 lp.1 la.1 ls.le ?_
  · exact hloc k.1 (k.2.trans_eq lv) i
  case refine_18 => push_cast; omega
  case refine_19 =>
    rcases hN with hN | ⟨h1, h2, h3, h4⟩
    · exact .inl (by push_cast; omega)
    · exact .inr ⟨lv, h1, h2, h3, h4, ls⟩
  all_goals
    first
    | omega
    | simp only [sheetsOf]
      omega

/-- **C133, C124 (violation).** In the directory written for a complete and physical input without radiant heating, any of the tables of heat, moisture,
occupants and demand may be replaced by any table with as many columns, of which rows may be missing: the calculation completes as long as the table is not
shorter than the calculated period and the run-up (and these do not overlap), or has all the rows of the year. -/
theorem C133_directory_violated (hw : w.length = 35040) (hv : Written vols d) (H : (makeHouseRun rnd w f vols d).result = .ok ()) (dir : Dir)
    (hr : IsRounding rnd) (hf : KnownDays f) (hd : CompleteInput d) (hp : PhysicalInput d 900)
    (hsched : ∀ r ∈ d.rooms, ∃ t, HasRoom f r.name t ∧ ∀ k day q, 0 ≤ t.localVent k day q)
    (hheat : ∀ r ∈ d.rooms, r.heating.kind ≠ "radiative")
    (hphi : ∀ o, makeHouse rnd w f d = .ok o → ∀ h, readHouse o = .ok h → ∀ j b, d.boundaries[j.1]? = some b → ¬ GivenByU b →
      0 ≤ h.phiA0 j ∧ 0 ≤ h.phiT0 j ∧ h.phiT0 j ≤ 1) :
    ∃ o h, makeHouse rnd w f d = .ok o ∧ readHouse o = .ok h ∧ ∀ (temp hum : Fin 35040 → ℝ) (solve : List ℝ → ℝ), SolvesRooms solve h.area h.room →
      ∀ (dMain dRunUp dRunUpBuild : ℤ) (name : FileName) (rows : List (List ℝ)), 0 ≤ dMain → dMain ≤ 365 → 0 ≤ dRunUpBuild → dRunUpBuild ≤ dRunUp →
        dRunUp ≤ 365 → (name = .heatGeneration ∨ name = .moistureGeneration ∨ name = .occupants ∨ name = .acDemand) →
        (∀ r ∈ rows, r.length = d.rooms.length) → rows.length ≤ 35040 → dMain * 96 ≤ rows.length → dRunUpBuild * 96 ≤ rows.length →
        (dMain + dRunUpBuild ≤ 365 ∨ rows.length = 35040) →
        simulateDir solve temp hum 4 dMain dRunUp dRunUpBuild (Function.update ((makeHouseRun rnd w f vols d).final dir) name (some (.table rows))) = .ok () := by
  obtain ⟨o, ho, e⟩ := run_ok hv H
  have hz := makeHouse_sizes hw ho
  obtain ⟨h, Hr, hls, hlb, hroom, -, -, -, -, -⟩ := C72_read_back_partial rnd hr w f d hd o ho
  refine ⟨o, h, ho, Hr, fun temp hum solve hsolve dMain dRunUp dB name rows m0 m1 b0 b1 r1 hname hrows hlen hlm hlb' hN => ?_⟩
  have hwf := C75_wellformed rnd hr w f d hd 900 hp o ho h Hr (hphi o ho h Hr) solve hsolve
  obtain ⟨-, -, -, hsch, -, -, -, -⟩ := makeHouse_inv ho
  have hlen' := mapM_length hsch
  have : Nonempty (Fin o.spaces.length) := ⟨⟨0, by rw [hz.rooms]; exact hz.rooms_pos⟩⟩
  have hR : ∀ i : Fin o.spaces.length, ∃ r ∈ d.rooms, d.rooms[i.1]? = some r ∧ SameRoom h i r := fun i =>
    have hi : i.1 < d.rooms.length := hls ▸ i.2
    ⟨d.rooms[i.1], List.getElem_mem hi, List.getElem?_eq_getElem hi, hroom i _ (List.getElem?_eq_getElem hi)⟩
  have hdir := stopped_dir dir e e 0 (by decide)
  simp only [ite_self] at hdir
  have e0 : (makeHouseRun rnd w f vols d).after (2 * 0) ((makeHouseRun rnd w f vols d).final dir) = (makeHouseRun rnd w f vols d).final dir := rfl
  rw [e0] at hdir
  obtain ⟨d0, d1, d2, d3, d4, d5, d6, d7⟩ := hdir
  have Hr' : readHouse { building := o.building, spaces := o.spaces, boundaries := o.boundaries, schedules := [], qTrsSol := [], thetaOSol := [] }
    = .ok h := Hr
  have sheet : ∀ q x p a : List (List ℝ), (∀ r ∈ q, r.length = d.rooms.length) → (∀ r ∈ x, r.length = d.rooms.length) →
      (∀ r ∈ p, r.length = d.rooms.length) → (∀ r ∈ a, r.length = d.rooms.length) →
      (q.length ≤ 35040 ∧ dMain * 96 ≤ q.length ∧ dB * 96 ≤ q.length) → (x.length ≤ 35040 ∧ dMain * 96 ≤ x.length ∧ dB * 96 ≤ x.length) →
      (p.length ≤ 35040 ∧ dMain * 96 ≤ p.length ∧ dB * 96 ≤ p.length) → (a.length ≤ 35040 ∧ dMain * 96 ≤ a.length ∧ dB * 96 ≤ a.length) →
      (dMain + dB ≤ 365 ∨ q.length = 35040 ∧ x.length = 35040 ∧ p.length = 35040 ∧ a.length = 35040) →
      ∀ dir' : Dir, dir' .house = some (.house ⟨o.building, o.spaces, o.boundaries⟩) →
      dir' .localVent = some (.table (rowsOf (o.schedules.map Compiled.vLocal))) → dir' .heatGeneration = some (.table q) →
      dir' .moistureGeneration = some (.table x) → dir' .occupants = some (.table p) → dir' .acDemand = some (.table a) →
      dir' .qTrsSol = some (.table (rowsOfSeries o.qTrsSol)) → dir' .thetaOSol = some (.table (rowsOfSeries o.thetaOSol)) →
      simulateDir solve temp hum 4 dMain dRunUp dB dir' = .ok () := by
    intro q x p a wq wx wp wa lq lx lp la hN dir' c0 c1 c2 c3 c4 c5 c6 c7
    have ls := rowsOfSeries_year _ hz.solar hz.rooms_pos hz.solarYear
    have lo := rowsOfSeries_year _ hz.outdoor hz.parts_pos hz.outdoorYear
    have lv := rowsOf_length (o.schedules.map Compiled.vLocal)
    obtain ⟨r, hres⟩ := sheets_complete (h := h) (solve := solve) temp hum (rowsOf (o.schedules.map Compiled.vLocal)) q x p a (rowsOfSeries o.qTrsSol)
      (rowsOfSeries o.thetaOSol) dMain dRunUp dB hwf (fun i => by
        obtain ⟨r, hm, -, hs⟩ := hR i
        exact Bool.eq_false_iff.2 fun c => hheat r hm (hs.heating.1.1 c)) (fun i => by
        obtain ⟨r, hm, -, hs⟩ := hR i
        exact hs.cooling.1) (fun k hk i => by
        have hi : i.1 < d.rooms.length := hls ▸ i.2
        have h1 := mapM_getElem hsch hi
        obtain ⟨t, ht, hv⟩ := hsched _ (List.getElem_mem hi)
        have := rowsOf_get (o.schedules.map Compiled.vLocal) ⟨k, hk⟩
        simp only at this
        rw [this, getD_get (by rw [List.length_map, List.length_map, hlen']; exact hi), List.getElem_map, List.getElem_map]
        exact vLocal_nonneg hf ht hv _ _ h1 _) m0 m1 b0 b1 r1 lv ls lo lq lx lp la hN
    unfold simulateDir
    simp only [bind_ok_iff]
    refine ⟨⟨o.building, o.spaces, o.boundaries⟩, by rw [c0]; rfl, h, Hr', _, ?_, q, ?_, x, ?_, p, ?_, a, ?_, _, ?_, _, ?_, r, hres, trivial⟩
    · rw [c1]; exact readSheet_rows (rowsOf_width _ (by rw [List.length_map, hz.schedules, hz.rooms]))
    · rw [c2]; exact readSheet_rows (by rw [hz.rooms]; exact wq)
    · rw [c3]; exact readSheet_rows (by rw [hz.rooms]; exact wx)
    · rw [c4]; exact readSheet_rows (by rw [hz.rooms]; exact wp)
    · rw [c5]; exact readSheet_rows (by rw [hz.rooms]; exact wa)
    · rw [c6]; exact readSheet_rows (rowsOfSeries_width _ (by rw [hz.solar, hz.rooms]))
    · rw [c7]; exact readSheet_rows (rowsOfSeries_width _ (by rw [hz.outdoor, hz.parts]))
  have wide : ∀ g : Compiled → Fin 35040 → ℝ, ∀ r ∈ rowsOf (o.schedules.map g), r.length = d.rooms.length := fun g =>
    rowsOf_width _ (by rw [List.length_map, hz.schedules])
  have long : ∀ g : Compiled → Fin 35040 → ℝ, (rowsOf (o.schedules.map g)).length ≤ 35040 ∧ dMain * 96 ≤ (rowsOf (o.schedules.map g)).length ∧
      dB * 96 ≤ (rowsOf (o.schedules.map g)).length := fun g => by
    rw [rowsOf_length]
    refine ⟨le_rfl, ?_, ?_⟩ <;> push_cast <;> omega
  have new : rows.length ≤ 35040 ∧ dMain * 96 ≤ rows.length ∧ dB * 96 ≤ rows.length := ⟨hlen, hlm, hlb'⟩
  rcases hname with rfl | rfl | rfl | rfl
  · refine sheet _ _ _ _ hrows (wide Compiled.xGen) (wide Compiled.nHum) (wide Compiled.acDemand) new (long _) (long _) (long _)
      (hN.imp_right fun l => ⟨l, rowsOf_length _, rowsOf_length _, rowsOf_length _⟩) _ ?_ ?_ ?_ ?_ ?_ ?_ ?_ ?_ <;>
      simp [Function.update, d0, d1, d3, d4, d5, d6, d7]
  · refine sheet _ _ _ _ (wide Compiled.qGen) hrows (wide Compiled.nHum) (wide Compiled.acDemand) (long _) new (long _) (long _)
      (hN.imp_right fun l => ⟨rowsOf_length _, l, rowsOf_length _, rowsOf_length _⟩) _ ?_ ?_ ?_ ?_ ?_ ?_ ?_ ?_ <;>
      simp [Function.update, d0, d1, d2, d4, d5, d6, d7]
  · refine sheet _ _ _ _ (wide Compiled.qGen) (wide Compiled.xGen) hrows (wide Compiled.acDemand) (long _) (long _) new (long _)
      (hN.imp_right fun l => ⟨rowsOf_length _, rowsOf_length _, l, rowsOf_length _⟩) _ ?_ ?_ ?_ ?_ ?_ ?_ ?_ ?_ <;>
      simp [Function.update, d0, d1, d2, d3, d5, d6, d7]
  · refine sheet _ _ _ _ (wide Compiled.qGen) (wide Compiled.xGen) (wide Compiled.nHum) hrows (long _) (long _) (long _) new
      (hN.imp_right fun l => ⟨rowsOf_length _, rowsOf_length _, rowsOf_length _, l⟩) _ ?_ ?_ ?_ ?_ ?_ ?_ ?_ ?_ <;>
      simp [Function.update, d0, d1, d2, d3, d4, d6, d7]

/-- The example house: with a table of demand of 20 days, or with a table of any contents for the year, it is calculated for 10 days after a run-up of 15 days;
with the table of 20 days the year is refused. -/
theorem C133_directory_example (hr : IsRounding rnd) (hw : w.length = 35040) (temp hum : Fin 35040 → ℝ) (dir : Dir) :
    ∃ solve, (∀ rows : List (List ℝ), (∀ r ∈ rows, r.length = 1) → rows.length = 1920 →
      simulateDir solve temp hum 4 10 15 15
        (Function.update ((makeHouseRun rnd w exSchedule [.float 72] (exInput false exUnit)).final dir) .acDemand (some (.table rows))) = .ok () ∧
      simulateDir solve temp hum 4 365 15 15
        (Function.update ((makeHouseRun rnd w exSchedule [.float 72] (exInput false exUnit)).final dir) .acDemand (some (.table rows))) ≠ .ok ()) ∧
      ∀ rows : List (List ℝ), (∀ r ∈ rows, r.length = 1) → rows.length = 35040 →
      simulateDir solve temp hum 4 365 183 15
        (Function.update ((makeHouseRun rnd w exSchedule [.float 72] (exInput false exUnit)).final dir) .acDemand (some (.table rows))) = .ok () := by
  have hv : Written [.float 72] (exInput false exUnit) := by simp [Written, exInput, JNum.value]
  obtain ⟨o', ho'⟩ := exInput_accepted rnd w false exUnit exUnit_known
  obtain ⟨o, h, ho, hh, H⟩ := C133_directory_violated (vols := [.float 72]) (f := exSchedule) hw hv
    (by rw [run_point hv ⟨_, List.mem_cons_self, rfl⟩ ho']) dir hr exSchedule_days
    (exInput_complete false) (exInput_physical false)
    (fun r _ => ⟨exTables, exSchedule_room _, fun _ _ _ => le_refl _⟩)
    (fun r hr => by simp only [exInput, List.mem_cons, List.not_mem_nil, or_false] at hr; subst hr; decide)
    (fun o _ h _ j b hb hn => by
      exfalso
      apply hn
      have := List.mem_of_getElem? hb
      simp only [exInput, List.mem_cons, List.not_mem_nil, or_false] at this
      rcases this with rfl | rfl <;> exact Or.inr rfl)
  obtain ⟨solve, hsol⟩ := exists_solver
  have hpos : ∀ j, 0 < h.area j := by
    intro j
    obtain ⟨h', e, -, hlb, -, hpart, -⟩ := C72_read_back_partial rnd hr w _ _ (exInput_complete false) o ho
    cases hh.symm.trans e
    have hj : j.1 < (exInput false exUnit).boundaries.length := hlb ▸ j.2
    rw [(hpart j _ (List.getElem?_eq_getElem hj)).area]
    exact (exInput_complete false).area _ (List.getElem_mem hj)
  have hs := solvesRooms_of hsol h.room hpos
  refine ⟨solve, fun rows h1 h2 => ⟨?_, fun hc => ?_⟩, fun rows h1 h2 => ?_⟩
  · exact H temp hum solve hs 10 15 15 .acDemand rows (by norm_num) (by norm_num) (by norm_num) (by norm_num) (by norm_num) (.inr (.inr (.inr rfl))) h1
      (by omega) (by omega) (by omega) (.inl (by norm_num))
  · have := (C133_directory_refused _ _ _ _ _ _ _ _ hc .acDemand rows (by simp)).1
    omega
  · exact H temp hum solve hs 365 183 15 .acDemand rows (by norm_num) (by norm_num) (by norm_num) (by norm_num) (by norm_num) (.inr (.inr (.inr rfl))) h1
      (by omega) (by omega) (by omega) (.inr h2)

end Init

end HLC
