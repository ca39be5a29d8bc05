import Verif.Props.AnyWidth

/-!
# C124: runs stopped between two files, when the old house had one part

With the same number of rooms, the calculation completes the directory of a house of one part: the temperature behind that part is used for all parts.
-/

namespace HLC.Init
open HLC.Spec

variable {rnd : ℕ → ℝ → ℝ} {f : ScheduleFile} {d₀ d₁ : Input}

theorem zip_column {β : Type} (p : Prop) [Decidable p] (c : Compiled → β) (g : Compiled → Compiled → Compiled)
    (hg : ∀ a b, c (g a b) = if p then c b else c a) : ∀ l l' : List Compiled, l.length = l'.length →
      (List.zipWith g l l').map c = (if p then l' else l).map c
  | [], [], _ => by simp
  | a :: l, b :: l', h => by
    have ih := zip_column p c g hg l l' (by simpa using h)
    split_ifs at ih ⊢ with hp
    · simp [hg, hp, ih]
    · simp [hg, hp, ih]
  | [], _ :: _, h => by simp at h
  | _ :: _, [], h => by simp at h

/-- **C124 violated (stopped between two files, any number of parts).** Let the two houses have equally many rooms, and the second run be stopped after `k`
of its eight files. If the first house has as many parts, or one part, the calculation uses the first `k` files of the new input and the others of the old
one; the temperature behind the one part is used for all parts. (For other numbers of parts see `C124_parts_refused`, for other numbers of rooms
`C124_rooms_refused` and `C124_last_violated`: all runs stopped between two files are covered.) -/
theorem C124_between_violated {w₀ w₁ : List Step} {vols₀ vols₁ : List JNum} (hw₀ : w₀.length = 35040) (hw₁ : w₁.length = 35040) (hv₀ : Written vols₀ d₀)
    (hv₁ : Written vols₁ d₁) (H₀ : (makeHouseRun rnd w₀ f vols₀ d₀).result = .ok ()) (H₁ : (makeHouseRun rnd w₁ f vols₁ d₁).result = .ok ())
    (hrooms : d₀.rooms.length = d₁.rooms.length) (k : ℕ) (h1 : 1 ≤ k) (h7 : k ≤ 7) :
    ∃ o₀ o₁, makeHouse rnd w₀ f d₀ = .ok o₀ ∧ makeHouse rnd w₁ f d₁ = .ok o₁ ∧ ∀ (dir : Dir) (solve : List ℝ → ℝ) (temp hum : Fin 35040 → ℝ)
      (hourly dMain dRunUp dRunUpBuild : ℤ) (dir' : Dir),
      dir' = (makeHouseRun rnd w₁ f vols₁ d₁).after (2 * k) ((makeHouseRun rnd w₀ f vols₀ d₀).final dir) →
      (d₀.boundaries.length = d₁.boundaries.length → calcAny rnd solve temp hum hourly dMain dRunUp dRunUpBuild dir' =
        calcFiles rnd solve temp hum hourly dMain dRunUp dRunUpBuild (firstFiles k o₀ o₁)) ∧
      (∀ s, o₀.thetaOSol = [s] → calcAny rnd solve temp hum hourly dMain dRunUp dRunUpBuild dir' =
        calcFiles rnd solve temp hum hourly dMain dRunUp dRunUpBuild
          { firstFiles k o₀ o₁ with thetaOSol := List.replicate d₁.boundaries.length s }) := by
  obtain ⟨o₀, ho₀, e₀⟩ := run_ok hv₀ H₀
  obtain ⟨o₁, ho₁, e₁⟩ := run_ok hv₁ H₁
  have z₀ := makeHouse_sizes hw₀ ho₀
  have z₁ := makeHouse_sizes hw₁ ho₁
  refine ⟨o₀, o₁, ho₀, ho₁, fun dir solve temp hum hourly dMain dRunUp dRunUpBuild dir' hd => ?_⟩
  obtain ⟨a0, a1, a2, a3, a4, a5, a6, a7⟩ := stopped_dir dir e₀ e₁ k (by omega)
  rw [← hd] at a0 a1 a2 a3 a4 a5 a6 a7
  rw [if_pos h1] at a0
  rw [if_neg (by omega)] at a7
  have hl : o₀.schedules.length = o₁.schedules.length := by rw [z₀.schedules, z₁.schedules, hrooms]
  have hs : (firstFiles k o₀ o₁).schedules.length = o₁.spaces.length := by
    show (List.zipWith _ o₀.schedules o₁.schedules).length = _
    rw [List.length_zipWith, hl, Nat.min_self, z₁.schedules, z₁.rooms]
  have hmap : ∀ (p : Prop) [Decidable p] (c : Compiled → Fin 35040 → ℝ), (if p then o₁ else o₀).schedules.map c = (if p then o₁.schedules else o₀.schedules).map c := by
    intro p _ c
    split_ifs <;> rfl
  have c1 : (if 2 ≤ k then o₁ else o₀).schedules.map Compiled.vLocal = (firstFiles k o₀ o₁).schedules.map Compiled.vLocal := by
    rw [hmap]
    exact (zip_column (2 ≤ k) Compiled.vLocal _ (fun a b => rfl) _ _ hl).symm
  have c2 : (if 3 ≤ k then o₁ else o₀).schedules.map Compiled.qGen = (firstFiles k o₀ o₁).schedules.map Compiled.qGen := by
    rw [hmap]
    exact (zip_column (3 ≤ k) Compiled.qGen _ (fun a b => rfl) _ _ hl).symm
  have c3 : (if 4 ≤ k then o₁ else o₀).schedules.map Compiled.xGen = (firstFiles k o₀ o₁).schedules.map Compiled.xGen := by
    rw [hmap]
    exact (zip_column (4 ≤ k) Compiled.xGen _ (fun a b => rfl) _ _ hl).symm
  have c4 : (if 5 ≤ k then o₁ else o₀).schedules.map Compiled.nHum = (firstFiles k o₀ o₁).schedules.map Compiled.nHum := by
    rw [hmap]
    exact (zip_column (5 ≤ k) Compiled.nHum _ (fun a b => rfl) _ _ hl).symm
  have c5 : (if 6 ≤ k then o₁ else o₀).schedules.map Compiled.acDemand = (firstFiles k o₀ o₁).schedules.map Compiled.acDemand := by
    rw [hmap]
    exact (zip_column (6 ≤ k) Compiled.acDemand _ (fun a b => rfl) _ _ hl).symm
  have c6 : (if 7 ≤ k then o₁ else o₀).qTrsSol = (firstFiles k o₀ o₁).qTrsSol := by
    show _ = if 7 ≤ k then o₁.qTrsSol else o₀.qTrsSol
    split_ifs <;> rfl
  rw [c1] at a1
  rw [c2] at a2
  rw [c3] at a3
  rw [c4] at a4
  rw [c5] at a5
  rw [c6] at a6
  have hq : (firstFiles k o₀ o₁).qTrsSol.length = o₁.spaces.length := by
    rw [← c6]
    split_ifs
    · rw [z₁.solar, z₁.rooms]
    · rw [z₀.solar, z₁.rooms, hrooms]
  have hy : ∀ l ∈ (firstFiles k o₀ o₁).qTrsSol, l.length = 35040 := by
    rw [← c6]
    split_ifs
    · exact z₁.solarYear
    · exact z₀.solarYear
  obtain ⟨t, ht, ht'⟩ := readColumns_series o₀.thetaOSol (by rw [z₀.outdoor]; exact z₀.parts_pos) z₀.outdoorYear
  have key := fun t' => calcAny_eq (rnd := rnd) (solve := solve) (temp := temp) (hum := hum) (hourly := hourly) (dMain := dMain) (dRunUp := dRunUp)
    (dRunUpBuild := dRunUpBuild) (t' := t') (o := firstFiles k o₀ o₁) hs hq
    (by have := z₁.rooms_pos; rw [← z₁.rooms] at this; exact this) hy a0 a1 a2 a3 a4 a5 a6 (by rw [a7]; exact ht)
  have htl : t.length = d₀.boundaries.length := by rw [← z₀.outdoor, ← ht', List.length_map]
  have f1 : (firstFiles k o₀ o₁).building = o₁.building := if_pos h1
  have f2 : (firstFiles k o₀ o₁).spaces = o₁.spaces := if_pos h1
  have f3 : (firstFiles k o₀ o₁).boundaries = o₁.boundaries := if_pos h1
  have f4 : (firstFiles k o₀ o₁).thetaOSol = o₀.thetaOSol := if_neg (by omega)
  have feq : ∀ l, ({ building := o₁.building
                     spaces := o₁.spaces
                     boundaries := o₁.boundaries
                     schedules := (firstFiles k o₀ o₁).schedules
                     qTrsSol := (firstFiles k o₀ o₁).qTrsSol
                     thetaOSol := l } : Output) = { firstFiles k o₀ o₁ with thetaOSol := l } := by
    intro l
    rw [← f1, ← f2, ← f3]
  constructor
  · intro hp
    rw [key t (spread_same (by rw [htl, hp]; exact z₁.parts.symm)), ht', feq, ← f4]
  · intro s hs
    rw [hs] at ht'
    obtain ⟨c, rfl⟩ : ∃ c, t = [c] := List.length_eq_one_iff.1 (by rw [← List.length_map (f := List.ofFn), ht']; rfl)
    have hc : List.ofFn c = s := (List.cons.inj ht').1
    rw [key (List.replicate d₁.boundaries.length c) ?_, List.map_replicate, hc, feq]
    show spread o₁.boundaries.length [c] = _
    rw [z₁.parts]
    unfold spread
    split_ifs with h1 h2
    · rw [← h1]; rfl
    · rfl
    · exact absurd rfl h2

/-- The example house without its floor. -/
noncomputable def exOnePart : Input where
  building := (exInput false exUnit).building
  rooms := (exInput false exUnit).rooms
  boundaries := [⟨1, "wall", 0, "external_opaque_part", 100, some false, some 1, none, none, false, false, none, 0.15, 2, none, none, none,
    some ⟨false, none, none, none, none, none⟩, none, none, some 2, none⟩]

theorem exOnePart_accepted (rnd : ℕ → ℝ → ℝ) (w : List Step) {f : ScheduleFile} (hf : KnownDays f) {tm : RoomTables}
    (hm : HasRoom f "main_occupant_room" tm) : ∃ o, makeHouse rnd w f exOnePart = .ok o := by
  obtain ⟨ss, hss⟩ := (C51_accepted_iff_partial exOnePart.rooms).1.2 (exInput_rooms false exUnit exUnit_known _)
  obtain ⟨c, hcomp⟩ := C42_total f hf "main_occupant_room" tm hm (exOnePart.rooms.map RoomDict.floorArea).sum 30
  have hsch : (exOnePart.rooms.mapM fun x => compiled f (residents (exOnePart.rooms.map RoomDict.floorArea).sum) x.name x.floorArea) = .ok [c] := by
    rw [mapM_ok_iff]
    exact List.Forall₂.cons hcomp List.Forall₂.nil
  obtain ⟨y, hxy, hy, ly, ty⟩ : ∃ y : Bs, exOnePart.boundaries.mapM (getBoundarySimple w) = .ok [y] ∧ y.room = 0 ∧ y.qTrsSol.length = 35040 ∧
      y.bType = .opaquePart := by
    have h1 : ∃ y : Bs, getBoundarySimple w (exOnePart.boundaries[0]'Nat.zero_lt_one) = .ok y ∧ y.room = 0 ∧ y.qTrsSol.length = 35040 ∧
        y.bType = .opaquePart := by
      simp only [exOnePart, List.getElem_cons_zero]
      simp [getBoundarySimple, BType.ofString, readSun, isExternal, readHtd, readNextRoom, readRear, readDirection, readHi, Shading.create,
        shadingSunStruck, EqvTemp.create, EqvTemp.series, Transmission.create, Transmission.series, key, bind, Except.bind, -List.reduceReplicate,
        show (0.15 : ℝ) ≠ 0 by norm_num]
    obtain ⟨y, ey, y1, y2, y3⟩ := h1
    exact ⟨y, mapM_ok_iff.2 (List.Forall₂.cons ey List.Forall₂.nil), y1, y2, y3⟩
  obtain ⟨q, hq⟩ : ∃ q, roomSolar [y] exOnePart.rooms.length = .ok q := by
    refine ⟨[y.qTrsSol], ?_⟩
    unfold roomSolar
    rw [mapM_ok_iff]
    refine List.Forall₂.cons ?_ List.Forall₂.nil
    simp [hy, sumSeries]
  obtain ⟨bj, hbj⟩ : ∃ bj, makeBoundaries rnd exOnePart.rooms exOnePart.boundaries [y] = .ok bj := by
    unfold makeBoundaries
    have h1 : checkParts exOnePart.rooms [y] = .ok () := by
      unfold checkParts
      rw [if_pos]
      intro i hi
      rw [List.mem_range] at hi
      have : i = 0 := by have : i < 1 := hi; omega
      exact ⟨y, by simp, by rw [hy, this]; rfl⟩
    obtain ⟨sp, hsp⟩ : ∃ sp, ((exOnePart.boundaries.zip [y]).mapM fun p => boundarySpec p.1 p.2.bType) = .ok sp := by
      refine ⟨[.uValue "external_opaque_part" 2 0.15], ?_⟩
      rw [mapM_ok_iff]
      refine List.Forall₂.cons ?_ List.Forall₂.nil
      simp [boundarySpec, ty, key, bind, Except.bind, BType.value]
    simp only [bind_ok_iff]
    exact ⟨_, (), h1, sp, hsp, rfl⟩
  have hbd : makeBuilding exOnePart.building = .ok ⟨"balance_residential", 2, 2, "balanced"⟩ := by
    simp [makeBuilding, exInput, exOnePart]
  unfold makeHouse
  simp only [bind_ok_iff]
  exact ⟨_, _, hxy, _, hq, _, hsch, _, hbd, _, hss, _, hbj, rfl⟩

/-- The hypotheses are met, with any weather of a year: the first run is for the example house without its floor, the second for the whole house; stopped
after any number of files but all, the calculation has one temperature behind both parts, that of the old wall. -/
theorem C124_between_example (rnd : ℕ → ℝ → ℝ) (w : List Step) (hw : w.length = 35040) (k : ℕ) (h1 : 1 ≤ k) (h7 : k ≤ 7) (dir : Dir) (solve : List ℝ → ℝ)
    (temp hum : Fin 35040 → ℝ) (hourly dMain dRunUp dRunUpBuild : ℤ) :
    ∃ o₀ o₁ s, makeHouse rnd w exAsk exOnePart = .ok o₀ ∧ makeHouse rnd w exAsk (exInput false exUnit) = .ok o₁ ∧ o₀.thetaOSol = [s] ∧
      calcAny rnd solve temp hum hourly dMain dRunUp dRunUpBuild ((makeHouseRun rnd w exAsk [.float 72] (exInput false exUnit)).after (2 * k)
        ((makeHouseRun rnd w exAsk [.float 72] exOnePart).final dir)) =
      calcFiles rnd solve temp hum hourly dMain dRunUp dRunUpBuild { firstFiles k o₀ o₁ with thetaOSol := [s, s] } := by
  obtain ⟨o₀, h₀⟩ := exOnePart_accepted rnd w exSchedule_days (f := exAsk) (exAsk_room _)
  obtain ⟨o₁, h₁⟩ := exInput_accepted_any rnd w exSchedule_days (f := exAsk) (exAsk_room _) false exUnit exUnit_known
  have hv₀ : Written [.float 72] exOnePart := by simp [Written, exOnePart, exInput, JNum.value]
  have hv₁ : Written [.float 72] (exInput false exUnit) := by simp [Written, exInput, JNum.value]
  obtain ⟨p₀, p₁, q₀, q₁, H⟩ := C124_between_violated hw hw hv₀ hv₁ (by rw [run_point hv₀ ⟨_, List.mem_cons_self, rfl⟩ h₀])
    (by rw [run_point hv₁ ⟨_, List.mem_cons_self, rfl⟩ h₁]) rfl k h1 h7
  obtain ⟨s, hs⟩ : ∃ s, p₀.thetaOSol = [s] := List.length_eq_one_iff.1 ((makeHouse_sizes hw q₀).outdoor)
  exact ⟨p₀, p₁, s, q₀, q₁, hs, (H dir solve temp hum hourly dMain dRunUp dRunUpBuild _ rfl).2 s hs⟩

end HLC.Init
