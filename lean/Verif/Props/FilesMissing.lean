import Verif.Props.Files

/-!
# C124: directories in which a file is missing
-/

set_option linter.unusedSectionVars false

namespace HLC.Init
open Spec

variable {rnd : ℕ → ℝ → ℝ} {w : List Step} {f : ScheduleFile} {vols : List JNum} {d : Input}

/-- **C124 (a file is missing).** The calculation refuses every directory in which one of the files is missing; without the house file it does so because
that file is not there. -/
theorem C124_missing (solve : List ℝ → ℝ) (temp hum : Fin 35040 → ℝ) (hourly dMain dRunUp dRunUpBuild : ℤ) (dir : Dir) {name : FileName}
    (hn : dir name = none) : (∃ e, calcDir rnd solve temp hum hourly dMain dRunUp dRunUpBuild dir = .error e) ∧
    (name = .house → calcDir rnd solve temp hum hourly dMain dRunUp dRunUpBuild dir = .error .exception) := by
  constructor
  · cases H : calcDir rnd solve temp hum hourly dMain dRunUp dRunUpBuild dir with
    | error e => exact ⟨e, rfl⟩
    | ok r =>
      exfalso
      unfold calcDir Dir.read at H
      simp only [bind_ok_iff] at H
      obtain ⟨o, ⟨h, h0, v, h1, q, h2, x, h3, p, h4, a, h5, s, h6, t, h7, -⟩, -⟩ := H
      cases name
      · rw [hn] at h0; cases h0
      · rw [hn] at h1; cases h1
      · rw [hn] at h2; cases h2
      · rw [hn] at h3; cases h3
      · rw [hn] at h4; cases h4
      · rw [hn] at h5; cases h5
      · rw [hn] at h6; cases h6
      · rw [hn] at h7; cases h7
  · rintro rfl
    unfold calcDir Dir.read
    rw [hn]
    rfl

/-- Files that are there are whole, and one is not there: the first of those is what the reader complains about. -/
theorem read_none {dir : Dir} {h : HouseFile} (e0 : dir .house = none ∨ dir .house = some (.house h))
    (es : ∀ name, name ≠ .house → name ≠ .thetaOSol → dir name = none ∨ ∃ c, readTable h.spaces.length (dir name) = .ok c)
    (e7 : dir .thetaOSol = none) : dir.read = .error .exception := by
  unfold Dir.read
  rcases e0 with e0 | e0
  · rw [e0]; rfl
  rw [e0]
  change (do
    let v ← readTable h.spaces.length (dir .localVent)
    _) = _
  rcases es .localVent (by decide) (by decide) with e | ⟨c1, e⟩
  · rw [e]; rfl
  rw [e]
  rcases es .heatGeneration (by decide) (by decide) with e | ⟨c2, e⟩
  · simp only [bind, Except.bind, e]; rfl
  rcases es .moistureGeneration (by decide) (by decide) with e' | ⟨c3, e'⟩
  · simp only [bind, Except.bind, e, e']; rfl
  rcases es .occupants (by decide) (by decide) with e1 | ⟨c4, e1⟩
  · simp only [bind, Except.bind, e, e', e1]; rfl
  rcases es .acDemand (by decide) (by decide) with e2 | ⟨c5, e2⟩
  · simp only [bind, Except.bind, e, e', e1, e2]; rfl
  rcases es .qTrsSol (by decide) (by decide) with e3 | ⟨c6, e3⟩
  · simp only [bind, Except.bind, e, e', e1, e2, e3]; rfl
  simp only [bind, Except.bind, e, e', e1, e2, e3, e7]
  rfl

/-- **C124 (stopped in a new directory).** `make_house` in a directory without any of its files, stopped at any point before its last file is closed, leaves
a directory that the calculation refuses; between two files, because one of them is not there. -/
theorem C124_first (hw : w.length = 35040) (hv : Written vols d) (H : (makeHouseRun rnd w f vols d).result = .ok ()) (solve : List ℝ → ℝ)
    (temp hum : Fin 35040 → ℝ) (hourly dMain dRunUp dRunUpBuild : ℤ) (k : ℕ) (hk : k < 16) :
    (∃ e, calcDir rnd solve temp hum hourly dMain dRunUp dRunUpBuild ((makeHouseRun rnd w f vols d).after k fun _ => none) = .error e) ∧
    (Even k → calcDir rnd solve temp hum hourly dMain dRunUp dRunUpBuild ((makeHouseRun rnd w f vols d).after k fun _ => none) = .error .exception) := by
  obtain ⟨o, ho, e⟩ := run_ok hv H
  have hz := makeHouse_sizes hw ho
  generalize makeHouseRun rnd w f vols d = r at e
  constructor
  · by_cases h15 : k = 15
    · have h7 : (r.after k fun _ => none) .thetaOSol = some .torn := by
        subst h15
        simp [FileRun.after, e, contents, Effect.apply]
      cases Hc : calcDir rnd solve temp hum hourly dMain dRunUp dRunUpBuild (r.after k fun _ => none) with
      | error e => exact ⟨e, rfl⟩
      | ok out =>
        exfalso
        unfold calcDir Dir.read at Hc
        simp only [bind_ok_iff] at Hc
        obtain ⟨o, ⟨h, h0, v, h1, q, h2, x, h3, p, h4, a, h5, s, h6, t, h7', -⟩, -⟩ := Hc
        rw [h7] at h7'
        cases h7'
    · refine (C124_missing solve temp hum hourly dMain dRunUp dRunUpBuild _ (name := .thetaOSol) ?_).1
      have : k < 15 := by omega
      interval_cases k <;> simp [FileRun.after, e, contents, Effect.apply, Function.update]
  · rintro ⟨l, rfl⟩
    unfold calcDir
    have h1 : (r.after (l + l) fun _ => none) .thetaOSol = none := by
      have : l < 8 := by omega
      interval_cases l <;> simp [FileRun.after, e, contents, Effect.apply, Function.update]
    have h2 : (r.after (l + l) fun _ => none) .house = none ∨ (r.after (l + l) fun _ => none) .house = some (.house ⟨o.building, o.spaces, o.boundaries⟩) := by
      have : l < 8 := by omega
      interval_cases l <;> simp [FileRun.after, e, contents, Effect.apply, Function.update]
    have h3 : ∀ name, name ≠ .house → name ≠ .thetaOSol → (r.after (l + l) fun _ => none) name = none ∨
        (r.after (l + l) fun _ => none) name = (r.after 16 fun _ => none) name := by
      have : l < 8 := by omega
      intro name a b
      interval_cases l <;> cases name <;> simp_all [FileRun.after, contents, Effect.apply, Function.update]
    rw [read_none h2 (fun name a b => (h3 name a b).imp id fun h => ?_) h1]
    · rfl
    · rw [h]
      have hs : ∀ c : Compiled → Fin 35040 → ℝ, ∃ x, readTable o.spaces.length (some (.table (rowsOf (o.schedules.map c)))) = .ok x := fun c =>
        ⟨_, readTable_rowsOf _ (by rw [List.length_map, hz.schedules, hz.rooms])⟩
      have hq : ∃ x, readTable o.spaces.length (some (.table (rowsOfSeries o.qTrsSol))) = .ok x := by
        obtain ⟨c, hc, -⟩ := readTable_rowsOfSeries o.qTrsSol (n := o.spaces.length) (by rw [hz.solar, hz.rooms]) (by rw [hz.rooms]; exact hz.rooms_pos)
          hz.solarYear
        exact ⟨c, hc⟩
      cases name
      · exact absurd rfl a
      · simpa [FileRun.after, e, contents, Effect.apply, Function.update] using hs Compiled.vLocal
      · simpa [FileRun.after, e, contents, Effect.apply, Function.update] using hs Compiled.qGen
      · simpa [FileRun.after, e, contents, Effect.apply, Function.update] using hs Compiled.xGen
      · simpa [FileRun.after, e, contents, Effect.apply, Function.update] using hs Compiled.nHum
      · simpa [FileRun.after, e, contents, Effect.apply, Function.update] using hs Compiled.acDemand
      · simpa [FileRun.after, e, contents, Effect.apply, Function.update] using hq
      · exact absurd rfl b

end HLC.Init
