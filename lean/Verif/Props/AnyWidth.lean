import Verif.Model.AnyWidth
import Verif.Props.Files
import Verif.Props.RadiantInputs

/-!
# C124: interrupted runs for houses of other sizes
-/

set_option linter.unusedSectionVars false

namespace HLC.Init
open Spec

variable {rnd : ℕ → ℝ → ℝ} {f : ScheduleFile} {d₀ d₁ : Input} {o₀ o₁ : Output}

theorem readColumns_rowsOf (cols : List (Fin 35040 → ℝ)) : readColumns (some (.table (rowsOf cols))) = .ok cols := by
  have hl := rowsOf_length cols
  have hr : ∀ r ∈ rowsOf cols, r.length = cols.length := by
    intro r hr
    obtain ⟨t, rfl⟩ := List.mem_ofFn.1 hr
    rw [List.length_map]
  have hh : ((rowsOf cols).headD []).length = cols.length := by
    cases hc : rowsOf cols with
    | nil => rw [hc] at hl; simp at hl
    | cons a l =>
      rw [hc] at hr
      exact hr a List.mem_cons_self
  unfold readColumns
  have h1 : (rowsOf cols).length = 35040 ∧ ∀ r ∈ rowsOf cols, r.length = ((rowsOf cols).headD []).length := ⟨hl, fun r h => by rw [hh]; exact hr r h⟩
  simp only [if_pos h1]
  refine congrArg Except.ok (List.ext_getElem (by rw [List.length_ofFn, hh]) fun i hi hi' => ?_)
  rw [List.getElem_ofFn]
  funext t
  rw [rowsOf_get, getD_get (by rw [List.length_map]; exact hi'), List.getElem_map]

theorem series_rows (N : ℕ) (l : List (List ℝ)) : ((List.range N).map fun t => l.map fun s => s.getD t 0) =
    List.ofFn fun t : Fin N => (l.map fun s (t : Fin N) => s.getD t.1 0).map fun c => c t := by
  refine List.ext_getElem (by rw [List.length_map, List.length_range, List.length_ofFn]) fun i hi hi' => ?_
  rw [List.getElem_map, List.getElem_range, List.getElem_ofFn, List.map_map]
  rfl

theorem series_cols (N : ℕ) (l : List (List ℝ)) (hl : ∀ s ∈ l, s.length = N) : (l.map fun s (t : Fin N) => s.getD t.1 0).map List.ofFn = l := by
  rw [List.map_map]
  refine List.ext_getElem (by rw [List.length_map]) fun i hi hi' => ?_
  have h1 := hl _ (List.getElem_mem hi')
  rw [List.getElem_map]
  refine List.ext_getElem (by rw [Function.comp_apply, List.length_ofFn, h1]) fun t ht ht' => ?_
  simp only [Function.comp_apply, List.getElem_ofFn]
  exact getD_get ht'

theorem readColumns_series (l : List (List ℝ)) (hn : 0 < l.length) (hl : ∀ s ∈ l, s.length = 35040) :
    ∃ cols, readColumns (some (.table (rowsOfSeries l))) = .ok cols ∧ cols.map List.ofFn = l := by
  have e : rowsOfSeries l = rowsOf (l.map fun s t => s.getD t.1 0) := by
    have h0 : (l.headD []).length = 35040 := by
      cases l with
      | nil => simp at hn
      | cons a l => exact hl a List.mem_cons_self
    unfold rowsOfSeries rowsOf
    rw [h0]
    exact series_rows 35040 l
  rw [e]
  exact ⟨_, readColumns_rowsOf _, series_cols 35040 l hl⟩

theorem ok_bind_eq {α β : Type} (a : α) (g : α → Except PyErr β) : (Except.ok a >>= g) = g a := rfl

theorem spread_inv {n : ℕ} {c c' : List (Fin 35040 → ℝ)} (h : spread n c = .ok c') :
    (c.length = n ∧ c' = c) ∨ (c.length = 1 ∧ c' = List.replicate n (c.headD fun _ => 0)) := by
  unfold spread at h
  split_ifs at h with h1 h2
  · exact .inl ⟨h1, (Except.ok.inj h).symm⟩
  · exact .inr ⟨h2, (Except.ok.inj h).symm⟩

theorem spread_same {n : ℕ} {c : List (Fin 35040 → ℝ)} (h : c.length = n) : spread n c = .ok c := by
  unfold spread
  rw [if_pos h]

section
variable {solve : List ℝ → ℝ} {temp hum : Fin 35040 → ℝ} {hourly dMain dRunUp dRunUpBuild : ℤ} {dir : Dir} {h : HouseFile}

/-- When the calculation completes on a directory, the tables fit the house. -/
theorem calcAny_widths {out} (H : calcAny rnd solve temp hum hourly dMain dRunUp dRunUpBuild dir = .ok out) {s t : List (Fin 35040 → ℝ)}
    (hh : dir .house = some (.house h)) (hs : readColumns (dir .qTrsSol) = .ok s) (ht : readColumns (dir .thetaOSol) = .ok t)
    (hn : 0 < h.spaces.length) : s.length = h.spaces.length ∧ (t.length = h.boundaries.length ∨ t.length = 1) := by
  unfold calcAny at H
  simp only [bind_ok_iff] at H
  obtain ⟨h', e0, v, -, q, -, x, -, p, -, a, -, s₁, e6, t₁, e7, v', -, s', e8, t', e9, q', -, x', -, p', -, a', -, H⟩ := H
  rw [hh] at e0
  cases e0
  cases hs.symm.trans e6
  cases ht.symm.trans e7
  split_ifs at H with hc
  refine ⟨?_, (spread_inv e9).imp And.left And.left⟩
  rcases spread_inv e8 with ⟨h1, -⟩ | ⟨h1, -⟩
  · exact h1
  · by_contra h2
    exact hc ⟨by omega, .inr (.inl h1)⟩

/-- A directory whose tables fit the house, except perhaps the last. -/
theorem calcAny_eq {o : Output} (hz : o.schedules.length = h.spaces.length) (hq : o.qTrsSol.length = h.spaces.length)
    (hn : 0 < h.spaces.length) (hl : ∀ l ∈ o.qTrsSol, l.length = 35040) (e0 : dir .house = some (.house h))
    (e1 : dir .localVent = some (.table (rowsOf (o.schedules.map Compiled.vLocal))))
    (e2 : dir .heatGeneration = some (.table (rowsOf (o.schedules.map Compiled.qGen))))
    (e3 : dir .moistureGeneration = some (.table (rowsOf (o.schedules.map Compiled.xGen))))
    (e4 : dir .occupants = some (.table (rowsOf (o.schedules.map Compiled.nHum))))
    (e5 : dir .acDemand = some (.table (rowsOf (o.schedules.map Compiled.acDemand))))
    (e6 : dir .qTrsSol = some (.table (rowsOfSeries o.qTrsSol))) {t t' : List (Fin 35040 → ℝ)} (e7 : readColumns (dir .thetaOSol) = .ok t)
    (e8 : spread h.boundaries.length t = .ok t') :
    calcAny rnd solve temp hum hourly dMain dRunUp dRunUpBuild dir = calcFiles rnd solve temp hum hourly dMain dRunUp dRunUpBuild
      { building := h.building
        spaces := h.spaces
        boundaries := h.boundaries
        schedules := o.schedules
        qTrsSol := o.qTrsSol
        thetaOSol := t'.map List.ofFn } := by
  obtain ⟨s, hs, hs'⟩ := readColumns_series o.qTrsSol (by omega) hl
  have hsl : s.length = h.spaces.length := by rw [← hq, ← hs', List.length_map]
  have hw : ∀ c : Compiled → Fin 35040 → ℝ, spread h.spaces.length (o.schedules.map c) = .ok (o.schedules.map c) := fun c =>
    spread_same (by rw [List.length_map, hz])
  unfold calcAny
  rw [e0, e1, e2, e3, e4, e5, e6, e7]
  simp only [readHouseFile, readColumns_rowsOf, hs, ok_bind_eq, hw, spread_same hsl, e8, List.length_map, hz, hsl]
  rw [if_neg (by omega)]
  congr 1
  congr 1
  refine List.ext_getElem (by rw [List.length_ofFn, hz]) fun i hi hi' => ?_
  rw [List.getElem_ofFn]
  have hg : ∀ c : Compiled → Fin 35040 → ℝ, ((o.schedules.map c).getD i fun _ => 0) = c (o.schedules[i]) := fun c => by
    rw [List.getD_eq_getElem?_getD, List.getElem?_map, List.getElem?_eq_getElem hi']
    rfl
  simp only [hg]

/-- On directories with tables of the right sizes nothing is new. -/
theorem C124_widths {n m : ℕ} {o : Output} (hz : Sizes n m o) {r : FileRun}
    (e : r.effects = (contents ⟨o.building, o.spaces, o.boundaries⟩ o).flatMap fun c => [.opened c.1, .closed c.1 c.2]) :
    calcAny rnd solve temp hum hourly dMain dRunUp dRunUpBuild (r.final dir) = calcDir rnd solve temp hum hourly dMain dRunUp dRunUpBuild (r.final dir) := by
  have hf := stopped_dir dir e e 0 (by decide)
  simp only [ite_self] at hf
  obtain ⟨d0, d1, d2, d3, d4, d5, d6, d7⟩ := hf
  have e0 : r.after (2 * 0) (r.final dir) = r.final dir := rfl
  rw [e0] at d0 d1 d2 d3 d4 d5 d6 d7
  obtain ⟨t, ht, ht'⟩ := readColumns_series o.thetaOSol (by rw [hz.outdoor]; exact hz.parts_pos) hz.outdoorYear
  have htl : t.length = o.boundaries.length := by rw [hz.parts, ← hz.outdoor, ← ht', List.length_map]
  rw [calcAny_eq (o := o) (by rw [hz.schedules, ← hz.rooms]) (by rw [hz.solar, ← hz.rooms]) (by rw [hz.rooms]; exact hz.rooms_pos) hz.solarYear
    d0 d1 d2 d3 d4 d5 d6 (by rw [d7]; exact ht) (spread_same htl), ht']
  unfold calcDir
  rw [final_read hz dir e]
  rfl

end

section
variable {w₀ w₁ : List Step} {vols₀ vols₁ : List JNum}

/-- **C124 (stopped between two files, another number of rooms).** Let a complete run for one input be followed by a run for an input with another number of
rooms. Stopped before the table of the sun is written, the second leaves a directory that the calculation refuses. -/
theorem C124_rooms_refused (hw₀ : w₀.length = 35040) (hw₁ : w₁.length = 35040) (hv₀ : Written vols₀ d₀) (hv₁ : Written vols₁ d₁)
    (H₀ : (makeHouseRun rnd w₀ f vols₀ d₀).result = .ok ()) (H₁ : (makeHouseRun rnd w₁ f vols₁ d₁).result = .ok ())
    (hrooms : d₀.rooms.length ≠ d₁.rooms.length) (dir : Dir) (k : ℕ) (h1 : 1 ≤ k) (h6 : k ≤ 6) (solve : List ℝ → ℝ) (temp hum : Fin 35040 → ℝ)
    (hourly dMain dRunUp dRunUpBuild : ℤ) : ∃ e, calcAny rnd solve temp hum hourly dMain dRunUp dRunUpBuild
      ((makeHouseRun rnd w₁ f vols₁ d₁).after (2 * k) ((makeHouseRun rnd w₀ f vols₀ d₀).final dir)) = .error e := by
  obtain ⟨o₀, ho₀, e₀⟩ := run_ok hv₀ H₀
  obtain ⟨o₁, ho₁, e₁⟩ := run_ok hv₁ H₁
  have z₀ := makeHouse_sizes hw₀ ho₀
  have z₁ := makeHouse_sizes hw₁ ho₁
  obtain ⟨a0, -, -, -, -, -, a6, a7⟩ := stopped_dir dir e₀ e₁ k (by omega)
  rw [if_pos h1] at a0
  rw [if_neg (by omega)] at a6 a7
  obtain ⟨s, hs, hs'⟩ := readColumns_series o₀.qTrsSol (by rw [z₀.solar]; exact z₀.rooms_pos) z₀.solarYear
  obtain ⟨t, ht, -⟩ := readColumns_series o₀.thetaOSol (by rw [z₀.outdoor]; exact z₀.parts_pos) z₀.outdoorYear
  cases H : calcAny rnd solve temp hum hourly dMain dRunUp dRunUpBuild _ with
  | error e => exact ⟨e, rfl⟩
  | ok out =>
    have := (calcAny_widths H a0 (by rw [a6]; exact hs) (by rw [a7]; exact ht) (by rw [z₁.rooms]; exact z₁.rooms_pos)).1
    have h2 : s.length = d₀.rooms.length := by rw [← z₀.solar, ← hs', List.length_map]
    exact absurd (h2.symm.trans (this.trans z₁.rooms)) hrooms

/-- **C124 (stopped between two files, another number of parts).** As before, with another number of parts, if the first house had more than one: the
calculation refuses the directory until the last file has been written. -/
theorem C124_parts_refused (hw₀ : w₀.length = 35040) (hw₁ : w₁.length = 35040) (hv₀ : Written vols₀ d₀) (hv₁ : Written vols₁ d₁)
    (H₀ : (makeHouseRun rnd w₀ f vols₀ d₀).result = .ok ()) (H₁ : (makeHouseRun rnd w₁ f vols₁ d₁).result = .ok ())
    (hparts : d₀.boundaries.length ≠ d₁.boundaries.length) (hone : d₀.boundaries.length ≠ 1) (dir : Dir) (k : ℕ) (h1 : 1 ≤ k) (h7 : k ≤ 7)
    (solve : List ℝ → ℝ) (temp hum : Fin 35040 → ℝ) (hourly dMain dRunUp dRunUpBuild : ℤ) : ∃ e, calcAny rnd solve temp hum hourly dMain dRunUp dRunUpBuild
      ((makeHouseRun rnd w₁ f vols₁ d₁).after (2 * k) ((makeHouseRun rnd w₀ f vols₀ d₀).final dir)) = .error e := by
  obtain ⟨o₀, ho₀, e₀⟩ := run_ok hv₀ H₀
  obtain ⟨o₁, ho₁, e₁⟩ := run_ok hv₁ H₁
  have z₀ := makeHouse_sizes hw₀ ho₀
  have z₁ := makeHouse_sizes hw₁ ho₁
  obtain ⟨a0, -, -, -, -, -, a6, a7⟩ := stopped_dir dir e₀ e₁ k (by omega)
  rw [if_pos h1] at a0
  rw [if_neg (by omega)] at a7
  have hs : ∃ s, readColumns (some (.table (rowsOfSeries (if 7 ≤ k then o₁ else o₀).qTrsSol))) = .ok s := by
    split_ifs
    · obtain ⟨s, hs, -⟩ := readColumns_series o₁.qTrsSol (by rw [z₁.solar]; exact z₁.rooms_pos) z₁.solarYear
      exact ⟨s, hs⟩
    · obtain ⟨s, hs, -⟩ := readColumns_series o₀.qTrsSol (by rw [z₀.solar]; exact z₀.rooms_pos) z₀.solarYear
      exact ⟨s, hs⟩
  obtain ⟨s, hs⟩ := hs
  obtain ⟨t, ht, ht'⟩ := readColumns_series o₀.thetaOSol (by rw [z₀.outdoor]; exact z₀.parts_pos) z₀.outdoorYear
  cases H : calcAny rnd solve temp hum hourly dMain dRunUp dRunUpBuild _ with
  | error e => exact ⟨e, rfl⟩
  | ok out =>
    have := (calcAny_widths H a0 (by rw [a6]; exact hs) (by rw [a7]; exact ht) (by rw [z₁.rooms]; exact z₁.rooms_pos)).2
    have h2 : t.length = d₀.boundaries.length := by rw [← z₀.outdoor, ← ht', List.length_map]
    have h3 : t.length ≠ 1 := by rw [h2]; exact hone
    have h4 : t.length ≠ o₁.boundaries.length := by rw [h2, z₁.parts]; exact hparts
    exact absurd this (not_or.2 ⟨h4, h3⟩)

/-- **C124 violated (the last file is missing).** Stopped before the last file, whatever the numbers of rooms: if the first house has as many parts, the
calculation uses its outdoor temperatures for the parts of the second; if it has one part, the temperature behind that part for all of them. -/
theorem C124_last_violated (hw₀ : w₀.length = 35040) (hw₁ : w₁.length = 35040) (hv₀ : Written vols₀ d₀) (hv₁ : Written vols₁ d₁)
    (H₀ : (makeHouseRun rnd w₀ f vols₀ d₀).result = .ok ()) (H₁ : (makeHouseRun rnd w₁ f vols₁ d₁).result = .ok ()) :
    ∃ o₀ o₁, makeHouse rnd w₀ f d₀ = .ok o₀ ∧ makeHouse rnd w₁ f d₁ = .ok o₁ ∧ ∀ (dir : Dir) (solve : List ℝ → ℝ) (temp hum : Fin 35040 → ℝ)
      (hourly dMain dRunUp dRunUpBuild : ℤ) (dir' : Dir),
      dir' = (makeHouseRun rnd w₁ f vols₁ d₁).after 14 ((makeHouseRun rnd w₀ f vols₀ d₀).final dir) →
      (d₀.boundaries.length = d₁.boundaries.length → calcAny rnd solve temp hum hourly dMain dRunUp dRunUpBuild dir' =
        calcFiles rnd solve temp hum hourly dMain dRunUp dRunUpBuild { o₁ with thetaOSol := o₀.thetaOSol }) ∧
      (∀ s, o₀.thetaOSol = [s] → calcAny rnd solve temp hum hourly dMain dRunUp dRunUpBuild dir' =
        calcFiles rnd solve temp hum hourly dMain dRunUp dRunUpBuild { o₁ with thetaOSol := List.replicate d₁.boundaries.length s }) := by
  obtain ⟨o₀, ho₀, e₀⟩ := run_ok hv₀ H₀
  obtain ⟨o₁, ho₁, e₁⟩ := run_ok hv₁ H₁
  have z₀ := makeHouse_sizes hw₀ ho₀
  have z₁ := makeHouse_sizes hw₁ ho₁
  refine ⟨o₀, o₁, ho₀, ho₁, fun dir solve temp hum hourly dMain dRunUp dRunUpBuild dir' hd => ?_⟩
  obtain ⟨a0, a1, a2, a3, a4, a5, a6, a7⟩ := stopped_dir dir e₀ e₁ 7 (by decide)
  rw [show 2 * 7 = 14 from rfl, ← hd] at a0 a1 a2 a3 a4 a5 a6 a7
  simp only [show 1 ≤ 7 by decide, show 2 ≤ 7 by decide, show 3 ≤ 7 by decide, show 4 ≤ 7 by decide, show 5 ≤ 7 by decide, show 6 ≤ 7 by decide, le_refl,
    show ¬ 8 ≤ 7 by decide, if_true, if_false] at a0 a1 a2 a3 a4 a5 a6 a7
  obtain ⟨t, ht, ht'⟩ := readColumns_series o₀.thetaOSol (by rw [z₀.outdoor]; exact z₀.parts_pos) z₀.outdoorYear
  have key := fun t' => calcAny_eq (rnd := rnd) (solve := solve) (temp := temp) (hum := hum) (hourly := hourly) (dMain := dMain) (dRunUp := dRunUp)
    (dRunUpBuild := dRunUpBuild) (t' := t') (o := o₁) (by rw [z₁.schedules]; exact z₁.rooms.symm) (by rw [z₁.solar]; exact z₁.rooms.symm)
    (by have := z₁.rooms_pos; rw [← z₁.rooms] at this; exact this) z₁.solarYear a0 a1 a2 a3 a4 a5 a6 (by rw [a7]; exact ht)
  have htl : t.length = d₀.boundaries.length := by rw [← z₀.outdoor, ← ht', List.length_map]
  constructor
  · intro hp
    rw [key t (spread_same (by rw [htl, hp]; exact z₁.parts.symm)), ht']
  · intro s hs
    rw [hs] at ht'
    obtain ⟨c, rfl⟩ : ∃ c, t = [c] := List.length_eq_one_iff.1 (by rw [← List.length_map (f := List.ofFn), ht']; rfl)
    have hc : List.ofFn c = s := (List.cons.inj ht').1
    rw [key (List.replicate d₁.boundaries.length c) ?_, List.map_replicate, hc]
    show spread o₁.boundaries.length [c] = _
    rw [z₁.parts]
    unfold spread
    split_ifs with h1 h2
    · rw [← h1]; rfl
    · rfl
    · exact absurd rfl h2

/-- The hypotheses are met, with any weather: the example house has one room and two parts, the twin rooms have two and four. -/
example (rnd : ℕ → ℝ → ℝ) (w : List Step) : (makeHouseRun rnd w exAsk [.float 72] (exInput false exUnit)).result = .ok () ∧
    (makeHouseRun rnd w exAsk [.float 72, .float 72] exTwins).result = .ok () ∧ Written [.float 72] (exInput false exUnit) ∧
    Written [.float 72, .float 72] exTwins ∧ (exInput false exUnit).rooms.length ≠ exTwins.rooms.length ∧
    (exInput false exUnit).boundaries.length ≠ exTwins.boundaries.length ∧ (exInput false exUnit).boundaries.length ≠ 1 := by
  obtain ⟨o₀, h₀⟩ := exInput_accepted_any rnd w exSchedule_days (f := exAsk) (exAsk_room _) false exUnit exUnit_known
  obtain ⟨o₁, h₁⟩ := exTwins_accepted rnd w exSchedule_days (f := exAsk) (exAsk_room _) (exAsk_room _)
  have hv₀ : Written [.float 72] (exInput false exUnit) := by simp [Written, exInput, JNum.value]
  have hv₁ : Written [.float 72, .float 72] exTwins := by simp [Written, exTwins, JNum.value]
  exact ⟨by rw [run_point hv₀ ⟨_, List.mem_cons_self, rfl⟩ h₀], by rw [run_point hv₁ ⟨_, List.mem_cons_self, rfl⟩ h₁], hv₀, hv₁, by decide, by decide,
    by decide⟩

end
/-- **C124 (a file is missing, tables of any width).** The calculation refuses every directory in which one of the files is missing; without
the house file, and with it but without the table of local ventilation, because that file is not there. -/
theorem C124_widths_missing (rnd : ℕ → ℝ → ℝ) (solve : List ℝ → ℝ) (temp hum : Fin 35040 → ℝ) (hourly dMain dRunUp dRunUpBuild : ℤ) (dir : Dir)
    {name : FileName} (hn : dir name = none) : (∃ e, calcAny rnd solve temp hum hourly dMain dRunUp dRunUpBuild dir = .error e) ∧
    (name = .house → calcAny rnd solve temp hum hourly dMain dRunUp dRunUpBuild dir = .error .exception) ∧
    (∀ h, dir .house = some (.house h) → name = .localVent → calcAny rnd solve temp hum hourly dMain dRunUp dRunUpBuild dir = .error .exception) := by
  refine ⟨?_, ?_, ?_⟩
  · cases H : calcAny rnd solve temp hum hourly dMain dRunUp dRunUpBuild dir with
    | error e => exact ⟨e, rfl⟩
    | ok r =>
      exfalso
      unfold calcAny at H
      simp only [bind_ok_iff] at H
      obtain ⟨h, h0, v, h1, q, h2, x, h3, p, h4, a, h5, s, h6, t, h7, -⟩ := H
      cases name
      · rw [hn] at h0; cases h0
      · rw [hn] at h1; cases h1
      · rw [hn] at h2; cases h2
      · rw [hn] at h3; cases h3
      · rw [hn] at h4; cases h4
      · rw [hn] at h5; cases h5
      · rw [hn] at h6; cases h6
      · rw [hn] at h7; cases h7
  · rintro rfl
    unfold calcAny
    rw [hn]
    rfl
  · rintro h hh rfl
    unfold calcAny
    rw [hn, hh]
    rfl

/-- The hypothesis of `C124_widths_missing` is met by every directory from which a file was deleted. -/
example (rnd : ℕ → ℝ → ℝ) (solve : List ℝ → ℝ) (temp hum : Fin 35040 → ℝ) (dir : Dir) (name : FileName) :
    ∃ e, calcAny rnd solve temp hum 4 365 365 365 (Function.update dir name none) = .error e :=
  (C124_widths_missing rnd solve temp hum 4 365 365 365 _ (Function.update_self name none dir)).1

end HLC.Init
