import Verif.Model.Files
import Verif.Spec.Files
import Verif.Props.Pipeline
import Verif.Props.ResultDigest
import Verif.Props.Unheated

/-!
# Numbers as they are written and the files in the directory (C123, C124)
-/

namespace HLC.Init

open HLC.Spec

variable {rnd : ℕ → ℝ → ℝ} {w : List Step} {f : ScheduleFile} {d d₀ d₁ : Input} {o : Output} {vols vols' : List JNum}

/-! ## Series of a year -/

theorem series_length {b : BoundaryDict} {x : Bs} (hw : w.length = 35040) (H : getBoundarySimple w b = .ok x) :
    x.thetaOSol.length = 35040 ∧ x.qTrsSol.length = 35040 := by
  simp only [getBoundarySimple, bind_ok_iff] at H
  obtain ⟨t, ht, sun, hsun, htd, hhtd, nx, hnx, re, hre, dir, hdir, hI, hhI, p, hp, oe, hoe, th, hth, tr, htr, q, hq, e⟩ := H
  rw [← Except.ok.inj e]
  constructor
  · unfold EqvTemp.series at hth
    cases oe with
    | wall d a e' r =>
      simp only [bind_ok_iff] at hth
      obtain ⟨ab, -, hth⟩ := hth
      rw [← Except.ok.inj hth, List.length_map, hw]
    | window d e' r =>
      simp only [bind_ok_iff] at hth
      obtain ⟨ab, -, hth⟩ := hth
      rw [← Except.ok.inj hth, List.length_map, hw]
    | internal => rw [← Except.ok.inj hth, List.length_replicate]
    | notSunStruck => rw [← Except.ok.inj hth, List.length_map, hw]
    | ground => rw [← Except.ok.inj hth, List.length_replicate]
  · unfold Transmission.series at hq
    cases tr with
    | struck direction area sh g eta =>
      simp only [bind_ok_iff] at hq
      obtain ⟨ab, -, hq⟩ := hq
      rw [mapM_length hq, hw]
    | none => rw [← Except.ok.inj hq, List.length_replicate]

theorem makeHouse_rooms_pos (H : makeHouse rnd w f d = .ok o) : 0 < d.rooms.length := by
  obtain ⟨bss, hb, hq, hs, -, hss, -⟩ := makeHouse_inv H
  unfold makeSpaces at hss
  simp only [bind_ok_iff] at hss
  obtain ⟨⟨⟩, -, types, ht, ⟨⟩, hc, -⟩ := hss
  rw [← mapM_length ht]
  unfold checkOnce at hc
  split_ifs at hc with h1
  rw [not_ne_iff] at h1
  have := List.count_le_length (a := RoomType.main) (l := types)
  omega

/-- The sizes of what `make_house` writes. -/
structure Sizes (n m : ℕ) (o : Output) : Prop where
  rooms : o.spaces.length = n
  parts : o.boundaries.length = m
  rooms_pos : 0 < n
  parts_pos : 0 < m
  schedules : o.schedules.length = n
  solar : o.qTrsSol.length = n
  solarYear : ∀ l ∈ o.qTrsSol, l.length = 35040
  outdoor : o.thetaOSol.length = m
  outdoorYear : ∀ l ∈ o.thetaOSol, l.length = 35040

theorem makeHouse_sizes (hw : w.length = 35040) (H : makeHouse rnd w f d = .ok o) : Sizes d.rooms.length d.boundaries.length o := by
  obtain ⟨bss, hb, hq, hs, -, hss, hbj, hth⟩ := makeHouse_inv H
  obtain ⟨hl, -⟩ := makeSpaces_get hss
  obtain ⟨hlb, hlo, -⟩ := makeBoundaries_get hb hbj
  have hrooms := makeHouse_rooms_pos H
  have hqs : ∀ l ∈ o.qTrsSol, ∃ i, sumSeries ((bss.filter fun b => b.room = (i : ℤ)).map Bs.qTrsSol) = .ok l := by
    intro l hl'
    unfold roomSolar at hq
    obtain ⟨i, hi, rfl⟩ := List.mem_iff_getElem.1 hl'
    have hlq := mapM_length hq
    have := mapM_getElem hq (i := i) (by rw [← hlq]; exact hi)
    rw [List.getElem_range] at this
    exact ⟨_, this⟩
  have hbss : ∀ x ∈ bss, x.thetaOSol.length = 35040 ∧ x.qTrsSol.length = 35040 := by
    intro x hx
    obtain ⟨i, hi, rfl⟩ := List.mem_iff_getElem.1 hx
    exact series_length hw (mapM_getElem hb (i := i) (by omega))
  refine ⟨hl, hlo, hrooms, ?_, mapM_length hs, ?_, fun l hl' => ?_, ?_, fun l hl' => ?_⟩
  · unfold makeBoundaries at hbj
    obtain ⟨⟨⟩, hc, -⟩ := bind_ok_iff.1 hbj
    unfold checkParts at hc
    split_ifs at hc with h1
    obtain ⟨b, hb', -⟩ := h1 0 (List.mem_range.2 hrooms)
    rw [← hlb]
    exact List.length_pos_of_mem hb'
  · unfold roomSolar at hq
    rw [mapM_length hq, List.length_range]
  · obtain ⟨i, hi⟩ := hqs l hl'
    have hF : ∀ b ∈ (bss.filter fun b => b.room = i).map Bs.qTrsSol, b.length = 35040 := by
      intro b hb'
      obtain ⟨x, hx, rfl⟩ := List.mem_map.1 hb'
      exact (hbss x (List.mem_of_mem_filter hx)).2
    generalize (bss.filter fun b => b.room = i).map Bs.qTrsSol = F at hi hF
    cases F with
    | nil => cases hi
    | cons b bs =>
      simp only [sumSeries] at hi
      split at hi
      · rename_i hlen
        cases hi
        rw [(foldl_zipWith _ _ hlen).1]
        exact hF b List.mem_cons_self
      · cases hi
  · rw [hth, List.length_map, hlb]
  · rw [hth] at hl'
    obtain ⟨x, hx, rfl⟩ := List.mem_map.1 hl'
    exact (hbss x hx).1

/-! ## Reading back what was written -/

theorem getD_get {α : Type} {l : List α} {i : ℕ} {x : α} (h : i < l.length) : l.getD i x = l[i] := by
  rw [List.getD_eq_getElem?_getD, List.getElem?_eq_getElem h]
  rfl

theorem rowsOf_length (cols : List (Fin 35040 → ℝ)) : (rowsOf cols).length = 35040 := List.length_ofFn

theorem rowsOf_get (cols : List (Fin 35040 → ℝ)) (t : Fin 35040) : (rowsOf cols).getD t.1 [] = cols.map fun c => c t := by
  rw [getD_get (by rw [rowsOf_length]; exact t.2)]
  exact List.getElem_ofFn _

theorem readTable_rowsOf (cols : List (Fin 35040 → ℝ)) {n : ℕ} (h : cols.length = n) :
    readTable n (some (.table (rowsOf cols))) = .ok fun i => cols[i.1]'(h ▸ i.2) := by
  unfold readTable
  have h1 : (rowsOf cols).length = 35040 ∧ ∀ r ∈ rowsOf cols, r.length = n := by
    refine ⟨rowsOf_length _, fun r hr => ?_⟩
    obtain ⟨t, rfl⟩ := List.mem_ofFn.1 hr
    rw [List.length_map, h]
  simp only [if_pos h1]
  refine congrArg Except.ok (funext fun i => funext fun t => ?_)
  rw [rowsOf_get, getD_get (by rw [List.length_map, h]; exact i.2), List.getElem_map]

theorem readTable_rowsOfSeries (l : List (List ℝ)) {n : ℕ} (h : l.length = n) (hn : 0 < n) (hl : ∀ s ∈ l, s.length = 35040) :
    ∃ c, readTable n (some (.table (rowsOfSeries l))) = .ok c ∧ (List.ofFn fun i => List.ofFn (c i)) = l := by
  have h0 : (l.headD []).length = 35040 := by
    cases l with
    | nil => simp at h; omega
    | cons a l => exact hl a List.mem_cons_self
  have hr : (rowsOfSeries l).length = 35040 := by rw [rowsOfSeries, List.length_map, List.length_range, h0]
  have h1 : (rowsOfSeries l).length = 35040 ∧ ∀ r ∈ rowsOfSeries l, r.length = n := by
    refine ⟨hr, fun r hr => ?_⟩
    obtain ⟨t, -, rfl⟩ := List.mem_map.1 hr
    rw [List.length_map, h]
  refine ⟨fun i t => ((rowsOfSeries l).getD t.1 []).getD i.1 0, by unfold readTable; simp only [if_pos h1], ?_⟩
  apply List.ext_getElem (by rw [List.length_ofFn, h])
  intro i hi hi'
  have hli := hl _ (List.getElem_mem hi')
  rw [List.getElem_ofFn]
  apply List.ext_getElem (by rw [List.length_ofFn, hli])
  intro t ht ht'
  rw [List.getElem_ofFn]
  have ht2 : t < (rowsOfSeries l).length := by rw [hr, ← hli]; exact ht'
  have e : (rowsOfSeries l).getD t [] = l.map fun s => s.getD t 0 := by
    rw [getD_get ht2]
    simp only [rowsOfSeries, List.getElem_map, List.getElem_range]
  show ((rowsOfSeries l).getD t []).getD i 0 = _
  rw [e, getD_get (by rw [List.length_map]; exact hi'), List.getElem_map, getD_get ht']

theorem read_contents {n m : ℕ} {dir : Dir} {h : HouseFile} {ov oq ox on oa os ot : Output} (hn : h.spaces.length = n) (hm : h.boundaries.length = m)
    (hv : Sizes n m ov) (hq : Sizes n m oq) (hx : Sizes n m ox) (hh : Sizes n m on) (ha : Sizes n m oa) (hs : Sizes n m os) (ht : Sizes n m ot)
    (e0 : dir .house = some (.house h)) (e1 : dir .localVent = some (.table (rowsOf (ov.schedules.map Compiled.vLocal))))
    (e2 : dir .heatGeneration = some (.table (rowsOf (oq.schedules.map Compiled.qGen))))
    (e3 : dir .moistureGeneration = some (.table (rowsOf (ox.schedules.map Compiled.xGen))))
    (e4 : dir .occupants = some (.table (rowsOf (on.schedules.map Compiled.nHum))))
    (e5 : dir .acDemand = some (.table (rowsOf (oa.schedules.map Compiled.acDemand))))
    (e6 : dir .qTrsSol = some (.table (rowsOfSeries os.qTrsSol))) (e7 : dir .thetaOSol = some (.table (rowsOfSeries ot.thetaOSol))) :
    dir.read = .ok {
      building := h.building
      spaces := h.spaces
      boundaries := h.boundaries
      schedules := List.ofFn fun i : Fin n => ⟨(oq.schedules[i.1]'(hq.schedules ▸ i.2)).qGen, (ox.schedules[i.1]'(hx.schedules ▸ i.2)).xGen,
        (ov.schedules[i.1]'(hv.schedules ▸ i.2)).vLocal, (on.schedules[i.1]'(hh.schedules ▸ i.2)).nHum, (oa.schedules[i.1]'(ha.schedules ▸ i.2)).acDemand⟩
      qTrsSol := os.qTrsSol
      thetaOSol := ot.thetaOSol } := by
  subst hn hm
  obtain ⟨c, hc, ec⟩ := readTable_rowsOfSeries os.qTrsSol hs.solar hs.rooms_pos hs.solarYear
  obtain ⟨c', hc', ec'⟩ := readTable_rowsOfSeries ot.thetaOSol ht.outdoor ht.parts_pos ht.outdoorYear
  unfold Dir.read
  rw [e0, e1, e2, e3, e4, e5, e6, e7]
  simp only [bind_ok_iff]
  refine ⟨h, rfl, _, readTable_rowsOf _ (by rw [List.length_map, hv.schedules]), _, readTable_rowsOf _ (by rw [List.length_map, hq.schedules]),
    _, readTable_rowsOf _ (by rw [List.length_map, hx.schedules]), _, readTable_rowsOf _ (by rw [List.length_map, hh.schedules]),
    _, readTable_rowsOf _ (by rw [List.length_map, ha.schedules]), _, hc, _, hc', ?_⟩
  simp only [List.getElem_map, ec, ec']
  rfl

/-! ## Numbers as they are written -/

theorem npArray_point (h : SomePoint vols) : npArray vols = vols.map fun x => .float64 x.value := by
  obtain ⟨x, hx, hf⟩ := h
  unfold npArray
  rw [if_neg]
  intro H
  rw [List.all_eq_true] at H
  rw [H x hx] at hf
  cases hf

theorem setVolumes (s : List SpaceJson) : List.zipWith (fun s x => { s with volume := x }) s (s.map SpaceJson.volume) = s := by
  induction s with
  | nil => rfl
  | cons a s ih => exact congrArg (a :: ·) ih

theorem dump_point (h : SomePoint vols) (hf : HouseFile) (hv : vols.map JNum.value = hf.spaces.map SpaceJson.volume) :
    dumpHouse vols hf = .ok hf := by
  unfold dumpHouse
  rw [npArray_point h]
  simp only [bind_ok_iff]
  refine ⟨vols.map JNum.value, ?_, ?_⟩
  · rw [mapM_ok_iff, List.forall₂_map_left_iff, List.forall₂_map_right_iff]
    exact List.forall₂_same.2 fun x _ => rfl
  · rw [hv, setVolumes]
    rfl

theorem dump_whole (h : ¬ SomePoint vols) (hn : vols ≠ []) (hf : HouseFile) : dumpHouse vols hf = .error .typeError := by
  unfold dumpHouse npArray
  rw [if_pos]
  · cases vols with
    | nil => exact absurd rfl hn
    | cons a l => rfl
  · rw [List.all_eq_true]
    intro x hx
    by_contra hc
    exact h ⟨x, hx, by simpa using hc⟩

theorem makeHouse_volumes (H : makeHouse rnd w f d = .ok o) : o.spaces.map SpaceJson.volume = d.rooms.map RoomDict.volume := by
  obtain ⟨bss, hb, hq, hs, -, hss, hbj, hth⟩ := makeHouse_inv H
  obtain ⟨hl, hg⟩ := makeSpaces_get hss
  apply List.ext_getElem (by rw [List.length_map, List.length_map, hl])
  intro i hi hi'
  rw [List.length_map] at hi'
  obtain ⟨he, ce, row, -, -, -, e⟩ := hg i hi'
  rw [List.getElem_map, List.getElem_map, e]
  rfl

theorem run_point (hv : Written vols d) (hp : SomePoint vols) (H : makeHouse rnd w f d = .ok o) :
    makeHouseRun rnd w f vols d = ⟨(contents ⟨o.building, o.spaces, o.boundaries⟩ o).flatMap fun c => [.opened c.1, .closed c.1 c.2], .ok ()⟩ := by
  have h := dump_point hp ⟨o.building, o.spaces, o.boundaries⟩ (hv.trans (makeHouse_volumes H).symm)
  simp only [makeHouseRun, H, h]

theorem run_whole (hv : Written vols d) (hp : ¬ SomePoint vols) (H : makeHouse rnd w f d = .ok o) :
    makeHouseRun rnd w f vols d = ⟨[.opened .house], .error .typeError⟩ := by
  have hn : vols ≠ [] := by
    rintro rfl
    have h1 := congrArg List.length hv
    have h2 := makeHouse_rooms_pos H
    rw [List.length_map, List.length_map] at h1
    simp only [List.length_nil] at h1
    omega
  simp only [makeHouseRun, H, dump_whole hp hn]

theorem run_ok (hv : Written vols d) (H : (makeHouseRun rnd w f vols d).result = .ok ()) : ∃ o, makeHouse rnd w f d = .ok o ∧
    (makeHouseRun rnd w f vols d).effects = (contents ⟨o.building, o.spaces, o.boundaries⟩ o).flatMap fun c => [.opened c.1, .closed c.1 c.2] := by
  cases h : makeHouse rnd w f d with
  | error e => simp only [makeHouseRun, h] at H; cases H
  | ok o =>
    refine ⟨o, rfl, ?_⟩
    by_cases hp : SomePoint vols
    · rw [run_point hv hp h]
    · rw [run_whole hv hp h] at H
      cases H

/-- **C123.** As long as one of the volumes is written with a decimal point, it makes no difference how whole numbers are written: `make_house` writes the
same files, and completes for every input it accepts. -/
theorem C123_spelling (hv : Written vols d) (hv' : Written vols' d) (hp : SomePoint vols) (hp' : SomePoint vols') :
    makeHouseRun rnd w f vols d = makeHouseRun rnd w f vols' d ∧
    ((∃ o, makeHouse rnd w f d = .ok o) → (makeHouseRun rnd w f vols d).result = .ok ()) := by
  constructor
  · cases h : makeHouse rnd w f d with
    | error e => simp only [makeHouseRun, h]
    | ok o => rw [run_point hv hp h, run_point hv' hp' h]
  · rintro ⟨o, h⟩
    rw [run_point hv hp h]

/-- **C123 violated.** The same input with the volumes of all rooms written as whole numbers, such as `60`, is not accepted: `make_house` raises a
`TypeError` while it writes the first file. That file is left behind unusable, and the calculation cannot be run. -/
theorem C123_violated (hv : Written vols d) (hp : ¬ SomePoint vols) (H : makeHouse rnd w f d = .ok o) :
    (makeHouseRun rnd w f vols d).result = .error .typeError ∧ ∀ (dir : Dir) (solve : List ℝ → ℝ) (temp hum : Fin 35040 → ℝ) (hourly a b c : ℤ),
      (makeHouseRun rnd w f vols d).final dir = Function.update dir .house (some .torn) ∧
      calcDir rnd solve temp hum hourly a b c ((makeHouseRun rnd w f vols d).final dir) = .error .valueError := by
  rw [run_whole hv hp H]
  refine ⟨rfl, fun dir solve temp hum hourly a b c => ⟨rfl, ?_⟩⟩
  have : (FileRun.mk [.opened .house] (.error .typeError)).final dir .house = some .torn := by simp [FileRun.final, Effect.apply]
  unfold calcDir Dir.read
  rw [this]
  rfl

/-- The example house with the volume of its room, 72 m3, written in the two ways. -/
example (rnd : ℕ → ℝ → ℝ) (w : List Step) : Written [.int 72] (exInput false exUnit) ∧ Written [.float 72] (exInput false exUnit) ∧
    SomePoint [.float 72] ∧ ¬ SomePoint [.int 72] ∧ ∃ o, makeHouse rnd w exAsk (exInput false exUnit) = .ok o := by
  refine ⟨?_, ?_, ⟨_, List.mem_cons_self, rfl⟩, ?_, exInput_accepted_any rnd w exSchedule_days (f := exAsk) (exAsk_room _) false exUnit exUnit_known⟩
  · simp [Written, exInput, JNum.value]
  · simp [Written, exInput, JNum.value]
  · rintro ⟨x, hx, h⟩
    simp only [List.mem_cons, List.not_mem_nil, or_false] at hx
    subst hx
    cases h

/-! ## The directory -/

/-- The directory after the new run has written the first `k` of its files on top of a complete earlier run. -/
theorem stopped_dir {h₀ h₁ : HouseFile} {o₀ o₁ : Output} {r₀ r₁ : FileRun} (dir : Dir)
    (e₀ : r₀.effects = (contents h₀ o₀).flatMap fun c => [.opened c.1, .closed c.1 c.2])
    (e₁ : r₁.effects = (contents h₁ o₁).flatMap fun c => [.opened c.1, .closed c.1 c.2]) (k : ℕ) (hk : k ≤ 8) :
    let dir' := r₁.after (2 * k) (r₀.final dir)
    dir' .house = some (.house (if 1 ≤ k then h₁ else h₀)) ∧
    dir' .localVent = some (.table (rowsOf ((if 2 ≤ k then o₁ else o₀).schedules.map Compiled.vLocal))) ∧
    dir' .heatGeneration = some (.table (rowsOf ((if 3 ≤ k then o₁ else o₀).schedules.map Compiled.qGen))) ∧
    dir' .moistureGeneration = some (.table (rowsOf ((if 4 ≤ k then o₁ else o₀).schedules.map Compiled.xGen))) ∧
    dir' .occupants = some (.table (rowsOf ((if 5 ≤ k then o₁ else o₀).schedules.map Compiled.nHum))) ∧
    dir' .acDemand = some (.table (rowsOf ((if 6 ≤ k then o₁ else o₀).schedules.map Compiled.acDemand))) ∧
    dir' .qTrsSol = some (.table (rowsOfSeries (if 7 ≤ k then o₁ else o₀).qTrsSol)) ∧
    dir' .thetaOSol = some (.table (rowsOfSeries (if 8 ≤ k then o₁ else o₀).thetaOSol)) := by
  intro dir'
  simp only [dir', FileRun.after, FileRun.final, e₀, e₁, contents, List.flatMap_cons, List.flatMap_nil, List.cons_append, List.nil_append]
  interval_cases k <;>
    simp [Effect.apply, Function.update]

theorem firstFiles_read {n m k : ℕ} (hk : k ≤ 8) {o₀ o₁ : Output} (h₀ : Sizes n m o₀) (h₁ : Sizes n m o₁) {r₀ r₁ : FileRun} (dir : Dir)
    (e₀ : r₀.effects = (contents ⟨o₀.building, o₀.spaces, o₀.boundaries⟩ o₀).flatMap fun c => [.opened c.1, .closed c.1 c.2])
    (e₁ : r₁.effects = (contents ⟨o₁.building, o₁.spaces, o₁.boundaries⟩ o₁).flatMap fun c => [.opened c.1, .closed c.1 c.2]) :
    (r₁.after (2 * k) (r₀.final dir)).read = .ok (firstFiles k o₀ o₁) := by
  obtain ⟨d0, d1, d2, d3, d4, d5, d6, d7⟩ := stopped_dir dir e₀ e₁ k hk
  have hz : ∀ p : Prop, ∀ _ : Decidable p, Sizes n m (if p then o₁ else o₀) := by
    intro p _
    split_ifs
    · exact h₁
    · exact h₀
  rw [read_contents (n := n) (m := m) (by split_ifs; exacts [h₁.rooms, h₀.rooms]) (by split_ifs; exacts [h₁.parts, h₀.parts])
    (hz _ _) (hz _ _) (hz _ _) (hz _ _) (hz _ _) (hz _ _) (hz _ _) d0 d1 d2 d3 d4 d5 d6 d7]
  refine congrArg Except.ok ?_
  unfold firstFiles
  congr 1
  · split_ifs <;> rfl
  · split_ifs <;> rfl
  · split_ifs <;> rfl
  · apply List.ext_getElem
    · rw [List.length_ofFn, List.length_zipWith, h₀.schedules, h₁.schedules, Nat.min_self]
    intro i hi hi'
    rw [List.getElem_ofFn, List.getElem_zipWith]
    congr 1
    all_goals split_ifs <;> rfl
  · split_ifs <;> rfl
  · split_ifs <;> rfl

theorem firstFiles_all {n m : ℕ} {o₀ o₁ : Output} (h₀ : Sizes n m o₀) (h₁ : Sizes n m o₁) : firstFiles 8 o₀ o₁ = o₁ := by
  unfold firstFiles
  simp only [if_pos (show 1 ≤ 8 by decide), if_pos (show 2 ≤ 8 by decide), if_pos (show 3 ≤ 8 by decide), if_pos (show 4 ≤ 8 by decide),
    if_pos (show 5 ≤ 8 by decide), if_pos (show 6 ≤ 8 by decide), if_pos (show 7 ≤ 8 by decide), if_pos (show 8 ≤ 8 by decide)]
  have : List.zipWith (fun (_ b : Compiled) => ({ vLocal := b.vLocal, qGen := b.qGen, xGen := b.xGen, nHum := b.nHum, acDemand := b.acDemand } : Compiled))
      o₀.schedules o₁.schedules = o₁.schedules := by
    apply List.ext_getElem
    · rw [List.length_zipWith, h₀.schedules, h₁.schedules, Nat.min_self]
    intro i hi hi'
    rw [List.getElem_zipWith]
  rw [this]

theorem final_read {n m : ℕ} {o : Output} (h : Sizes n m o) {r : FileRun} (dir : Dir)
    (e : r.effects = (contents ⟨o.building, o.spaces, o.boundaries⟩ o).flatMap fun c => [.opened c.1, .closed c.1 c.2]) :
    (r.final dir).read = .ok o := by
  have hf : r.final dir = r.after (2 * 8) (r.final dir) := by
    funext name
    have h0 := stopped_dir dir e e 0 (by decide)
    have h8 := stopped_dir dir e e 8 (by decide)
    simp only [ite_self] at h0 h8
    have e0 : r.after (2 * 0) (r.final dir) = r.final dir := rfl
    rw [e0] at h0
    cases name
    · rw [h0.1, h8.1]
    · rw [h0.2.1, h8.2.1]
    · rw [h0.2.2.1, h8.2.2.1]
    · rw [h0.2.2.2.1, h8.2.2.2.1]
    · rw [h0.2.2.2.2.1, h8.2.2.2.2.1]
    · rw [h0.2.2.2.2.2.1, h8.2.2.2.2.2.1]
    · rw [h0.2.2.2.2.2.2.1, h8.2.2.2.2.2.2.1]
    · rw [h0.2.2.2.2.2.2.2, h8.2.2.2.2.2.2.2]
  rw [hf, firstFiles_read (by decide) h h dir e e, firstFiles_all h h]

/-- **C124 (complete).** When `make_house` completes, the calculation reads exactly what was compiled from this input, whatever was in the directory before. -/
theorem C124_complete (hw : w.length = 35040) (hv : Written vols d) (H : (makeHouseRun rnd w f vols d).result = .ok ()) (dir : Dir) :
    (∃ o, makeHouse rnd w f d = .ok o ∧ ((makeHouseRun rnd w f vols d).final dir).read = .ok o) ∧
    ∀ (solve : List ℝ → ℝ) (hum : Fin 35040 → ℝ) (hourly dMain dRunUp dRunUpBuild : ℤ),
      calcDir rnd solve (temperatureColumn w) hum hourly dMain dRunUp dRunUpBuild ((makeHouseRun rnd w f vols d).final dir) =
        calculate rnd solve w hum f hourly dMain dRunUp dRunUpBuild d := by
  obtain ⟨o, ho, e⟩ := run_ok hv H
  have hread := final_read (makeHouse_sizes hw ho) dir e
  refine ⟨⟨o, ho, hread⟩, fun solve hum hourly dMain dRunUp dRunUpBuild => ?_⟩
  unfold calcDir calculate
  rw [hread, ho]

/-- **C124 (refused).** When `make_house` refuses an input, it has not touched any file. -/
theorem C124_refused {e : PyErr} (H : makeHouse rnd w f d = .error e) : (makeHouseRun rnd w f vols d).result = .error e ∧
    ∀ (k : ℕ) (dir : Dir), (makeHouseRun rnd w f vols d).after k dir = dir := by
  have : makeHouseRun rnd w f vols d = ⟨[], .error e⟩ := by simp only [makeHouseRun, H]
  rw [this]
  exact ⟨rfl, fun k dir => by simp [FileRun.after]⟩

/-- **C124 (stopped while the first file is written).** Stopped while it writes the house, `make_house` leaves a directory that the calculation refuses. -/
theorem C124_torn (hv : Written vols d) (H : (makeHouseRun rnd w f vols d).result = .ok ()) (dir : Dir) (solve : List ℝ → ℝ)
    (temp hum : Fin 35040 → ℝ) (hourly dMain dRunUp dRunUpBuild : ℤ) :
    calcDir rnd solve temp hum hourly dMain dRunUp dRunUpBuild ((makeHouseRun rnd w f vols d).after 1 dir) = .error .valueError := by
  obtain ⟨o, ho, e⟩ := run_ok hv H
  have : (makeHouseRun rnd w f vols d).after 1 dir .house = some .torn := by
    simp [FileRun.after, e, contents, Effect.apply]
  unfold calcDir Dir.read
  rw [this]
  rfl

/-- **C124 (stopped between two files).** Let a complete run for one input be followed, in the same directory, by a run for another with the same numbers of
rooms and parts. Stopped after `k` files, the second leaves a directory that is read without complaint: the first `k` files are of the new input, the others
of the old one. -/
theorem C124_stopped {w₀ w₁ : List Step} {vols₀ vols₁ : List JNum} (hw₀ : w₀.length = 35040) (hw₁ : w₁.length = 35040) (hv₀ : Written vols₀ d₀)
    (hv₁ : Written vols₁ d₁) (H₀ : (makeHouseRun rnd w₀ f vols₀ d₀).result = .ok ()) (H₁ : (makeHouseRun rnd w₁ f vols₁ d₁).result = .ok ())
    (hrooms : d₀.rooms.length = d₁.rooms.length) (hparts : d₀.boundaries.length = d₁.boundaries.length) (dir : Dir) (k : ℕ) (hk : k ≤ 8) :
    ∃ o₀ o₁, makeHouse rnd w₀ f d₀ = .ok o₀ ∧ makeHouse rnd w₁ f d₁ = .ok o₁ ∧
      ((makeHouseRun rnd w₁ f vols₁ d₁).after (2 * k) ((makeHouseRun rnd w₀ f vols₀ d₀).final dir)).read = .ok (firstFiles k o₀ o₁) := by
  obtain ⟨o₀, ho₀, e₀⟩ := run_ok hv₀ H₀
  obtain ⟨o₁, ho₁, e₁⟩ := run_ok hv₁ H₁
  have h₀ := makeHouse_sizes hw₀ ho₀
  rw [hrooms, hparts] at h₀
  exact ⟨o₀, o₁, ho₀, ho₁, firstFiles_read hk h₀ (makeHouse_sizes hw₁ ho₁) dir e₀ e₁⟩

/-- **C124 violated.** The new input is interrupted when the house file has been written. If the calculation then completes, its table describes neither
input: the demand and the internal heat of every room are those of the schedules of the old input, the convective coefficients of the parts are those of the
new one. -/
theorem C124_mixed_violated (hr : IsRounding rnd) {w₀ w₁ : List Step} {vols₀ vols₁ : List JNum} (hw₀ : w₀.length = 35040) (hw₁ : w₁.length = 35040)
    (hv₀ : Written vols₀ d₀) (hv₁ : Written vols₁ d₁) (H₀ : (makeHouseRun rnd w₀ f vols₀ d₀).result = .ok ())
    (H₁ : (makeHouseRun rnd w₁ f vols₁ d₁).result = .ok ()) (hrooms : d₀.rooms.length = d₁.rooms.length)
    (hparts : d₀.boundaries.length = d₁.boundaries.length) (hd : CompleteInput d₁) (dir : Dir) (solve : List ℝ → ℝ) (temp hum : Fin 35040 → ℝ)
    (hourly dMain dRunUp dRunUpBuild : ℤ) (ds : Digest) (tab : Table)
    (H : calcDir rnd solve temp hum hourly dMain dRunUp dRunUpBuild
      ((makeHouseRun rnd w₁ f vols₁ d₁).after 2 ((makeHouseRun rnd w₀ f vols₀ d₀).final dir)) = .ok (ds, tab)) (k : Fin 35040) (hk : k.1 < tab.rows) :
    (∀ (i : ℕ) (r : RoomDict), d₀.rooms[i]? = some r → ∃ c, compiled f (residents (d₀.rooms.map RoomDict.floorArea).sum) r.name r.floorArea = .ok c ∧
      Cell tab (roomColumn i "occupancy") k (c.acDemand k) ∧ Cell tab (roomColumn i "q_s_except_hum") k (c.qGen k)) ∧
    ∀ (j : ℕ) (b : BoundaryDict), d₁.boundaries[j]? = some b → ∃ i n : ℕ, (i : ℤ) = b.connectedRoom ∧ Cell tab (partColumn i n "hic_s") k b.hC := by
  obtain ⟨o₀, o₁, ho₀, ho₁, hread⟩ := C124_stopped hw₀ hw₁ hv₀ hv₁ H₀ H₁ hrooms hparts dir 1 (by decide)
  unfold calcDir at H
  rw [hread] at H
  change calcFiles rnd solve temp hum hourly dMain dRunUp dRunUpBuild (firstFiles 1 o₀ o₁) = _ at H
  unfold calcFiles at H
  simp only [bind_ok_iff] at H
  obtain ⟨h, hh, H⟩ := H
  obtain ⟨-, hrows, r0, c1, mn, hl, hN, hrun, -, hcell⟩ := C79_table H
  obtain ⟨q1, q2, q3, q4⟩ := hcell k.1 hk
  have h₀ := makeHouse_sizes hw₀ ho₀
  have h₁ := makeHouse_sizes hw₁ ho₁
  obtain ⟨h', e', hls, hlb, hroom, hpart, -⟩ := C72_read_back_partial rnd hr w₁ f d₁ hd o₁ ho₁
  cases (show readHouse o₁ = .ok h from hh).symm.trans e'
  constructor
  · intro i r hi
    have hi' : i < d₀.rooms.length := (List.getElem?_eq_some_iff.1 hi).1
    obtain ⟨-, -, hrec, -⟩ := C74_records rnd w₀ f d₀ o₀ ho₀ temp hum k
    obtain ⟨c, hc, z1, z2, z3, z4, z5⟩ := hrec ⟨i, by rw [h₀.rooms]; exact hi'⟩ r hi
    have q := q3 ⟨i, by rw [show (firstFiles 1 o₀ o₁).spaces = o₁.spaces from rfl, h₁.rooms, ← hrooms]; exact hi'⟩
    have hs : (firstFiles 1 o₀ o₁).schedules = o₀.schedules := by
      apply List.ext_getElem
      · show (List.zipWith _ o₀.schedules o₁.schedules).length = _
        rw [List.length_zipWith, h₀.schedules, h₁.schedules, hrooms, Nat.min_self]
      intro n hn hn'
      exact List.getElem_zipWith ..
    refine ⟨c, hc, ?_, ?_⟩
    · have := q.occupancy
      simp only [readRecord, hs] at this z5
      rw [z5] at this
      exact this
    · have := q.internalHeat
      simp only [readRecord, hs] at this z2
      rw [z2] at this
      exact this
  · intro j b hj
    have hj' : j < d₁.boundaries.length := (List.getElem?_eq_some_iff.1 hj).1
    have q := q4 ⟨j, by rw [show (firstFiles 1 o₀ o₁).boundaries = o₁.boundaries from rfl, h₁.parts]; exact hj'⟩
    have hp := hpart ⟨j, by rw [h₁.parts]; exact hj'⟩ b hj
    exact ⟨_, _, hp.room, hp.coefficient ▸ q.convectiveCoefficient⟩

/-! ## Two inputs that meet the hypotheses -/

/-- Example file: as `exAsk`, but a household of four never asks for comfort. -/
noncomputable def exFour : ScheduleFile where
  calendar := exSchedule.calendar
  daily := fun n _ _ kind => some fun q => if kind = "is_temp_limit_set" ∧ q = 0 ∧ n ≠ 4 then 1 else 0

/-- The lists of this file. -/
noncomputable def exFourTables : RoomTables := { exAskTables with demand := fun n _ q => if q = 0 ∧ n ≠ 4 then 1 else 0 }

theorem exFour_room (room : String) : HasRoom exFour room exFourTables := by
  constructor <;> intro k h1 h4 day hd <;> simp [exFour, exFourTables, exAskTables]

/-- For one resident this file says the same as `exAsk`. -/
theorem exFour_one (room : String) (a : ℝ) {c : Compiled} (H : compiled exAsk 1 room a = .ok c) : compiled exFour 1 room a = .ok c := by
  obtain ⟨c₁, h₁, v₁⟩ := C71_compiled_partial exAsk exSchedule_days room _ (exAsk_room room) 1 1 le_rfl (by decide) (by norm_num) (by norm_num) a
  obtain ⟨c₂, h₂, v₂⟩ := C71_compiled_partial exFour exSchedule_days room _ (exFour_room room) 1 1 le_rfl (by decide) (by norm_num) (by norm_num) a
  cases H.symm.trans h₁
  rw [h₂]
  refine congrArg Except.ok ?_
  have hval : ∀ t, c₂.qGen t = c.qGen t ∧ c₂.xGen t = c.xGen t ∧ c₂.vLocal t = c.vLocal t ∧ c₂.nHum t = c.nHum t ∧ c₂.acDemand t = c.acDemand t := by
    intro t
    obtain ⟨d, q, rfl⟩ := quarter_surj t
    obtain ⟨a1, a2, a3, a4, a5⟩ := v₁ d q
    obtain ⟨b1, b2, b3, b4, b5⟩ := v₂ d q
    rw [a1, a2, a3, a4, a5, b1, b2, b3, b4, b5]
    simp [between, exAskTables, exFourTables]
  cases c
  cases c₂
  simp only [Compiled.mk.injEq]
  exact ⟨funext fun t => (hval t).1, funext fun t => (hval t).2.1, funext fun t => (hval t).2.2.1, funext fun t => (hval t).2.2.2.1,
    funext fun t => (hval t).2.2.2.2⟩

/-- A household of four does not ask for comfort at midnight. -/
theorem exFour_four (room : String) (a : ℝ) : ∃ c, compiled exFour 4 room a = .ok c ∧ c.acDemand 0 = 0 := by
  obtain ⟨c, h, v⟩ := C71_compiled_partial exFour exSchedule_days room _ (exFour_room room) 4 3 (by decide) le_rfl (by norm_num) (by norm_num) a
  refine ⟨c, h, ?_⟩
  have := (v 0 0).2.1
  rw [show quarter 0 0 = 0 from rfl] at this
  rw [this]
  norm_num [between, exFourTables]

/-- The old input: the example house with another convective coefficient of the wall. -/
noncomputable def exOld : Input := { exInput false exUnit with
  boundaries := [(exInput false exUnit).boundaries[0]'Nat.zero_lt_two, { (exInput false exUnit).boundaries[1]'Nat.one_lt_two with hC := 3 }] }

/-- The new input: the example house with a floor area of 120 m2, for four people. -/
noncomputable def exNew : Input := { exInput false exUnit with
  rooms := [{ (exInput false exUnit).rooms[0]'Nat.one_pos with floorArea := 120 }] }

theorem exNew_rooms : ValidRooms 0 exNew.rooms where
  ids := by
    intro i hi
    have : i < 1 := hi
    interval_cases i; rfl
  types := by
    intro r hr
    simp only [exNew, List.mem_cons, List.not_mem_nil, or_false] at hr
    subst hr
    exact (exInput_rooms false _ exUnit_known 0).types ((exInput false exUnit).rooms[0]'Nat.one_pos) (List.getElem_mem _)
  main := (exInput_rooms false _ exUnit_known 0).main
  others := (exInput_rooms false _ exUnit_known 0).others
  heating := by
    intro r hr
    simp only [exNew, List.mem_cons, List.not_mem_nil, or_false] at hr
    subst hr
    exact Or.inl rfl
  cooling := by
    intro r hr
    simp only [exNew, List.mem_cons, List.not_mem_nil, or_false] at hr
    subst hr
    exact exUnit_known
  upstream := by
    intro r hr
    simp only [exNew, List.mem_cons, List.not_mem_nil, or_false] at hr
    subst hr
    exact (exInput_rooms false _ exUnit_known 0).upstream ((exInput false exUnit).rooms[0]'Nat.one_pos) (List.getElem_mem _)

theorem exNew_cooling : ∀ r ∈ exNew.rooms, r.cooling.kind = "convective" := by
  intro r hr
  simp only [exNew, List.mem_cons, List.not_mem_nil, or_false] at hr
  subst hr
  rfl

theorem simple_hC {b : BoundaryDict} {x : Bs} (H : getBoundarySimple w b = .ok x) (h : ℝ) :
    getBoundarySimple w { b with hC := h } = .ok { x with hC := h } := by
  simp only [getBoundarySimple, bind_ok_iff] at H ⊢
  obtain ⟨t, ht, sun, hsun, htd, hhtd, nx, hnx, re, hre, dir, hdir, hI, hhI, p, hp, oe, hoe, th, hth, tr, htr, q, hq, e⟩ := H
  cases e
  exact ⟨t, ht, sun, hsun, htd, hhtd, nx, hnx, re, hre, dir, hdir, hI, hhI, p, hp, oe, hoe, th, hth, tr, htr, q, hq, rfl⟩

/-- What `make_house` writes for the example, the old and the new input. -/
theorem exFiles (rnd : ℕ → ℝ → ℝ) (w : List Step) : ∃ o b s, makeHouse rnd w exAsk (exInput false exUnit) = .ok o ∧
    makeHouse rnd w exFour exOld = .ok { o with boundaries := b } ∧ makeHouse rnd w exFour exNew = .ok { o with schedules := s } := by
  obtain ⟨o, ho⟩ := exInput_accepted_any rnd w exSchedule_days (f := exAsk) (exAsk_room _) false exUnit exUnit_known
  obtain ⟨bss, hb, hq, hs, hbd, hss, hbj, hth⟩ := makeHouse_inv ho
  have hlb := mapM_length hb
  have h2 : bss.length = 2 := hlb
  obtain ⟨x, y, rfl⟩ := List.length_eq_two.1 h2
  have hx : getBoundarySimple w ((exInput false exUnit).boundaries[0]'Nat.zero_lt_two) = .ok x := mapM_getElem hb (i := 0) Nat.zero_lt_two
  have hy : getBoundarySimple w ((exInput false exUnit).boundaries[1]'Nat.one_lt_two) = .ok y := mapM_getElem hb (i := 1) Nat.one_lt_two
  have hb' : exOld.boundaries.mapM (getBoundarySimple w) = .ok [x, { y with hC := 3 }] := by
    rw [mapM_ok_iff]
    exact List.Forall₂.cons hx (List.Forall₂.cons (simple_hC hy 3) List.Forall₂.nil)
  have hres : residents (((exInput false exUnit).rooms.map RoomDict.floorArea).sum) = 1 := by
    norm_num [exInput, residents]
  have hres' : residents ((exNew.rooms.map RoomDict.floorArea).sum) = 4 := by
    norm_num [exNew, exInput, residents]
  have hq' : roomSolar [x, { y with hC := 3 }] exOld.rooms.length = .ok o.qTrsSol := by
    rw [← hq]
    unfold roomSolar
    refine congrArg (fun g => List.mapM g _) (funext fun i => ?_)
    simp only [List.filter_cons, List.filter_nil]
    split_ifs <;> rfl
  have hs1 : (exOld.rooms.mapM fun r => compiled exFour (residents (exOld.rooms.map RoomDict.floorArea).sum) r.name r.floorArea) = .ok o.schedules := by
    have e : exOld.rooms = (exInput false exUnit).rooms := rfl
    rw [e, hres]
    rw [hres] at hs
    rw [mapM_ok_iff] at hs ⊢
    exact hs.imp fun _ _ h => exFour_one _ _ h
  have hbj' : ∃ b, makeBoundaries rnd exOld.rooms exOld.boundaries [x, { y with hC := 3 }] = .ok b := by
    unfold makeBoundaries at hbj ⊢
    simp only [bind_ok_iff] at hbj ⊢
    obtain ⟨⟨⟩, hc, sp, hsp, -⟩ := hbj
    refine ⟨_, (), ?_, sp, hsp, rfl⟩
    unfold checkParts at hc ⊢
    split_ifs at hc with hc'
    rw [if_pos]
    intro i hi
    obtain ⟨b, hb, he⟩ := hc' i hi
    simp only [List.mem_cons, List.not_mem_nil, or_false] at hb
    rcases hb with rfl | rfl
    · exact ⟨_, List.mem_cons_self, he⟩
    · exact ⟨_, List.mem_cons_of_mem _ List.mem_cons_self, he⟩
  obtain ⟨b, hbj'⟩ := hbj'
  obtain ⟨c, hc, -⟩ := exFour_four "main_occupant_room" 120
  refine ⟨o, b, [c], ho, ?_, ?_⟩
  · unfold makeHouse
    simp only [bind_ok_iff]
    refine ⟨_, hb', _, hq', _, hs1, _, hbd, _, hss, _, hbj', ?_⟩
    rw [hth]
    rfl
  · unfold makeHouse
    simp only [bind_ok_iff]
    refine ⟨_, hb, _, hq, [c], ?_, _, hbd, o.spaces, ?_, o.boundaries, ?_, ?_⟩
    · rw [hres', mapM_ok_iff]
      exact List.Forall₂.cons hc List.Forall₂.nil
    · exact hss
    · have h1 : isRadiativeRoom exNew.rooms = isRadiativeRoom (exInput false exUnit).rooms := by
        funext i
        unfold isRadiativeRoom
        cases i.toNat <;> rfl
      have h3 : exNew.rooms.length = (exInput false exUnit).rooms.length := rfl
      have h4 : exNew.boundaries = (exInput false exUnit).boundaries := rfl
      rw [← hbj, h4]
      simp only [makeBoundaries, checkParts, boundaryJson, inRooms, h1, h3]
      rfl
    · rw [hth]

/-- The hypotheses of `C124_mixed_violated` are met, with any weather between -100 and 15 degC: after `exOld`, `make_house` for `exNew` is stopped when the
house file is there; the calculation completes. The demand at midnight is that of the old input, 1, while the new one has none; the coefficient of the wall
is that of the new input, 2, while the old one has 3. -/
theorem C124_mixed_example (hr : IsRounding rnd) (hl : w.length = 35040) (hw : ∀ s ∈ w, -100 ≤ s.thetaO ∧ s.thetaO ≤ 15) (hum : Fin 35040 → ℝ) (dir : Dir) :
    ∃ solve ds tab, Written [.float 72] exOld ∧ Written [.float 72] exNew ∧ CompleteInput exNew ∧
      (makeHouseRun rnd w exFour [.float 72] exOld).result = .ok () ∧ (makeHouseRun rnd w exFour [.float 72] exNew).result = .ok () ∧
      calcDir rnd solve (temperatureColumn w) hum 4 1 0 0
        ((makeHouseRun rnd w exFour [.float 72] exNew).after 2 ((makeHouseRun rnd w exFour [.float 72] exOld).final dir)) = .ok (ds, tab) ∧
      Cell tab (roomColumn 0 "occupancy") 0 1 ∧
      (∃ c, compiled exFour (residents (exNew.rooms.map RoomDict.floorArea).sum) "main_occupant_room" 120 = .ok c ∧ c.acDemand 0 = 0) ∧
      (∃ n, Cell tab (partColumn 0 n "hic_s") 0 2) ∧ exOld.boundaries.map BoundaryDict.hC = [2, 3] := by
  obtain ⟨solve, ds, tab, Hc, -⟩ := C120_violated_example rnd hr w hw hum
  obtain ⟨o, b, s, ho, h₀, h₁⟩ := exFiles rnd w
  have hv₀ : Written [.float 72] exOld := by simp [Written, exOld, exInput, JNum.value]
  have hv₁ : Written [.float 72] exNew := by simp [Written, exNew, exInput, JNum.value]
  have hp : SomePoint [.float 72] := ⟨_, List.mem_cons_self, rfl⟩
  have H₀ : (makeHouseRun rnd w exFour [.float 72] exOld).result = .ok () := by rw [run_point hv₀ hp h₀]
  have H₁ : (makeHouseRun rnd w exFour [.float 72] exNew).result = .ok () := by rw [run_point hv₁ hp h₁]
  have hd : CompleteInput exNew := by
    have := exInput_complete false
    exact ⟨exNew_rooms, exNew_cooling, this.partRoom, this.partId, this.rear, this.area, this.tempDif, this.uValue, this.floor, this.notOnlyFloor⟩
  obtain ⟨o₀, o₁, ho₀, ho₁, hread⟩ := C124_stopped hl hl hv₀ hv₁ H₀ H₁ rfl rfl dir 1 (by decide)
  cases ho₀.symm.trans h₀
  cases ho₁.symm.trans h₁
  have hmix : firstFiles 1 { o with boundaries := b } { o with schedules := s } = o := by
    have z₀ := makeHouse_sizes hl h₀
    have z₁ := makeHouse_sizes hl h₁
    have hs : (firstFiles 1 { o with boundaries := b } { o with schedules := s }).schedules = o.schedules := by
      apply List.ext_getElem
      · show (List.zipWith _ o.schedules s).length = _
        have e₀ : o.schedules.length = 1 := z₀.schedules
        have e₁ : s.length = 1 := z₁.schedules
        rw [List.length_zipWith, e₀, e₁, Nat.min_self]
      intro n hn hn'
      exact List.getElem_zipWith ..
    calc firstFiles 1 { o with boundaries := b } { o with schedules := s }
        = { o with schedules := (firstFiles 1 { o with boundaries := b } { o with schedules := s }).schedules } := rfl
      _ = o := by rw [hs]
  rw [hmix] at hread
  have H : calcDir rnd solve (temperatureColumn w) hum 4 1 0 0
      ((makeHouseRun rnd w exFour [.float 72] exNew).after 2 ((makeHouseRun rnd w exFour [.float 72] exOld).final dir)) = .ok (ds, tab) := by
    unfold calcDir
    rw [show 2 = 2 * 1 from rfl, hread]
    unfold calculate at Hc
    rw [ho] at Hc
    exact Hc
  have hrows : 0 < tab.rows := by
    unfold calculate calcFiles at Hc
    simp only [bind_ok_iff] at Hc
    obtain ⟨_, _, h, _, Hc⟩ := Hc
    have := (C79_table Hc).2.1
    omega
  obtain ⟨hcell, hpart⟩ := C124_mixed_violated hr hl hl hv₀ hv₁ H₀ H₁ rfl rfl hd dir solve _ hum 4 1 0 0 ds tab H 0 hrows
  obtain ⟨c, hc, hc1, -⟩ := hcell 0 _ rfl
  obtain ⟨i, n, hi, hn⟩ := hpart 1 _ rfl
  refine ⟨solve, ds, tab, hv₀, hv₁, hd, H₀, H₁, H, ?_, ?_, ⟨n, ?_⟩, rfl⟩
  · obtain ⟨c', h', v⟩ := C71_compiled_partial exFour exSchedule_days "main_occupant_room" _ (exFour_room _) 1 1 le_rfl (by decide) (by norm_num)
      (by norm_num) 30
    have hres : residents (exOld.rooms.map RoomDict.floorArea).sum = 1 := by norm_num [exOld, exInput, residents]
    rw [hres] at hc
    cases hc.symm.trans h'
    have := (v 0 0).2.1
    rw [show quarter 0 0 = 0 from rfl] at this
    rw [this] at hc1
    norm_num [between, exFourTables] at hc1
    exact hc1
  · have hres : residents (exNew.rooms.map RoomDict.floorArea).sum = 4 := by norm_num [exNew, exInput, residents]
    rw [hres]
    exact exFour_four _ _
  · have h0 : (i : ℤ) = 0 := hi
    have : i = 0 := by exact_mod_cast h0
    subst this
    exact hn

end HLC.Init
