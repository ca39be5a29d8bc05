import Verif.Spec.Results
import Verif.Props.Runs
import Verif.Props.RoomExchange

/-!
# The result tables (C79-C82)
-/

namespace HLC

set_option linter.unusedSectionVars false

open Spec

/-! ## Names of the columns -/

theorem digits_inj {a b : ℕ} (h : Nat.toDigits 10 a = Nat.toDigits 10 b) : a = b := by
  rw [← Nat.ofDigitChars_ten_toDigits (n := a), h, Nat.ofDigitChars_ten_toDigits]

theorem toList_num (a : ℕ) : (toString a).toList = Nat.toDigits 10 a := by
  rw [Nat.toString_eq_repr, Nat.toList_repr]

theorem split_num {a b : ℕ} {u v : List Char} (h : Nat.toDigits 10 a ++ '_' :: u = Nat.toDigits 10 b ++ '_' :: v) :
    a = b ∧ u = v := by
  have key : ∀ (x y : List Char), '_' ∉ x → '_' ∉ y → x ++ '_' :: u = y ++ '_' :: v → x = y ∧ u = v := by
    intro x
    induction x with
    | nil =>
      intro y _ hy e
      cases y with
      | nil => simpa using e
      | cons c y =>
        simp only [List.nil_append, List.cons_append, List.cons.injEq] at e
        exact absurd (by simp [← e.1]) hy
    | cons c x ih =>
      intro y hx hy e
      cases y with
      | nil =>
        simp only [List.nil_append, List.cons_append, List.cons.injEq] at e
        exact absurd (by simp [e.1]) hx
      | cons d y =>
        simp only [List.cons_append, List.cons.injEq] at e
        simp only [List.mem_cons, not_or] at hx hy
        obtain ⟨e1, e2⟩ := ih y hx.2 hy.2 e.2
        exact ⟨by rw [e.1, e1], e2⟩
  have := key _ _ Nat.underscore_not_in_toDigits Nat.underscore_not_in_toDigits h
  exact ⟨digits_inj this.1, this.2⟩

theorem RoomQ.suffix_inj {a b : RoomQ} (h : a.suffix.toList = b.suffix.toList) : a = b := by
  cases a <;> cases b <;> first | rfl | exact absurd h (by decide)

theorem PartQ.suffix_inj {a b : PartQ} (h : a.suffix.toList = b.suffix.toList) : a = b := by
  cases a <;> cases b <;> first | rfl | exact absurd h (by decide)

theorem RoomQ.suffix_not_b (a : RoomQ) (u : List Char) : a.suffix.toList ≠ 'b' :: u := by
  cases a <;> simp [RoomQ.suffix]

theorem Col.name_room (i : ℕ) (q : RoomQ) :
    (Col.room i q).name.toList = 'r' :: 'm' :: (Nat.toDigits 10 i ++ '_' :: q.suffix.toList) := by
  simp [Col.name, String.toList_append]

theorem Col.name_part (i k : ℕ) (q : PartQ) :
    (Col.part i k q).name.toList
      = 'r' :: 'm' :: (Nat.toDigits 10 i ++ '_' :: 'b' :: (Nat.toDigits 10 k ++ '_' :: q.suffix.toList)) := by
  simp [Col.name, String.toList_append]

theorem Col.name_inj {a b : Col} (h : a.name = b.name) : a = b := by
  replace h : a.name.toList = b.name.toList := by rw [h]
  cases a <;> cases b
  case outTemp.outTemp => rfl
  case outAbsHumid.outAbsHumid => rfl
  case outTemp.outAbsHumid => exact absurd h (by decide)
  case outAbsHumid.outTemp => exact absurd h (by decide)
  case room.room i q i' q' =>
    rw [Col.name_room, Col.name_room] at h
    simp only [List.cons.injEq, true_and] at h
    obtain ⟨rfl, h'⟩ := split_num h
    rw [RoomQ.suffix_inj h']
  case part.part i k q i' k' q' =>
    rw [Col.name_part, Col.name_part] at h
    simp only [List.cons.injEq, true_and] at h
    obtain ⟨rfl, h'⟩ := split_num h
    simp only [List.cons.injEq, true_and] at h'
    obtain ⟨rfl, h''⟩ := split_num h'
    rw [PartQ.suffix_inj h'']
  case room.part i q i' k' q' =>
    rw [Col.name_room, Col.name_part] at h
    simp only [List.cons.injEq, true_and] at h
    exact absurd (split_num h).2 (RoomQ.suffix_not_b _ _)
  case part.room i k q i' q' =>
    rw [Col.name_room, Col.name_part] at h
    simp only [List.cons.injEq, true_and] at h
    exact absurd (split_num h).2.symm (RoomQ.suffix_not_b _ _)
  all_goals simp [Col.name] at h

/-! ## Assigning columns -/

theorem setAssoc_new {name : String} {c : Column} :
    ∀ {l : List (String × Column)}, name ∉ l.map Prod.fst → setAssoc name c l = l ++ [(name, c)]
  | [], _ => rfl
  | (k, d) :: l, h => by
    simp only [List.map_cons, List.mem_cons, not_or] at h
    rw [setAssoc, if_neg (fun e => h.1 e.symm), setAssoc_new h.2, List.cons_append]

theorem set_all : ∀ (cs : List (Col × Column)) (t : Table), (∀ c ∈ cs, c.2.length = t.rows) → (cs.map Prod.fst).Nodup →
    (∀ c ∈ cs, c.1.name ∉ t.cols.map Prod.fst) →
    cs.foldlM (fun t c => t.set c.1.name c.2) t
      = .ok { rows := t.rows, cols := t.cols ++ cs.map fun c => (c.1.name, c.2) }
  | [], t, _, _, _ => by simp [pure, Except.pure]
  | c :: cs, t, hl, hn, hd => by
    have h1 : t.set c.1.name c.2 = .ok { t with cols := t.cols ++ [(c.1.name, c.2)] } := by
      rw [Table.set, if_pos (hl c (by simp)), setAssoc_new (hd c (by simp))]
    rw [List.foldlM_cons, h1]
    change List.foldlM _ _ cs = _
    rw [List.map_cons, List.nodup_cons] at hn
    rw [set_all cs { t with cols := t.cols ++ [(c.1.name, c.2)] } (fun d hd' => hl d (by simp [hd'])) hn.2]
    · simp
    · intro d hd'
      simp only [List.map_append, List.map_cons, List.map_nil, List.mem_append, List.mem_singleton, not_or]
      refine ⟨hd d (by simp [hd']), fun e => hn.1 ?_⟩
      rw [← Col.name_inj e]
      exact List.mem_map_of_mem hd'

/-! ## The parts of a room -/

theorem idxOf_sorted {m : ℕ} {j : Fin m} : ∀ {l : List (Fin m)}, l.Pairwise (· < ·) → j ∈ l →
    l.idxOf j = (l.filter fun a => decide (a < j)).length
  | [], _, h => by simp at h
  | a :: l, hs, h => by
    rw [List.pairwise_cons] at hs
    by_cases e : a = j
    · subst e
      rw [List.idxOf_cons_self, List.filter_cons_of_neg (by simp), List.filter_eq_nil_iff.2]
      · rfl
      · intro b hb
        simpa using (hs.1 b hb).le
    · have hj : j ∈ l := by
        rcases List.mem_cons.1 h with h | h
        · exact absurd h.symm e
        · exact h
      rw [List.idxOf_cons_ne _ e, idxOf_sorted hs.2 hj, List.filter_cons_of_pos (by simpa using hs.1 j hj)]
      rfl

section
variable {n m N : ℕ} {h : House (Fin n) (Fin m)} {hR : Fin m → ℝ} {data : Fin N → Record (Fin n) (Fin m)}
    {hourly dMain dRunUp dRunUpBuild : ℤ} {r : CalcResult (Fin n) m N}

theorem mem_selected (hp : r.ss.p = h.p) {i : Fin n} {j : Fin m} : j ∈ selected r i ↔ h.room j = i := by
  simp [selected, hp, House.p]

theorem selected_sorted (r : CalcResult (Fin n) m N) (i : Fin n) : (selected r i).Pairwise (· < ·) :=
  (List.pairwise_lt_finRange m).filter _

theorem selected_rank (hp : r.ss.p = h.p) (j : Fin m) : (selected r (h.room j))[partNumber h j]? = some j := by
  have hj : j ∈ selected r (h.room j) := (mem_selected hp).2 rfl
  have h1 : (selected r (h.room j)).idxOf j = partNumber h j := by
    rw [idxOf_sorted (selected_sorted _ _) hj, partNumber]
    have : (selected r (h.room j)).filter (fun a => decide (a < j))
        = (List.finRange m).filter fun a => decide (a < j ∧ h.room a = h.room j) := by
      rw [selected, List.filter_filter]
      apply List.filter_congr
      intro a _
      simp [hp, House.p]
    rw [this, ← List.toFinset_card_of_nodup ((List.nodup_finRange m).filter _)]
    congr 1
    ext a
    simp
  rw [← h1]
  have h2 := List.idxOf_lt_length_iff.2 hj
  rw [List.getElem?_eq_getElem h2, List.getElem_idxOf h2]

/-! ## All columns -/

theorem run_mem {ss : PreCalc (Fin n) (Fin m) N} {dt : ℝ} {c : Cond (Fin n) (Fin m)} {ns : List ℤ}
    {ts : List (TickVars (Fin n) (Fin m))} (H : Run ss dt c ns ts) : ∀ k ∈ ns, ∃ c t, runTick k dt ss c = .ok t := by
  induction H with
  | nil => simp
  | cons h1 _ ih =>
    intro k hk
    rcases List.mem_cons.1 hk with rfl | hk
    · exact ⟨_, _, h1⟩
    · exact ih k hk

/-- The data cover the main period. -/
theorem nMain_le (H : coreCalc h hR data hourly dMain dRunUp dRunUpBuild = .ok r) : r.nMain.toNat ≤ N := by
  obtain ⟨gs, c0, up, mn, T⟩ := coreCalc_ok H
  by_contra hN
  push Not at hN
  have h1 : (N : ℤ) ∈ pyRange 0 (dMain * hourly * 24) := by
    rw [← T.nMain_eq]
    simp only [pyRange, List.mem_map, List.mem_range]
    exact ⟨N, by omega, by omega⟩
  obtain ⟨c, t, ht⟩ := run_mem T.main _ h1
  rw [runTick, pyIndex_error (by omega)] at ht
  cases ht

theorem logCol_length {M : ℕ} (f : Fin M → ℝ) : (logCol f).length = M := by simp [logCol, Column.length]

theorem preCol_length {M : ℕ} (hM : M ≤ N) (f : Fin N → ℝ) : (preCol M f).length = M := by simp [preCol, Column.length, hM]

theorem roomCol_length (hM : r.nMain.toNat ≤ N) (i : Fin n) (q : RoomQ) : (roomCol r i q).length = r.nMain.toNat := by
  cases q <;> first
    | exact logCol_length _
    | exact preCol_length hM _
    | simp [roomCol, Column.length]

theorem partCol_length (hM : r.nMain.toNat ≤ N) (j : Fin m) (q : PartQ) : (partCol r j q).length = r.nMain.toNat := by
  cases q <;> first
    | exact logCol_length _
    | exact preCol_length hM _

theorem allCols_length (hM : r.nMain.toNat ≤ N) : ∀ c ∈ allCols r, c.2.length = r.nMain.toNat := by
  intro c hc
  simp only [allCols, roomCols, List.mem_cons, List.mem_flatten, List.mem_map] at hc
  rcases hc with rfl | rfl | ⟨_, ⟨i, -, rfl⟩, hc⟩
  · exact preCol_length hM _
  · exact preCol_length hM _
  · simp only [List.mem_append, List.mem_map, List.mem_flatten] at hc
    rcases hc with ⟨q, -, rfl⟩ | ⟨_, ⟨q, -, rfl⟩, hc⟩
    · exact roomCol_length hM i q
    · obtain ⟨x, -, rfl⟩ := List.mem_map.1 hc
      exact partCol_length hM _ q

theorem partCols_names (i : Fin n) (q : PartQ) :
    (partCols r i q).map Prod.fst = (List.range (selected r i).length).map fun k => Col.part i k q := by
  simp only [partCols, List.map_map, Function.comp_def]
  apply List.ext_getElem <;> simp

theorem roomCols_names (i : Fin n) : (roomCols r i).map Prod.fst
    = RoomQ.all.map (Col.room i) ++ (PartQ.all.map fun q => (List.range (selected r i).length).map fun k => Col.part i k q).flatten := by
  simp only [roomCols, List.map_append, List.map_map, List.map_flatten, Function.comp_def, partCols_names]

theorem allCols_names : (allCols r).map Prod.fst
    = .outTemp :: .outAbsHumid :: ((List.finRange n).map fun i => (roomCols r i).map Prod.fst).flatten := by
  simp [allCols, List.map_flatten, Function.comp_def]

theorem allCols_nodup (r : CalcResult (Fin n) m N) : ((allCols r).map Prod.fst).Nodup := by
  have hroom : ∀ (i : Fin n) c, c ∈ (roomCols r i).map Prod.fst → (∃ q, c = .room i q) ∨ ∃ k q, c = .part i k q := by
    intro i c hc
    rw [roomCols_names] at hc
    simp only [List.mem_append, List.mem_map, List.mem_flatten] at hc
    rcases hc with ⟨q, -, rfl⟩ | ⟨_, ⟨q, -, rfl⟩, hc⟩
    · exact .inl ⟨q, rfl⟩
    · obtain ⟨k, -, rfl⟩ := List.mem_map.1 hc
      exact .inr ⟨k, q, rfl⟩
  have hone : ∀ i : Fin n, ((roomCols r i).map Prod.fst).Nodup := by
    intro i
    rw [roomCols_names, List.nodup_append]
    refine ⟨(by decide : RoomQ.all.Nodup).map (fun a b e => by cases e; rfl), ?_, ?_⟩
    · rw [List.nodup_flatten]
      refine ⟨?_, ?_⟩
      · intro l hl
        obtain ⟨q, -, rfl⟩ := List.mem_map.1 hl
        exact List.nodup_range.map (fun a b e => by cases e; rfl)
      · rw [List.pairwise_map]
        refine (by decide : PartQ.all.Nodup).imp ?_
        intro a b hab c h1 h2
        obtain ⟨k, -, rfl⟩ := List.mem_map.1 h1
        obtain ⟨k', -, e⟩ := List.mem_map.1 h2
        cases e
        exact hab rfl
    · intro a ha b hb e
      subst e
      obtain ⟨q, -, rfl⟩ := List.mem_map.1 ha
      simp only [List.mem_map, List.mem_flatten] at hb
      obtain ⟨_, ⟨q, -, rfl⟩, hb⟩ := hb
      obtain ⟨k, -, e⟩ := List.mem_map.1 hb
      cases e
  have hnot : ∀ c, c ∈ ((List.finRange n).map fun i => (roomCols r i).map Prod.fst).flatten → c ≠ .outTemp ∧ c ≠ .outAbsHumid := by
    intro c hc
    simp only [List.mem_flatten, List.mem_map] at hc
    obtain ⟨_, ⟨i, -, rfl⟩, hc⟩ := hc
    rcases hroom i c (by simpa using hc) with ⟨q, rfl⟩ | ⟨k, q, rfl⟩ <;> simp
  rw [allCols_names, List.nodup_cons, List.nodup_cons, List.nodup_flatten]
  refine ⟨?_, fun hc => (hnot _ hc).2 rfl, ?_, ?_⟩
  · intro hc
    rcases List.mem_cons.1 hc with hc | hc
    · cases hc
    · exact (hnot _ hc).1 rfl
  · intro l hl
    obtain ⟨i, -, rfl⟩ := List.mem_map.1 hl
    exact hone i
  · rw [List.pairwise_map]
    refine (List.nodup_finRange n).imp ?_
    intro a b hab c h1 h2
    have hab' : (a : ℕ) ≠ b := fun e => hab (Fin.ext e)
    rcases hroom a c h1 with ⟨q, rfl⟩ | ⟨k, q, rfl⟩ <;> rcases hroom b _ h2 with ⟨q', e⟩ | ⟨k', q', e⟩ <;>
      first | (injection e with e1; exact hab' e1) | cases e

/-- The table that `record` builds. -/
noncomputable def detailTable (r : CalcResult (Fin n) m N) : Table :=
  { rows := r.nMain.toNat, cols := (allCols r).map fun c => (c.1.name, c.2) }

theorem recordDetail_eq (hM : r.nMain.toNat ≤ N) : recordDetail r = .ok (detailTable r) := by
  rw [recordDetail, set_all _ _ (allCols_length hM) (allCols_nodup r) (by simp)]
  rfl

theorem detail_regular (hM : r.nMain.toNat ≤ N) : Regular (detailTable r) := by
  refine ⟨?_, ?_⟩
  · have : (detailTable r).cols.map Prod.fst = ((allCols r).map Prod.fst).map Col.name := by
      simp [detailTable, Function.comp_def]
    rw [this]
    exact (allCols_nodup r).map (fun a b e => Col.name_inj e)
  · intro c hc
    obtain ⟨d, hd, rfl⟩ := List.mem_map.1 hc
    exact allCols_length hM d hd

theorem mem_room (i : Fin n) (q : RoomQ) : (roomColumn i q.suffix, roomCol r i q) ∈ (detailTable r).cols := by
  have hq : q ∈ RoomQ.all := by cases q <;> decide
  refine List.mem_map.2 ⟨(.room i q, roomCol r i q), ?_, rfl⟩
  simp only [allCols, List.mem_cons, List.mem_flatten, List.mem_map]
  refine .inr (.inr ⟨_, ⟨i, List.mem_finRange i, rfl⟩, ?_⟩)
  simp only [roomCols, List.mem_append, List.mem_map]
  exact .inl ⟨q, hq, rfl⟩

theorem mem_part (hp : r.ss.p = h.p) (j : Fin m) (q : PartQ) :
    (partColumn (h.room j) (partNumber h j) q.suffix, partCol r j q) ∈ (detailTable r).cols := by
  have hq : q ∈ PartQ.all := by cases q <;> decide
  refine List.mem_map.2 ⟨(.part (h.room j) (partNumber h j) q, partCol r j q), ?_, ?_⟩
  · simp only [allCols, List.mem_cons, List.mem_flatten, List.mem_map]
    refine .inr (.inr ⟨_, ⟨h.room j, List.mem_finRange _, rfl⟩, ?_⟩)
    simp only [roomCols, List.mem_append, List.mem_flatten, List.mem_map]
    refine .inr ⟨_, ⟨q, hq, rfl⟩, ?_⟩
    rw [partCols, List.mem_map]
    exact ⟨(j, partNumber h j), List.mem_zipIdx_iff_getElem?.2 (selected_rank hp j), rfl⟩
  · simp only [Col.name, partColumn, Prod.mk.injEq, and_true]
    simp [String.append_assoc]

theorem cell_log {tab : Table} {name : String} {M : ℕ} {f : Fin M → ℝ} {k : ℕ} (hk : k < M) {x : ℝ}
    (hm : (name, logCol f) ∈ tab.cols) (hx : f ⟨k, hk⟩ = x) : Cell tab name k x :=
  ⟨_, hm, by simp [hk, hx]⟩

theorem cell_pre {tab : Table} {name : String} {M : ℕ} {f : Fin N → ℝ} {k : ℕ} (hM : M ≤ N) (hk : k < M) {x : ℝ}
    (hm : (name, preCol M f) ∈ tab.cols) (hx : f ⟨k, by omega⟩ = x) : Cell tab name k x :=
  ⟨_, hm, by simp [hk, hx, show k < N by omega]⟩

theorem p_mul_mulVec (M : Matrix (Fin n) (Fin m) ℝ) (v : Fin m → ℝ) (j : Fin m) :
    (h.p.transpose * M).mulVec v j = ∑ l, M (h.room j) l * v l := by
  rw [← Matrix.mulVec_mulVec, pT_mulVec, Matrix.mulVec, dotProduct]

theorem remark_values (x : OpMode) (a b : Bool) : (remarkOf x a b).pmvTarget = reportedPmv x ∧
    (remarkOf x a b).vHum = reportedSpeed a b x ∧ (remarkOf x a b).clo = reportedClothing x := by
  cases x <;> cases a <;> cases b <;>
    norm_num [remarkOf, getPmvTarget, getVHum, getClo, reportedPmv, reportedSpeed, reportedClothing, cloHeavy, cloMiddle, cloLight]

/-- The table of a completed run. -/
theorem table_of_run (H : coreCalc h hR data hourly dMain dRunUp dRunUpBuild = .ok r) :
    ∃ tab, recordDetail r = .ok tab ∧ Regular tab ∧ (tab.rows : ℤ) = dMain * 24 * hourly ∧
    ∃ (c1 : Cond (Fin n) (Fin m)) (mn : List (TickVars (Fin n) (Fin m))) (hl : mn.length = tab.rows) (hN : tab.rows ≤ N),
      Run r.ss (3600 / (hourly : ℝ)) c1 ((List.range tab.rows).map fun k : ℕ => (k : ℤ)) mn ∧
      ∀ (k : ℕ) (hk : k < tab.rows),
        Cell tab "out_temp" k (data ⟨k, by omega⟩).thetaO ∧ Cell tab "out_abs_humid" k (data ⟨k, by omega⟩).xO ∧
        (∀ i, RoomCells tab h (data ⟨k, by omega⟩) mn[k] k i) ∧
        ∀ j, PartCells tab h hR (data ⟨k, by omega⟩) mn[k] k (h.room j) (partNumber h j) j := by
  have hM := nMain_le H
  obtain ⟨hn, c1, mn, hl, hrun, hrow⟩ := C29_logged H
  obtain ⟨gs, c0, up, mn', T⟩ := coreCalc_ok H
  obtain ⟨ivs, -, hss⟩ := makePreCalc_ok T.pre
  have hp : r.ss.p = h.p := by rw [hss]; rfl
  have hpos := T.nMain_nonneg
  refine ⟨detailTable r, recordDetail_eq hM, detail_regular hM, ?_, c1, mn, hl, hM, hrun, ?_⟩
  · show ((r.nMain.toNat : ℕ) : ℤ) = _
    omega
  intro k hk
  have hk' : k < r.nMain.toNat := hk
  have R := hrow ⟨k, hk'⟩
  have hout : ∀ c ∈ allCols r, (c.1.name, c.2) ∈ (detailTable r).cols := fun c hc => List.mem_map_of_mem hc
  refine ⟨?_, ?_, ?_, ?_⟩
  · exact cell_pre hM hk' (hout (.outTemp, _) (by simp only [allCols]; exact List.mem_cons_self)) (by rw [hss]; rfl)
  · exact cell_pre hM hk' (hout (.outAbsHumid, _) (by simp only [allCols]; exact List.mem_cons_of_mem _ List.mem_cons_self)) (by rw [hss]; rfl)
  · intro i
    constructor
    · exact ⟨_, mem_room i .acOperate, by simp [hk', R.mode]⟩
    · exact cell_pre hM hk' (mem_room i .occupancy) (by rw [hss]; rfl)
    · exact cell_log hk' (mem_room i .hcHum) (R.convectiveCoefficient i)
    · exact cell_log hk' (mem_room i .hrHum) (R.radiativeCoefficient i)
    · exact cell_log hk' (mem_room i .tR) (by rw [R.roomTemperature])
    · exact cell_log hk' (mem_room i .rhR) (by rw [LogRow.rh, R.roomTemperature, R.roomHumidity])
    · exact cell_log hk' (mem_room i .xR) (by rw [R.roomHumidity])
    · exact cell_log hk' (mem_room i .mrt) (by rw [R.meanRadiantTemperature])
    · exact cell_log hk' (mem_room i .ot) (by rw [R.operativeTemperature])
    · exact cell_pre hM hk' (mem_room i .qSolT) (by rw [hss]; rfl)
    · exact cell_pre hM hk' (mem_room i .qSExceptHum) (by rw [hss]; rfl)
    · exact cell_pre hM hk' (mem_room i .qLExceptHum) (by rw [hss]; rfl)
    · exact cell_log hk' (mem_room i .qHumS) (by rw [R.heatOfPeople])
    · exact cell_log hk' (mem_room i .qHumL) (by rw [R.moistureOfPeople])
    · exact cell_log hk' (mem_room i .lSC) (by rw [R.convectiveLoad])
    · exact cell_log hk' (mem_room i .lSR) (by rw [R.radiativeLoad])
    · exact cell_log hk' (mem_room i .lLC) (by rw [R.latentLoad])
    · exact cell_log hk' (mem_room i .tFun) (by rw [R.furnitureTemperature])
    · exact cell_log hk' (mem_room i .qSFun) (by rw [LogRow.qFrt, R.roomTemperature, R.furnitureTemperature, hss]; rfl)
    · exact cell_pre hM hk' (mem_room i .qSSolFun) (by rw [hss]; rfl)
    · exact cell_log hk' (mem_room i .xFun) (by rw [R.furnitureHumidity])
    · exact cell_log hk' (mem_room i .qLFun) (by rw [LogRow.qLFrt, R.roomHumidity, R.furnitureHumidity, hss]; rfl)
    · exact cell_log hk' (mem_room i .vReak) (by rw [R.infiltration])
    · exact cell_log hk' (mem_room i .vNtrl) (by rw [R.naturalVentilation])
    · refine ⟨_, remarkOf (mn[k].ot i).mode (r.ss.isRadHeating i) (r.ss.isRadCooling i), mem_room i .remarks, by simp [hk', R.mode], ?_⟩
      have e1 : r.ss.isRadHeating = h.isRadHeating := by rw [hss]; rfl
      have e2 : r.ss.isRadCooling = h.isRadCooling := by rw [hss]; rfl
      rw [e1, e2]
      exact remark_values _ _ _
  · intro j
    constructor
    · exact cell_log hk' (mem_part hp j .tS) (by rw [R.surfaceTemperature])
    · exact cell_log hk' (mem_part hp j .tE) (by rw [R.equivalentTemperature])
    · exact cell_log hk' (mem_part hp j .tB) (by rw [R.rearTemperature])
    · exact cell_log hk' (mem_part hp j .hirS) (by rw [hss]; rfl)
    · exact cell_log hk' (mem_part hp j .qirS) (by rw [LogRow.qr, hp, p_mul_mulVec, R.surfaceTemperature, hss]; rfl)
    · exact cell_log hk' (mem_part hp j .hicS) (by rw [hss]; rfl)
    · exact cell_log hk' (mem_part hp j .qicS) (by rw [LogRow.qc, hp, pT_mulVec, R.surfaceTemperature, R.roomTemperature, hss]; rfl)
    · exact cell_pre hM hk' (mem_part hp j .qisolS) (by rw [hss]; rfl)
    · exact cell_log hk' (mem_part hp j .qiallS) (by rw [R.surfaceFlux])

theorem partNumber_inj {j j' : Fin m} (hr : h.room j = h.room j') (hn : partNumber h j = partNumber h j') : j = j' := by
  have key : ∀ {a b : Fin m}, a < b → h.room a = h.room b → partNumber h a < partNumber h b := by
    intro a b hab hr
    apply Finset.card_lt_card
    rw [Finset.ssubset_iff_of_subset]
    · exact ⟨a, by simp [hab, hr], by simp⟩
    · intro x hx
      simp only [Finset.mem_filter, Finset.mem_univ, true_and] at hx ⊢
      exact ⟨hx.1.trans hab, hx.2.trans hr⟩
  rcases lt_trichotomy j j' with h1 | h1 | h1
  · exact absurd hn (key h1 hr).ne
  · exact h1
  · exact absurd hn (key h1 hr.symm).ne'

theorem partNumber_lt (h : House (Fin n) (Fin m)) (j : Fin m) :
    partNumber h j < (Finset.univ.filter fun j' => h.room j' = h.room j).card := by
  apply Finset.card_lt_card
  rw [Finset.ssubset_iff_of_subset]
  · exact ⟨j, by simp, by simp⟩
  · intro x hx
    simp only [Finset.mem_filter, Finset.mem_univ, true_and] at hx ⊢
    exact hx.2

theorem columns_of_run (H : coreCalc h hR data hourly dMain dRunUp dRunUpBuild = .ok r) :
    ∃ tab, recordDetail r = .ok tab ∧
    (∀ name ∈ tab.cols.map Prod.fst, name = "out_temp" ∨ name = "out_abs_humid" ∨
      (∃ (i : Fin n) (s : String), name = roomColumn i s ∧ s ∈ ["ac_operate", "occupancy", "hc_hum", "hr_hum", "t_r", "rh_r", "x_r",
        "mrt", "ot", "q_sol_t", "q_s_except_hum", "q_l_except_hum", "q_hum_s", "q_hum_l", "l_s_c", "l_s_r", "l_l_c", "t_fun", "q_s_fun",
        "q_s_sol_fun", "x_fun", "q_l_fun", "v_reak", "v_ntrl", "remarks"]) ∨
      ∃ (j : Fin m) (s : String), name = partColumn (h.room j) (partNumber h j) s ∧
        s ∈ ["t_s", "t_e", "t_b", "hir_s", "qir_s", "hic_s", "qic_s", "qisol_s", "qiall_s"]) ∧
    (∀ j j', h.room j = h.room j' → partNumber h j = partNumber h j' → j = j') ∧
    ∀ j, partNumber h j < (Finset.univ.filter fun j' => h.room j' = h.room j).card := by
  obtain ⟨gs, c0, up, mn', T⟩ := coreCalc_ok H
  obtain ⟨ivs, -, hss⟩ := makePreCalc_ok T.pre
  have hp : r.ss.p = h.p := by rw [hss]; rfl
  refine ⟨_, recordDetail_eq (nMain_le H), ?_, fun j j' => partNumber_inj, partNumber_lt h⟩
  intro name hname
  obtain ⟨c, hc, rfl⟩ := List.mem_map.1 hname
  obtain ⟨d, hd, rfl⟩ := List.mem_map.1 hc
  simp only [allCols, roomCols, List.mem_cons, List.mem_flatten, List.mem_map] at hd
  rcases hd with rfl | rfl | ⟨_, ⟨i, -, rfl⟩, hd⟩
  · exact .inl rfl
  · exact .inr (.inl rfl)
  · simp only [List.mem_append, List.mem_map, List.mem_flatten] at hd
    rcases hd with ⟨q, -, rfl⟩ | ⟨_, ⟨q, -, rfl⟩, hd⟩
    · exact .inr (.inr (.inl ⟨i, q.suffix, rfl, by cases q <;> simp [RoomQ.suffix]⟩))
    · obtain ⟨⟨j, k⟩, hx, rfl⟩ := List.mem_map.1 hd
      have hx' := List.mem_zipIdx_iff_getElem?.1 hx
      have hj : h.room j = i := (mem_selected hp).1 (List.mem_of_getElem? hx')
      subst hj
      have hk : k = partNumber h j := by
        have h1 := selected_rank hp j
        obtain ⟨l1, e1⟩ := List.getElem?_eq_some_iff.1 hx'
        obtain ⟨l2, e2⟩ := List.getElem?_eq_some_iff.1 h1
        have hnd : (selected r (h.room j)).Nodup := (selected_sorted r _).imp (fun h => h.ne)
        exact (hnd.getElem_inj_iff (hi := l1) (hj := l2)).1 (e1.trans e2.symm)
      refine .inr (.inr (.inr ⟨j, q.suffix, ?_, by cases q <;> simp [PartQ.suffix]⟩))
      simp only [Col.name, partColumn, hk]
      simp [String.append_assoc]

/-- The steps of `calc`. -/
theorem calcTables_run {rnd : ℕ → ℝ → ℝ} {ds : Digest} {dd : Table}
    (H : calcTables rnd h hR data hourly dMain dRunUp dRunUpBuild = .ok (ds, dd)) :
    ∃ r, coreCalc h hR data hourly dMain dRunUp dRunUpBuild = .ok r ∧ postLogging r = .ok () ∧ recordDetail r = .ok dd ∧
      recordDigest rnd dd n dMain = .ok ds := by
  unfold calcTables at H
  cases h1 : coreCalc h hR data hourly dMain dRunUp dRunUpBuild with
  | error e => rw [h1] at H; cases H
  | ok r =>
    rw [h1] at H
    cases h2 : postLogging r with
    | error e => simp only [bind, Except.bind, h2] at H; cases H
    | ok u =>
      cases h3 : recordDetail r with
      | error e => simp only [bind, Except.bind, h2, h3] at H; cases H
      | ok dd' =>
        cases h4 : recordDigest rnd dd' n dMain with
        | error e => simp only [bind, Except.bind, h2, h3, h4] at H; cases H
        | ok ds' =>
          simp only [bind, Except.bind, h2, h3, h4] at H
          cases H
          exact ⟨r, rfl, h2, h3, h4⟩

/-- **C79.** Whenever `calc` returns, its detailed table has one row per step of the main period; every column name occurs once and every
column is filled. Row `k` of the columns named in the documented format holds, for every room, what step `k` of the main period computed for
that room and the given values of that step, and for every part, in the columns of its own room, what the step computed for that part. -/
theorem C79_table {rnd : ℕ → ℝ → ℝ} {ds : Digest} {tab : Table}
    (H : calcTables rnd h hR data hourly dMain dRunUp dRunUpBuild = .ok (ds, tab)) :
    Regular tab ∧ (tab.rows : ℤ) = dMain * 24 * hourly ∧
    ∃ (r : CalcResult (Fin n) m N) (c1 : Cond (Fin n) (Fin m)) (mn : List (TickVars (Fin n) (Fin m))) (hl : mn.length = tab.rows)
      (hN : tab.rows ≤ N),
      coreCalc h hR data hourly dMain dRunUp dRunUpBuild = .ok r ∧
      Run r.ss (3600 / (hourly : ℝ)) c1 ((List.range tab.rows).map fun k : ℕ => (k : ℤ)) mn ∧
      ∀ (k : ℕ) (hk : k < tab.rows),
        Cell tab "out_temp" k (data ⟨k, by omega⟩).thetaO ∧ Cell tab "out_abs_humid" k (data ⟨k, by omega⟩).xO ∧
        (∀ i, RoomCells tab h (data ⟨k, by omega⟩) mn[k] k i) ∧
        ∀ j, PartCells tab h hR (data ⟨k, by omega⟩) mn[k] k (h.room j) (partNumber h j) j := by
  obtain ⟨r, H1, -, H2, -⟩ := calcTables_run H
  obtain ⟨tab', ht, h1, h2, c1, mn, hl, hN, h3, h4⟩ := table_of_run H1
  have e : tab' = tab := Except.ok.inj (ht.symm.trans H2)
  subst e
  exact ⟨h1, h2, r, c1, mn, hl, hN, H1, h3, h4⟩

/-- **C79 (columns).** The table has no other columns than those of `C79_table`: the two outdoor columns, the columns of the rooms and
those of the parts. Different parts of a room have different numbers, smaller than the number of parts of the room. -/
theorem C79_columns {rnd : ℕ → ℝ → ℝ} {ds : Digest} {tab : Table}
    (H : calcTables rnd h hR data hourly dMain dRunUp dRunUpBuild = .ok (ds, tab)) :
    (∀ name ∈ tab.cols.map Prod.fst, name = "out_temp" ∨ name = "out_abs_humid" ∨
      (∃ (i : Fin n) (s : String), name = roomColumn i s ∧ s ∈ ["ac_operate", "occupancy", "hc_hum", "hr_hum", "t_r", "rh_r", "x_r",
        "mrt", "ot", "q_sol_t", "q_s_except_hum", "q_l_except_hum", "q_hum_s", "q_hum_l", "l_s_c", "l_s_r", "l_l_c", "t_fun", "q_s_fun",
        "q_s_sol_fun", "x_fun", "q_l_fun", "v_reak", "v_ntrl", "remarks"]) ∨
      ∃ (j : Fin m) (s : String), name = partColumn (h.room j) (partNumber h j) s ∧
        s ∈ ["t_s", "t_e", "t_b", "hir_s", "qir_s", "hic_s", "qic_s", "qisol_s", "qiall_s"]) ∧
    (∀ j j', h.room j = h.room j' → partNumber h j = partNumber h j' → j = j') ∧
    ∀ j, partNumber h j < (Finset.univ.filter fun j' => h.room j' = h.room j).card := by
  obtain ⟨r, H1, -, H2, -⟩ := calcTables_run H
  obtain ⟨tab', ht, h1⟩ := columns_of_run H1
  have e : tab' = tab := Except.ok.inj (ht.symm.trans H2)
  subst e
  exact h1

theorem postLogging_ok_iff {r : CalcResult (Fin n) m N} : postLogging r = .ok () ↔
    0 < n ∧ 0 < r.nMain.toNat ∧ ∀ k i, -273.15 < (r.log k).thetaR i := by
  unfold postLogging
  split_ifs with h1 h2
  · simp only [false_iff]
    rintro ⟨a, b, -⟩
    omega
  · simp only [false_iff]
    rintro ⟨-, -, c⟩
    obtain ⟨k, i, hki⟩ := h2
    have := c k i
    linarith
  · simp only [true_iff]
    refine ⟨by omega, by omega, fun k i => ?_⟩
    push Not at h2
    have := h2 k i
    linarith

end

end HLC
