import Verif.Props.Results
import Verif.Lemmas.Except
import Mathlib.Tactic.IntervalCases

/-!
# The hourly digest (C81)
-/

namespace HLC

set_option linter.unusedSectionVars false

open Spec

theorem get_of_mem {tab : Table} (hr : Regular tab) {name : String} {c : Column} (hm : (name, c) ∈ tab.cols) : tab.get name = .ok c := by
  have key : ∀ l : List (String × Column), (l.map Prod.fst).Nodup → (name, c) ∈ l → l.lookup name = some c := by
    intro l
    induction l with
    | nil => intro _ h; cases h
    | cons a l ih =>
      intro hn hmem
      obtain ⟨k, d⟩ := a
      rw [List.map_cons, List.nodup_cons] at hn
      rcases List.mem_cons.1 hmem with h | h
      · cases h
        simp
      · have : name ≠ k := by
          rintro rfl
          exact hn.1 (List.mem_map.2 ⟨(name, c), h, rfl⟩)
        rw [List.lookup_cons, beq_false_of_ne this]
        exact ih hn.2 h
  unfold Table.get
  rw [key _ hr.1 hm]

section
variable {n m N : ℕ} {h : House (Fin n) (Fin m)} {hR : Fin m → ℝ} {data : Fin N → Record (Fin n) (Fin m)}
    {hourly dMain dRunUp dRunUpBuild : ℤ} {r : CalcResult (Fin n) m N} {rnd : ℕ → ℝ → ℝ}

theorem hourRows_ofFn {M : ℕ} (f : Fin M → ℝ) (t : ℕ) (ht : 4 * t + 4 ≤ M) :
    hourRows (List.ofFn f) t = [f ⟨4 * t, by omega⟩, f ⟨4 * t + 1, by omega⟩, f ⟨4 * t + 2, by omega⟩, f ⟨4 * t + 3, by omega⟩] := by
  unfold hourRows
  apply List.ext_getElem?
  intro q
  rw [List.getElem?_take]
  by_cases hq : q < 4
  · rw [if_pos hq, List.getElem?_drop, List.getElem?_ofFn, dif_pos (by omega)]
    interval_cases q <;> rfl
  · rw [if_neg hq]
    symm
    rw [List.getElem?_eq_none_iff]
    simp only [List.length_cons, List.length_nil]
    omega

theorem hourMean_ofFn {M : ℕ} (f : Fin M → ℝ) (t : ℕ) (ht : 4 * t + 4 ≤ M) : hourMean (List.ofFn f) t = some (hourTotal f t ht / 4) := by
  unfold hourMean
  rw [hourRows_ofFn f t ht, if_neg (by simp)]
  simp [hourTotal, add_assoc]

theorem hourSum_ofFn {M : ℕ} (f : Fin M → ℝ) (t : ℕ) (ht : 4 * t + 4 ≤ M) : hourSum (List.ofFn f) t = some (hourTotal f t ht) := by
  unfold hourSum
  rw [hourRows_ofFn f t ht, if_neg (by simp)]
  simp [hourTotal, add_assoc]

theorem take_ofFn {M : ℕ} (f : Fin N → ℝ) (hM : M ≤ N) : (List.ofFn f).take M = List.ofFn fun k : Fin M => f ⟨k, by omega⟩ := by
  apply List.ext_getElem
  · simp [hM]
  · intro k h1 h2
    simp

theorem meanCol_eq {tab : Table} (hr : Regular tab) {c : Col} {M : ℕ} {f : Fin M → ℝ} (hm : (c.name, logCol f) ∈ tab.cols) (hours d : ℕ) :
    meanCol rnd tab hours c d = .ok ((List.range hours).map fun t => (hourMean (List.ofFn f) t).map (rnd d)) := by
  unfold meanCol
  rw [get_of_mem hr hm]
  rfl

theorem sumCol_eq {tab : Table} (hr : Regular tab) {c : Col} {M : ℕ} {f : Fin M → ℝ} (hm : (c.name, logCol f) ∈ tab.cols) (hours : ℕ) :
    sumCol rnd tab hours c = .ok ((List.range hours).map fun t => (hourSum (List.ofFn f) t).map (rnd 0)) := by
  unfold sumCol
  rw [get_of_mem hr hm]
  rfl

/-- The digest of room `i`. -/
noncomputable def roomDigest (rnd : ℕ → ℝ → ℝ) (hours : ℕ) (r : CalcResult (Fin n) m N) (i : Fin n) : DigestRoom where
  acOperate := (List.range hours).map (atHour (List.ofFn fun k => (r.log k).mode i))
  tR := (List.range hours).map fun t => (hourMean (List.ofFn fun k => (r.log k).thetaR i) t).map (rnd 2)
  xR := (List.range hours).map fun t => (hourMean (List.ofFn fun k => (r.log k).xR i) t).map (rnd 4)
  ot := (List.range hours).map fun t => (hourMean (List.ofFn fun k => (r.log k).thetaOt i) t).map (rnd 2)
  lSC := (List.range hours).map fun t => (hourSum (List.ofFn fun k => (r.log k).lCs i) t).map (rnd 0)
  lSR := (List.range hours).map fun t => (hourSum (List.ofFn fun k => (r.log k).lRs i) t).map (rnd 0)
  lLC := (List.range hours).map fun t => (hourSum (List.ofFn fun k => (r.log k).lCl i) t).map (rnd 0)

theorem digestRoom_eq (hM : r.nMain.toNat ≤ N) (hours : ℕ) (i : Fin n) :
    digestRoom rnd (detailTable r) hours i = .ok (roomDigest rnd hours r i) := by
  have hr := detail_regular hM
  unfold digestRoom
  rw [show (detailTable r).get (Col.room i .acOperate).name = .ok _ from get_of_mem hr (mem_room i .acOperate),
    show meanCol rnd (detailTable r) hours (.room i .tR) 2 = .ok _ from meanCol_eq hr (mem_room i .tR) _ _,
    show meanCol rnd (detailTable r) hours (.room i .xR) 4 = .ok _ from meanCol_eq hr (mem_room i .xR) _ _,
    show meanCol rnd (detailTable r) hours (.room i .ot) 2 = .ok _ from meanCol_eq hr (mem_room i .ot) _ _,
    show sumCol rnd (detailTable r) hours (.room i .lSC) = .ok _ from sumCol_eq hr (mem_room i .lSC) _,
    show sumCol rnd (detailTable r) hours (.room i .lSR) = .ok _ from sumCol_eq hr (mem_room i .lSR) _,
    show sumCol rnd (detailTable r) hours (.room i .lLC) = .ok _ from sumCol_eq hr (mem_room i .lLC) _]
  rfl

/-- The digest of a completed calculation. -/
noncomputable def digestOf (rnd : ℕ → ℝ → ℝ) (hours : ℕ) (r : CalcResult (Fin n) m N) (hM : r.nMain.toNat ≤ N) : Digest where
  rows := hours
  outTemp := (List.range hours).map fun t =>
    (hourMean (List.ofFn fun k : Fin r.nMain.toNat => r.ss.thetaO ⟨k, by omega⟩) t).map (rnd 2)
  outAbsHumid := (List.range hours).map fun t =>
    (hourMean (List.ofFn fun k : Fin r.nMain.toNat => r.ss.xO ⟨k, by omega⟩) t).map (rnd 2)
  rooms := (List.finRange n).map (roomDigest rnd hours r)

theorem recordDigest_eq (hM : r.nMain.toNat ≤ N) (hd : 0 ≤ dMain) :
    recordDigest rnd (detailTable r) n dMain = .ok (digestOf rnd (dMain * 24).toNat r hM) := by
  have hr := detail_regular hM
  have hT : (Col.name .outTemp, logCol fun k : Fin r.nMain.toNat => r.ss.thetaO ⟨k, by omega⟩) ∈ (detailTable r).cols := by
    refine List.mem_map.2 ⟨(.outTemp, _), ?_, rfl⟩
    rw [allCols, preCol, take_ofFn _ hM]
    exact List.mem_cons_self
  have hX : (Col.name .outAbsHumid, logCol fun k : Fin r.nMain.toNat => r.ss.xO ⟨k, by omega⟩) ∈ (detailTable r).cols := by
    refine List.mem_map.2 ⟨(.outAbsHumid, _), ?_, rfl⟩
    rw [allCols, preCol, preCol, take_ofFn _ hM, take_ofFn _ hM]
    exact List.mem_cons_of_mem _ List.mem_cons_self
  have hrooms : (List.range n).mapM (digestRoom rnd (detailTable r) (dMain * 24).toNat)
      = .ok ((List.finRange n).map (roomDigest rnd (dMain * 24).toNat r)) := by
    rw [mapM_ok_iff]
    rw [List.forall₂_iff_get]
    refine ⟨by simp, ?_⟩
    intro k h1 h2
    simp only [List.length_range] at h1
    simpa using digestRoom_eq (rnd := rnd) hM (dMain * 24).toNat ⟨k, h1⟩
  unfold recordDigest
  rw [if_neg (by omega)]
  simp only [meanCol_eq hr hT, meanCol_eq hr hX, hrooms]
  rfl

theorem dMain_nonneg (H : coreCalc h hR data hourly dMain dRunUp dRunUpBuild = .ok r) (hh : 0 < hourly) : 0 ≤ dMain := by
  obtain ⟨gs, c0, up, mn, T⟩ := coreCalc_ok H
  have h1 := T.nMain_nonneg
  rw [T.nMain_eq] at h1
  by_contra hd
  push Not at hd
  nlinarith [mul_pos hh (neg_pos.2 hd)]

theorem digest_of_run (rnd : ℕ → ℝ → ℝ) (H : coreCalc h hR data 4 dMain dRunUp dRunUpBuild = .ok r) :
    ∃ tab dg, recordDetail r = .ok tab ∧ recordDigest rnd tab n dMain = .ok dg ∧ (dg.rows : ℤ) = dMain * 24 ∧
    ∃ (hN : r.nMain.toNat ≤ N) (hrows : 4 * dg.rows ≤ r.nMain.toNat) (hrooms : dg.rooms.length = n),
    ∀ (t : ℕ) (ht : t < dg.rows),
      dg.outTemp[t]? = some (some (rnd 2 (hourTotal (fun k : Fin r.nMain.toNat => (data ⟨k, by omega⟩).thetaO) t (by omega) / 4))) ∧
      dg.outAbsHumid[t]? = some (some (rnd 2 (hourTotal (fun k : Fin r.nMain.toNat => (data ⟨k, by omega⟩).xO) t (by omega) / 4))) ∧
      ∀ i : Fin n,
        dg.rooms[i].acOperate[t]? = some (some ((r.log ⟨4 * t, by omega⟩).mode i)) ∧
        dg.rooms[i].tR[t]? = some (some (rnd 2 (hourTotal (fun k => (r.log k).thetaR i) t (by omega) / 4))) ∧
        dg.rooms[i].xR[t]? = some (some (rnd 4 (hourTotal (fun k => (r.log k).xR i) t (by omega) / 4))) ∧
        dg.rooms[i].ot[t]? = some (some (rnd 2 (hourTotal (fun k => (r.log k).thetaOt i) t (by omega) / 4))) ∧
        dg.rooms[i].lSC[t]? = some (some (rnd 0 (hourTotal (fun k => (r.log k).lCs i) t (by omega)))) ∧
        dg.rooms[i].lSR[t]? = some (some (rnd 0 (hourTotal (fun k => (r.log k).lRs i) t (by omega)))) ∧
        dg.rooms[i].lLC[t]? = some (some (rnd 0 (hourTotal (fun k => (r.log k).lCl i) t (by omega)))) := by
  have hM := nMain_le H
  have hd := dMain_nonneg H (by norm_num)
  obtain ⟨gs, c0, up, mn, T⟩ := coreCalc_ok H
  obtain ⟨ivs, -, hss⟩ := makePreCalc_ok T.pre
  have hn := T.nMain_eq
  have h4 : 4 * (dMain * 24).toNat ≤ r.nMain.toNat := by omega
  have hO : r.ss.thetaO = fun k => (data k).thetaO := by rw [hss]; rfl
  have hX : r.ss.xO = fun k => (data k).xO := by rw [hss]; rfl
  refine ⟨detailTable r, _, recordDetail_eq hM, recordDigest_eq hM hd, ?_, hM, h4, ?_, ?_⟩
  · simp only [digestOf]
    omega
  · simp [digestOf]
  intro t ht
  have ht' : t < (dMain * 24).toNat := ht
  have hl : 4 * t + 4 ≤ r.nMain.toNat := by omega
  refine ⟨?_, ?_, ?_⟩
  · simp [digestOf, ht', hourMean_ofFn _ t hl, hO]
  · simp [digestOf, ht', hourMean_ofFn _ t hl, hX]
  · intro i
    refine ⟨?_, ?_, ?_, ?_, ?_, ?_, ?_⟩
    · simp [digestOf, roomDigest, ht', atHour, show 4 * t < r.nMain.toNat by omega]
    · simp [digestOf, roomDigest, ht', hourMean_ofFn _ t hl]
    · simp [digestOf, roomDigest, ht', hourMean_ofFn _ t hl]
    · simp [digestOf, roomDigest, ht', hourMean_ofFn _ t hl]
    · simp [digestOf, roomDigest, ht', hourSum_ofFn _ t hl]
    · simp [digestOf, roomDigest, ht', hourSum_ofFn _ t hl]
    · simp [digestOf, roomDigest, ht', hourSum_ofFn _ t hl]

theorem digest_steps (rnd : ℕ → ℝ → ℝ) (hh : 0 < hourly) (h4 : hourly < 4) (hd : 0 < dMain)
    (H : coreCalc h hR data hourly dMain dRunUp dRunUpBuild = .ok r) :
    ∃ tab dg, recordDetail r = .ok tab ∧ recordDigest rnd tab n dMain = .ok dg ∧ (dg.rows : ℤ) = dMain * 24 ∧
    ∃ hrooms : dg.rooms.length = n,
    (6 * hourly * dMain).toNat < dg.rows ∧ ∀ t : ℕ, 6 * hourly * dMain ≤ t → t < dg.rows → ∀ i : Fin n,
      dg.rooms[i].tR[t]? = some none ∧ dg.rooms[i].lSC[t]? = some none := by
  have hM := nMain_le H
  obtain ⟨gs, c0, up, mn, T⟩ := coreCalc_ok H
  have hn := T.nMain_eq
  refine ⟨detailTable r, _, recordDetail_eq hM, recordDigest_eq hM hd.le, ?_, ?_, ?_, ?_⟩
  · simp only [digestOf]
    omega
  · simp [digestOf]
  · simp only [digestOf]
    have : hourly ≤ 3 := by omega
    have : 6 * hourly * dMain ≤ 18 * dMain := by nlinarith
    omega
  · intro t ht1 ht2 i
    have ht' : t < (dMain * 24).toNat := ht2
    have hempty : ∀ f : Fin r.nMain.toNat → ℝ, hourRows (List.ofFn f) t = [] := by
      intro f
      unfold hourRows
      have e : r.nMain = 4 * (6 * hourly * dMain) := by rw [hn]; ring
      rw [List.drop_eq_nil_of_le (by rw [List.length_ofFn]; omega), List.take_nil]
    constructor
    · simp [digestOf, roomDigest, ht', hourMean, hempty]
    · simp [digestOf, roomDigest, ht', hourSum, hempty]

/-- **C79 (when).** `calc` returns exactly if all steps complete, there is a room and a step to report, and no room reaches absolute zero in
the main period. In particular a main period of zero days raises an exception after the run-up. -/
theorem C79_returns (rnd : ℕ → ℝ → ℝ) : (∃ ds dd, calcTables rnd h hR data hourly dMain dRunUp dRunUpBuild = .ok (ds, dd)) ↔
    0 < n ∧ 0 < hourly ∧ 0 < dMain ∧ ∃ r, coreCalc h hR data hourly dMain dRunUp dRunUpBuild = .ok r ∧
      ∀ (k : Fin r.nMain.toNat) (i : Fin n), -273.15 < (r.log k).thetaR i := by
  constructor
  · rintro ⟨ds, dd, H⟩
    obtain ⟨r, H1, H2, H3, H4⟩ := calcTables_run H
    obtain ⟨p1, p2, p3⟩ := postLogging_ok_iff.1 H2
    obtain ⟨gs, c0, up, mn, T⟩ := coreCalc_ok H1
    have hn := T.nMain_eq
    have hd : 0 ≤ dMain := by
      by_contra hneg
      unfold recordDigest at H4
      rw [if_pos (by omega)] at H4
      cases H4
    have hprod : 0 < dMain * hourly := by
      have : 0 < r.nMain := by omega
      rw [hn] at this
      nlinarith
    have hd' : 0 < dMain := lt_of_le_of_ne hd fun e => by rw [← e] at hprod; simp at hprod
    exact ⟨p1, pos_of_mul_pos_right hprod hd, hd', r, H1, p3⟩
  · rintro ⟨hn, hh, hd, r, H, ht⟩
    have hM := nMain_le H
    obtain ⟨gs, c0, up, mn, T⟩ := coreCalc_ok H
    have hpos : 0 < r.nMain := by
      rw [T.nMain_eq]
      have := mul_pos hd hh
      nlinarith
    have hpl := postLogging_ok_iff.2 ⟨hn, by omega, ht⟩
    refine ⟨digestOf rnd (dMain * 24).toNat r hM, detailTable r, ?_⟩
    unfold calcTables
    rw [H]
    simp only [bind, Except.bind, hpl, recordDetail_eq hM, recordDigest_eq (rnd := rnd) hM hd.le]
    rfl

/-- **C79 (no day).** A calculation of zero days never returns, even if all its steps complete. -/
theorem C79_no_day_violated (rnd : ℕ → ℝ → ℝ) (H : coreCalc h hR data hourly 0 dRunUp dRunUpBuild = .ok r) :
    calcTables rnd h hR data hourly 0 dRunUp dRunUpBuild = .error .valueError := by
  obtain ⟨gs, c0, up, mn, T⟩ := coreCalc_ok H
  have hz : r.nMain = 0 := by rw [T.nMain_eq]; simp
  unfold calcTables
  rw [H]
  have : postLogging r = .error .valueError := by
    unfold postLogging
    rw [if_pos (by right; rw [hz]; rfl)]
  simp only [bind, Except.bind, this]

/-- **C81 (partial).** With four steps per hour the digest has one row per hour of the main period. Outdoor values, air temperature,
humidity and operative temperature are the (rounded) means of the four values of the hour; the operation mode is that of the first
quarter hour; the loads are the (rounded) *sums* of the four values. -/
theorem C81_digest_partial {rnd : ℕ → ℝ → ℝ} {dg : Digest} {tab : Table}
    (H : calcTables rnd h hR data 4 dMain dRunUp dRunUpBuild = .ok (dg, tab)) :
    (dg.rows : ℤ) = dMain * 24 ∧ ∃ r, coreCalc h hR data 4 dMain dRunUp dRunUpBuild = .ok r ∧
    ∃ (hN : r.nMain.toNat ≤ N) (hrows : 4 * dg.rows ≤ r.nMain.toNat) (hrooms : dg.rooms.length = n),
    ∀ (t : ℕ) (ht : t < dg.rows),
      dg.outTemp[t]? = some (some (rnd 2 (hourTotal (fun k : Fin r.nMain.toNat => (data ⟨k, by omega⟩).thetaO) t (by omega) / 4))) ∧
      dg.outAbsHumid[t]? = some (some (rnd 2 (hourTotal (fun k : Fin r.nMain.toNat => (data ⟨k, by omega⟩).xO) t (by omega) / 4))) ∧
      ∀ i : Fin n,
        dg.rooms[i].acOperate[t]? = some (some ((r.log ⟨4 * t, by omega⟩).mode i)) ∧
        dg.rooms[i].tR[t]? = some (some (rnd 2 (hourTotal (fun k => (r.log k).thetaR i) t (by omega) / 4))) ∧
        dg.rooms[i].xR[t]? = some (some (rnd 4 (hourTotal (fun k => (r.log k).xR i) t (by omega) / 4))) ∧
        dg.rooms[i].ot[t]? = some (some (rnd 2 (hourTotal (fun k => (r.log k).thetaOt i) t (by omega) / 4))) ∧
        dg.rooms[i].lSC[t]? = some (some (rnd 0 (hourTotal (fun k => (r.log k).lCs i) t (by omega)))) ∧
        dg.rooms[i].lSR[t]? = some (some (rnd 0 (hourTotal (fun k => (r.log k).lRs i) t (by omega)))) ∧
        dg.rooms[i].lLC[t]? = some (some (rnd 0 (hourTotal (fun k => (r.log k).lCl i) t (by omega)))) := by
  obtain ⟨r, H1, -, H3, H4⟩ := calcTables_run H
  obtain ⟨tab', dg', h1, h2, h3, h4⟩ := digest_of_run rnd H1
  have e : tab' = tab := Except.ok.inj (h1.symm.trans H3)
  subst e
  have e : dg' = dg := Except.ok.inj (h2.symm.trans H4)
  subst e
  exact ⟨h3, r, H1, h4⟩

/-- **C81 (violated, length of the steps).** With fewer than four steps per hour the last hours of the digest are empty: every hour from
`ceil (6 hourly days)` on has no temperature and no load, although the steps were calculated. -/
theorem C81_steps_violated {rnd : ℕ → ℝ → ℝ} {dg : Digest} {tab : Table} (hh : 0 < hourly) (h4 : hourly < 4) (hd : 0 < dMain)
    (H : calcTables rnd h hR data hourly dMain dRunUp dRunUpBuild = .ok (dg, tab)) :
    (dg.rows : ℤ) = dMain * 24 ∧ ∃ hrooms : dg.rooms.length = n,
    (6 * hourly * dMain).toNat < dg.rows ∧ ∀ t : ℕ, 6 * hourly * dMain ≤ t → t < dg.rows → ∀ i : Fin n,
      dg.rooms[i].tR[t]? = some none ∧ dg.rooms[i].lSC[t]? = some none := by
  obtain ⟨r, H1, -, H3, H4⟩ := calcTables_run H
  obtain ⟨tab', dg', h1, h2, h5⟩ := digest_steps rnd hh h4 hd H1
  have e : tab' = tab := Except.ok.inj (h1.symm.trans H3)
  subst e
  have e : dg' = dg := Except.ok.inj (h2.symm.trans H4)
  subst e
  exact h5

end

end HLC
