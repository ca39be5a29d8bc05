import Verif.Spec.Supplied
import Verif.Props.Airing
import Verif.Props.LoadLogged
import Verif.Props.Moisture
import Verif.Props.OpenWindow

/-!
# C138: heating makes no room colder, cooling makes no room warmer
-/

set_option linter.unusedSectionVars false

namespace HLC
open Spec

section
variable {I J : Type} [Fintype I] [DecidableEq I] [Fintype J] [DecidableEq J] {N : ℕ} {h : House I J} {hR : J → ℝ} {dt : ℝ}

/-- One amount of outdoor air for both rooms. -/
theorem AirNoWarmer.common {θoa θob va vb θa θb a : ℝ} (H : AirNoWarmer θoa θob va vb θa θb) (ha : 0 ≤ a) :
    ∃ u, (u = va ∨ u = vb) ∧ a * (va - u) * (θoa - θa) ≤ a * (vb - u) * (θob - θb) := by
  rcases H with hc | ⟨hc, hθ | hθ⟩ | ⟨hc, hθ | hθ⟩
  · exact ⟨va, .inl rfl, by rw [hc]; simp⟩
  · refine ⟨vb, .inr rfl, ?_⟩
    rw [sub_self, mul_zero, zero_mul]
    exact mul_nonpos_of_nonneg_of_nonpos (mul_nonneg ha (sub_nonneg.2 hc)) (by linarith)
  · refine ⟨va, .inl rfl, ?_⟩
    rw [sub_self, mul_zero, zero_mul]
    exact mul_nonneg_of_nonpos_of_nonpos (mul_nonpos_of_nonneg_of_nonpos ha (by linarith)) (by linarith)
  · refine ⟨vb, .inr rfl, ?_⟩
    rw [sub_self, mul_zero, zero_mul]
    exact mul_nonpos_of_nonpos_of_nonneg (mul_nonpos_of_nonneg_of_nonpos ha (by linarith)) (by linarith)
  · refine ⟨va, .inl rfl, ?_⟩
    rw [sub_self, mul_zero, zero_mul]
    exact mul_nonneg (mul_nonneg ha (sub_nonneg.2 hc)) (by linarith)

/-- **C138 (one step).** -/
theorem step_supplied {ss ss' : PreCalc I J N} {n : ℤ} {k : Fin N} {A B : Fin N → Record I J} {c c' : Cond I J} {t t' : TickVars I J}
    (hw : WellFormed h hR dt) (hr : RadiantWellFormed h) (hst : Storageless h) (hv : ∀ i l, h.vInt i l = 0)
    (Hp : makePreCalc h hR dt A = .ok ss) (Hp' : makePreCalc h hR dt B = .ok ss') (H : runTick n dt ss c = .ok t)
    (H' : runTick n dt ss' c' = .ok t') (hk : pyIndex N n = .ok k) (hloc : ∀ i, 0 ≤ (A k).vLocal i) (hAB : Warmer (A k) (B k))
    (hp : RoomForPeople h dt (A k)) (hs : MoreSupplied (A k) (B k) (LogRow.ofTick t) (LogRow.ofTick t')) (hc : Below c c') :
    Below t.next t'.next ∧ RowBelow (LogRow.ofTick t) (LogRow.ofTick t') := by
  obtain ⟨a1, a2, SA⟩ := step_averages hw hst hv Hp H hk (fun j m => (hc.emptyA j m).1) (fun j m => (hc.emptyT j m).1)
  obtain ⟨b1, b2, SB⟩ := step_averages hw hst hv Hp' H' hk (fun j m => (hc.emptyA j m).2) (fun j m => (hc.emptyT j m).2)
  obtain ⟨ivs, k1, hi1, hs1, hk1, e1⟩ := step_eqs Hp H
  obtain rfl : k1 = k := Except.ok.inj (hk1.symm.trans hk)
  obtain ⟨ivs', k2, hi2, hs2, hk2, e2⟩ := step_eqs Hp' H'
  obtain rfl : k2 = k1 := Except.ok.inj (hk2.symm.trans hk)
  subst hs1 hs2
  have n1 : ∀ i, 0 ≤ t.vOut i := vOut_nonneg hw hloc e1
  have n2 : ∀ i, 0 ≤ t'.vOut i := vOut_nonneg hw (by rw [hAB.ventilation]; exact hloc) e2
  have hcapA : ∀ i, 0 < h.vRoom i * airCap := fun i => mul_pos (hw.vRoom_pos i) (by unfold airCap; norm_num)
  have hu : ∃ u : I → ℝ, (∀ i, 0 ≤ u i) ∧ ∀ i, airCap * (t.vOut i - u i) * ((A k2).thetaO - t.thetaR i)
      ≤ airCap * (t'.vOut i - u i) * ((B k2).thetaO - t'.thetaR i) := by
    have : ∀ i, ∃ u : ℝ, 0 ≤ u ∧ airCap * (t.vOut i - u) * ((A k2).thetaO - t.thetaR i)
      ≤ airCap * (t'.vOut i - u) * ((B k2).thetaO - t'.thetaR i) := by
      intro i
      have d : t.vOut i - t'.vOut i = (t.vLeak i + t.vNtrl i) - (t'.vLeak i + t'.vNtrl i) := by
        rw [e1.vOut, e2.vOut]
        simp only [Tick.vOut, preCalcOf, House.vMec, hAB.ventilation]
        ring
      have ha : (0 : ℝ) ≤ airCap := by unfold airCap; norm_num
      have hx : AirNoWarmer (A k2).thetaO (B k2).thetaO (t.vOut i) (t'.vOut i) (t.thetaR i) (t'.thetaR i) := by
        rcases (hs i).2.2 with g | ⟨g, g'⟩ | ⟨g, g'⟩ <;> simp only [LogRow.ofTick] at g
        · exact .inl (by linarith)
        · exact .inr (.inl ⟨by linarith, g'⟩)
        · exact .inr (.inr ⟨by linarith, g'⟩)
      obtain ⟨u, hu, hle⟩ := AirNoWarmer.common hx ha
      refine ⟨u, ?_, hle⟩
      rcases hu with rfl | rfl
      · exact n1 i
      · exact n2 i
    choose u hu using this
    exact ⟨u, fun i => (hu i).1, fun i => (hu i).2⟩
  obtain ⟨u, hu0, hu⟩ := hu
  have D := ((SA.vent u).sub (SB.vent u)).early (fun i => t'.qHum i - t.qHum i) (fun i => (hcapA i).ne') hw.dt_pos.ne'
  have hq : ∀ i, -(c'.thetaR i - c.thetaR i) ≤ (t'.qHum i - t.qHum i) * dt / (h.vRoom i * airCap) := by
    intro i
    have q1 : t.qHum i = qHumPsn (c.thetaR i) * (A k2).nHum i := by rw [e1.qHum]; rfl
    have q2 : t'.qHum i = qHumPsn (c'.thetaR i) * (A k2).nHum i := by rw [e2.qHum, ← hAB.people]; rfl
    rw [le_div_iff₀ (hcapA i), q1, q2]
    have hs := qHumPsn_slope (hc.rooms i)
    have h1 := mul_le_mul_of_nonneg_right (mul_le_mul_of_nonneg_right hs (hp i).1) hw.dt_pos.le
    have h2 := mul_le_mul_of_nonneg_left (hp i).2 (sub_nonneg.2 (hc.rooms i))
    nlinarith
  have hdiff : ∀ j, 0 ≤ h.qSol (B k2) j - h.qSol (A k2) j := by
    intro j
    rw [qSol_sub h (A k2) (B k2) { A k2 with qTrsSol := fun i => (B k2).qTrsSol i - (A k2).qTrsSol i } (fun _ => rfl)]
    exact qSol_nonneg hw (fun i => sub_nonneg.2 (hAB.sun i)) j
  have hlc : ∀ i, t.lc i ≤ t'.lc i := fun i => (hs i).1
  have hlr : ∀ i, t.lr i ≤ t'.lr i := fun i => (hs i).2.1
  have key := D.floor hw hst.weights (lo := 0) hu0 (sub_nonneg.2 hAB.air) (fun j => sub_nonneg.2 (hAB.parts j))
    (fun i => by have := hq i; linarith) (fun i => sub_nonneg.2 (hc.furniture i))
    (fun i => by
      have h1 := hAB.gains i
      have h2 := hu i
      have h3 := hlc i
      have h4 := mul_le_mul_of_nonneg_left (hlr i) (hr.beta_mem i).1
      linarith)
    (fun i => by
      have := hAB.sun i
      show 0 ≤ (B k2).qTrsSol i * 0.5 - (A k2).qTrsSol i * 0.5
      linarith)
    (fun j => by
      have h1 := hdiff j
      have h2 : h.flr j * (1 - h.beta (h.room j)) * t.lr (h.room j) / h.area j ≤ h.flr j * (1 - h.beta (h.room j)) * t'.lr (h.room j) / h.area j :=
        div_le_div_of_nonneg_right (mul_le_mul_of_nonneg_left (hlr _) (mul_nonneg (hr.flr_nonneg j) (sub_nonneg.2 (hr.beta_mem _).2)))
          (hw.area_pos j).le
      linarith)
    (fun j => by
      cases hK : h.kEi j with
      | none => simp
      | some mc =>
        obtain ⟨m, coef⟩ := mc
        have h1 := hdiff m
        have h2 : h.flr m * ((1 - h.beta (h.room m)) * t.lr (h.room m)) / h.area j ≤ h.flr m * ((1 - h.beta (h.room m)) * t'.lr (h.room m)) / h.area j :=
          div_le_div_of_nonneg_right (mul_le_mul_of_nonneg_left (mul_le_mul_of_nonneg_left (hlr _) (sub_nonneg.2 (hr.beta_mem _).2))
            (hr.flr_nonneg m)) (hw.area_pos j).le
        simp only
        linarith)
  have r1 : ∀ i, t.thetaR i ≤ t'.thetaR i := fun i => sub_nonneg.1 (key.1 i)
  have r2 : ∀ i, t.thetaFrt i ≤ t'.thetaFrt i := fun i => sub_nonneg.1 (key.2.1 i)
  have r3 : ∀ j, t.thetaS j ≤ t'.thetaS j := fun j => sub_nonneg.1 (key.2.2 j)
  have r4 : ∀ i, t.thetaMrt i ≤ t'.thetaMrt i := by
    intro i
    rw [e1.thetaMrt, e2.thetaMrt]
    unfold Tick.thetaMrt Matrix.mulVec dotProduct
    refine Finset.sum_le_sum fun j _ => mul_le_mul_of_nonneg_left (r3 j) ?_
    show 0 ≤ h.p i j * h.fMrtHum j
    unfold House.p
    simp only [Matrix.of_apply]
    split_ifs
    · simpa using hw.fMrtHum_nonneg j
    · simp
  refine ⟨⟨fun j m => ⟨a1 j m, b1 j m⟩, fun j m => ⟨a2 j m, b2 j m⟩, r1, r2⟩, ⟨r1, r2, r3, r4, fun i => ?_⟩⟩
  have hm : ∀ j, 0 ≤ h.fMrtHum j := hw.fMrtHum_nonneg
  have hc0 : (0 : ℝ) < hHumC := by unfold hHumC; norm_num
  have hr0 := hHumR_pos
  show t.thetaOt i ≤ t'.thetaOt i
  rw [C13_operative_temperature Hp H i, C13_operative_temperature Hp' H' i]
  refine div_le_div_of_nonneg_right (add_le_add (mul_le_mul_of_nonneg_left (r1 i) hc0.le) (mul_le_mul_of_nonneg_left ?_ hr0.le)) (by linarith)
  exact Finset.sum_le_sum fun j _ => mul_le_mul_of_nonneg_left (r3 j) (hm j)

/-- **C138 (a run).** -/
theorem run_supplied {ss ss' : PreCalc I J N} {A B : Fin N → Record I J}
    (hw : WellFormed h hR dt) (hr : RadiantWellFormed h) (hst : Storageless h) (hv : ∀ i l, h.vInt i l = 0)
    (Hp : makePreCalc h hR dt A = .ok ss) (Hp' : makePreCalc h hR dt B = .ok ss') (hloc : ∀ k i, 0 ≤ (A k).vLocal i)
    (hAB : ∀ k, Warmer (A k) (B k)) (hp : ∀ k, RoomForPeople h dt (A k)) {c c' : Cond I J} {ns : List ℤ}
    {ts ts' : List (TickVars I J)} (hc : Below c c') (H : Run ss dt c ns ts) (H' : Run ss' dt c' ns ts') :
    ∀ (j : ℕ) (_ : j < ns.length) (h1 : j < ts.length) (h2 : j < ts'.length),
      (∀ (l : ℕ) (hl : l < ns.length) (g1 : l < ts.length) (g2 : l < ts'.length), l ≤ j → ∀ k : Fin N, pyIndex N ns[l] = .ok k →
        MoreSupplied (A k) (B k) (LogRow.ofTick ts[l]) (LogRow.ofTick ts'[l])) →
      RowBelow (LogRow.ofTick ts[j]) (LogRow.ofTick ts'[j]) := by
  induction H generalizing c' ts' with
  | nil => intro j hj; simp at hj
  | cons a1 _ ih =>
    cases H' with
    | cons b1 b2 =>
      intro j hj h1 h2 hd
      obtain ⟨k, hk⟩ := runTick_index a1
      have s1 := step_supplied hw hr hst hv Hp Hp' a1 b1 hk (hloc k) (hAB k) (hp k)
        (hd 0 (by simp) (by simp) (by simp) (by omega) k hk) hc
      cases j with
      | zero => exact s1.2
      | succ j =>
        exact ih s1.1 b2 j (by simpa using hj) (by simpa using h1) (by simpa using h2)
          fun l hl g1 g2 hlj => hd (l + 1) (by simpa using hl) (by simpa using g1) (by simpa using g2) (by omega)

end

section
variable {I J : Type} [Fintype I] [DecidableEq I] [Fintype J] [DecidableEq J] {N : ℕ} {h : House I J} {hR : J → ℝ} {dt : ℝ}

/-- In a tight house, a row without demand has no loads, no leakage and closed windows. -/
theorem quiet_row {ss : PreCalc I J N} {n : ℤ} {k : Fin N} {A : Fin N → Record I J} {c : Cond I J} {t : TickVars I J}
    (hw : WellFormed h hR dt) (hC : h.cValue = 0) (Hp : makePreCalc h hR dt A = .ok ss) (H : runTick n dt ss c = .ok t)
    (hk : pyIndex N n = .ok k) (hd : ∀ i, (A k).acDemand i ≤ 0) (i : I) : t.lc i = 0 ∧ t.lr i = 0 ∧ t.vLeak i + t.vNtrl i = 0 := by
  obtain ⟨ivs, k1, -, hs1, hk1, E⟩ := step_eqs Hp H
  obtain rfl : k1 = k := Except.ok.inj (hk1.symm.trans hk)
  subst hs1
  have l := no_demand_tight hC (fun i => ⟨hw.capH_nonneg i, hw.capC_nonneg i⟩) hd E
  refine ⟨(l.1 i).1, (l.1 i).2, ?_⟩
  have h1 := l.2.1 i
  rw [E.vOut] at h1
  simp only [Tick.vOut, preCalcOf, House.vMec] at h1
  linarith

end

section
variable {I : Type} [Fintype I] [DecidableEq I] {m N : ℕ} {h : House I (Fin m)} {hR : Fin m → ℝ}
  {A B : Fin N → Record I (Fin m)} {hourly dMain dRunUp dRunUpBuild : ℤ} {r1 r2 : CalcResult I m N}

/-- **C138 (partial).** Two calculations of a house of parts that store no heat, off the ground and without air exchange between rooms, not too
crowded, the second with at least as warm weather and as large gains, and without run-up or, if the house is tight, with a run-up without
demand. If in each row up to `k` the equipment gives each room at least as much heat in the second, convective and radiant, and leaks and
open windows do not favour the first, then no temperature of row `k` is higher in the first. -/
theorem C138_rows_partial (hw : WellFormed h hR (3600 / (hourly : ℝ))) (hr : RadiantWellFormed h) (hst : Storageless h)
    (hng : ∀ j, h.isGround j = false) (hv : ∀ i l, h.vInt i l = 0) (hru : 0 ≤ dRunUpBuild * hourly * 24)
    (hloc : ∀ k i, 0 ≤ (A k).vLocal i) (hAB : ∀ k, Warmer (A k) (B k)) (hp : ∀ k, RoomForPeople h (3600 / (hourly : ℝ)) (A k))
    (H1 : coreCalc h hR A hourly dMain dRunUp dRunUpBuild = .ok r1) (H2 : coreCalc h hR B hourly dMain dRunUp dRunUpBuild = .ok r2)
    (hup : ∀ n : ℤ, -(dRunUpBuild * hourly * 24) ≤ n → n < 0 → h.cValue = 0 ∧ ∀ k : Fin N, (k : ℤ) = n + N → ∀ i,
      (A k).acDemand i ≤ 0 ∧ (B k).acDemand i ≤ 0)
    (k : ℕ) (hs : ∀ (l : ℕ) (h1 : l < r1.nMain.toNat) (h2 : l < r2.nMain.toNat) (hN : l < N), l ≤ k →
      MoreSupplied (A ⟨l, hN⟩) (B ⟨l, hN⟩) (r1.log ⟨l, h1⟩) (r2.log ⟨l, h2⟩))
    (hk1 : k < r1.nMain.toNat) (hk2 : k < r2.nMain.toNat) : RowBelow (r1.log ⟨k, hk1⟩) (r2.log ⟨k, hk2⟩) := by
  obtain ⟨gs1, c1, up1, mn1, T1⟩ := coreCalc_ok H1
  obtain ⟨gs2, c2, up2, mn2, T2⟩ := coreCalc_ok H2
  have e1 := start_eq hng T1
  have e2 := start_eq hng T2
  subst e1 e2
  have R1 := T1.runUp.append T1.main
  have R2 := T2.runUp.append T2.main
  have hl2 : up2.length = up1.length := T2.runUp.length_eq.trans T1.runUp.length_eq.symm
  have hu : up1.length = (pyRange (-(dRunUpBuild * hourly * 24)) 0).length := T1.runUp.length_eq
  have hm1 : k < mn1.length := by rw [T1.mn_length]; exact hk1
  have hm2 : k < mn2.length := by rw [T2.mn_length]; exact hk2
  have hm : mn1.length = (pyRange 0 (dMain * hourly * 24)).length := T1.main.length_eq
  have hc : Below (initialConditions I (Fin m)) (initialConditions I (Fin m)) :=
    ⟨fun _ _ => ⟨rfl, rfl⟩, fun _ _ => ⟨rfl, rfl⟩, fun _ => le_rfl, fun _ => le_rfl⟩
  have key := run_supplied hw hr hst hv T1.pre T2.pre hloc hAB hp hc R1 R2 (up1.length + k)
    (by rw [List.length_append]; omega)
    (by rw [List.length_append]; omega) (by rw [List.length_append]; omega) (by
      intro l hl g1 g2 hle k' hk'
      have hsp := pyIndex_spec hk'
      by_cases h5 : l < up1.length
      · have hx : (pyRange (-(dRunUpBuild * hourly * 24)) 0 ++ pyRange 0 (dMain * hourly * 24))[l] = -(dRunUpBuild * hourly * 24) + l := by
          rw [List.getElem_append_left (by omega), pyRange_getElem]
        obtain ⟨d1, b1⟩ := run_at R1 l hl g1
        obtain ⟨d2, b2⟩ := run_at R2 l hl g2
        rw [pyRange_length] at hu
        have hn : -(dRunUpBuild * hourly * 24) + (l : ℤ) < 0 := by omega
        obtain ⟨hC, hd⟩ := hup _ (by omega : -(dRunUpBuild * hourly * 24) ≤ -(dRunUpBuild * hourly * 24) + l) hn
        rw [hx] at hsp
        have hd := hd k' (by rcases hsp with h | h <;> omega)
        intro i
        have q1 := quiet_row hw hC T1.pre b1 hk' (fun i => (hd i).1) i
        have q2 := quiet_row hw hC T2.pre b2 hk' (fun i => (hd i).2) i
        refine ⟨(q1.1.trans q2.1.symm).le, (q1.2.1.trans q2.2.1.symm).le, .inl (q1.2.2.trans q2.2.2.symm)⟩
      · obtain ⟨q, rfl⟩ : ∃ q, l = up1.length + q := ⟨l - up1.length, by omega⟩
        have hx : (pyRange (-(dRunUpBuild * hourly * 24)) 0 ++ pyRange 0 (dMain * hourly * 24))[up1.length + q] = q := by
          rw [List.getElem_append_right (by omega), pyRange_getElem]
          omega
        rw [hx] at hsp
        have hkq : (k' : ℕ) = q := by rcases hsp with h | h <;> omega
        have g3 : q < r1.nMain.toNat := by omega
        have g4 : q < r2.nMain.toNat := by omega
        have g5 : q < mn1.length := by omega
        have g6 : q < mn2.length := by omega
        have hN : q < N := hkq ▸ k'.2
        have := hs q g3 g4 hN (by omega)
        rw [T1.logged ⟨q, g3⟩ g5, T2.logged ⟨q, g4⟩ g6] at this
        have f1 : (up1 ++ mn1)[up1.length + q] = mn1[q] := by rw [List.getElem_append_right (by omega)]; simp
        have f2 : (up2 ++ mn2)[up1.length + q] = mn2[q] := by rw [List.getElem_append_right (by omega)]; simp [hl2]
        rw [f1, f2, show k' = ⟨q, hN⟩ from Fin.ext hkq]
        exact this)
  have e1 : (up1 ++ mn1)[up1.length + k]'(by rw [List.length_append]; omega) = mn1[k] := by
    rw [List.getElem_append_right (by omega)]; simp
  have e2 : (up2 ++ mn2)[up1.length + k]'(by rw [List.length_append]; omega) = mn2[k] := by
    rw [List.getElem_append_right (by omega)]; simp [hl2]
  rw [e1, e2] at key
  rw [T1.logged ⟨k, hk1⟩ hm1, T2.logged ⟨k, hk2⟩ hm2]
  exact key

end

section
variable {I : Type} [Fintype I] [DecidableEq I] {m N : ℕ} {h : House I (Fin m)} {hR : Fin m → ℝ}
  {D : Fin N → Record I (Fin m)} {hourly dMain dRunUp dRunUpBuild : ℤ} {r r0 : CalcResult I m N}

/-- A row of a tight house with closed windows takes in no air by leaks and windows. -/
theorem no_draught (hw : WellFormed h hR (3600 / (hourly : ℝ))) (hC : h.cValue = 0) (H : coreCalc h hR D hourly dMain dRunUp dRunUpBuild = .ok r)
    (k : Fin r.nMain.toNat) (i : I) (hm : (r.log k).mode i ≠ some .stopOpen) : (r.log k).vLeak i + (r.log k).vNtrl i = 0 := by
  have h1 := (C23_program hw H k i).2.1 hm
  obtain ⟨k', c, t, -, e2, Hp, Ht, el⟩ := logged_step H k
  rw [el] at h1 ⊢
  obtain ⟨ivs, k1, -, hs1, hk1, E⟩ := step_eqs Hp Ht
  rw [hs1] at E
  have k1 : t.vLeak = fun _ => 0 := by have := E.vLeak; simp only [preCalcOf, hC] at this; exact leak_tight this
  show t.vLeak i + t.vNtrl i = 0
  rw [k1]
  have : t.vNtrl i = 0 := h1
  rw [this]
  simp

/-- With the equipment switched off the windows stay closed and there are no loads. -/
theorem switchedOff_row (hw : WellFormed h hR (3600 / (hourly : ℝ))) (hC : h.cValue = 0)
    (H : coreCalc h hR (switchedOff D) hourly dMain dRunUp dRunUpBuild = .ok r0) (k : Fin r0.nMain.toNat) (i : I) :
    (r0.log k).lCs i = 0 ∧ (r0.log k).lRs i = 0 ∧ (r0.log k).vLeak i + (r0.log k).vNtrl i = 0 := by
  obtain ⟨k', c, t, -, e2, Hp, Ht, el⟩ := logged_step H k
  rw [el]
  exact quiet_row hw hC Hp Ht e2 (fun _ => le_rfl) i

/-- **C138 (partial), heating.** Compare a calculation of a tight house of parts that store no heat (off the ground, without air exchange
between rooms, not too crowded, without demand in the run-up) with the calculation of the same house with the equipment switched off. If up
to row `k` the windows are closed and no load is negative, then no temperature of row `k` is lower than with the equipment switched off. -/
theorem C138_heated_partial (hw : WellFormed h hR (3600 / (hourly : ℝ))) (hr : RadiantWellFormed h) (hst : Storageless h)
    (hng : ∀ j, h.isGround j = false) (hv : ∀ i l, h.vInt i l = 0) (hC : h.cValue = 0) (hru : 0 ≤ dRunUpBuild * hourly * 24)
    (hloc : ∀ k i, 0 ≤ (D k).vLocal i) (hp : ∀ k, RoomForPeople h (3600 / (hourly : ℝ)) (D k))
    (hup : ∀ n : ℤ, -(dRunUpBuild * hourly * 24) ≤ n → n < 0 → ∀ k : Fin N, (k : ℤ) = n + N → ∀ i, (D k).acDemand i ≤ 0)
    (H0 : coreCalc h hR (switchedOff D) hourly dMain dRunUp dRunUpBuild = .ok r0) (H : coreCalc h hR D hourly dMain dRunUp dRunUpBuild = .ok r)
    (k : ℕ) (hrows : ∀ l : Fin r.nMain.toNat, l.1 ≤ k → ∀ i, (r.log l).mode i ≠ some .stopOpen ∧ 0 ≤ (r.log l).lCs i ∧ 0 ≤ (r.log l).lRs i)
    (hk0 : k < r0.nMain.toNat) (hk : k < r.nMain.toNat) : RowBelow (r0.log ⟨k, hk0⟩) (r.log ⟨k, hk⟩) := by
  refine C138_rows_partial (A := switchedOff D) (B := D) hw hr hst hng hv hru hloc
    (fun _ => ⟨le_rfl, fun _ => le_rfl, fun _ => le_rfl, fun _ => le_rfl, rfl, rfl⟩) hp H0 H
    (fun n h1 h2 => ⟨hC, fun k hk i => ⟨le_rfl, hup n h1 h2 k hk i⟩⟩) k ?_ hk0 hk
  intro l h1 h2 hN hl i
  obtain ⟨q1, q2, q3⟩ := switchedOff_row hw hC H0 ⟨l, h1⟩ i
  obtain ⟨g1, g2, g3⟩ := hrows ⟨l, h2⟩ hl i
  exact ⟨by rw [q1]; exact g2, by rw [q2]; exact g3, .inl (by rw [q3, no_draught hw hC H ⟨l, h2⟩ i g1])⟩

/-- **C138 (partial), cooling.** As `C138_heated_partial`: if up to row `k` the windows are closed and no load is positive, then no
temperature of row `k` is higher than with the equipment switched off. -/
theorem C138_cooled_partial (hw : WellFormed h hR (3600 / (hourly : ℝ))) (hr : RadiantWellFormed h) (hst : Storageless h)
    (hng : ∀ j, h.isGround j = false) (hv : ∀ i l, h.vInt i l = 0) (hC : h.cValue = 0) (hru : 0 ≤ dRunUpBuild * hourly * 24)
    (hloc : ∀ k i, 0 ≤ (D k).vLocal i) (hp : ∀ k, RoomForPeople h (3600 / (hourly : ℝ)) (D k))
    (hup : ∀ n : ℤ, -(dRunUpBuild * hourly * 24) ≤ n → n < 0 → ∀ k : Fin N, (k : ℤ) = n + N → ∀ i, (D k).acDemand i ≤ 0)
    (H0 : coreCalc h hR (switchedOff D) hourly dMain dRunUp dRunUpBuild = .ok r0) (H : coreCalc h hR D hourly dMain dRunUp dRunUpBuild = .ok r)
    (k : ℕ) (hrows : ∀ l : Fin r.nMain.toNat, l.1 ≤ k → ∀ i, (r.log l).mode i ≠ some .stopOpen ∧ (r.log l).lCs i ≤ 0 ∧ (r.log l).lRs i ≤ 0)
    (hk0 : k < r0.nMain.toNat) (hk : k < r.nMain.toNat) : RowBelow (r.log ⟨k, hk⟩) (r0.log ⟨k, hk0⟩) := by
  refine C138_rows_partial (A := D) (B := switchedOff D) hw hr hst hng hv hru hloc
    (fun _ => ⟨le_rfl, fun _ => le_rfl, fun _ => le_rfl, fun _ => le_rfl, rfl, rfl⟩) hp H H0
    (fun n h1 h2 => ⟨hC, fun k hk i => ⟨hup n h1 h2 k hk i, le_rfl⟩⟩) k ?_ hk hk0
  intro l h2 h1 hN hl i
  obtain ⟨q1, q2, q3⟩ := switchedOff_row hw hC H0 ⟨l, h1⟩ i
  obtain ⟨g1, g2, g3⟩ := hrows ⟨l, h2⟩ hl i
  exact ⟨by rw [q1]; exact g2, by rw [q2]; exact g3, .inl (by rw [q3, no_draught hw hC H ⟨l, h2⟩ i g1])⟩

end

section
variable {I : Type} [Fintype I] [DecidableEq I] [Unique I] {m N : ℕ} {h : House I (Fin m)} {hR : Fin m → ℝ}
  {D : Fin N → Record I (Fin m)} {hourly dMain dRunUp dRunUpBuild : ℤ} {r r0 : CalcResult I m N}

/-- **C138 (partial), one room.** In a house of one room nothing need be said about the loads: a room that up to row `k` is only heated, or left
alone with closed windows, is not colder in row `k` than with the equipment switched off; one that is only cooled or left alone is not
warmer. -/
theorem C138_one_room_partial (hw : WellFormed h hR (3600 / (hourly : ℝ))) (hr : RadiantWellFormed h)
    (hreach : h.isRadHeating default = true ∨ h.isRadCooling default = true → RadiantReaches h default)
    (hst : Storageless h) (hng : ∀ j, h.isGround j = false) (hv : ∀ i l, h.vInt i l = 0) (hC : h.cValue = 0) (hru : 0 ≤ dRunUpBuild * hourly * 24)
    (hloc : ∀ k i, 0 ≤ (D k).vLocal i) (hd : ∀ k i, 0 ≤ (D k).acDemand i ∧ (D k).acDemand i ≤ 1)
    (hp : ∀ k, RoomForPeople h (3600 / (hourly : ℝ)) (D k))
    (hup : ∀ n : ℤ, -(dRunUpBuild * hourly * 24) ≤ n → n < 0 → ∀ k : Fin N, (k : ℤ) = n + N → ∀ i, (D k).acDemand i ≤ 0)
    (H0 : coreCalc h hR (switchedOff D) hourly dMain dRunUp dRunUpBuild = .ok r0) (H : coreCalc h hR D hourly dMain dRunUp dRunUpBuild = .ok r)
    (k : ℕ) (hk0 : k < r0.nMain.toNat) (hk : k < r.nMain.toNat) :
    ((∀ l : Fin r.nMain.toNat, l.1 ≤ k → (r.log l).mode default = some .heating ∨ (r.log l).mode default = some .stopClose) →
      RowBelow (r0.log ⟨k, hk0⟩) (r.log ⟨k, hk⟩)) ∧
    ((∀ l : Fin r.nMain.toNat, l.1 ≤ k → (r.log l).mode default = some .cooling ∨ (r.log l).mode default = some .stopClose) →
      RowBelow (r.log ⟨k, hk⟩) (r0.log ⟨k, hk0⟩)) := by
  have off : ∀ l : Fin r.nMain.toNat, (r.log l).mode default = some .stopClose → (r.log l).lCs default = 0 ∧ (r.log l).lRs default = 0 := by
    intro l hm
    obtain ⟨k', c, t, -, e2, Hp, Ht, el⟩ := logged_step H l
    obtain ⟨ivs, k'', hi, hs, hk', e⟩ := step_eqs Hp Ht
    rw [el] at hm ⊢
    have hm' : (t.ot default).mode = .stopClose := Option.some.inj hm
    obtain ⟨nat, p1, -, hnat, -, -⟩ := calc_passes e.load
    refine C08_no_load _ _ e.load (by rw [hs]; exact fun i => ⟨hw.capH_nonneg i, hw.capC_nonneg i⟩) nat hnat default ?_ ?_
    · rintro ⟨h1, -⟩
      exact absurd (hm'.symm.trans h1) (by simp)
    · rintro ⟨h1, -⟩
      exact absurd (hm'.symm.trans h1) (by simp)
  have sgn := fun l => C12_program_partial hw hr hreach hloc hd H l default
  constructor
  · intro hm
    refine C138_heated_partial hw hr hst hng hv hC hru hloc hp hup H0 H k ?_ hk0 hk
    intro l hl i
    rw [Unique.eq_default i]
    rcases hm l hl with g | g
    · exact ⟨by rw [g]; simp, (sgn l).1 g⟩
    · exact ⟨by rw [g]; simp, (off l g).1.ge, (off l g).2.ge⟩
  · intro hm
    refine C138_cooled_partial hw hr hst hng hv hC hru hloc hp hup H0 H k ?_ hk0 hk
    intro l hl i
    rw [Unique.eq_default i]
    rcases hm l hl with g | g
    · exact ⟨by rw [g]; simp, (sgn l).2 g⟩
    · exact ⟨by rw [g]; simp, (off l g).1.le, (off l g).2.le⟩

end

/-- The hypotheses are met by a day in which a room is heated in every row. -/
theorem C138_example {hR : Fin 1 → ℝ} (hr : ∀ j, 0 < hR j) : ∃ r0 r, coreCalc exLatch hR (switchedOff exEvenDay) 4 1 0 0 = .ok r0 ∧
    coreCalc exLatch hR exEvenDay 4 1 0 0 = .ok r ∧ r0.nMain.toNat = 96 ∧ r.nMain.toNat = 96 ∧ (∀ k, 0 < (r.log k).lCs 0) ∧
    ∀ (k : ℕ) (h0 : k < r0.nMain.toNat) (h : k < r.nMain.toNat), RowBelow (r0.log ⟨k, h0⟩) (r.log ⟨k, h⟩) := by
  have hdt : (3600 / ((4 : ℤ) : ℝ)) = 900 := by norm_num
  have hw := exLatch_wellFormed hr
  obtain ⟨r, H⟩ := C21_program_partial (h := exLatch) (hR := hR) (data := exEvenDay) (hourly := 4) (dMain := 1) (dRunUp := 0) (dRunUpBuild := 0)
    (by rw [hdt]; exact hw) (fun _ => rfl) (fun _ => rfl) (fun _ _ => le_rfl) (by norm_num) (by norm_num) (by norm_num) (by norm_num) (by norm_num)
    (by norm_num)
  obtain ⟨r0, H0⟩ := C21_program_partial (h := exLatch) (hR := hR) (data := switchedOff exEvenDay) (hourly := 4) (dMain := 1) (dRunUp := 0)
    (dRunUpBuild := 0) (by rw [hdt]; exact hw) (fun _ => rfl) (fun _ => rfl) (fun _ _ => le_rfl) (by norm_num) (by norm_num) (by norm_num)
    (by norm_num) (by norm_num) (by norm_num)
  obtain ⟨_, _, _, _, T⟩ := coreCalc_ok H
  obtain ⟨_, _, _, _, T0⟩ := coreCalc_ok H0
  have w := still_heated (R := 0) (q := 0) hr le_rfl (by norm_num) (by rw [exPane_zero]; exact H)
  refine ⟨r0, r, H0, H, by rw [T0.nMain_eq]; rfl, by rw [T.nMain_eq]; rfl, fun k => (w k).2.2.1, fun k h0 h1 => ?_⟩
  refine (C138_one_room_partial (by rw [hdt]; exact hw) ⟨fun _ => by norm_num [exLatch, exCold], fun _ => by norm_num [exLatch, exCold]⟩
    (fun h => absurd h (by simp [exLatch, exCold])) exLatch_storageless (fun _ => rfl) (fun _ _ => rfl) rfl (by norm_num) (fun _ _ => le_rfl)
    (fun k i => ?_) ?_ (fun n g1 g2 => by omega) H0 H k h0 h1).1 (fun l _ => .inl (w l).1)
  · norm_num [exEvenDay, exGlowDay, exRecord]
  · intro k i
    refine ⟨le_rfl, ?_⟩
    show 4 * (0 : ℝ) * _ ≤ _
    norm_num [exLatch, exCold, airCap]

/-- **C138 is false where windows open.** On a day with frost a house with heating (no cooling, no negative load in any row) is colder than 8
degC, while the same house with the equipment switched off stays above 15 degC: where air conditioning is asked for and a room is
comfortable, the program opens the windows whatever the temperature outdoors. -/
theorem C138_violated {hR : Fin 1 → ℝ} (hr : ∀ j, 0 < hR j) : ∃ r0 r, coreCalc (exPane 0.4) hR (switchedOff exFrost) 4 1 0 0 = .ok r0 ∧
    coreCalc (exPane 0.4) hR exFrost 4 1 0 0 = .ok r ∧ r0.nMain.toNat = 96 ∧ r.nMain.toNat = 96 ∧ (∀ k, 0 ≤ (r.log k).lCs 0) ∧
    (∀ k, (r0.log k).lCs 0 = 0) ∧ ∀ k k0, k.1 = 1 → k0.1 = 1 → (r.log k).thetaR 0 ≤ 8 ∧ 15 ≤ (r0.log k0).thetaR 0 := by
  have hdt : (3600 / ((4 : ℤ) : ℝ)) = 900 := by norm_num
  have hr0 : (0 : ℝ) ≤ 0.4 := by norm_num
  have hw := exPane_wellFormed hr hr0
  obtain ⟨r, H⟩ := C21_program_partial (h := exPane 0.4) (hR := hR) (data := exFrost) (hourly := 4) (dMain := 1) (dRunUp := 0) (dRunUpBuild := 0)
    (by rw [hdt]; exact hw) (fun _ => rfl) (fun _ => rfl) (fun _ _ => le_rfl) (by norm_num) (by norm_num) (by norm_num) (by norm_num) (by norm_num)
    (by norm_num)
  obtain ⟨r0, H0⟩ := C21_program_partial (h := exPane 0.4) (hR := hR) (data := switchedOff exFrost) (hourly := 4) (dMain := 1) (dRunUp := 0)
    (dRunUpBuild := 0) (by rw [hdt]; exact hw) (fun _ => rfl) (fun _ => rfl) (fun _ _ => le_rfl) (by norm_num) (by norm_num) (by norm_num)
    (by norm_num) (by norm_num) (by norm_num)
  obtain ⟨_, _, _, _, T⟩ := coreCalc_ok H
  obtain ⟨_, _, _, _, T0⟩ := coreCalc_ok H0
  have n0 : r0.nMain.toNat = 96 := by rw [T0.nMain_eq]; rfl
  have n1 : r.nMain.toNat = 96 := by rw [T.nMain_eq]; rfl
  have w := thick_heated hr H
  have off := fun k => switchedOff_row (by rw [hdt]; exact hw) rfl H0 k 0
  refine ⟨r0, r, H0, H, n0, n1, fun k => (w k).2.2, fun k => (off k).1, fun k k0 hk hk0 => ?_⟩
  have k1 : pyIndex 96 1 = .ok (1 : Fin 96) := rfl
  have hz := overT_pos
  have h15 := mild_gt
  have h25 := mild_le
  have h31 := over_le
  have g1 : frostGain 1 = 12.06 * (mildT + 20) := by simp [frostGain]
  have o1 : frostAir 1 = -20 := by simp [frostAir]
  constructor
  · obtain ⟨t0, t1, t2, Hp, a0, a1, a2, hlog⟩ := three_steps H
    obtain ⟨m0, m1, m2, m3, m4, m5⟩ := first_hot hr hr0 Hp a0
    have hm := (w k).1 hk
    have hl := (hlog k).2.1 hk
    rw [hl] at hm ⊢
    have hm1 : (t1.ot 0).mode = .stopOpen := Option.some.inj hm
    have l1 := pane_off Hp a1 (.inr hm1)
    obtain ⟨b0, b1, -, b3⟩ := pane_step hr hr0 Hp a1 k1 m0
    have y0 : t0.next.thetaR 0 = mildT + overT := by linarith
    rw [l1, y0, hm1, g1, o1, if_pos rfl] at b3
    show t1.thetaR 0 ≤ 8
    linarith
  · obtain ⟨t0, t1, t2, Hp, a0, a1, a2, hlog⟩ := three_steps (air := frostAir) (g := frostGain) (dm := fun _ => 0) H0
    have q0 := (off ⟨0, by omega⟩)
    have q1 := off k0
    rw [(hlog ⟨0, by omega⟩).1 rfl] at q0
    have hl := (hlog k0).2.1 hk0
    rw [hl] at q1 ⊢
    have hd : ∀ {n : ℤ} {c : Cond (Fin 1) (Fin 1)} {t : TickVars (Fin 1) (Fin 1)}, runTick n 900 r0.ss c = .ok t → (t.ot 0).mode ≠ .stopOpen := by
      intro n c t ht
      obtain ⟨ivs, k', hi, hs, hk', e⟩ := step_eqs Hp ht
      rw [ot_no_demand e (fun i => by rw [hs]; exact le_rfl)]
      simp
    have k0' : pyIndex 96 0 = .ok (0 : Fin 96) := rfl
    obtain ⟨a, b, -, e⟩ := pane_step hr hr0 Hp a0 k0' ⟨fun _ _ => rfl, fun _ _ => rfl⟩
    obtain ⟨a', b', -, e'⟩ := pane_step hr hr0 Hp a1 k1 a
    have h15' : (initialConditions (Fin 1) (Fin 1)).thetaR 0 = 15 := rfl
    have hg : frostGain 0 = 64.76 * overT + 40.2 * (mildT - 15) := by simp [frostGain]
    have ho : frostAir 0 = mildT := by simp [frostAir]
    have l0 : t0.lc 0 = 0 := q0.1
    have l1 : t1.lc 0 = 0 := q1.1
    have hn : t0.next.thetaR 0 = t0.thetaR 0 := rfl
    rw [l0, h15', hg, ho, if_neg (hd a0)] at e
    rw [l1, g1, o1, hn, if_neg (hd a1)] at e'
    show 15 ≤ t1.thetaR 0
    linarith

end HLC
