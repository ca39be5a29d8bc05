import Verif.Spec.Milder
import Verif.Props.OpenWindow

/-!
# C118: milder weather and more gains do not raise the heating
-/

namespace HLC

open Spec

section
variable {I : Type} [Fintype I] [DecidableEq I] [Unique I] {m N : ℕ} {h : House I (Fin m)} {hR : Fin m → ℝ}
  {A B : Fin N → Record I (Fin m)} {hourly dMain dRunUp dRunUpBuild : ℤ} {r1 r2 : CalcResult I m N}

/-- **C118, from a common start.** A one-room house without heat storage in its parts and without radiant systems, in two sets of records, the
second at least as warm outdoors, with at least as much sun and at least as much heat released. If in every row the windows are closed and
the room is kept no warmer in the milder records (unless its load is no larger anyway), the sum of the loads is no larger in them. -/
theorem C118_total_partial (hw : WellFormed h hR (3600 / (hourly : ℝ))) (hst : Storageless h) (hng : ∀ j, h.isGround j = false)
    (hv : ∀ i l, h.vInt i l = 0) (hrad : ∀ i, h.isRadHeating i = false ∧ h.isRadCooling i = false)
    (hloc : ∀ k i, 0 ≤ (A k).vLocal i) (hAB : ∀ k, Warmer (A k) (B k)) (hp : ∀ k, RoomForPeople h (3600 / (hourly : ℝ)) (A k))
    (H1 : coreCalc h hR A hourly dMain dRunUp 0 = .ok r1) (H2 : coreCalc h hR B hourly dMain dRunUp 0 = .ok r2)
    (hrows : ∀ (k : ℕ) (h1 : k < r1.nMain.toNat) (h2 : k < r2.nMain.toNat) (hN : k < N),
      SettledRows h default (A ⟨k, hN⟩).thetaO (r1.log ⟨k, h1⟩) (r2.log ⟨k, h2⟩)) :
    ∑ k, (r2.log k).lCs default ≤ ∑ k, (r1.log k).lCs default :=
  C117_total_partial (R' := h.phiA0) hw hst hng hv hrad (fun _ => le_rfl) hloc hAB hp H1 H2 fun k h1 h2 hN =>
    ⟨(hrows k h1 h2 hN).closed, (hrows k h1 h2 hN).closed', (hrows k h1 h2 hN).compare, fun _ hj => absurd hj (lt_irrefl _), (hrows k h1 h2 hN).leak⟩

/-- **C118, with a run-up.** The same, whatever happened in the run-up: the heat supplied in all rows but the first is larger in the milder records at
most by the heat that air and furniture lacked in the first row against the other records. -/
theorem C118_rows_partial (hw : WellFormed h hR (3600 / (hourly : ℝ))) (hst : Storageless h) (hng : ∀ j, h.isGround j = false)
    (hv : ∀ i l, h.vInt i l = 0) (hrad : ∀ i, h.isRadHeating i = false ∧ h.isRadCooling i = false)
    (hloc : ∀ k i, 0 ≤ (A k).vLocal i) (hAB : ∀ k, Warmer (A k) (B k)) (hp : ∀ k, RoomForPeople h (3600 / (hourly : ℝ)) (A k))
    (H1 : coreCalc h hR A hourly dMain dRunUp dRunUpBuild = .ok r1) (H2 : coreCalc h hR B hourly dMain dRunUp dRunUpBuild = .ok r2)
    (n1 : 0 < r1.nMain.toNat) (n2 : 0 < r2.nMain.toNat)
    (hrows : ∀ (k : ℕ) (h1 : k < r1.nMain.toNat) (h2 : k < r2.nMain.toNat) (hN : k < N), 0 < k →
      SettledRows h default (A ⟨k, hN⟩).thetaO (r1.log ⟨k, h1⟩) (r2.log ⟨k, h2⟩)) :
    (3600 / (hourly : ℝ)) * (∑ k, (r2.log k).lCs default - (r2.log ⟨0, n2⟩).lCs default)
      ≤ (3600 / (hourly : ℝ)) * (∑ k, (r1.log k).lCs default - (r1.log ⟨0, n1⟩).lCs default)
        + h.vRoom default * airCap * max ((r1.log ⟨0, n1⟩).thetaR default - (r2.log ⟨0, n2⟩).thetaR default) 0
        + h.cSh default * max ((r1.log ⟨0, n1⟩).thetaFrt default - (r2.log ⟨0, n2⟩).thetaFrt default) 0 :=
  C117_rows_partial (R' := h.phiA0) hw hst hng hv hrad (fun _ => le_rfl) hloc hAB hp H1 H2 n1 n2 fun k h1 h2 hN hk =>
    ⟨(hrows k h1 h2 hN hk).closed, (hrows k h1 h2 hN hk).closed', (hrows k h1 h2 hN hk).compare, fun _ hj => absurd hj (lt_irrefl _),
      (hrows k h1 h2 hN hk).leak⟩

/-- **C118, rows that compare.** In a row in which the first room is not cooled and in which, if the second is heated, both are in the heating mode with
full demand and had the same humidity in the row before, the second is no warmer or its load is no larger. -/
theorem C118_compare (hcap : ∀ i, 0 ≤ h.capH i ∧ 0 ≤ h.capC i)
    (H1 : coreCalc h hR A hourly dMain dRunUp dRunUpBuild = .ok r1) (H2 : coreCalc h hR B hourly dMain dRunUp dRunUpBuild = .ok r2) (k : ℕ)
    (hN : k + 1 < N) (h1 : k + 1 < r1.nMain.toNat) (h2 : k + 1 < r2.nMain.toNat) (hpos : 0 ≤ (r1.log ⟨k + 1, h1⟩).lCs default)
    (hheat : 0 < (r2.log ⟨k + 1, h2⟩).lCs default →
      (r1.log ⟨k + 1, h1⟩).mode default = some .heating ∧ (r2.log ⟨k + 1, h2⟩).mode default = some .heating ∧
      (A ⟨k + 1, hN⟩).acDemand default = 1 ∧ (B ⟨k + 1, hN⟩).acDemand default = 1 ∧
      (r1.log ⟨k, by omega⟩).xR default = (r2.log ⟨k, by omega⟩).xR default) :
    (r2.log ⟨k + 1, h2⟩).thetaOt default ≤ (r1.log ⟨k + 1, h1⟩).thetaOt default ∨
      (r2.log ⟨k + 1, h2⟩).lCs default ≤ (r1.log ⟨k + 1, h1⟩).lCs default :=
  C117_compare (R' := h.phiA0) hcap H1 H2 k hN h1 h2 hpos hheat

end

section
variable {m N : ℕ} {h : House (Fin 1) (Fin m)} {solve : List ℝ → ℝ}
  {A B : Fin N → Record (Fin 1) (Fin m)} {hourly dMain dRunUp : ℤ} {r1 r2 : CalcResult (Fin 1) m N}

/-- **C118 for the program.** -/
theorem C118_program_partial (hw : WellFormed h (getHr solve h.area h.room) (3600 / (hourly : ℝ))) (hst : Storageless h)
    (hng : ∀ j, h.isGround j = false) (hv : ∀ i l, h.vInt i l = 0)
    (hrad : ∀ i, h.isRadHeating i = false ∧ h.isRadCooling i = false)
    (hloc : ∀ k i, 0 ≤ (A k).vLocal i) (hAB : ∀ k, Warmer (A k) (B k)) (hp : ∀ k, RoomForPeople h (3600 / (hourly : ℝ)) (A k))
    (H1 : program solve h A hourly dMain dRunUp 0 = .ok r1) (H2 : program solve h B hourly dMain dRunUp 0 = .ok r2)
    (hrows : ∀ (k : ℕ) (h1 : k < r1.nMain.toNat) (h2 : k < r2.nMain.toNat) (hN : k < N),
      SettledRows h default (A ⟨k, hN⟩).thetaO (r1.log ⟨k, h1⟩) (r2.log ⟨k, h2⟩)) :
    ∑ k, (r2.log k).lCs default ≤ ∑ k, (r1.log k).lCs default :=
  C118_total_partial hw hst hng hv hrad hloc hAB hp H1 H2 hrows

end

/-! ## A lamp that makes a house be heated -/

/-- The day of `exFrost`, but without the last part of the heat released before the frost. -/
noncomputable def dimGain (k : Fin 96) : ℝ := if k = 0 then 40.2 * (mildT - 15) else if k = 1 then 12.06 * (mildT + 20) else 0

noncomputable def exDim : Fin 96 → Record (Fin 1) (Fin 1) := exRecord frostAir dimGain frostDemand

section
variable {hR : Fin 1 → ℝ}

/-- In these records the insulated house is never heated. -/
theorem dim_never {r : CalcResult (Fin 1) 1 96} (hr : ∀ j, 0 < hR j) (H : coreCalc (exPane 0.4) hR exDim 4 1 0 0 = .ok r) (k : Fin r.nMain.toNat) :
    (r.log k).lCs 0 = 0 := by
  have hr0 : (0 : ℝ) ≤ 0.4 := by norm_num
  obtain ⟨t0, t1, t2, Hp, a0, a1, a2, hlog⟩ := three_steps H
  have k0 : pyIndex 96 0 = .ok (0 : Fin 96) := rfl
  have k1 : pyIndex 96 1 = .ok (1 : Fin 96) := rfl
  have k2 : pyIndex 96 2 = .ok (2 : Fin 96) := rfl
  have hx : ∀ i, (initialConditions (Fin 1) (Fin 1)).xR i = startHumidity := fun _ => startHumidity_eq
  have hz := overT_pos
  obtain ⟨c1, c2⟩ := mid_cool (y := 0) le_rfl (by positivity)
  rw [add_zero] at c1 c2
  have stop := mild_modes le_rfl le_rfl c1 c2
  -- the first step ends at `mildT`
  have hm0 : (t0.ot 0).mode = .stopClose := by
    have h := (pane_mode Hp a0 k0 hx).1
    have hd : frostDemand 0 = 0 := by simp [frostDemand]
    rw [hd] at h
    simp only [getOperationMode, gt_iff_lt, lt_irrefl, if_false] at h
    exact (Except.ok.inj h).symm
  have l0 := pane_off Hp a0 (.inl hm0)
  obtain ⟨p0, p1, -, p3⟩ := pane_step hr hr0 Hp a0 k0 ⟨fun _ _ => rfl, fun _ _ => rfl⟩
  obtain ⟨u0, v0⟩ := pane_humid hr hr0 Hp a0 k0 l0.ge hx (fun _ => startHumidity_eq)
  have h15 : (initialConditions (Fin 1) (Fin 1)).thetaR 0 = 15 := rfl
  have g0 : dimGain 0 = 40.2 * (mildT - 15) := by simp [dimGain]
  have o0 : frostAir 0 = mildT := by simp [frostAir]
  rw [l0, h15, hm0, g0, o0, if_neg (by decide)] at p3
  have y0 : t0.thetaR 0 = mildT := by linarith
  have e0 : t0.thetaMrt 0 = mildT := by rw [y0] at p1; linarith
  -- and so do the others
  have hm1 : (t1.ot 0).mode = .stopClose := by
    have h := (pane_mode Hp a1 k1 u0).1
    have hd : frostDemand 1 = 1 := by simp [frostDemand]
    have n1 : t0.next.mode 0 = .stopClose := hm0
    have n2 : t0.next.thetaR 0 = mildT := y0
    have n3 : t0.next.thetaMrt 0 = mildT := e0
    rw [hd, n1, n2, n3, stop] at h
    exact (Except.ok.inj h).symm
  have l1 := pane_off Hp a1 (.inl hm1)
  obtain ⟨b0, b1, -, b3⟩ := pane_step hr hr0 Hp a1 k1 p0
  obtain ⟨u, v⟩ := pane_humid hr hr0 Hp a1 k1 l1.ge u0 v0
  have n2 : t0.next.thetaR 0 = mildT := y0
  have g1 : dimGain 1 = 12.06 * (mildT + 20) := by simp [dimGain]
  have o1 : frostAir 1 = -20 := by simp [frostAir]
  rw [l1, n2, hm1, g1, o1, if_neg (by decide)] at b3
  have y1 : t1.thetaR 0 = mildT := by linarith
  have e1 : t1.thetaMrt 0 = mildT := by rw [y1] at b1; linarith
  have hm2 : (t2.ot 0).mode = .stopClose := by
    have h := (pane_mode Hp a2 k2 u).1
    have hd : frostDemand 2 = 1 := by simp [frostDemand]
    have n1 : t1.next.mode 0 = .stopClose := hm1
    have n2 : t1.next.thetaR 0 = mildT := y1
    have n3 : t1.next.thetaMrt 0 = mildT := e1
    rw [hd, n1, n2, n3, stop] at h
    exact (Except.ok.inj h).symm
  have l2 := pane_off Hp a2 (.inl hm2)
  obtain ⟨q0, q1, q2⟩ := hlog k
  by_cases h1 : k.1 = 1
  · rw [q1 h1]; exact l1
  by_cases h2 : k.1 = 2
  · rw [q2 h2]; exact l2
  obtain ⟨k', c, t, e, -⟩ := logged_step H k
  refine (C08_program (fun i => by norm_num [exPane, insulated, exLatch, exCold]) H k k' e 0 ?_).1
  have d1 : k' ≠ 1 := by rintro rfl; exact h1 e.symm
  have d2 : k' ≠ 2 := by rintro rfl; exact h2 e.symm
  simp [exDim, exRecord, frostDemand, d1, d2]

end

/-- **C118, violated.** More heat released in a room can make it be heated. The same insulated one-room house, the same weather, people, ventilation
and demand; the second time more heat is released in the first quarter of an hour. The first time the house is never heated. The second time it is
comfortable, the program opens the windows in the frost, and in the next step it is heated. -/
theorem C118_violated {hR : Fin 1 → ℝ} (hr : ∀ j, 0 < hR j) :
    (∀ k, Warmer (exDim k) (exFrost k) ∧ (exDim k).acDemand = (exFrost k).acDemand ∧ (exDim k).thetaO = (exFrost k).thetaO) ∧
    ∃ h : House (Fin 1) (Fin 1), WellFormed h hR 900 ∧ ∃ r1 r2, coreCalc h hR exDim 4 1 0 0 = .ok r1 ∧ coreCalc h hR exFrost 4 1 0 0 = .ok r2 ∧
      r1.nMain = 96 ∧ r2.nMain = 96 ∧ (∀ k, (r1.log k).lCs 0 = 0) ∧
      (∀ k, k.1 = 1 → (r2.log k).mode 0 = some .stopOpen) ∧ (∀ k, k.1 = 2 → (r2.log k).mode 0 = some .heating ∧ 0 < (r2.log k).lCs 0) ∧
      ∑ k, (r1.log k).lCs 0 < ∑ k, (r2.log k).lCs 0 := by
  have hz := overT_pos
  refine ⟨fun k => ⟨⟨le_rfl, fun _ => le_rfl, fun _ => ?_, fun _ => le_rfl, rfl, rfl⟩, rfl, rfl⟩, exPane 0.4, exPane_wellFormed hr (by norm_num), ?_⟩
  · show dimGain k ≤ frostGain k
    unfold dimGain frostGain
    split_ifs <;> linarith
  have hdt : (3600 / ((4 : ℤ) : ℝ)) = 900 := by norm_num
  have run : ∀ D : Fin 96 → Record (Fin 1) (Fin 1), (∀ k i, 0 ≤ (D k).vLocal i) → ∃ r, coreCalc (exPane 0.4) hR D 4 1 0 0 = .ok r := by
    intro D hD
    apply C21_program_partial
    · rw [hdt]; exact exPane_wellFormed hr (by norm_num)
    · exact fun _ => rfl
    · exact fun _ => rfl
    · exact hD
    all_goals norm_num
  obtain ⟨r1, H1⟩ := run exDim fun _ _ => le_rfl
  obtain ⟨r2, H2⟩ := run exFrost fun _ _ => le_rfl
  obtain ⟨_, _, _, _, T1⟩ := coreCalc_ok H1
  obtain ⟨_, _, _, _, T2⟩ := coreCalc_ok H2
  have n1 : r1.nMain = 96 := by rw [T1.nMain_eq]; rfl
  have n2 : r2.nMain = 96 := by rw [T2.nMain_eq]; rfl
  have z := dim_never hr H1
  have w := thick_heated hr H2
  refine ⟨r1, r2, H1, H2, n1, n2, z, fun k => (w k).1, fun k => (w k).2.1, ?_⟩
  rw [Finset.sum_eq_zero fun k _ => z k]
  exact Finset.sum_pos' (fun k _ => (w k).2.2) ⟨⟨2, by rw [n2]; decide⟩, Finset.mem_univ _, ((w _).2.1 rfl).2⟩

/-- The hypotheses of `C118_total_partial` are met: on a still day the house is heated in every row to the same temperature, with or without a lamp of
half a watt. -/
example {hR : Fin 1 → ℝ} (hr : ∀ j, 0 < hR j) : ∃ r1 r2, coreCalc exLatch hR exEvenDay 4 1 0 0 = .ok r1 ∧
    coreCalc exLatch hR (exGlowDay 0.5) 4 1 0 0 = .ok r2 ∧ r1.nMain = 96 ∧ (∀ k, 0 < (r1.log k).lCs 0) ∧ (∀ k, 0 < (r2.log k).lCs 0) ∧
    ∑ k, (r2.log k).lCs 0 ≤ ∑ k, (r1.log k).lCs 0 := by
  have hdt : (3600 / ((4 : ℤ) : ℝ)) = 900 := by norm_num
  have run : ∀ q : ℝ, ∃ r, coreCalc (exPane 0) hR (exGlowDay q) 4 1 0 0 = .ok r := by
    intro q
    apply C21_program_partial
    · rw [hdt]; exact exPane_wellFormed hr le_rfl
    · exact fun _ => rfl
    · exact fun _ => rfl
    · exact fun _ _ => le_rfl
    all_goals norm_num
  obtain ⟨r1, H1⟩ := run 0
  obtain ⟨r2, H2⟩ := run 0.5
  obtain ⟨_, _, _, _, T1⟩ := coreCalc_ok H1
  have w1 := still_heated hr le_rfl (by norm_num) H1
  have w2 := still_heated hr le_rfl (by norm_num) H2
  rw [exPane_zero] at H1 H2
  refine ⟨r1, r2, H1, H2, by rw [T1.nMain_eq]; rfl, fun k => (w1 k).2.2.1, fun k => (w2 k).2.2.1, ?_⟩
  refine C118_total_partial (A := exGlowDay 0) (B := exGlowDay 0.5) (by rw [hdt]; exact exLatch_wellFormed hr) exLatch_storageless (fun _ => rfl) (fun _ _ => rfl)
    (fun _ => ⟨rfl, rfl⟩) (fun _ _ => le_rfl) (fun _ => ⟨le_rfl, fun _ => le_rfl, fun _ => ?_, fun _ => le_rfl, rfl, rfl⟩) ?_ H1 H2 ?_
  · show (0 : ℝ) ≤ 0.5
    norm_num
  · intro k i
    refine ⟨le_rfl, ?_⟩
    show 4 * (0 : ℝ) * _ ≤ _
    norm_num [exLatch, exCold, airCap]
  · intro k h1 h2 hN
    refine ⟨?_, ?_, .inl ?_, .inl rfl⟩
    · show (r1.log ⟨k, h1⟩).mode 0 ≠ _
      rw [(w1 _).1]; simp
    · show (r2.log ⟨k, h2⟩).mode 0 ≠ _
      rw [(w2 _).1]; simp
    · show (r2.log ⟨k, h2⟩).thetaOt 0 ≤ (r1.log ⟨k, h1⟩).thetaOt 0
      rw [(w1 _).2.1, (w2 _).2.1]

end HLC
