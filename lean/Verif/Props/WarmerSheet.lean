import Verif.Props.Warmer

/-!
# C109 (violated): a light sheet

The transmitted part of the response of a part is driven without delay by the present outdoor temperature, the absorbed part by the heat that
entered in the step before. After a short pulse of sun the surface of a light sheet loses more than is left of the pulse.
-/

namespace HLC
open Spec

/-- A tight house with a wall that is a light sheet with one term of response. -/
noncomputable def exSheet : House (Fin 1) (Fin 1) :=
  { exCold with
    cValue := 0
    phiA0 := fun _ => 0.13
    phiA1 := fun _ m => if m = 0 then 0.06 else 0
    phiT0 := fun _ => 0.62
    phiT1 := fun _ m => if m = 0 then 0.361 else 0
    ratio := fun _ _ => 0.05 }

/-- A day at 0 degC on which the sun warms the outside of the wall by `x` degrees in the first quarter hour. -/
noncomputable def exPulse (x : ℝ) : Fin 96 → Record (Fin 1) (Fin 1) := fun k =>
  { thetaO := 0, xO := 0.004, vLocal := fun _ => 0, qGen := fun _ => 0, xGen := fun _ => 0, nHum := fun _ => 0
    acDemand := fun _ => 0, qTrsSol := fun _ => 0, thetaOSol := fun _ => if k = 0 then x else 0 }

theorem exSheet_wellFormed {hR : Fin 1 → ℝ} (hr : ∀ j, 0 < hR j) : WellFormed exSheet hR 900 where
  __ := exCold_wellFormed_any hr
  phiA0_nonneg := by intro j; norm_num [exSheet]
  phiT0_mem := by intro j; norm_num [exSheet]

theorem exSheet_surfaces (i : Fin 1) : surfaces exSheet i = {0} := exCold_surfaces i

/-- The equations of one step of the sheet house. -/
theorem sheet_step {hR : Fin 1 → ℝ} (hr : ∀ j, 0 < hR j) {x : ℝ} {ss : PreCalc (Fin 1) (Fin 1) 96} {n : ℤ} {k : Fin 96}
    {c : Cond (Fin 1) (Fin 1)} {t : TickVars (Fin 1) (Fin 1)} (Hp : makePreCalc exSheet hR 900 (exPulse x) = .ok ss)
    (H : runTick n 900 ss c = .ok t) (hk : pyIndex 96 n = .ok k) :
    40.2 * (t.thetaR 0 - c.thetaR 0) = 25 * (t.thetaS 0 - t.thetaR 0) - 12.06 * t.thetaR 0 ∧ t.qSrf 0 = 2.5 * (t.thetaR 0 - t.thetaS 0) ∧
    t.thetaS 0 = 0.13 * t.qSrf 0 + 0.62 * (exPulse x k).thetaOSol 0 + ∑ m, (t.dshT 0 m + t.dshA 0 m) ∧
    (∀ m, t.dshA 0 m = (if m = 0 then 0.06 else 0) * c.qSrf 0 + 0.05 * c.dshA 0 m) ∧
    ∀ m, t.dshT 0 m = (exPulse x k).thetaOSol 0 * (if m = 0 then 0.361 else 0) + 0.05 * c.dshT 0 m := by
  have hw := exSheet_wellFormed hr
  have hcap : ∀ i, 0 ≤ exSheet.capH i ∧ 0 ≤ exSheet.capC i := fun i => ⟨hw.capH_nonneg i, hw.capC_nonneg i⟩
  obtain ⟨ivs, k', hi, hs, hk', e⟩ := step_eqs Hp H
  obtain rfl : k' = k := Except.ok.inj (hk'.symm.trans hk)
  have e' := e
  rw [hs] at e
  obtain ⟨l, v, -⟩ := no_demand_tight rfl hcap (fun i => le_refl _) e
  have hh : exSheet.hC 0 + hR 0 ≠ 0 := (add_pos (hw.hC_pos 0) (hr 0)).ne'
  have hmrt : roomMrt exSheet hR 0 t.thetaS = t.thetaS 0 := by
    unfold roomMrt
    rw [exSheet_surfaces]
    simp only [Finset.sum_singleton]
    have : exSheet.area 0 * hR 0 ≠ 0 := (mul_pos (hw.area_pos 0) (hr 0)).ne'
    rw [mul_comm, mul_div_assoc, div_self this, mul_one]
  have hq : exSheet.qSol (exPulse x k') 0 = 0 := by unfold House.qSol; simp [exPulse]
  have room := C14_balance_as_coded Hp H hk 0 (by norm_num [exSheet, exCold])
  have flux := C16_surface_flux Hp H hk 0 hh
  have wall := C17_wall_equation_partial Hp H hk 0 hh (fun m coef h0 => by simp [exSheet, exCold] at h0)
  have hr0 : exSheet.room 0 = 0 := rfl
  have hH : t.qHum 0 = 0 := by rw [e.qHum]; simp [Tick.qHum, preCalcOf, exPulse]
  rw [hr0, hmrt, hq, (l 0).2] at flux
  refine ⟨?_, ?_, ?_, ?_, ?_⟩
  · rw [(l 0).1, (l 0).2, v, hH] at room
    unfold convection at room
    rw [exSheet_surfaces] at room
    simp only [Finset.sum_singleton] at room
    simp only [exSheet, exCold, exPulse, airCap] at room
    norm_num at room
    linarith
  · rw [flux]; simp [exSheet, exCold]
  · rw [wall]
    simp [exSheet, exCold, rearTemp]
  · intro m
    rw [e.dshA]; simp [Tick.dshA, preCalcOf, exSheet]
  · intro m
    have hrear : Tick.thetaRear (preCalcOf exSheet hR 900 (exPulse x) ivs) k' c 0 = (exPulse x k').thetaOSol 0 := by
      have h1 : (exSheet.kEiMat.mulVec c.thetaEi) 0 = 0 := by rw [kEi_mulVec]; simp [exSheet, exCold]
      show exSheet.kEiMat.mulVec c.thetaEi 0 + exSheet.thetaDstrb (exPulse x k') 0 = _
      rw [h1]
      simp [House.thetaDstrb, exSheet, exCold]
    rw [e.dshT, e.thetaRear]
    simp only [Tick.dshT]
    rw [hrear]
    simp [preCalcOf, exSheet]

/-- **C109 (violated).** In a tight house with one light wall (where all hypotheses of C109 hold except that the wall stores heat): sun on the wall
in the first quarter hour makes the surface of the wall colder one quarter hour later. -/
theorem C109_violated : ∃ (solve : List ℝ → ℝ) (r1 r2 : CalcResult (Fin 1) 1 96), SolvesRooms solve exSheet.area exSheet.room ∧
    (∀ k, Warmer (exPulse 0 k) (exPulse 10 k)) ∧ program solve exSheet (exPulse 0) 4 1 0 0 = .ok r1 ∧
    program solve exSheet (exPulse 10) 4 1 0 0 = .ok r2 ∧
    ∃ (k1 : Fin r1.nMain.toNat) (k2 : Fin r2.nMain.toNat), (k1 : ℕ) = 1 ∧ (k2 : ℕ) = 1 ∧ (r2.log k2).thetaS 0 < (r1.log k1).thetaS 0 := by
  obtain ⟨solve, hsol⟩ := exists_solver
  have hpos : ∀ j, 0 < exSheet.area j := fun j => by norm_num [exSheet, exCold]
  have hsr := solvesRooms_of hsol exSheet.room hpos
  have hr : ∀ j, 0 < getHr solve exSheet.area exSheet.room j := fun j => by
    have := C33_coefficients solve _ _ hpos hsr j; linarith [this.1, this.2.1]
  have e4 : (3600 / ((4 : ℤ) : ℝ)) = 900 := by norm_num
  have comp : ∀ x, ∃ r, coreCalc exSheet (getHr solve exSheet.area exSheet.room) (exPulse x) 4 1 0 0 = .ok r := by
    intro x
    apply C21_program_partial
    · rw [e4]; exact exSheet_wellFormed hr
    · exact fun _ => rfl
    · exact fun _ => rfl
    · exact fun k i => le_refl _
    all_goals norm_num
  -- the first two rows
  have rows : ∀ x r, coreCalc exSheet (getHr solve exSheet.area exSheet.room) (exPulse x) 4 1 0 0 = .ok r →
      ∃ k : Fin r.nMain.toNat, (k : ℕ) = 1 ∧ ∃ t t' : TickVars (Fin 1) (Fin 1), makePreCalc exSheet (getHr solve exSheet.area exSheet.room) 900 (exPulse x) = .ok r.ss ∧
        runTick 0 900 r.ss (initialConditions (Fin 1) (Fin 1)) = .ok t ∧ runTick 1 900 r.ss t.next = .ok t' ∧ r.log k = LogRow.ofTick t' := by
    intro x r H
    obtain ⟨gs, c0, up, mn, T⟩ := coreCalc_ok H
    have hn : r.nMain.toNat = 96 := by rw [T.nMain_eq]; rfl
    have e0 := start_eq (fun _ => rfl) T
    have hup : up = [] := by have := T.runUp.length_eq; simpa [pyRange] using this
    have hm := T.main
    have hp := T.pre
    rw [hup, e0, e4] at hm
    rw [e4] at hp
    have hl : mn.length = 96 := by rw [T.mn_length, hn]
    have hl' := hm.length_eq
    refine ⟨⟨1, by omega⟩, rfl, mn[0], mn[1], hp, ?_, ?_, T.logged _ (by rw [hl]; norm_num)⟩
    · have hns : (pyRange 0 (1 * 4 * 24))[0]? = some 0 := by
        rw [List.getElem?_eq_getElem (by omega), pyRange_getElem]; simp
      generalize pyRange 0 (1 * 4 * 24) = ns at hm hl' hns
      cases hm with
      | nil => simp at hl
      | cons a _ =>
        simp only [List.getElem?_cons_zero, Option.some.injEq] at hns
        subst hns
        exact a
    · have := run_pair hm 0 (by omega) (by omega)
      rw [pyRange_getElem] at this
      simpa using this
  obtain ⟨r1, H1⟩ := comp 0
  obtain ⟨r2, H2⟩ := comp 10
  obtain ⟨k1, i1, a, a', P1, A1, A2, L1⟩ := rows 0 r1 H1
  obtain ⟨k2, i2, b, b', P2, B1, B2, L2⟩ := rows 10 r2 H2
  refine ⟨solve, r1, r2, hsr, fun k => ⟨le_rfl, fun j => ?_, fun _ => le_rfl, fun _ => le_rfl, rfl, rfl⟩, H1, H2, k1, k2, i1, i2, ?_⟩
  · simp only [exPulse]; split_ifs <;> norm_num
  · rw [L1, L2]
    show b'.thetaS 0 < a'.thetaS 0
    have k0 : pyIndex 96 0 = .ok (0 : Fin 96) := by unfold pyIndex; norm_num
    have k1 : pyIndex 96 1 = .ok (1 : Fin 96) := by unfold pyIndex; norm_num
    obtain ⟨x1, x2, x3, x4, x5⟩ := sheet_step hr P1 A1 k0
    obtain ⟨y1, y2, y3, y4, y5⟩ := sheet_step hr P1 A2 k1
    obtain ⟨u1, u2, u3, u4, u5⟩ := sheet_step hr P2 B1 k0
    obtain ⟨v1, v2, v3, v4, v5⟩ := sheet_step hr P2 B2 k1
    have fin : ∀ {x : ℝ} {t t' : TickVars (Fin 1) (Fin 1)},
        (∀ m, t.dshA 0 m = (if m = 0 then 0.06 else 0) * (initialConditions (Fin 1) (Fin 1)).qSrf 0
          + 0.05 * (initialConditions (Fin 1) (Fin 1)).dshA 0 m) →
        (∀ m, t.dshT 0 m = x * (if m = 0 then 0.361 else 0) + 0.05 * (initialConditions (Fin 1) (Fin 1)).dshT 0 m) →
        (∀ m, t'.dshA 0 m = (if m = 0 then 0.06 else 0) * t.qSrf 0 + 0.05 * t.dshA 0 m) →
        (∀ m, t'.dshT 0 m = 0 * (if m = 0 then 0.361 else 0) + 0.05 * t.dshT 0 m) →
        ∑ m, (t.dshT 0 m + t.dshA 0 m) = 0.361 * x ∧ ∑ m, (t'.dshT 0 m + t'.dshA 0 m) = 0.05 * 0.361 * x + 0.06 * t.qSrf 0 := by
      intro x t t' h1 h2 h3 h4
      constructor
      · simp only [h1, h2, initialConditions, Finset.sum_add_distrib]
        simp
        ring
      · simp only [h1, h2, h3, h4, initialConditions, Finset.sum_add_distrib]
        simp
        ring
    have p0 : ∀ x, (exPulse x 0).thetaOSol 0 = x := fun x => rfl
    have p1 : ∀ x, (exPulse x 1).thetaOSol 0 = 0 := fun x => by simp [exPulse]
    have i0 : (initialConditions (Fin 1) (Fin 1)).thetaR 0 = 15 := rfl
    have na : a.next.thetaR 0 = a.thetaR 0 := rfl
    have nb : b.next.thetaR 0 = b.thetaR 0 := rfl
    rw [p0] at x3 x5 u3 u5
    rw [p1] at y3 y5 v3 v5
    obtain ⟨s1, s2⟩ := fin x4 x5 y4 y5
    obtain ⟨s3, s4⟩ := fin u4 u5 v4 v5
    rw [s1] at x3
    rw [s2] at y3
    rw [s3] at u3
    rw [s4] at v3
    rw [i0] at x1 u1
    rw [na] at y1
    rw [nb] at v1
    norm_num at x1 x2 x3 y1 y2 y3 u1 u2 u3 v1 v2 v3
    linarith

end HLC
