import Verif.Props.Steady

/-!
# A house at different temperatures that stands still (C93, C94, C95)
-/

namespace HLC

open Spec Finset

/-- The example house without air flow between the rooms, with parts of U value 1; the far side of the partition has `1 / w`. -/
noncomputable def exStill (w : ℝ) : House (Fin 2) (Fin 4) :=
  { exHouse0 with
    area := ![20, 10, 10, 20]
    phiA0 := ![1 / 15, 1 / 15, w - 14 / 15, 1 / 15]
    phiA1 := fun _ m => if m = 0 then 0.4 else 0
    hC := fun _ => 2.5
    kEo := ![1, 0, 0, 1]
    kEi := ![none, some (2, 1), some (1, 1), none] }

/-- Radiative coefficients. -/
noncomputable def exStillHR : Fin 4 → ℝ := fun _ => 5

/-- The weather: 6 degC outdoors, wall 0 in the sun, wall 3 not; appliances make up for the ventilation. -/
noncomputable def exStillDay (w : ℝ) : Fin 3 → Record (Fin 2) (Fin 4) := fun k =>
  { exData k with
    thetaO := 6
    thetaOSol := ![24, 0, 0, 12 - 4 / w]
    qGen := ![185.724, 12.06]
    nHum := fun _ => 0, qTrsSol := fun _ => 0, acDemand := fun _ => 0, vLocal := fun _ => 0 }

/-- Room and surface temperatures. -/
noncomputable def exStillR : Fin 2 → ℝ := ![20, 12]
noncomputable def exStillS (w : ℝ) : Fin 4 → ℝ := ![20 + 8 / 15, 20 - 16 / 15, 12 + 16 / 15 / w, 12 - 8 / 15 / w]

theorem exStill_wellFormed {w : ℝ} (hw : 1 ≤ w) : WellFormed (exStill w) exStillHR 900 :=
  { exHouse0_wellFormed with
    area_pos := by intro j; fin_cases j <;> norm_num [exStill]
    hC_pos := by intro j; norm_num [exStill]
    hR_pos := by intro j; norm_num [exStillHR]
    phiA0_nonneg := by
      intro j
      fin_cases j
      · norm_num [exStill]
      · norm_num [exStill]
      · simp [exStill]; linarith
      · simp [exStill]
    kEi_mem := by intro j m coef; fin_cases j <;> simp [exStill] <;> intro _ h <;> rw [← h] <;> norm_num }

theorem exStill_resistance (w : ℝ) : resistance (exStill w) = ![13 / 15, 13 / 15, w - 2 / 15, 13 / 15] := by
  funext j
  have : ∀ l : Fin 12, (exStill w).phiA1 j l / (1 - (exStill w).ratio j l) = if l = 0 then 0.8 else 0 := by
    intro l
    simp only [exStill, exHouse0, exHouse]
    split_ifs <;> norm_num
  unfold resistance
  simp only [this]
  rw [sum_ite_eq' univ (0 : Fin 12), if_pos (mem_univ _)]
  fin_cases j <;> simp [exStill] <;> ring

theorem exStill_parts {w : ℝ} (hw : 1 ≤ w) (j : Fin 4) :
    0 ≤ resistance (exStill w) j ∧ Transmits (exStill w) j ∧ EvenSides (exStill w) exStillHR j := by
  refine ⟨?_, ⟨fun l => exHouse_steady.ratio_ne j l, exHouse_steady.transmission j⟩, ?_⟩
  · rw [exStill_resistance]
    fin_cases j
    · norm_num
    · norm_num
    · simp; linarith
    · simp; norm_num
  · intro m coef
    fin_cases j
    · simp [exStill]
    · simp [exStill]; rintro rfl -; simp [exStillHR]
    · simp [exStill]; rintro rfl -; simp [exStillHR]
    · simp [exStill]

theorem exStill_mrt {w : ℝ} (hw : 1 ≤ w) (i : Fin 2) : roomMrt (exStill w) exStillHR i (exStillS w) = exStillR i := by
  have hw' : w ≠ 0 := by linarith
  unfold roomMrt
  simp only [surfaces, sum_filter, Fin.sum_univ_four]
  fin_cases i <;> simp [exStill, exHouse0, exHouse, exStillHR, exStillS, exStillR] <;> field_simp <;> norm_num <;> ring

theorem exStill_exposure {w : ℝ} (hw : 1 ≤ w) (k : Fin 3) :
    exposure (exStill w) exStillHR (exStillDay w k) exStillR (fun _ => 0) (exStillS w) = ![20, 20, 12, 12] := by
  funext j
  have hq : (exStill w).qSol (exStillDay w k) j = 0 := by unfold House.qSol; simp [exStillDay]
  unfold exposure
  rw [exStill_mrt hw, hq]
  fin_cases j <;> simp [exStill, exHouse0, exHouse, exStillHR, exStillR] <;> norm_num

theorem exStill_uValue {w : ℝ} : uValue (exStill w) exStillHR = ![1, 1, 1 / w, 1] := by
  funext j
  unfold uValue
  rw [exStill_resistance]
  fin_cases j
  · simp [exStill, exStillHR]; norm_num
  · simp [exStill, exStillHR]; norm_num
  · simp [exStill, exStillHR]
    ring
  · simp [exStill, exStillHR]; norm_num

/-- These temperatures balance all heat flows. -/
theorem exStill_steady {w : ℝ} (hw : 1 ≤ w) (k : Fin 3) :
    SteadyState (exStill w) exStillHR (exStillDay w k) ![0.011, 1 / 600] (fun _ => 0) (fun _ => 0) (fun _ => 0) exStillR exStillR
      (exStillS w) := by
  have hw' : w ≠ 0 := by linarith
  refine ⟨fun j => ?_, fun i => ?_, fun i => ?_⟩
  · rw [exStill_exposure hw, exStill_uValue]
    unfold rearTemp
    fin_cases j <;> simp [exStill, exHouse0, exHouse, exStillHR, exStillS, exStillDay] <;> field_simp <;> norm_num
  · rw [exStill_exposure hw]
    simp only [surfaces, sum_filter, Fin.sum_univ_four]
    fin_cases i <;>
      simp [exStill, exHouse0, exHouse, exStillHR, exStillS, exStillDay, exStillR, airCap] <;> field_simp <;> norm_num <;> ring
  · simp [exStillDay]

/-- The state of the house that has been at these temperatures for infinitely long time. -/
noncomputable def exStillC (w : ℝ) : Cond (Fin 2) (Fin 4) :=
  { initialConditions (Fin 2) (Fin 4) with
    thetaR := exStillR
    thetaFrt := exStillR
    thetaEi := exposure (exStill w) exStillHR (exStillDay w 0) exStillR (fun _ => 0) (exStillS w)
    qSrf := fun j => ((exStill w).hC j + exStillHR j) *
      (exposure (exStill w) exStillHR (exStillDay w 0) exStillR (fun _ => 0) (exStillS w) j - exStillS w j)
    dshA := fun j l => (exStill w).phiA1 j l / (1 - (exStill w).ratio j l) * (((exStill w).hC j + exStillHR j) *
      (exposure (exStill w) exStillHR (exStillDay w 0) exStillR (fun _ => 0) (exStillS w) j - exStillS w j))
    dshT := fun j l => (exStill w).phiT1 j l / (1 - (exStill w).ratio j l) * rearTemp (exStill w) (exStillDay w 0).thetaOSol
      (exposure (exStill w) exStillHR (exStillDay w 0) exStillR (fun _ => 0) (exStillS w)) j }

/-- The first step of this house: the air that it exchanges with outdoors is what was assumed. -/
theorem exStill_step {w : ℝ} (hw : 1 ≤ w) : ∃ ss t, makePreCalc (exStill w) exStillHR 900 (exStillDay w) = .ok ss ∧
    runTick 0 900 ss (exStillC w) = .ok t ∧ t.vOut = ![0.011, 1 / 600] ∧ t.qHum = fun _ => 0 := by
  obtain ⟨ss, t, Hp, H⟩ := C21_step_completes_partial (c := exStillC w) (data := exStillDay w) (n := 0) (exStill_wellFormed hw)
    (fun _ => rfl) (fun _ => rfl) (fun _ _ => le_rfl) (fun i => by simp [exStillC, initialConditions, initialMode]) (by norm_num)
  refine ⟨ss, t, Hp, H, ?_, ?_⟩
  · have hk : pyIndex 3 0 = .ok 0 := rfl
    have h23 := fun i => C23_natural_ventilation Hp H hk i
    obtain ⟨ivs, k', hi, hss, hk', e⟩ := step_eqs Hp H
    have : k' = 0 := Except.ok.inj (hk'.symm.trans hk)
    subst this
    subst hss
    have hmode : ∀ i, (t.ot i).mode = .stopClose := fun i =>
      (no_demand e (fun i => by simp [preCalcOf, exStillDay]) (fun i => ⟨(exStill_wellFormed hw).capH_nonneg i,
        (exStill_wellFormed hw).capC_nonneg i⟩) i).1
    have hl := e.vLeak
    have hleak : t.vLeak = ![0.001, 1 / 600] := by
      have h1 : getInfiltration (exStill w).cValue (exStill w).vRoom (exStill w).story (exStill w).pressure exStillR (exStillDay w 0).thetaO
          = .ok t.vLeak := hl
      have h2 : getInfiltration (exStill w).cValue (exStill w).vRoom (exStill w).story (exStill w).pressure exStillR (exStillDay w 0).thetaO
          = .ok ![0.001, 1 / 600] := by
        have h9 : Real.sqrt 9 = 3 := by
          rw [show (9 : ℝ) = 3 ^ 2 by norm_num]; exact Real.sqrt_sq (by norm_num)
        unfold getInfiltration volumeAverage
        simp only [exStill, exHouse0, exHouse, exStillR, exStillDay, Fin.sum_univ_two, infiltrationA, infiltrationB]
        simp only [bind, Except.bind, Matrix.cons_val_zero, Matrix.cons_val_one]
        norm_num [h9]
        funext i
        fin_cases i <;> norm_num
      exact Except.ok.inj (h1.symm.trans h2)
    funext i
    rw [(h23 i).2.2.1, (h23 i).2.1 (by simp [TickVars.next, hmode i]), hleak]
    fin_cases i <;> simp [exStill, exHouse0, exHouse, exStillDay] <;> norm_num
  · obtain ⟨ivs, k', -, hss, hk', e⟩ := step_eqs Hp H
    subst hss
    funext i
    rw [e.qHum]
    simp [Tick.qHum, preCalcOf, exStillDay]

theorem exStill_settled {w : ℝ} : Settled (exStill w) exStillHR (exStillDay w 0) (fun _ => 0) exStillR exStillR (exStillS w) (exStillC w) :=
  ⟨rfl, rfl, fun _ => rfl, rfl, fun _ _ => rfl, fun _ _ => rfl⟩

theorem exStill_abs (w : ℝ) (i : Fin 2) :
    ∑ j ∈ surfaces (exStill w) i, (exStill w).area j * (if (exStill w).solarAbs j then 1 else 0) ≠ 0 := by
  simp only [surfaces, sum_filter, Fin.sum_univ_four]
  fin_cases i <;> simp [exStill, exHouse0, exHouse] <;> norm_num

/-- The house stands still: the step from the settled state computes the temperatures assumed and leaves the state as it is. Shows that the
hypotheses of `C95_stays_partial` and `C95_standstill_partial` are met by a house with rooms at 20 and 12 degC. -/
theorem exStill_still {w : ℝ} (hw : 1 ≤ w) : ∃ ss t, makePreCalc (exStill w) exStillHR 900 (exStillDay w) = .ok ss ∧
    runTick 0 900 ss (exStillC w) = .ok t ∧ t.thetaR = exStillR ∧ t.thetaS = exStillS w ∧ SameHeat (exStillC w) t.next ∧
    (∀ i, t.lr i = 0) := by
  obtain ⟨ss, t, Hp, H, hv, hq⟩ := exStill_step hw
  have hk : pyIndex 3 0 = .ok 0 := rfl
  obtain ⟨h1, h2, -, h3⟩ := C95_stays_partial Hp (exStill_wellFormed hw) H hk (exStill_abs w) (fun _ _ => rfl) (exStill_parts hw)
    (fun _ => le_rfl) (by rw [hv, hq]; exact exStill_steady hw 0) exStill_settled
  obtain ⟨ivs, k', hi, hss, hk', e⟩ := step_eqs Hp H
  subst hss
  exact ⟨_, t, Hp, H, h1, h2, h3, fun i =>
    (no_demand e (fun i => by simp [preCalcOf, exStillDay]) (fun i => ⟨(exStill_wellFormed hw).capH_nonneg i,
        (exStill_wellFormed hw).capC_nonneg i⟩) i).2.2⟩

/-- The hypotheses of `C95_standstill_partial`, `C93_part_partial`, `C93_room_partial` and `C94_partition_partial` are met by this house, with
8 W/m2 flowing from room 0 to room 1. -/
example : ∃ ss t, makePreCalc (exStill 1) exStillHR 900 (exStillDay 1) = .ok ss ∧
    Steps ss 900 1 (fun _ => 0) (fun _ => 0) (fun p => if p = 0 then exStillC 1 else t.next) (fun _ => t) ∧
    SameHeat (exStillC 1) t.next ∧ (∀ i, t.lr i = 0) ∧ WellFormed (exStill 1) exStillHR 900 ∧
    (∀ i, ∑ j ∈ surfaces (exStill 1) i, (exStill 1).area j * (if (exStill 1).solarAbs j then 1 else 0) ≠ 0) ∧
    (∀ j, 0 ≤ resistance (exStill 1) j ∧ Transmits (exStill 1) j ∧ EvenSides (exStill 1) exStillHR j) ∧
    (exStill 1).kEi 1 = some (2, 1) ∧ (exStill 1).kEi 2 = some (1, 1) ∧ resistance (exStill 1) 2 = resistance (exStill 1) 1 ∧
    t.qSrf 1 = 8 := by
  obtain ⟨ss, t, Hp, H, h1, h2, h3, h4⟩ := exStill_still (le_refl 1)
  refine ⟨ss, t, Hp, ⟨fun p h0 => ?_, fun _ _ => rfl, fun p h0 => by simp⟩, h3, h4, exStill_wellFormed le_rfl, exStill_abs 1,
    exStill_parts le_rfl, by simp [exStill], by simp [exStill], by rw [exStill_resistance]; simp; norm_num, ?_⟩
  · have : p = 0 := by omega
    subst this
    exact H
  · have : t.qSrf 1 = (exStillC 1).qSrf 1 := congrFun h3.flux 1
    rw [this]
    show ((exStill 1).hC 1 + exStillHR 1) * (exposure (exStill 1) exStillHR (exStillDay 1 0) exStillR (fun _ => 0) (exStillS 1) 1
      - exStillS 1 1) = 8
    rw [exStill_exposure le_rfl]
    simp [exStill, exStillHR, exStillS]
    norm_num

/-- **C94 (violated).** A well-formed house with a partition whose sides have the same film coefficients and areas and pass on temperatures
with factor one, but are entered with different resistances: it stands still, and 40 of the 80 W that leave room 0 through the partition do
not enter room 1. -/
theorem C94_violated : ∃ ss t, WellFormed (exStill 2) exStillHR 900 ∧ makePreCalc (exStill 2) exStillHR 900 (exStillDay 2) = .ok ss ∧
    runTick 0 900 ss (exStillC 2) = .ok t ∧ SameHeat (exStillC 2) t.next ∧
    (exStill 2).kEi 1 = some (2, 1) ∧ (exStill 2).kEi 2 = some (1, 1) ∧ (exStill 2).kEo 1 = 0 ∧ (exStill 2).kEo 2 = 0 ∧
    (∀ j, Transmits (exStill 2) j ∧ EvenSides (exStill 2) exStillHR j) ∧
    (exStill 2).area 1 * t.qSrf 1 = 80 ∧ (exStill 2).area 2 * t.qSrf 2 = -40 := by
  have hw : (1 : ℝ) ≤ 2 := by norm_num
  obtain ⟨ss, t, Hp, H, h1, h2, h3, h4⟩ := exStill_still hw
  refine ⟨ss, t, exStill_wellFormed hw, Hp, H, h3, by simp [exStill], by simp [exStill], by simp [exStill], by simp [exStill],
    fun j => (exStill_parts hw j).2, ?_, ?_⟩
  · have : t.qSrf 1 = (exStillC 2).qSrf 1 := congrFun h3.flux 1
    rw [this]
    show _ * (((exStill 2).hC 1 + exStillHR 1) * (exposure (exStill 2) exStillHR (exStillDay 2 0) exStillR (fun _ => 0) (exStillS 2) 1
      - exStillS 2 1)) = _
    rw [exStill_exposure hw]
    simp [exStill, exStillHR, exStillS]
    norm_num
  · have : t.qSrf 2 = (exStillC 2).qSrf 2 := congrFun h3.flux 2
    rw [this]
    show _ * (((exStill 2).hC 2 + exStillHR 2) * (exposure (exStill 2) exStillHR (exStillDay 2 0) exStillR (fun _ => 0) (exStillS 2) 2
      - exStillS 2 2)) = _
    rw [exStill_exposure hw]
    simp [exStill, exStillHR, exStillS]
    norm_num

end HLC
