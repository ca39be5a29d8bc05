import Verif.Props.Completes
import Mathlib.Data.Fin.VecNotation
import Mathlib.Algebra.BigOperators.Fin

/-!
# A concrete house

Two rooms with four boundaries: an outer wall and a partition in each room (the two partitions are each other's rear side), air
flowing from room 0 to room 1, weather records that differ. Used to show that the hypotheses of the theorems about steps are met.
-/

namespace HLC

open Spec

/-- Two rooms, four boundaries. -/
noncomputable def exHouse : House (Fin 2) (Fin 4) where
  vRoom := ![30, 50]
  beta := ![0, 0]
  vVentEx := ![0.01, 0]
  vInt := !![0, 0; 0.01, 0]
  vNtrl := ![0.04, 0.05]
  cSh := ![378000, 630000]
  gSh := ![80, 140]
  cLh := ![500, 800]
  gLh := ![1, 2]
  isRadHeating := fun _ => false
  capH := fun _ => 0
  isRadCooling := fun _ => false
  capC := fun _ => 0
  rac := fun _ => ⟨500, 5000, 6, 11⟩
  isGround := fun _ => false
  room := ![0, 0, 1, 1]
  area := ![20, 10, 10, 30]
  phiA0 := ![0.03, 0.02, 0.02, 0.04]
  phiT0 := ![0.1, 0.3, 0.3, 0.2]
  phiA1 := fun _ m => if m = 0 then 0.5 else 0
  phiT1 := fun j m => if m = 0 then (1 - (![0.1, 0.3, 0.3, 0.2] : Fin 4 → ℝ) j) / 2 else 0
  ratio := fun _ _ => 0.5
  hC := ![2.5, 2.5, 2.5, 5]
  flr := ![0, 0, 0, 0]
  solarAbs := fun _ => true
  fMrtHum := ![0.5, 0.5, 0.3, 0.7]
  kEo := ![0.7, 0, 0, 1]
  kEi := ![some (0, 0.3), some (2, 1), some (1, 1), none]
  story := 2
  cValue := 2
  pressure := "balanced"

/-- Radiative coefficients. -/
noncomputable def exHR : Fin 4 → ℝ := ![5.1, 5, 5, 5.2]

/-- Three different records. -/
noncomputable def exData : Fin 3 → Record (Fin 2) (Fin 4) := fun k =>
  { thetaO := ![5, 6, 30] k
    xO := ![0.004, 0.005, 0.015] k
    vLocal := ![0, 0.01]
    qGen := ![100, 50]
    xGen := fun _ => 0
    nHum := ![2, 0]
    acDemand := ![1, 0]
    qTrsSol := ![0, 200]
    thetaOSol := fun _ => ![5, 8, 33] k }

theorem exHouse_wellFormed : WellFormed exHouse exHR 900 where
  dt_pos := by norm_num
  vRoom_pos := by intro i; fin_cases i <;> norm_num [exHouse]
  cSh_nonneg := by intro i; fin_cases i <;> norm_num [exHouse]
  gSh_nonneg := by intro i; fin_cases i <;> norm_num [exHouse]
  cLh_nonneg := by intro i; fin_cases i <;> norm_num [exHouse]
  gLh_nonneg := by intro i; fin_cases i <;> norm_num [exHouse]
  frtSh_pos := by intro i; fin_cases i <;> norm_num [exHouse]
  frtLh_pos := by intro i; fin_cases i <;> norm_num [exHouse]
  area_pos := by intro j; fin_cases j <;> norm_num [exHouse]
  hC_pos := by intro j; fin_cases j <;> norm_num [exHouse]
  hR_pos := by intro j; fin_cases j <;> norm_num [exHR]
  phiA0_nonneg := by intro j; fin_cases j <;> norm_num [exHouse]
  phiT0_mem := by intro j; fin_cases j <;> norm_num [exHouse]
  kEi_mem := by intro j m coef; fin_cases j <;> simp [exHouse] <;> intro _ h <;> rw [← h] <;> norm_num
  fMrtHum_nonneg := by intro j; fin_cases j <;> norm_num [exHouse]
  fMrtHum_sum := by
    intro i
    simp only [surfaces, Finset.sum_filter, Fin.sum_univ_four]
    fin_cases i <;> simp [exHouse] <;> norm_num
  vInt_nonneg := by intro i l; fin_cases i <;> fin_cases l <;> norm_num [exHouse]
  vInt_lt := by intro i; simp only [Fin.sum_univ_two]; fin_cases i <;> norm_num [exHouse]
  vVentEx_nonneg := by intro i; fin_cases i <;> norm_num [exHouse]
  vNtrl_nonneg := by intro i; fin_cases i <;> norm_num [exHouse]
  capH_nonneg := by intro i; norm_num [exHouse]
  capC_nonneg := by intro i; norm_num [exHouse]
  story_mem := Or.inr rfl
  pressure_mem := Or.inl rfl
  rac_q := by intro i; norm_num [exHouse]
  rac_v := by intro i; norm_num [exHouse]
  rac_fan := by intro i; norm_num [exHouse]

/-- Every step of the example house completes, from any state without HEATING_AND_COOLING. -/
theorem exHouse_step {n : ℤ} (hn : -3 ≤ n ∧ n < 3) {c : Cond (Fin 2) (Fin 4)} (hm : ∀ i, c.mode i ≠ .heatingAndCooling) :
    ∃ ss t, makePreCalc exHouse exHR 900 exData = .ok ss ∧ runTick n 900 ss c = .ok t := by
  apply C21_step_completes_partial exHouse_wellFormed (fun _ => rfl) (fun _ => rfl) _ hm hn
  intro k i
  fin_cases i <;> norm_num [exData]

/-- The first run-up step of the example house from the initial conditions: the last record. -/
theorem exHouse_first : ∃ ss t, makePreCalc exHouse exHR 900 exData = .ok ss ∧
    runTick (-1) 900 ss (initialConditions (Fin 2) (Fin 4)) = .ok t :=
  exHouse_step (by norm_num) (fun _ => by simp [initialConditions, initialMode])

end HLC
