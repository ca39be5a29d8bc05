import Verif.Props.Renumber
import Verif.Props.ColdHouse

/-!
# C83 fails for parts listed alternately
-/

namespace HLC
open Spec

/-- Two rooms of thin sheets, listed alternately. -/
noncomputable def exSheets : House (Fin 2) (Fin 4) where
  vRoom := fun _ => 30
  beta := fun _ => 0
  vVentEx := fun _ => 0.01
  vInt := 0
  vNtrl := fun _ => 0.04
  cSh := fun _ => 1000
  gSh := fun _ => 10
  cLh := fun _ => 1000
  gLh := fun _ => 1
  isRadHeating := fun _ => false
  capH := fun _ => 0
  isRadCooling := fun _ => false
  capC := fun _ => 0
  rac := fun _ => ⟨500, 5000, 6, 11⟩
  isGround := fun _ => false
  room := exRoom
  area := exArea
  phiA0 := fun _ => 0
  phiT0 := fun _ => 1
  phiA1 := fun _ _ => 0
  phiT1 := fun _ _ => 0
  ratio := fun _ _ => 0
  hC := fun _ => 2.5
  flr := fun _ => 0
  solarAbs := fun _ => true
  fMrtHum := fun _ => 0.5
  kEo := fun _ => 1
  kEi := fun _ => none
  story := 1
  cValue := 2
  pressure := "balanced"

/-- A day at 15 degC; the sun shines on part 1. -/
noncomputable def exSheetsData : Fin 96 → Record (Fin 2) (Fin 4) := fun _ =>
  { thetaO := 15, xO := 0.004, vLocal := fun _ => 0, qGen := fun _ => 0, xGen := fun _ => 0, nHum := fun _ => 0
    acDemand := fun _ => 0, qTrsSol := fun _ => 0, thetaOSol := ![15, 25, 15, 15] }

/-- The parts of room 0, then those of room 1. -/
def exGrouped : Fin 4 ≃ Fin 4 := Equiv.swap 1 2

theorem exArea_pos (j : Fin 4) : 0 < exArea j := by fin_cases j <;> norm_num [exArea]

theorem exSheets_wellFormed {hR : Fin 4 → ℝ} (hr : ∀ j, 0 < hR j) : WellFormed exSheets hR 900 where
  dt_pos := by norm_num
  vRoom_pos := by intro i; norm_num [exSheets]
  cSh_nonneg := by intro i; norm_num [exSheets]
  gSh_nonneg := by intro i; norm_num [exSheets]
  cLh_nonneg := by intro i; norm_num [exSheets]
  gLh_nonneg := by intro i; norm_num [exSheets]
  frtSh_pos := by intro i; norm_num [exSheets]
  frtLh_pos := by intro i; norm_num [exSheets]
  area_pos := exArea_pos
  hC_pos := by intro j; norm_num [exSheets]
  hR_pos := hr
  phiA0_nonneg := by intro j; norm_num [exSheets]
  phiT0_mem := by intro j; norm_num [exSheets]
  kEi_mem := by intro j m coef e; cases e
  fMrtHum_nonneg := by intro j; norm_num [exSheets]
  fMrtHum_sum := by
    intro i
    simp only [surfaces, Finset.sum_filter, Fin.sum_univ_four]
    fin_cases i <;> simp [exSheets, exRoom] <;> norm_num
  vInt_nonneg := by intro i l; simp [exSheets]
  vInt_lt := by intro i; norm_num [exSheets]
  vVentEx_nonneg := by intro i; norm_num [exSheets]
  vNtrl_nonneg := by intro i; norm_num [exSheets]
  capH_nonneg := by intro i; norm_num [exSheets]
  capC_nonneg := by intro i; norm_num [exSheets]
  story_mem := Or.inl rfl
  pressure_mem := Or.inl rfl
  rac_q := by intro i; norm_num [exSheets]
  rac_v := by intro i; norm_num [exSheets]
  rac_fan := by intro i; norm_num [exSheets]

/-- Surface heat fluxes of the first step. -/
theorem sheets_flux {hR : Fin 4 → ℝ} (hr : ∀ j, 0 < hR j) {r : CalcResult (Fin 2) 4 96} (H : coreCalc exSheets hR exSheetsData 4 1 0 0 = .ok r) :
    ∃ θ : ℝ, ∀ hk : 0 < r.nMain.toNat,
      (r.log ⟨0, hk⟩).qiall 1 = 2.5 * (θ - 25) - 300 * hR 1 * hR 3 / (10 * hR 1 + 30 * hR 3) ∧
      (r.log ⟨0, hk⟩).qiall 3 = 2.5 * (θ - 15) + 100 * hR 1 * hR 3 / (10 * hR 1 + 30 * hR 3) := by
  obtain ⟨c, t, Hp, Ht, hlog, c1, c2, c3, c4, c5, c6, c7, c8, c9⟩ := first_step H (fun _ => rfl)
  have hk : pyIndex 96 0 = .ok (0 : Fin 96) := rfl
  have hq : ∀ j, exSheets.qSol (exSheetsData 0) j = 0 := by intro j; simp [House.qSol, exSheetsData]
  have hne : ∀ j, exSheets.hC j + hR j ≠ 0 := fun j => by have := hr j; have : 0 < exSheets.hC j := by norm_num [exSheets]
                                                          linarith [hr j]
  have hd : ∀ j m, t.dshT j m = 0 ∧ t.dshA j m = 0 := by
    obtain ⟨ivs, k, -, hs, -, e⟩ := step_eqs Hp Ht
    intro j m
    rw [e.dshT, e.dshA, hs]
    simp [Tick.dshT, Tick.dshA, preCalcOf, exSheets]
  have hS : ∀ j, t.thetaS j = (![15, 25, 15, 15] : Fin 4 → ℝ) j := by
    intro j
    rw [C17_wall_equation_partial Hp Ht hk j (hne j) (by intro m coef e; cases e)]
    simp [hd, exSheets, rearTemp, exSheetsData]
  have hflux : ∀ j, t.qSrf j = 2.5 * (t.thetaR (exRoom j) - t.thetaS j) + hR j * (roomMrt exSheets hR (exRoom j) t.thetaS - t.thetaS j) := by
    intro j
    rw [C16_surface_flux Hp Ht hk j (hne j), hq]
    simp [exSheets]
  have hmrt : roomMrt exSheets hR 1 t.thetaS = (10 * hR 1 * 25 + 30 * hR 3 * 15) / (10 * hR 1 + 30 * hR 3) := by
    simp only [roomMrt, surfaces, Finset.sum_filter, Fin.sum_univ_four, hS]
    simp [exSheets, exRoom, exArea]
  have hpos : 0 < 10 * hR 1 + 30 * hR 3 := by have := hr 1; have := hr 3; linarith
  refine ⟨t.thetaR 1, fun hk0 => ?_⟩
  rw [hlog hk0]
  have e1 : exRoom 1 = 1 := rfl
  have e3 : exRoom 3 = 1 := rfl
  constructor
  · show t.qSrf 1 = _
    rw [hflux, e1, hmrt, hS]
    have : (10 * hR 1 * 25 + 30 * hR 3 * 15) / (10 * hR 1 + 30 * hR 3) = 25 - 300 * hR 3 / (10 * hR 1 + 30 * hR 3) := by
      rw [div_eq_iff hpos.ne', sub_mul, div_mul_cancel₀ _ hpos.ne']; ring
    rw [this]
    show 2.5 * (t.thetaR 1 - 25) + hR 1 * (25 - 300 * hR 3 / (10 * hR 1 + 30 * hR 3) - 25) = _
    ring
  · show t.qSrf 3 = _
    rw [hflux, e3, hmrt, hS]
    have : (10 * hR 1 * 25 + 30 * hR 3 * 15) / (10 * hR 1 + 30 * hR 3) = 15 + 100 * hR 1 / (10 * hR 1 + 30 * hR 3) := by
      rw [div_eq_iff hpos.ne', add_mul, div_mul_cancel₀ _ hpos.ne']; ring
    rw [this]
    show 2.5 * (t.thetaR 1 - 15) + hR 3 * (15 + 100 * hR 1 / (10 * hR 1 + 30 * hR 3) - 15) = _
    ring

/-- With two different coefficients of part 1 some flux differs. -/
theorem sheets_differ {a b c θ θ' : ℝ} (ha : 0 < a) (hb : 0 < b) (hc : 0 < c) (hne : a ≠ b)
    (h1 : 2.5 * (θ - 25) - 300 * a * c / (10 * a + 30 * c) = 2.5 * (θ' - 25) - 300 * b * c / (10 * b + 30 * c))
    (h2 : 2.5 * (θ - 15) + 100 * a * c / (10 * a + 30 * c) = 2.5 * (θ' - 15) + 100 * b * c / (10 * b + 30 * c)) : False := by
  have e : ∀ x, 300 * x * c / (10 * x + 30 * c) = 3 * (100 * x * c / (10 * x + 30 * c)) := by intro x; ring
  rw [e, e] at h1
  have h3 : 100 * a * c / (10 * a + 30 * c) = 100 * b * c / (10 * b + 30 * c) := by linarith
  have hpa : 0 < 10 * a + 30 * c := by linarith
  have hpb : 0 < 10 * b + 30 * c := by linarith
  rw [div_eq_div_iff hpa.ne' hpb.ne'] at h3
  have h4 : (a - b) * (3000 * c * c) = 0 := by linear_combination h3
  rcases mul_eq_zero.1 h4 with h5 | h5
  · exact hne (by linarith)
  · have : 0 < 3000 * c * c := by positivity
    linarith

theorem exShares : share exArea exRoom 1 = 1 / 4 ∧ share exArea exRoom 2 = 1 / 2 ∧ share exArea exRoom 0 = 1 / 2 ∧ share exArea exRoom 3 = 3 / 4 := by
  have a0 : roomArea exArea exRoom 0 = 20 := by
    simp only [roomArea, Finset.sum_filter, Fin.sum_univ_four]; simp [exArea, exRoom]; norm_num
  have a1 : roomArea exArea exRoom 1 = 40 := by
    simp only [roomArea, Finset.sum_filter, Fin.sum_univ_four]; simp [exArea, exRoom]; norm_num
  refine ⟨?_, ?_, ?_, ?_⟩
  · show exArea 1 / roomArea exArea exRoom 1 = _
    rw [a1]; simp [exArea]; norm_num
  · show exArea 2 / roomArea exArea exRoom 0 = _
    rw [a0]; simp [exArea]; norm_num
  · show exArea 0 / roomArea exArea exRoom 0 = _
    rw [a0]; simp [exArea]; norm_num
  · show exArea 3 / roomArea exArea exRoom 1 = _
    rw [a1]; simp [exArea]; norm_num

/-- The coefficients of parts 1 and 3 in the alternating list. -/
theorem alternating_coefficients {solve : List ℝ → ℝ} (hs : SolvesRooms solve exArea exRoom) :
    ∃ v, IsRoomConst exArea exRoom 1 v ∧ radiative (factor v (share exArea exRoom 1)) < getHr solve exArea exRoom 1 ∧
      getHr solve exArea exRoom 3 = radiative (factor v (share exArea exRoom 3)) := by
  have hc0 := solve_isRoomConst exArea_pos hs 2
  have hc1 := solve_isRoomConst exArea_pos hs 1
  have hlist : (List.finRange 2).flatMap (roomIdx exRoom) = [0, 2, 1, 3] := by decide
  have r2 : exRoom 2 = 0 := rfl
  have r1 : exRoom 1 = 1 := rfl
  have r3 : exRoom 3 = 1 := rfl
  rw [r2] at hc0
  rw [r1] at hc1
  have h1 : getHr solve exArea exRoom 1 = radiative (factor (solve ((roomIdx exRoom 0).map (share exArea exRoom))) (share exArea exRoom 2)) := by
    unfold getHr
    rw [getHrList_eq, hlist]
    simp only [List.map_cons, Fin.isValue, Fin.coe_ofNat_eq_mod, Nat.one_mod, List.getD_cons_succ, List.getD_cons_zero]
    rw [hrOfShape_eq, r2, getFj_factor hc0.1]
  have h3 : getHr solve exArea exRoom 3 = radiative (factor (solve ((roomIdx exRoom 1).map (share exArea exRoom))) (share exArea exRoom 3)) := by
    unfold getHr
    rw [getHrList_eq, hlist]
    simp only [List.map_cons, Fin.isValue, Fin.coe_ofNat_eq_mod, List.getD_cons_succ, List.getD_cons_zero]
    show hrOfShape _ = _
    rw [hrOfShape_eq, r3, getFj_factor hc1.1]
  refine ⟨_, hc1, ?_, h3⟩
  rw [h1]
  obtain ⟨s1, s2, s0, s3⟩ := exShares
  generalize solve ((roomIdx exRoom 0).map (share exArea exRoom)) = w at *
  generalize solve ((roomIdx exRoom 1).map (share exArea exRoom)) = v at *
  have f0 := hc0.2
  have f1 := hc1.2
  simp only [Finset.sum_filter, Fin.sum_univ_four] at f0 f1
  rw [show exRoom 0 = 0 from rfl, r1, r2, r3] at f0 f1
  simp at f0 f1
  rw [s0, s2] at f0
  rw [s1, s3] at f1
  rw [s1, s2]
  have g1 : factor v (1 / 4) < factor v (3 / 4) := by
    rw [← getFj_factor hc1.1, ← getFj_factor hc1.1]
    exact getFj_mono hc1.1 (by norm_num)
  exact radiative_strictMono (by linarith) (by linarith)

/-- **C83 (violated).** Two rooms whose parts are listed alternately: listing the parts of the first room before those of the second
changes the results. With every solver that finds the room constants both calculations complete, and the heat flux at some surface
differs in the first step. -/
theorem C83_violated : ∃ (h : House (Fin 2) (Fin 4)) (data : Fin 96 → Record (Fin 2) (Fin 4)) (f : Fin 4 ≃ Fin 4),
    (∃ solve : List ℝ → ℝ, ∀ rs : List ℝ, (∀ r ∈ rs, 0 < r) → rs.sum = 1 → shapeEq rs (solve rs) = 0) ∧
    ∀ solve : List ℝ → ℝ, (∀ rs : List ℝ, (∀ r ∈ rs, 0 < r) → rs.sum = 1 → shapeEq rs (solve rs) = 0) →
    ∃ r r', program solve h data 4 1 0 0 = .ok r ∧
      program solve (houseInOrder (Equiv.refl _) f h) (fun n => recordInOrder (Equiv.refl _) f (data n)) 4 1 0 0 = .ok r' ∧
      r.nMain = 96 ∧ r'.nMain = 96 ∧
      ∀ (hk : 0 < r.nMain.toNat) (hk' : 0 < r'.nMain.toNat), ∃ j, (r'.log ⟨0, hk'⟩).qiall j ≠ (r.log ⟨0, hk⟩).qiall (f j) := by
  refine ⟨exSheets, exSheetsData, exGrouped, exists_solver, fun solve hsol => ?_⟩
  have hs : SolvesRooms solve exArea exRoom := solvesRooms_of hsol exRoom exArea_pos
  set h' := houseInOrder (Equiv.refl (Fin 2)) exGrouped exSheets with hh'
  have hpos' : ∀ j, 0 < h'.area j := fun j => exArea_pos (exGrouped j)
  have hs' : SolvesRooms solve h'.area h'.room := solvesRooms_of hsol h'.room hpos'
  have hm' : Monotone h'.room := by
    show Monotone fun j => exRoom (exGrouped j)
    decide
  have p1 : ∀ j, 0 < getHr solve exArea exRoom j := fun j => by
    have := C33_coefficients solve exArea exRoom exArea_pos hs j; linarith [this.1, this.2.1]
  have p2 : ∀ j, 0 < getHr solve h'.area h'.room j := fun j => by
    have := C33_coefficients solve h'.area h'.room hpos' hs' j; linarith [this.1, this.2.1]
  obtain ⟨r, hr⟩ := C21_program_partial (h := exSheets) (hR := getHr solve exArea exRoom) (data := exSheetsData) (hourly := 4) (dMain := 1)
    (dRunUp := 0) (dRunUpBuild := 0)
    (by rw [show (3600 / ((4 : ℤ) : ℝ)) = 900 by norm_num]; exact exSheets_wellFormed p1) (fun _ => rfl) (fun _ => rfl)
    (fun _ _ => by simp [exSheetsData]) (by norm_num) (by norm_num) (by norm_num) (by norm_num) (by norm_num) (by norm_num)
  obtain ⟨r2, hr2⟩ := C21_program_partial (h := exSheets) (hR := fun j => getHr solve h'.area h'.room (exGrouped.symm j)) (data := exSheetsData)
    (hourly := 4) (dMain := 1) (dRunUp := 0) (dRunUpBuild := 0)
    (by rw [show (3600 / ((4 : ℤ) : ℝ)) = 900 by norm_num]; exact exSheets_wellFormed fun j => p2 _) (fun _ => rfl) (fun _ => rfl)
    (fun _ _ => by simp [exSheetsData]) (by norm_num) (by norm_num) (by norm_num) (by norm_num) (by norm_num) (by norm_num)
  obtain ⟨r', hr', hn, hl⟩ := C83_order_partial (Equiv.refl (Fin 2)) exGrouped hr2
  simp only [Equiv.symm_apply_apply] at hr'
  have n1 : r.nMain = 96 := by obtain ⟨_, _, _, _, T⟩ := coreCalc_ok hr; rw [T.nMain_eq]; norm_num
  have n2 : r2.nMain = 96 := by obtain ⟨_, _, _, _, T⟩ := coreCalc_ok hr2; rw [T.nMain_eq]; norm_num
  refine ⟨r, r', hr, hr', n1, hn.trans n2, fun hk hk' => ?_⟩
  by_contra hcon
  push Not at hcon
  have hk2 : 0 < r2.nMain.toNat := by rw [n2]; norm_num
  have heq : ∀ j, (r2.log ⟨0, hk2⟩).qiall j = (r.log ⟨0, hk⟩).qiall j := by
    intro j
    have := hcon (exGrouped.symm j)
    rw [hl 0 hk2 hk'] at this
    simpa [rowInOrder] using this
  obtain ⟨v, hv, g1, g3⟩ := alternating_coefficients hs
  have hv' : IsRoomConst h'.area h'.room 1 v := isRoomConst_inOrder (Equiv.refl (Fin 2)) exGrouped exArea exRoom hv
  have q2 : getHr solve h'.area h'.room 2 = radiative (factor v (share exArea exRoom 1)) := by
    rw [C34_own_coefficient_partial solve h'.area h'.room hpos' hs' hm' 2 v hv']
    exact congrArg (fun x => radiative (factor v x)) (share_inOrder (Equiv.refl (Fin 2)) exGrouped exArea exRoom 2)
  have q3 : getHr solve h'.area h'.room 3 = radiative (factor v (share exArea exRoom 3)) := by
    rw [C34_own_coefficient_partial solve h'.area h'.room hpos' hs' hm' 3 v hv']
    exact congrArg (fun x => radiative (factor v x)) (share_inOrder (Equiv.refl (Fin 2)) exGrouped exArea exRoom 3)
  obtain ⟨θ, hθ⟩ := sheets_flux p1 hr
  obtain ⟨θ', hθ'⟩ := sheets_flux (fun j => p2 _) hr2
  obtain ⟨u1, u3⟩ := hθ hk
  obtain ⟨w1, w3⟩ := hθ' hk2
  rw [heq] at w1 w3
  have s1 : exGrouped.symm 1 = 2 := by decide
  have s3 : exGrouped.symm 3 = 3 := by decide
  rw [s1, s3] at w1 w3
  rw [g3, ← q3] at u1 u3
  exact sheets_differ (p1 1) (p2 2) (p2 3) (by rw [q2]; exact g1.ne') (u1.symm.trans w1) (u3.symm.trans w3)

/-- The hypotheses of `C83_program_partial` are met by two rooms whose parts stand together, in two orders. -/
example : ∃ (solve : List ℝ → ℝ) (h : House (Fin 2) (Fin 4)) (r : CalcResult (Fin 2) 4 96) (e : Fin 2 ≃ Fin 2) (f : Fin 4 ≃ Fin 4),
    (∀ j, 0 < h.area j) ∧ SolvesRooms solve h.area h.room ∧ SolvesRooms solve (houseInOrder e f h).area (houseInOrder e f h).room ∧
    Monotone h.room ∧ Monotone (houseInOrder e f h).room ∧ e ≠ Equiv.refl _ ∧ f ≠ Equiv.refl _ ∧
    program solve h (fun n => recordInOrder (Equiv.refl _) exGrouped (exSheetsData n)) 4 1 0 0 = .ok r := by
  obtain ⟨solve, hsol⟩ := exists_solver
  obtain ⟨h1, h2⟩ : (∀ j, 0 < (houseInOrder (Equiv.refl (Fin 2)) exGrouped exSheets).area j) ∧
      Monotone (houseInOrder (Equiv.refl (Fin 2)) exGrouped exSheets).room := by
    refine ⟨fun j => exArea_pos (exGrouped j), ?_⟩
    show Monotone fun j => exRoom (exGrouped j)
    decide
  have hs' := solvesRooms_of hsol (houseInOrder (Equiv.refl (Fin 2)) exGrouped exSheets).room h1
  have p2 : ∀ j, 0 < getHr solve (houseInOrder (Equiv.refl (Fin 2)) exGrouped exSheets).area
      (houseInOrder (Equiv.refl (Fin 2)) exGrouped exSheets).room j := fun j => by
    have := C33_coefficients solve _ _ h1 hs' j; linarith [this.1, this.2.1]
  obtain ⟨r2, hr2⟩ := C21_program_partial (h := exSheets) (hR := fun j => getHr solve (houseInOrder (Equiv.refl (Fin 2)) exGrouped exSheets).area
      (houseInOrder (Equiv.refl (Fin 2)) exGrouped exSheets).room (exGrouped.symm j)) (data := exSheetsData)
    (hourly := 4) (dMain := 1) (dRunUp := 0) (dRunUpBuild := 0)
    (by rw [show (3600 / ((4 : ℤ) : ℝ)) = 900 by norm_num]; exact exSheets_wellFormed fun j => p2 _) (fun _ => rfl) (fun _ => rfl)
    (fun _ _ => by simp [exSheetsData]) (by norm_num) (by norm_num) (by norm_num) (by norm_num) (by norm_num) (by norm_num)
  obtain ⟨r', hr', -, -⟩ := C83_order_partial (Equiv.refl (Fin 2)) exGrouped hr2
  simp only [Equiv.symm_apply_apply] at hr'
  refine ⟨solve, _, r', Equiv.swap 0 1, (Equiv.swap 0 2).trans (Equiv.swap 1 3), h1, hs', solvesRooms_of hsol _ (fun j => h1 _), h2, ?_, by decide,
    by decide, hr'⟩
  show Monotone fun j => (Equiv.swap (0 : Fin 2) 1).symm ((Equiv.refl (Fin 2)).symm (exRoom (exGrouped (((Equiv.swap 0 2).trans (Equiv.swap 1 3)) j))))
  decide

end HLC
