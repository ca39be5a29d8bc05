import Verif.Props.LoggedSteps
import Verif.Props.Humidify
import Verif.Props.RoomExchange

/-!
# A concrete calculation with a load: one cold room, one person, heated in the first step

Used as the concrete case beside the theorems about logged loads (C08, C09) and result tables (C79-C82).
-/

namespace HLC

set_option linter.unusedSectionVars false

open Spec

/-- One room with one external part. -/
noncomputable def exCold : House (Fin 1) (Fin 1) where
  vRoom := fun _ => 30
  beta := fun _ => 0
  vVentEx := fun _ => 0.01
  vInt := 0
  vNtrl := fun _ => 0.04
  cSh := fun _ => 1000
  gSh := fun _ => 0
  cLh := fun _ => 1000
  gLh := fun _ => 0
  isRadHeating := fun _ => false
  capH := fun _ => 0
  isRadCooling := fun _ => false
  capC := fun _ => 0
  rac := fun _ => ⟨500, 5000, 6, 11⟩
  isGround := fun _ => false
  room := fun _ => 0
  area := fun _ => 10
  phiA0 := fun _ => 0
  phiT0 := fun _ => 1
  phiA1 := fun _ _ => 0
  phiT1 := fun _ _ => 0
  ratio := fun _ _ => 0
  hC := fun _ => 2.5
  flr := fun _ => 0
  solarAbs := fun _ => true
  fMrtHum := fun _ => 1
  kEo := fun _ => 1
  kEi := fun _ => none
  story := 1
  cValue := 2
  pressure := "balanced"

/-- Radiative coefficient. -/
noncomputable def exColdHR : Fin 1 → ℝ := fun _ => 5

/-- One person and air-conditioning demand in the first quarter hour only; an equivalent outdoor temperature far below zero. -/
noncomputable def exColdData : Fin 96 → Record (Fin 1) (Fin 1) := fun k =>
  { thetaO := 15, xO := 0.004, vLocal := fun _ => 0, qGen := fun _ => 0, xGen := fun _ => 0, nHum := fun _ => if k = 0 then 1 else 0
    acDemand := fun _ => if k = 0 then 1 else 0, qTrsSol := fun _ => 0, thetaOSol := fun _ => -100 }

theorem exCold_surfaces (i : Fin 1) : surfaces exCold i = {0} := by
  ext j; simp only [surfaces, Finset.mem_filter, Finset.mem_univ, true_and, Finset.mem_singleton]
  constructor
  · intro _; exact Subsingleton.elim _ _
  · intro _; exact Subsingleton.elim _ _

theorem exCold_wellFormed_any {hR : Fin 1 → ℝ} (hr : ∀ j, 0 < hR j) : WellFormed exCold hR 900 where
  dt_pos := by norm_num
  vRoom_pos := by intro i; norm_num [exCold]
  cSh_nonneg := by intro i; norm_num [exCold]
  gSh_nonneg := by intro i; norm_num [exCold]
  cLh_nonneg := by intro i; norm_num [exCold]
  gLh_nonneg := by intro i; norm_num [exCold]
  frtSh_pos := by intro i; norm_num [exCold]
  frtLh_pos := by intro i; norm_num [exCold]
  area_pos := by intro j; norm_num [exCold]
  hC_pos := by intro j; norm_num [exCold]
  hR_pos := hr
  phiA0_nonneg := by intro j; norm_num [exCold]
  phiT0_mem := by intro j; norm_num [exCold]
  kEi_mem := by intro j m coef; simp [exCold]
  fMrtHum_nonneg := by intro j; norm_num [exCold]
  fMrtHum_sum := by intro i; rw [exCold_surfaces]; simp [exCold]
  vInt_nonneg := by intro i l; simp [exCold]
  vInt_lt := by intro i; norm_num [exCold]
  vVentEx_nonneg := by intro i; norm_num [exCold]
  vNtrl_nonneg := by intro i; norm_num [exCold]
  capH_nonneg := by intro i; norm_num [exCold]
  capC_nonneg := by intro i; norm_num [exCold]
  story_mem := Or.inl rfl
  pressure_mem := Or.inl rfl
  rac_q := by intro i; norm_num [exCold]
  rac_v := by intro i; norm_num [exCold]
  rac_fan := by intro i; norm_num [exCold]

theorem exCold_wellFormed : WellFormed exCold exColdHR 900 := exCold_wellFormed_any fun j => by norm_num [exColdHR]

theorem exCold_completes_any {hR : Fin 1 → ℝ} (hr : ∀ j, 0 < hR j) : ∃ r, coreCalc exCold hR exColdData 4 1 0 0 = .ok r := by
  apply C21_program_partial
  · have := exCold_wellFormed_any hr
    norm_num at this ⊢
    exact this
  · exact fun _ => rfl
  · exact fun _ => rfl
  · intro k i; norm_num [exColdData]
  all_goals norm_num

theorem exCold_completes : ∃ r, coreCalc exCold exColdHR exColdData 4 1 0 0 = .ok r :=
  exCold_completes_any fun j => by norm_num [exColdHR]

/-! ## The mode of the first step -/

theorem pvs20_le : getPvs 20 ≤ 3000 := by
  have hlog : Real.log (20 + 273.15) ≤ 5.7 := by
    have h2 : Real.log (20 + 273.15) ≤ Real.log (2 ^ 8 * 1.14512) := Real.log_le_log (by norm_num) (by norm_num)
    rw [Real.log_mul (by norm_num) (by norm_num), Real.log_pow] at h2
    have h3 : Real.log 1.14512 ≤ 1.14512 - 1 := Real.log_le_sub_one_of_pos (by norm_num)
    have h4 := Real.log_two_lt_d9
    push_cast at h2
    linarith
  have hE : pvsExpWater (20 + 273.15) ≤ 8 := by
    unfold pvsExpWater
    norm_num at hlog ⊢
    linarith
  unfold getPvs
  rw [if_pos (by norm_num)]
  have h1 : Real.exp (pvsExpWater (20 + 273.15)) ≤ Real.exp 8 := Real.exp_le_exp.2 hE
  have h2 : Real.exp 8 = Real.exp 1 ^ 8 := by rw [← Real.exp_nat_mul]; norm_num
  have h3 : Real.exp 1 ^ 8 ≤ 2.7182818286 ^ 8 := pow_le_pow_left₀ (Real.exp_pos 1).le Real.exp_one_lt_d9.le 8
  have h4 : (2.7182818286 : ℝ) ^ 8 ≤ 3000 := by norm_num
  linarith

/-- Vapour pressure of the initial state. -/
noncomputable def coldP : ℝ := getPvR (getX (getPvs 20 * 0.4))

theorem coldP_le : coldP ≤ 1300 := by
  have h1 := pvs20_le
  have h0 := C54_saturation_positive 20
  unfold coldP getPvR getX getF
  have hp0 : 0 < getPvs 20 * 0.4 := by positivity
  have hp1 : getPvs 20 * 0.4 ≤ 1200 := by linarith
  generalize getPvs 20 * 0.4 = p at *
  have hx : 0.622 * p / (101325 - p) ≤ 0.0075 := by
    rw [div_le_iff₀ (by linarith)]
    linarith
  have hx0 : 0 ≤ 0.622 * p / (101325 - p) := div_nonneg (by linarith) (by linarith)
  generalize 0.622 * p / (101325 - p) = x at *
  rw [div_le_iff₀ (by linarith)]
  linarith

theorem cold_pmv : getHHumAndPmv coldP 15 15 cloHeavy ≤ -0.7 ∧ getHHumAndPmv coldP 15 15 cloLight < 0.7 := by
  have hp := coldP_le
  obtain ⟨h1, h2⟩ := hHum_bounds
  have hmax : max (0.42 * (getM - 58.15)) (0 : ℝ) = 0 := by unfold getM; norm_num
  have hot : getThetaOt hHumR hHumC 15 15 = 15 := by
    have := add_pos hHumR_pos hHumC_pos
    unfold getThetaOt; rw [← add_mul]; field_simp
  have hk : 0.04 ≤ 0.303 * Real.exp (-0.036 * getM) + 0.028 := by
    have h3 : Real.exp (-3) ≤ Real.exp (-0.036 * getM) := Real.exp_le_exp.2 (by unfold getM; norm_num)
    have h4 : Real.exp 3 ≤ 21 := by
      have h5 : Real.exp 3 = Real.exp 1 ^ 3 := by rw [← Real.exp_nat_mul]; norm_num
      have h6 : Real.exp 1 ^ 3 ≤ 2.7182818286 ^ 3 := pow_le_pow_left₀ (Real.exp_pos 1).le Real.exp_one_lt_d9.le 3
      have h7 : (2.7182818286 : ℝ) ^ 3 ≤ 21 := by norm_num
      linarith
    have h8 : 1 / 21 ≤ Real.exp (-3) := by
      rw [Real.exp_neg, ← one_div]
      exact one_div_le_one_div_of_le (Real.exp_pos 3) h4
    linarith
  have key : ∀ clo, 0 ≤ clo → getHHumAndPmv coldP 15 15 clo = (0.303 * Real.exp (-0.036 * getM) + 0.028) *
      (getM - 3.05 * (10 : ℝ) ^ (-3 : ℤ) * (5733 - 6.99 * getM - coldP) - 1.7 * (10 : ℝ) ^ (-5 : ℤ) * getM * (5867 - coldP)
        - 0.0014 * getM * (34 - 15) - cloFactor clo (hHumR + hHumC) * (35.7 - 0.028 * getM - 15)) := by
    intro clo _
    unfold getHHumAndPmv getPmv cloFactor
    simp only [hmax, hot]
    ring
  have c1 : 3.3 ≤ cloFactor 1.1 (hHumR + hHumC) := by
    generalize hHumR + hHumC = h at *
    unfold cloFactor
    rw [fcl_heavy]
    unfold getIcl
    have : (0 : ℝ) < 1 + 1.1 * 0.155 * 1.1599725 * h := by nlinarith
    rw [le_div_iff₀ this]; nlinarith
  have c2 : 5 ≤ cloFactor 0.3 (hHumR + hHumC) := by
    generalize hHumR + hHumC = h at *
    unfold cloFactor
    rw [fcl_light]
    unfold getIcl
    have : (0 : ℝ) < 1 + 0.3 * 0.155 * 1.059985 * h := by nlinarith
    rw [le_div_iff₀ this]; nlinarith
  generalize 0.303 * Real.exp (-0.036 * getM) + 0.028 = K at *
  rw [key _ (by norm_num [cloHeavy]), key _ (by norm_num [cloLight])]
  simp only [cloHeavy, cloLight]
  generalize cloFactor 1.1 (hHumR + hHumC) = g1 at *
  generalize cloFactor 0.3 (hHumR + hHumC) = g2 at *
  generalize coldP = p at *
  unfold getM
  norm_num
  constructor
  · nlinarith
  · nlinarith

theorem maskAssign_none {α : Type} {m : ℕ} {mask : Fin m → Bool} {old new : Fin m → α} {vals : List α} (hg : ∀ j, mask j = false)
    (h : maskAssign mask old vals = .ok new) : new = old := by
  by_cases hl : vals.length = ((List.finRange m).filter mask).length
  · have hl' : vals.length = (Finset.univ.filter fun l => mask l = true).card := by
      rw [hl, show (List.finRange m).filter mask = [] from List.filter_eq_nil_iff.2 fun j _ => by simp [hg j],
        Finset.filter_eq_empty_iff.2 fun j _ => by simp [hg j]]
      rfl
    obtain ⟨new', h1, -, h3⟩ := maskAssign_exact mask old vals hl'
    have : new' = new := Except.ok.inj (h1.symm.trans h)
    subst this
    exact funext fun j => h3 j (hg j)
  · unfold maskAssign at h
    simp only [if_neg hl] at h
    split at h
    · rw [← Except.ok.inj h]
      funext j
      rw [hg j]; rfl
    · cases h

/-- The first step of a calculation of one day without run-up, in a house without parts in contact with the ground. -/
theorem first_step {I : Type} [Fintype I] [DecidableEq I] {m : ℕ} {h : House I (Fin m)} {hR : Fin m → ℝ}
    {data : Fin 96 → Record I (Fin m)} {r : CalcResult I m 96} (H : coreCalc h hR data 4 1 0 0 = .ok r) (hg : ∀ j, h.isGround j = false) :
    ∃ (c : Cond I (Fin m)) (t : TickVars I (Fin m)), makePreCalc h hR 900 data = .ok r.ss ∧
      runTick 0 900 r.ss c = .ok t ∧ (∀ hk : 0 < r.nMain.toNat, r.log ⟨0, hk⟩ = LogRow.ofTick t) ∧
      c.thetaR = (fun _ => 15) ∧ c.thetaMrt = (fun _ => 15) ∧ c.mode = (fun _ => .stopClose) ∧ (∀ i, getPvR (c.xR i) = coldP) ∧
      c.thetaFrt = (fun _ => 15) ∧ c.thetaEi = (fun _ => 15) ∧ c.qSrf = (fun _ => 0) ∧ c.dshA = (fun _ _ => 0) ∧ c.dshT = fun _ _ => 0 := by
  obtain ⟨gs, c0, up, mn, T⟩ := coreCalc_ok H
  have hup : up = [] := by
    have := T.runUp.length_eq
    rw [pyRange_length] at this
    exact List.length_eq_zero_iff.mp (by simpa using this)
  have hmain := T.main
  rw [hup] at hmain
  have hcons : pyRange 0 (1 * 4 * 24) = 0 :: pyRange 1 96 := by
    rw [show (1 * 4 * 24 : ℤ) = 96 by norm_num, ← pyRange_append (show (0 : ℤ) ≤ 1 by norm_num) (show (1 : ℤ) ≤ 96 by norm_num)]
    rfl
  rw [hcons] at hmain
  have hdt : (3600 / ((4 : ℤ) : ℝ)) = 900 := by norm_num
  generalize emn : mn = mn' at hmain
  have hst := T.start
  unfold updateByGround at hst
  simp only [bind, Except.bind] at hst
  split at hst
  · cases hst
  rename_i dshA hA
  split at hst
  · cases hst
  rename_i qSrf hQ
  have hst' := Except.ok.inj hst
  obtain ⟨ivs, -, hss⟩ := makePreCalc_ok T.pre
  have hg : ∀ j, r.ss.isGround j = false := by rw [hss]; exact hg
  have hA' := maskAssign_none hg hA
  have hQ' := maskAssign_none hg hQ
  cases hmain with
  | cons h1 h2 =>
    rename_i t ts
    have hp := T.pre
    rw [hdt] at h1 hp
    refine ⟨_, t, hp, h1, ?_, ?_, ?_, ?_, ?_, ?_, ?_, ?_, ?_, ?_⟩
    · intro hk
      have hlog := T.logged ⟨0, hk⟩ (by rw [emn]; simp)
      rw [hlog]; simp [emn]
    all_goals rw [after, ← hst']
    · rfl
    · rfl
    · rfl
    · intro i; rfl
    · rfl
    · rfl
    · exact hQ'
    · exact hA'
    · rfl

/-- The heating target for the humidity of the initial state is above 15 degC. -/
theorem cold_target {T : ℝ} (h : getPmv T 1.1 coldP (hHumC + hHumR) T = -0.5) : 15 < T := by
  by_contra hle
  push Not at hle
  obtain ⟨q1, -⟩ := cold_pmv
  have hC0 := hHumC_pos
  have hR0 := hHumR_pos
  have h1 : getHHumAndPmv coldP 15 15 cloHeavy = getPmv 15 1.1 coldP (hHumC + hHumR) 15 := by
    have : getThetaOt hHumR hHumC 15 15 = 15 := by
      have := add_pos hHumR_pos hHumC_pos
      unfold getThetaOt; rw [← add_mul]; field_simp
    unfold getHHumAndPmv
    rw [this, add_comm hHumR hHumC]
    rfl
  have h2 := getPmv_affine T 1.1 coldP (hHumC + hHumR) T 15 coldP 15
  rw [h, ← h1, sub_self, mul_zero, zero_add, ← add_mul] at h2
  have hK := pmv_coef_pos
  have hf := getFcl_pos (getIcl_nonneg (clo := 1.1) (by norm_num))
  have hi' := getIcl_nonneg (clo := 1.1) (by norm_num)
  have hm : getM = 58.15 := rfl
  have hg : 0 ≤ 0.0014 * getM + getFcl (getIcl 1.1) * (hHumC + hHumR) / (1 + getIcl 1.1 * getFcl (getIcl 1.1) * (hHumC + hHumR)) := by
    rw [hm]; positivity
  have := mul_nonneg hK.le (mul_nonneg hg (sub_nonneg.2 hle))
  linarith

variable {r : CalcResult (Fin 1) 1 96}

theorem cold_step_any {hR : Fin 1 → ℝ} (hr : ∀ j, 0 < hR j) (H : coreCalc exCold hR exColdData 4 1 0 0 = .ok r) (hk : 0 < r.nMain.toNat) :
    (r.log ⟨0, hk⟩).mode 0 = some .heating ∧ 1000 ≤ (r.log ⟨0, hk⟩).lCs 0 ∧ 0 < (r.log ⟨0, hk⟩).qiall 0 ∧
    (r.log ⟨0, hk⟩).qHum 0 = 99 ∧ 2501000 * (r.log ⟨0, hk⟩).xHum 0 = 20 := by
  have hh : exCold.hI hR 0 ≠ 0 := by
    have := hr 0
    norm_num [exCold, House.hI]
    linarith
  obtain ⟨c, t, Hp, Ht, el, c1, c2, c3, c4, c5, -⟩ := first_step H (fun _ => rfl)
  replace el := el hk
  have hidx : pyIndex 96 0 = .ok (0 : Fin 96) := by rfl
  obtain ⟨q1, q2⟩ := cold_pmv
  obtain ⟨ivs, k, hi, hs, hk', e⟩ := step_eqs Hp Ht
  have : k = 0 := Except.ok.inj (hk'.symm.trans hidx)
  subst this
  -- mode and target
  have hot := e.ot 0
  have hmode : (t.ot 0).mode = .heating := by
    rw [c1, c2, c3, hs] at hot
    unfold getOtTargetAndHHum at hot
    rw [c4 0] at hot
    have hd : (preCalcOf exCold hR 900 exColdData ivs).acDemand 0 0 = 1 := by simp [preCalcOf, exColdData]
    rw [hd] at hot
    simp only [getOperationMode, bind, Except.bind, if_neg (not_le.2 q2), ge_iff_le, if_pos q1, gt_iff_lt, zero_lt_one, if_true] at hot
    rw [← Except.ok.inj hot]
  obtain ⟨w1, w2⟩ := ot_coefs hot
  have htarget := ((C04_target_realises_pmv _ _ _ _ _ _ hot).1 hmode).1
  rw [w1, w2, c4 0] at htarget
  have h15 : 15 < (t.ot 0).thetaLower := cold_target htarget
  -- temperatures
  have hcap : ∀ i, 0 ≤ exCold.capH i ∧ 0 ≤ exCold.capC i := fun i => by norm_num [exCold]
  have hset := ((step_target Hp Ht hidx hcap 0 (by simp [exColdData])).1 hmode).1
  have hS : t.thetaS 0 = -100 := by
    have hw := C17_wall_equation_partial Hp Ht hidx 0 hh (by simp [exCold])
    have h1 : ∀ m, t.dshA 0 m = 0 := by
      intro m; rw [e.dshA, hs]; simp [Tick.dshA, preCalcOf, exCold]
    have h2 : ∀ m, t.dshT 0 m = 0 := by
      intro m; rw [e.dshT, hs]; simp [Tick.dshT, preCalcOf, exCold]
    simp only [h1, h2] at hw
    rw [hw]
    simp [exCold, rearTemp, exColdData]
  have h13 := C13_operative_temperature Hp Ht 0
  rw [exCold_surfaces, Finset.sum_singleton, hS] at h13
  have hsum := add_pos hHumC_pos hHumR_pos
  have hR0 := hHumR_pos
  have hC0 := hHumC_pos
  have hRoom : 15 < t.thetaR 0 := by
    rw [h13, le_div_iff₀ hsum] at hset
    simp only [exCold, one_mul] at hset
    nlinarith
  have hpeople := C37_logged Hp Ht hidx 0
  rw [c1] at hpeople
  have hq : t.qHum 0 = 99 := by
    have := hpeople.2
    norm_num [exColdData, LogRow.ofTick] at this
    exact this
  have hvo : 0 ≤ t.vOut 0 := by
    rw [hs] at e
    exact vOut_nonneg (exCold_wellFormed_any hr) (fun i => by norm_num [exColdData]) e 0
  have h14 := C14_balance_as_coded Hp Ht hidx 0 (by norm_num [exCold])
  rw [hq, c1] at h14
  simp only [convection, exCold_surfaces, Finset.sum_singleton, hS] at h14
  have h16 := C16_surface_flux Hp Ht hidx 0 hh
  have hlr : exCold.flr 0 = 0 := rfl
  have hmrt : roomMrt exCold hR (exCold.room 0) t.thetaS = t.thetaS 0 := by
    have hz : exCold.room 0 = 0 := rfl
    rw [hz]
    unfold roomMrt
    rw [exCold_surfaces]
    have := (hr 0).ne'
    simp [exCold, this]
  rw [hmrt, sub_self, mul_zero, hlr] at h16
  rw [el]
  refine ⟨?_, ?_, ?_, ?_, ?_⟩
  · show some (t.ot 0).mode = _
    rw [hmode]
  · show 1000 ≤ t.lc 0
    norm_num [exCold, exColdData, airCap] at h14
    nlinarith [mul_nonneg hvo (sub_nonneg.2 hRoom.le)]
  · show 0 < t.qSrf 0
    rw [h16, hS]
    have hz : exCold.room 0 = 0 := rfl
    have hqs : exCold.qSol (exColdData 0) 0 = 0 := by simp [House.qSol, exColdData]
    rw [hz, hqs]
    norm_num [exCold]
    linarith
  · exact hq
  · have h1 := hpeople.1
    have : (LogRow.ofTick t).qHum 0 = 99 := hq
    rw [this] at h1
    norm_num [exColdData] at h1
    linarith

theorem cold_step (H : coreCalc exCold exColdHR exColdData 4 1 0 0 = .ok r) (hk : 0 < r.nMain.toNat) :
    (r.log ⟨0, hk⟩).mode 0 = some .heating ∧ 1000 ≤ (r.log ⟨0, hk⟩).lCs 0 ∧ 0 < (r.log ⟨0, hk⟩).qiall 0 ∧
    (r.log ⟨0, hk⟩).qHum 0 = 99 ∧ 2501000 * (r.log ⟨0, hk⟩).xHum 0 = 20 := cold_step_any (fun j => by norm_num [exColdHR]) H hk

end HLC
