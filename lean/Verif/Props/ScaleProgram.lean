import Verif.Props.Scale
import Verif.Props.LoadLogged
import Verif.Props.Range

/-!
# C98: a whole calculation that is not to scale

A room behind a hot wall, cooled in its second quarter hour while steam is let in.
-/

set_option linter.unusedSectionVars false

namespace HLC
open Spec

/-- Votes in light clothing in hot rooms. -/
theorem hot_vote {p a mr : ℝ} (hp : 0 ≤ p) (ha : 34 ≤ a) (hmr : 34 ≤ mr) : 0.7 ≤ getHHumAndPmv p a mr 0.3 := by
  have hR0 := hHumR_pos
  have hC0 := hHumC_pos
  have hmax : max (0.42 * (getM - 58.15)) (0 : ℝ) = 0 := by unfold getM; norm_num
  have hot : 34 ≤ getThetaOt hHumR hHumC mr a := by
    unfold getThetaOt
    rw [le_div_iff₀ (by linarith)]
    nlinarith
  have hk := pmv_coef_bounds.1
  have key : getHHumAndPmv p a mr 0.3 = (0.303 * Real.exp (-0.036 * getM) + 0.028) *
      (getM - 3.05 * (10 : ℝ) ^ (-3 : ℤ) * (5733 - 6.99 * getM - p) - 1.7 * (10 : ℝ) ^ (-5 : ℤ) * getM * (5867 - p)
        - 0.0014 * getM * (34 - a) - cloFactor 0.3 (hHumR + hHumC) * (35.7 - 0.028 * getM - getThetaOt hHumR hHumC mr a)) := by
    unfold getHHumAndPmv getPmv cloFactor
    simp only [hmax]
    ring
  have c2 : 0 < cloFactor 0.3 (hHumR + hHumC) ∧ cloFactor 0.3 (hHumR + hHumC) ≤ 7 := by
    obtain ⟨h1, h2⟩ := hHum_bounds
    refine ⟨cloFactor_pos (by norm_num) (by linarith), ?_⟩
    generalize hHumR + hHumC = h at *
    unfold cloFactor
    rw [fcl_light]
    unfold getIcl
    have : (0 : ℝ) < 1 + 0.3 * 0.155 * 1.059985 * h := by nlinarith
    rw [div_le_iff₀ this]; nlinarith
  rw [key]
  generalize 0.303 * Real.exp (-0.036 * getM) + 0.028 = K at *
  generalize cloFactor 0.3 (hHumR + hHumC) = g at *
  generalize getThetaOt hHumR hHumC mr a = o at *
  unfold getM
  norm_num
  have d : g * (35.7 - 0.028 * 58.15 - o) ≤ 7 * 0.0719 := by
    have : 35.7 - 0.028 * 58.15 - o ≤ 0.0719 := by norm_num; linarith
    nlinarith
  norm_num at d
  nlinarith

/-- Votes in light clothing in cold, not too humid rooms. -/
theorem cold_vote {p a mr : ℝ} (hp : p ≤ 1300) (ha : a ≤ 15) (hmr : mr ≤ 15) : getHHumAndPmv p a mr 0.3 < 0 := by
  obtain ⟨h1, h2⟩ := hHum_bounds
  have hR0 := hHumR_pos
  have hC0 := hHumC_pos
  have hmax : max (0.42 * (getM - 58.15)) (0 : ℝ) = 0 := by unfold getM; norm_num
  have hot : getThetaOt hHumR hHumC mr a ≤ 15 := by
    unfold getThetaOt
    rw [div_le_iff₀ (by linarith)]
    nlinarith
  have hk := pmv_coef_pos
  have key : getHHumAndPmv p a mr 0.3 = (0.303 * Real.exp (-0.036 * getM) + 0.028) *
      (getM - 3.05 * (10 : ℝ) ^ (-3 : ℤ) * (5733 - 6.99 * getM - p) - 1.7 * (10 : ℝ) ^ (-5 : ℤ) * getM * (5867 - p)
        - 0.0014 * getM * (34 - a) - cloFactor 0.3 (hHumR + hHumC) * (35.7 - 0.028 * getM - getThetaOt hHumR hHumC mr a)) := by
    unfold getHHumAndPmv getPmv cloFactor
    simp only [hmax]
    ring
  have c2 : 5 ≤ cloFactor 0.3 (hHumR + hHumC) := by
    generalize hHumR + hHumC = h at *
    unfold cloFactor
    rw [fcl_light]
    unfold getIcl
    have : (0 : ℝ) < 1 + 0.3 * 0.155 * 1.059985 * h := by nlinarith
    rw [le_div_iff₀ this]; nlinarith
  rw [key]
  generalize 0.303 * Real.exp (-0.036 * getM) + 0.028 = K at *
  generalize cloFactor 0.3 (hHumR + hHumC) = g at *
  generalize getThetaOt hHumR hHumC mr a = o at *
  unfold getM
  norm_num
  have d2 : 5 * (35.7 - 0.028 * 58.15 - 15) ≤ g * (35.7 - 0.028 * 58.15 - o) := by nlinarith
  norm_num at d2
  apply mul_neg_of_pos_of_neg hk
  nlinarith

/-- Humidity of saturated air at 34 degC. -/
noncomputable def steamX : ℝ := getX (getPvs 34)

theorem steamX_pos : 0 < steamX := by
  have h3 := pvs_lt_atm (θ := 34) (by norm_num) (by norm_num)
  have h0 := C54_saturation_positive 34
  unfold steamX getX getF
  apply div_pos <;> linarith

/-- A wall of 100 degC; in the second quarter hour air-conditioning demand and steam. -/
noncomputable def exSteamData : Fin 96 → Record (Fin 1) (Fin 1) := fun k =>
  { thetaO := 45
    xO := if k = 1 then steamX else 0.004
    vLocal := fun _ => 0
    qGen := fun _ => 0
    xGen := fun _ => if k = 1 then 0.04 * steamX + 0.001 else 0
    nHum := fun _ => 0
    acDemand := fun _ => if k = 1 then 1 else 0
    qTrsSol := fun _ => 0
    thetaOSol := fun _ => 100 }

theorem exSteam_completes {hR : Fin 1 → ℝ} (hr : ∀ j, 0 < hR j) : ∃ r, coreCalc exCold hR exSteamData 4 1 0 0 = .ok r := by
  apply C21_program_partial
  · have := exCold_wellFormed_any hr
    norm_num at this ⊢
    exact this
  · exact fun _ => rfl
  · exact fun _ => rfl
  · intro k i; norm_num [exSteamData]
  all_goals norm_num

theorem exSteam_wall {hR : Fin 1 → ℝ} (hr : ∀ j, 0 < hR j) {ss : PreCalc (Fin 1) (Fin 1) 96} {n : ℤ} {c : Cond (Fin 1) (Fin 1)}
    {t : TickVars (Fin 1) (Fin 1)} {k : Fin 96} (Hp : makePreCalc exCold hR 900 exSteamData = .ok ss)
    (Ht : runTick n 900 ss c = .ok t) (hk : pyIndex 96 n = .ok k) : t.thetaS 0 = 100 := by
  obtain ⟨ivs, k', -, hs, -, e⟩ := step_eqs Hp Ht
  have hh : exCold.hI hR 0 ≠ 0 := by
    have := hr 0
    norm_num [exCold, House.hI]
    linarith
  have hw := C17_wall_equation_partial Hp Ht hk 0 hh (by simp [exCold])
  have h1 : ∀ m, t.dshA 0 m = 0 := by
    intro m; rw [e.dshA, hs]; simp [Tick.dshA, preCalcOf, exCold]
  have h2 : ∀ m, t.dshT 0 m = 0 := by
    intro m; rw [e.dshT, hs]; simp [Tick.dshT, preCalcOf, exCold]
  simp only [h1, h2] at hw
  rw [hw]
  simp [exCold, rearTemp, exSteamData]

/-- The state after the first quarter hour: hot, and no more humid than at the start. -/
theorem steam_first {hR : Fin 1 → ℝ} (hr : ∀ j, 0 < hR j) {ss : PreCalc (Fin 1) (Fin 1) 96} {c : Cond (Fin 1) (Fin 1)}
    {t0 : TickVars (Fin 1) (Fin 1)} (Hp : makePreCalc exCold hR 900 exSteamData = .ok ss) (Ht0 : runTick 0 900 ss c = .ok t0)
    (c1 : c.thetaR = fun _ => 15) (c4 : ∀ i, getPvR (c.xR i) = coldP) :
    45 ≤ t0.thetaR 0 ∧ 0 ≤ t0.xR 0 ∧ getPvR (t0.xR 0) ≤ 1300 ∧ t0.thetaMrt 0 = 100 ∧ t0.lc 0 = 0 ∧ (t0.ot 0).mode = .stopClose := by
  have hcap : ∀ i, 0 ≤ exCold.capH i ∧ 0 ≤ exCold.capC i := fun i => by norm_num [exCold]
  have hidx0 : pyIndex 96 0 = .ok (0 : Fin 96) := by rfl
  have hS0 := exSteam_wall hr Hp Ht0 hidx0
  obtain ⟨z1, z2, z3⟩ := step_no_demand Hp Ht0 hidx0 hcap (i := 0) (by simp [exSteamData])
  have hp0 := C37_logged Hp Ht0 hidx0 0
  have hq0 : t0.qHum 0 = 0 ∧ t0.xHum 0 = 0 := by
    have h1 := hp0.1
    have h2 := hp0.2
    norm_num [exSteamData, LogRow.ofTick] at h1 h2
    exact ⟨by linarith, by linarith⟩
  have hv : 0 ≤ t0.vOut 0 := by
    obtain ⟨ivs, k', -, hs, -, e⟩ := step_eqs Hp Ht0
    rw [hs] at e
    exact vOut_nonneg (exCold_wellFormed_any hr) (fun i => by norm_num [exSteamData]) e 0
  refine ⟨?_, ?_⟩
  · have h14 := C14_balance_as_coded Hp Ht0 hidx0 0 (by norm_num [exCold])
    rw [hq0.1, c1, z1, z2] at h14
    simp only [convection, exCold_surfaces, Finset.sum_singleton, hS0] at h14
    norm_num [exCold, exSteamData, airCap] at h14
    by_contra hlt
    push Not at hlt
    nlinarith [mul_nonneg hv (sub_nonneg.2 hlt.le)]
  have h18 := C18_balance_as_coded Hp Ht0 hidx0 0 (by norm_num [exCold])
  rw [hq0.2, z3] at h18
  norm_num [exCold, exSteamData] at h18
  have hc := c4 0
  have hpos : 0 < coldP := by
    have h1 := pvs20_le
    have h0 := C54_saturation_positive 20
    have hx : 0 < getX (getPvs 20 * 0.4) := by
      unfold getX getF
      exact div_pos (by positivity) (by linarith)
    unfold coldP getPvR getF
    positivity
  have hne : c.xR 0 + 0.62198 ≠ 0 := by
    intro h0
    unfold getPvR at hc
    rw [h0, div_zero] at hc
    exact hpos.ne hc
  have hce : 101325 * c.xR 0 = coldP * (c.xR 0 + 0.62198) := by
    unfold getPvR getF at hc
    rwa [div_eq_iff hne] at hc
  have hP := coldP_le
  have hxl : 0 ≤ c.xR 0 := by
    by_contra hlt
    push Not at hlt
    nlinarith
  have hxu : 100025 * c.xR 0 ≤ 808.574 := by nlinarith
  have hl : 0 ≤ t0.xR 0 := by
    by_contra hlt
    push Not at hlt
    nlinarith [mul_nonneg hv (neg_nonneg.2 hlt.le)]
  have hu : 100025 * t0.xR 0 ≤ 808.574 := by
    by_contra hlt
    push Not at hlt
    have : 0 ≤ t0.xR 0 - 0.004 := by linarith
    nlinarith [mul_nonneg hv this]
  refine ⟨hl, ?_, ?_, z1, ?_⟩
  · unfold getPvR getF
    rw [div_le_iff₀ (by linarith)]
    linarith
  · obtain ⟨ivs, k', -, hs, -, e⟩ := step_eqs Hp Ht0
    have hm : t0.thetaMrt 0 = ∑ j ∈ surfaces exCold 0, exCold.fMrtHum j * t0.thetaS j := by
      rw [e.thetaMrt, hs]; exact fMrtHum_mulVec exCold _ 0
    rw [hm, exCold_surfaces, Finset.sum_singleton, hS0]
    norm_num [exCold]
  · obtain ⟨ivs, k', -, hs, hk', e⟩ := step_eqs Hp Ht0
    have : k' = 0 := Except.ok.inj (hk'.symm.trans hidx0)
    subst this
    have := e.ot 0
    rw [hs] at this
    unfold getOtTargetAndHHum at this
    have hd' : ¬ ((preCalcOf exCold hR 900 exSteamData ivs).acDemand 0 0 > 0) := by simp [preCalcOf, exSteamData]
    simp only [getOperationMode, if_neg hd', bind, Except.bind] at this
    rw [← Except.ok.inj this]

theorem steam_dry {v x0 X x b xe : ℝ} (hv : 0 ≤ v) (h0 : 0 ≤ x0) (hb : 0 ≤ b)
    (h : 1.2 * (30 / 900 + v) * x + b * x = 1.2 * (30 / 900 * x0 + v * X) + (0.04 * X + 0.001) + b * xe) (h1 : x ≤ xe) (h2 : x ≤ X) :
    False := by
  have p1 := mul_nonneg hv (sub_nonneg.2 h2)
  have p2 := mul_nonneg hb (sub_nonneg.2 h1)
  linarith

/-- In the second quarter hour the room is cooled and dehumidified. -/
theorem steam_second {hR : Fin 1 → ℝ} (hr : ∀ j, 0 < hR j) {ss : PreCalc (Fin 1) (Fin 1) 96} {c : Cond (Fin 1) (Fin 1)}
    {t : TickVars (Fin 1) (Fin 1)} (Hp : makePreCalc exCold hR 900 exSteamData = .ok ss) (Ht : runTick 1 900 ss c = .ok t)
    (c1 : 45 ≤ c.thetaR 0) (c2 : 0 ≤ c.xR 0) (c3 : getPvR (c.xR 0) ≤ 1300) (c4 : c.thetaMrt 0 = 100) (c5 : c.mode 0 = .stopClose) :
    t.lc 0 < -0.001 ∧ t.lCl 0 < 0 := by
  have hcap : ∀ i, 0 ≤ exCold.capH i ∧ 0 ≤ exCold.capC i := fun i => by norm_num [exCold]
  have hidx : pyIndex 96 1 = .ok (1 : Fin 96) := by rfl
  have hS := exSteam_wall hr Hp Ht hidx
  have hset := step_target Hp Ht hidx hcap 0 (by simp [exSteamData])
  have h13 := C13_operative_temperature Hp Ht 0
  have h14 := C14_balance_as_coded Hp Ht hidx 0 (by norm_num [exCold])
  have hp1 := C37_logged Hp Ht hidx 0
  have hq1 : t.qHum 0 = 0 ∧ t.xHum 0 = 0 := by
    have h1 := hp1.1
    have h2 := hp1.2
    norm_num [exSteamData, LogRow.ofTick] at h1 h2
    exact ⟨by linarith, by linarith⟩
  obtain ⟨ivs, k', -, hs, hk', e⟩ := step_eqs Hp Ht
  have : k' = 1 := Except.ok.inj (hk'.symm.trans hidx)
  subst this
  subst hs
  have hv : 0 ≤ t.vOut 0 := vOut_nonneg (exCold_wellFormed_any hr) (fun i => by norm_num [exSteamData]) e 0
  have hpv : 0 ≤ getPvR (c.xR 0) := by unfold getPvR getF; positivity
  have hmode : (t.ot 0).mode = .cooling := by
    have := e.ot 0
    unfold getOtTargetAndHHum at this
    have hd' : (preCalcOf exCold hR 900 exSteamData ivs).acDemand 1 0 > 0 := by simp [preCalcOf, exSteamData]
    have hvote : getHHumAndPmv (getPvR (c.xR 0)) (c.thetaR 0) (c.thetaMrt 0) cloLight ≥ 0.7 :=
      hot_vote hpv (by linarith) (by rw [c4]; norm_num)
    simp only [getOperationMode, if_pos hd', bind, Except.bind, c5, if_pos hvote] at this
    rw [← Except.ok.inj this]
  obtain ⟨s1, s2⟩ := hset.2 hmode
  have htarget := ((C04_target_realises_pmv _ _ _ _ _ _ (e.ot 0)).2.1 hmode).1
  obtain ⟨w1, w2⟩ := ot_coefs (e.ot 0)
  rw [w1, w2, getPmv_vote (by norm_num), ← getHHumAndPmv_eq (by norm_num)] at htarget
  have hu : (t.ot 0).thetaUpper < 34 := by
    by_contra hle
    push Not at hle
    have := hot_vote hpv hle hle
    rw [htarget] at this
    norm_num at this
  have hlo : 15 < (t.ot 0).thetaUpper := by
    by_contra hle
    push Not at hle
    have := cold_vote c3 hle hle
    rw [htarget] at this
    norm_num at this
  rw [exCold_surfaces, Finset.sum_singleton, hS] at h13
  have hsum := add_pos hHumC_pos hHumR_pos
  have hR0 := hHumR_pos
  have hC0 := hHumC_pos
  have e1 : exCold.fMrtHum 0 * (100 : ℝ) = 100 := by norm_num [exCold]
  rw [e1] at h13
  have h13' : t.thetaOt 0 * (hHumC + hHumR) = hHumC * t.thetaR 0 + hHumR * 100 := by rw [h13, div_mul_cancel₀ _ hsum.ne']
  have hRoom : t.thetaR 0 < 34 := by
    by_contra hle
    push Not at hle
    have h1 : t.thetaOt 0 < 34 := lt_of_le_of_lt s1 hu
    nlinarith
  rw [hq1.1] at h14
  simp only [convection, exCold_surfaces, Finset.sum_singleton, hS] at h14
  norm_num [exCold, exSteamData, airCap] at h14
  have hlc : t.lc 0 < -0.001 := by
    norm_num
    nlinarith [mul_nonneg hv (sub_nonneg.2 hRoom.le)]
  have hq0 : 0 < -t.lc 0 := by norm_num at hlc; linarith
  have hOt := s2 (Or.inl (by linarith))
  have hcold : -100 < t.thetaR 0 := by
    have hb := hHum_bounds
    have e4 : hHumC = 4 := rfl
    rw [e4] at h13' hb
    have h1 : 15 < t.thetaOt 0 := by rw [hOt]; exact hlo
    nlinarith
  refine ⟨hlc, ?_⟩
  -- the humidity without the coil
  have hM : t.brmxNonDh 0 0 = 1.2 * (30 / 900 + t.vOut 0) := by
    rw [e.brmxNonDh]
    simp only [Tick.brmxNonDh, Matrix.add_apply, Matrix.smul_apply, Matrix.sub_apply, Matrix.diagonal_apply, smul_eq_mul]
    simp [preCalcOf, exCold, rhoAir]
  have hb : t.brxcNonDh 0 = 1.2 * (30 / 900 * c.xR 0 + t.vOut 0 * steamX) + (0.04 * steamX + 0.001) := by
    rw [e.brxcNonDh]
    simp only [Tick.brxcNonDh, hq1.2]
    simp [preCalcOf, exCold, exSteamData, rhoAir]
  have hN := congrFun e.xNonDh.2 0
  simp only [Matrix.mulVec, dotProduct, Fin.sum_univ_one, hM, hb] at hN
  have hX := steamX_pos
  have hgt : steamX < t.xNonDh 0 := by
    by_contra hle
    push Not at hle
    have := steam_dry (b := 0) (xe := steamX) hv c2 le_rfl (by simpa using hN) hle hle
    exact this
  -- the coil
  obtain ⟨d1, d2⟩ := coil_drop (s := exCold.rac 0) (by norm_num [exCold]) (by norm_num [exCold])
    (by unfold FanKeepsUp; norm_num [exCold]) hq0
  have hxe : getXeOut (-t.lc 0) (t.thetaR 0) (getVac (exCold.rac 0) (-t.lc 0)) ≤ steamX := by
    unfold getXeOut steamX
    generalize -t.lc 0 / (cAir * rhoAir * getVac (exCold.rac 0) (-t.lc 0) * (1 - bypass)) = d at *
    have h2 := C54_saturation_increasing (a := t.thetaR 0 - d) (b := 34) (by linarith) (by linarith)
    exact (C54_humidity_ratio (C54_saturation_positive _).le h2 (pvs_lt_atm (by norm_num) (by norm_num))).2.le
  have hvac := (getVac_pos (s := exCold.rac 0) (by norm_num [exCold]) (by norm_num [exCold]) (by norm_num [exCold]) hq0).2
  have hrac : t.rac 0 = getDehumidCoeff (t.lc 0) (t.thetaR 0) (exCold.rac 0) (t.xNonDh 0) := by rw [e.rac]; rfl
  have hw : 0 < (t.rac 0).brmx ∧ (t.rac 0).brxc = (t.rac 0).brmx * getXeOut (-t.lc 0) (t.thetaR 0) (getVac (exCold.rac 0) (-t.lc 0)) := by
    have hq : -t.lc 0 > 0.001 := by linarith
    have hle : ¬ getXeOut (-t.lc 0) (t.thetaR 0) (getVac (exCold.rac 0) (-t.lc 0)) > t.xNonDh 0 := by linarith
    rw [hrac]
    unfold getDehumidCoeff
    simp only [hq, decide_true, if_true, if_neg hle]
    refine ⟨?_, trivial⟩
    unfold rhoAir bypass
    positivity
  obtain ⟨w3, w4⟩ := hw
  have hx := congrFun e.xR.2 0
  simp only [Tick.brmx, Tick.brxc, Matrix.add_mulVec, Pi.add_apply, Matrix.mulVec_diagonal] at hx
  simp only [Matrix.mulVec, dotProduct, Fin.sum_univ_one, hM, hb, w4] at hx
  rw [e.lCl]
  simp only [Tick.lCl, Matrix.mulVec_diagonal, w4]
  generalize getXeOut (-t.lc 0) (t.thetaR 0) (getVac (exCold.rac 0) (-t.lc 0)) = xe at *
  have hxr : xe < t.xR 0 := by
    by_contra hle
    push Not at hle
    have h1 : t.xR 0 ≤ steamX := hle.trans hxe
    exact steam_dry hv c2 w3.le hx hle h1
  have : 0 < ((t.rac 0).brmx * t.xR 0 - (t.rac 0).brmx * xe) * lWtr := by
    rw [← mul_sub]
    exact mul_pos (mul_pos w3 (by linarith)) (by norm_num [lWtr])
  rw [neg_mul]
  exact neg_neg_of_pos this

/-- The first two steps of a calculation of one day without run-up, in a house without parts in contact with the ground. -/
theorem first_two {I : Type} [Fintype I] [DecidableEq I] {m : ℕ} {h : House I (Fin m)} {hR : Fin m → ℝ}
    {data : Fin 96 → Record I (Fin m)} {r : CalcResult I m 96} (H : coreCalc h hR data 4 1 0 0 = .ok r) (hg : ∀ j, h.isGround j = false) :
    ∃ t0 t1 : TickVars I (Fin m), makePreCalc h hR 900 data = .ok r.ss ∧ runTick 0 900 r.ss (initialConditions I (Fin m)) = .ok t0 ∧
      runTick 1 900 r.ss t0.next = .ok t1 ∧ r.nMain = 96 ∧ ∀ hk : 1 < r.nMain.toNat, r.log ⟨1, hk⟩ = LogRow.ofTick t1 := by
  obtain ⟨gs, c0, up, mn, T⟩ := coreCalc_ok H
  have hc := start_eq hg T
  have hup : up = [] := by
    have := T.runUp.length_eq
    rw [pyRange_length] at this
    exact List.length_eq_zero_iff.mp (by simpa using this)
  subst hc hup
  have hmain : Run r.ss (3600 / ((4 : ℤ) : ℝ)) (initialConditions I (Fin m)) (pyRange 0 (1 * 4 * 24)) mn := T.main
  have hcons : pyRange 0 (1 * 4 * 24) = 0 :: 1 :: pyRange 2 96 := by rfl
  have hdt : (3600 / ((4 : ℤ) : ℝ)) = 900 := by norm_num
  rw [hcons, hdt] at hmain
  have hp := T.pre
  rw [hdt] at hp
  generalize emn : mn = mn' at hmain
  cases hmain with
  | cons h1 h2 =>
    cases h2 with
    | cons h3 h4 =>
      refine ⟨_, _, hp, h1, h3, by rw [T.nMain_eq]; norm_num, fun hk => ?_⟩
      rw [T.logged ⟨1, hk⟩ (by rw [emn]; simp)]
      simp [emn]

theorem exCold_scaled_wellFormed {s : ℝ} (hs : 0 < s) {hR : Fin 1 → ℝ} (hr : ∀ j, 0 < hR j) : WellFormed (houseScaled s exCold) hR 900 where
  dt_pos := by norm_num
  vRoom_pos := by intro i; simp only [houseScaled, exCold]; positivity
  cSh_nonneg := by intro i; simp only [houseScaled, exCold]; positivity
  gSh_nonneg := by intro i; simp only [houseScaled, exCold]; positivity
  cLh_nonneg := by intro i; simp only [houseScaled, exCold]; positivity
  gLh_nonneg := by intro i; simp only [houseScaled, exCold]; positivity
  frtSh_pos := by intro i; simp only [houseScaled, exCold]; positivity
  frtLh_pos := by intro i; simp only [houseScaled, exCold]; positivity
  area_pos := by intro j; simp only [houseScaled, exCold]; positivity
  hC_pos := by intro j; norm_num [houseScaled, exCold]
  hR_pos := hr
  phiA0_nonneg := by intro j; norm_num [houseScaled, exCold]
  phiT0_mem := by intro j; norm_num [houseScaled, exCold]
  kEi_mem := by intro j m coef; simp [houseScaled, exCold]
  fMrtHum_nonneg := by intro j; norm_num [houseScaled, exCold]
  fMrtHum_sum := (exCold_wellFormed_any hr).fMrtHum_sum
  vInt_nonneg := by intro i l; simp [houseScaled, exCold]
  vInt_lt := by intro i; simp only [houseScaled, exCold]; simp; positivity
  vVentEx_nonneg := by intro i; simp only [houseScaled, exCold]; positivity
  vNtrl_nonneg := by intro i; simp only [houseScaled, exCold]; positivity
  capH_nonneg := by intro i; simp [houseScaled, exCold]
  capC_nonneg := by intro i; simp [houseScaled, exCold]
  story_mem := Or.inl rfl
  pressure_mem := Or.inl rfl
  rac_q := by intro i; simp only [houseScaled, exCold, racScaled]; nlinarith
  rac_v := by intro i; simp only [houseScaled, exCold, racScaled]; nlinarith [mul_pos hs hs]
  rac_fan := by intro i; simp only [houseScaled, exCold, racScaled]; nlinarith

/-- **C98 (violated), whole calculation.** There is a house of one room and a day of data, and a scale, such that both calculations
complete, the room is cooled in the second row of both with loads to scale, but its air is dehumidified in the calculation of the house
and not in that of the house to scale. -/
theorem C98_program_violated : ∃ (solve : List ℝ → ℝ) (h : House (Fin 1) (Fin 1)) (data : Fin 96 → Record (Fin 1) (Fin 1)) (s : ℝ)
    (r r' : CalcResult (Fin 1) 1 96), SolvesRooms solve h.area h.room ∧ WellFormed h (getHr solve h.area h.room) 900 ∧ 0 < s ∧
    program solve h data 4 1 0 0 = .ok r ∧
    program solve (houseScaled s h) (fun n => recordScaled s (data n)) 4 1 0 0 = .ok r' ∧
    ∃ (hk : 1 < r.nMain.toNat) (hk' : 1 < r'.nMain.toNat), (r.log ⟨1, hk⟩).lCs 0 < 0 ∧
      (r'.log ⟨1, hk'⟩).lCs 0 = s * (r.log ⟨1, hk⟩).lCs 0 ∧ (r.log ⟨1, hk⟩).lCl 0 < 0 ∧ (r'.log ⟨1, hk'⟩).lCl 0 = 0 := by
  obtain ⟨solve, hsol⟩ := exists_solver
  have hpos : ∀ j, 0 < exCold.area j := fun j => by norm_num [exCold]
  have hsr := solvesRooms_of hsol exCold.room hpos
  have hr : ∀ j, 0 < getHr solve exCold.area exCold.room j := fun j => by
    have := C33_coefficients solve _ _ hpos hsr j; linarith [this.1, this.2.1]
  have hcap : ∀ i, 0 ≤ exCold.capH i ∧ 0 ≤ exCold.capC i := fun i => by norm_num [exCold]
  obtain ⟨r, H⟩ := exSteam_completes hr
  obtain ⟨t0, t1, Hp, H0, H1, hn, hlog⟩ := first_two H (fun _ => rfl)
  obtain ⟨a1, a2, a3, a4, a5, a6⟩ := steam_first hr Hp H0 rfl (fun _ => rfl)
  obtain ⟨b1, b2⟩ := steam_second hr Hp H1 a1 a2 a3 a4 a6
  have hneg : 0 < -t1.lc 0 := by norm_num at b1; linarith
  obtain ⟨s, hs⟩ : ∃ s, s = 0.001 / -t1.lc 0 := ⟨_, rfl⟩
  have hs0 : 0 < s := by rw [hs]; positivity
  have hmul : s * -t1.lc 0 = 0.001 := by rw [hs]; exact div_mul_cancel₀ _ hneg.ne'
  obtain ⟨r', H'⟩ : ∃ r', coreCalc (houseScaled s exCold) (getHr solve exCold.area exCold.room)
      (fun n => recordScaled s (exSteamData n)) 4 1 0 0 = .ok r' := by
    apply C21_program_partial
    · have := exCold_scaled_wellFormed hs0 hr
      norm_num at this ⊢
      exact this
    · exact fun _ => rfl
    · exact fun _ => rfl
    · intro k i; norm_num [exSteamData, recordScaled]
    all_goals norm_num
  obtain ⟨t0', t1', Hp', H0', H1', hn', hlog'⟩ := first_two H' (fun _ => rfl)
  have hss : r'.ss = preScaled s r.ss := by
    rw [makePreCalc_scaled exCold _ hs0.ne', Hp] at Hp'
    exact (Except.ok.inj Hp').symm
  rw [hss] at H0' H1'
  have hcap' : ∀ i, 0 ≤ r.ss.capH i ∧ 0 ≤ r.ss.capC i := by
    obtain ⟨ivs, -, e⟩ := makePreCalc_ok Hp
    rw [e]
    exact hcap
  -- the first step is to scale
  have e0 : t0' = tickScaled s t0 := by
    have := runTick_scaled hs0 hcap' (fun i => by
      rw [Subsingleton.elim i 0, a5]; exact sameSide_of_nonneg hs0 le_rfl) H0
    exact Except.ok.inj (H0'.symm.trans this)
  rw [e0, next_scaled] at H1'
  -- the second is not
  obtain ⟨kk, hk, ht⟩ := runTick_ok H1
  have E := tickAt_ok ht
  have hrac : (fun _ => ⟨0, 0⟩ : Fin 1 → DehumCoef) = Tick.rac (preScaled s r.ss) (fun i => s * t1.lc i) t1.thetaR t1.xNonDh := by
    funext i
    have hsmall : ¬ 0.001 < -(s * t1.lc i) := by
      rw [Subsingleton.elim i 0, not_lt]; linarith
    simp only [Tick.rac, getDehumidCoeff, gt_iff_lt, hsmall, decide_false]
    simp
  have hx : (Tick.brmx (s • t1.brmxNonDh) fun _ => ⟨0, 0⟩).det ≠ 0 ∧
      (Tick.brmx (s • t1.brmxNonDh) fun _ => ⟨0, 0⟩).mulVec t1.xNonDh = Tick.brxc (fun i => s * t1.brxcNonDh i) fun _ => ⟨0, 0⟩ := by
    have e : (Tick.brmx (s • t1.brmxNonDh) fun _ => ⟨0, 0⟩) = s • t1.brmxNonDh := by simp [Tick.brmx]
    rw [e]
    refine ⟨?_, ?_⟩
    · rw [Matrix.det_smul]
      exact mul_ne_zero (pow_ne_zero _ hs0.ne') E.xNonDh.1
    · funext i
      rw [smul_mulVec_apply, E.xNonDh.2]
      simp [Tick.brxc]
  have E' := tickEqs_with hs0 hcap' E hrac hx
  have e1 : t1' = tickWith s t1 r.ss 900 t0.next (fun _ => ⟨0, 0⟩) t1.xNonDh := by
    have : runTick 1 900 (preScaled s r.ss) t0.next = .ok (tickWith s t1 r.ss 900 t0.next (fun _ => ⟨0, 0⟩) t1.xNonDh) := by
      unfold runTick
      rw [hk]
      exact tickAt_of_eqs E'
    exact Except.ok.inj (H1'.symm.trans this)
  refine ⟨solve, exCold, exSteamData, s, r, r', hsr, exCold_wellFormed_any hr, hs0, H, ?_, by rw [hn]; norm_num, by rw [hn']; norm_num, ?_⟩
  · unfold program
    rw [show getHr solve (houseScaled s exCold).area (houseScaled s exCold).room = getHr solve exCold.area exCold.room from
      getHr_scaled hs0.ne' solve exCold.area exCold.room]
    exact H'
  · rw [hlog, hlog', e1]
    refine ⟨by show t1.lc 0 < 0; linarith, rfl, b2, ?_⟩
    show Tick.lCl (fun _ => ⟨0, 0⟩) t1.xNonDh 0 = 0
    simp [Tick.lCl]

end HLC
