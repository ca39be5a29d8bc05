import Verif.Props.Moisture
import Verif.Props.Comfort

/-!
# C20: the coil can humidify a room (counterexample)

Two equal rooms, both convectively cooled at full demand, air flowing from room 0 to room 1. The decision to switch the coil off
compares the outlet humidity with the humidity without dehumidification in *any* room; when the coil of room 0 dries the air that
flows into room 1, the coil of room 1 blows air more humid than the room.
-/

namespace HLC

set_option linter.unusedSectionVars false

open Spec

/-- Two equal rooms with one light outer surface each; air flows from room 0 to room 1. The fan flow is proportional to the load. -/
noncomputable def exHot : House (Fin 2) (Fin 2) where
  vRoom := fun _ => 30
  beta := fun _ => 0
  vVentEx := fun _ => 0.01
  vInt := !![0, 0; 0.01, 0]
  vNtrl := fun _ => 0.04
  cSh := fun _ => 1000
  gSh := fun _ => 0
  cLh := fun _ => 1000
  gLh := fun _ => 0
  isRadHeating := fun _ => false
  capH := fun _ => 0
  isRadCooling := fun _ => false
  capC := fun _ => 0
  rac := fun _ => ⟨500, 5000, 1.1, 11⟩
  isGround := fun _ => false
  room := id
  area := fun _ => 10
  phiA0 := fun _ => 0
  phiT0 := fun _ => 1
  phiA1 := fun _ _ => 0
  phiT1 := fun _ _ => 0
  ratio := fun _ _ => 0
  hC := fun _ => 2.5
  flr := fun _ => 0
  solarAbs := fun _ => true
  fMrtHum := fun _ => 1
  kEo := fun _ => 1
  kEi := fun _ => none
  story := 1
  cValue := 2
  pressure := "balanced"

/-- Radiative coefficients. -/
noncomputable def exHotHR : Fin 2 → ℝ := fun _ => 5

/-- A hot dry day at 45 degC with moisture generation `g` in the rooms. -/
noncomputable def exHotData (g : Fin 2 → ℝ) : Fin 1 → Record (Fin 2) (Fin 2) := fun _ =>
  { thetaO := 45, xO := 0, vLocal := fun _ => 0, qGen := fun _ => 0, xGen := g, nHum := fun _ => 0, acDemand := fun _ => 1
    qTrsSol := fun _ => 0, thetaOSol := fun _ => 45 }

/-- The house as hot as the outdoor air, cooling. -/
noncomputable def exHotCond : Cond (Fin 2) (Fin 2) where
  mode := fun _ => .cooling
  thetaR := fun _ => 45
  thetaMrt := fun _ => 45
  xR := fun _ => 0
  dshA := fun _ _ => 0
  dshT := fun _ _ => 0
  qSrf := fun _ => 0
  thetaFrt := fun _ => 45
  xFrt := fun _ => 0
  thetaEi := fun _ => 45

theorem exHot_surfaces (i : Fin 2) : surfaces exHot i = {i} := by
  ext j; simp only [surfaces, Finset.mem_filter, Finset.mem_univ, true_and, Finset.mem_singleton]; rfl

theorem exHot_wellFormed : WellFormed exHot exHotHR 900 where
  dt_pos := by norm_num
  vRoom_pos := by intro i; norm_num [exHot]
  cSh_nonneg := by intro i; norm_num [exHot]
  gSh_nonneg := by intro i; norm_num [exHot]
  cLh_nonneg := by intro i; norm_num [exHot]
  gLh_nonneg := by intro i; norm_num [exHot]
  frtSh_pos := by intro i; norm_num [exHot]
  frtLh_pos := by intro i; norm_num [exHot]
  area_pos := by intro j; norm_num [exHot]
  hC_pos := by intro j; norm_num [exHot]
  hR_pos := by intro j; norm_num [exHotHR]
  phiA0_nonneg := by intro j; norm_num [exHot]
  phiT0_mem := by intro j; norm_num [exHot]
  kEi_mem := by intro j m coef; simp [exHot]
  fMrtHum_nonneg := by intro j; norm_num [exHot]
  fMrtHum_sum := by intro i; rw [exHot_surfaces]; simp [exHot]
  vInt_nonneg := by intro i l; fin_cases i <;> fin_cases l <;> norm_num [exHot]
  vInt_lt := by intro i; simp only [Fin.sum_univ_two]; fin_cases i <;> norm_num [exHot]
  vVentEx_nonneg := by intro i; norm_num [exHot]
  vNtrl_nonneg := by intro i; norm_num [exHot]
  capH_nonneg := by intro i; norm_num [exHot]
  capC_nonneg := by intro i; norm_num [exHot]
  story_mem := Or.inl rfl
  pressure_mem := Or.inl rfl
  rac_q := by intro i; norm_num [exHot]
  rac_v := by intro i; norm_num [exHot]
  rac_fan := by intro i; norm_num [exHot]

/-- The cooling target in dry air. -/
noncomputable def hotU : ℝ := getThetaOtTargetOfMode 0 (hHumC + hHumR) .cooling

theorem pmv_coef_bounds : 0.028 < 0.303 * Real.exp (-0.036 * getM) + 0.028 ∧ 0.303 * Real.exp (-0.036 * getM) + 0.028 ≤ 0.331 := by
  have h1 := Real.exp_pos (-0.036 * getM)
  have h2 : Real.exp (-0.036 * getM) ≤ 1 := Real.exp_le_one_iff.mpr (by unfold getM; norm_num)
  constructor <;> linarith

theorem hotU_bounds : 20 ≤ hotU ∧ hotU ≤ 36 := by
  obtain ⟨k1, k2⟩ := pmv_coef_bounds
  obtain ⟨h1, h2⟩ := hHum_bounds
  have hk : 0 < 0.303 * Real.exp (-0.036 * getM) + 0.028 := by linarith
  have q2 : 0.5 / (0.303 * Real.exp (-0.036 * getM) + 0.028) ≤ 18 := by
    rw [div_le_iff₀ hk]; linarith
  have q1 : 0 ≤ 0.5 / (0.303 * Real.exp (-0.036 * getM) + 0.028) := by positivity
  have hmax : max (0.42 * (getM - 58.15)) (0 : ℝ) = 0 := by unfold getM; norm_num
  have e : hotU = (0.5 / (0.303 * Real.exp (-0.036 * getM) + 0.028) - getM
        + 3.05 * (10 : ℝ) ^ (-3 : ℤ) * (5733 - 6.99 * getM - 0)
        + 1.7 * (10 : ℝ) ^ (-5 : ℤ) * getM * (5867 - 0)
        + 0.0014 * getM * 34 + cloFactor 0.3 (hHumR + hHumC) * (35.7 - 0.028 * getM)) /
      (0.0014 * getM + cloFactor 0.3 (hHumR + hHumC)) := by
    simp only [hotU, getThetaOtTargetOfMode, getClo, getPmvTarget, cloLight]
    rw [add_comm hHumC hHumR]
    unfold getThetaOtTarget cloFactor
    simp only [hmax]
    ring
  have c1 : 5 ≤ cloFactor 0.3 (hHumR + hHumC) ∧ cloFactor 0.3 (hHumR + hHumC) ≤ 7 := by
    generalize hHumR + hHumC = h at *
    unfold cloFactor
    rw [fcl_light]
    unfold getIcl
    have : (0 : ℝ) < 1 + 0.3 * 0.155 * 1.059985 * h := by nlinarith
    constructor
    · rw [le_div_iff₀ this]; nlinarith
    · rw [div_le_iff₀ this]; nlinarith
  rw [e]
  generalize cloFactor 0.3 (hHumR + hHumC) = g at *
  generalize 0.5 / (0.303 * Real.exp (-0.036 * getM) + 0.028) = q at *
  unfold getM
  norm_num
  have hpos : (0 : ℝ) < 8141 / 100000 + g := by linarith [c1.1]
  constructor
  · rw [le_div_iff₀ hpos]; nlinarith
  · rw [div_le_iff₀ hpos]; nlinarith

/-- Room temperature at which the occupant feels the target although the surfaces stay at 45 degC. -/
noncomputable def hotT : ℝ := hotU - hHumR / hHumC * (45 - hotU)

theorem hotT_bounds : -10 ≤ hotT ∧ hotT ≤ 36 := by
  obtain ⟨h1, h2⟩ := hotU_bounds
  obtain ⟨h3, h4⟩ := hHum_bounds
  have e : hHumC = 4 := rfl
  rw [e] at h3 h4
  unfold hotT
  rw [e]
  constructor <;> nlinarith

/-- Humidity of the air leaving either coil. -/
noncomputable def hotX : ℝ := getX (getPvs (hotT - 60 / (1206 * 0.0022 * 0.8)))

theorem hotX_pos : 0 < hotX := by
  obtain ⟨h1, h2⟩ := hotT_bounds
  have h3 := pvs_lt_atm (θ := hotT - 60 / (1206 * 0.0022 * 0.8)) (by norm_num; linarith) (by norm_num; linarith)
  have h0 := C54_saturation_positive (hotT - 60 / (1206 * 0.0022 * 0.8))
  unfold hotX getX getF
  apply div_pos <;> linarith

/-- Both coils deliver the same air whatever their load. -/
theorem hot_xe {q : ℝ} (hq : 0 < q) (i : Fin 2) : getXeOut q hotT (getVac (exHot.rac i) q) = hotX := by
  unfold getXeOut hotX
  congr 3
  simp only [getVac, exHot, cAir, rhoAir, bypass]
  have hne := hq.ne'
  have e : (1.1 + (11 - 1.1) / (5000 - 500) * (q - 500)) / 60 = 0.0022 * q / 60 := by ring
  rw [e, div_eq_div_iff (by positivity) (by norm_num)]
  ring

variable {g : Fin 2 → ℝ} {ss : PreCalc (Fin 2) (Fin 2) 1} {t : TickVars (Fin 2) (Fin 2)}

theorem hot_surface (Hp : makePreCalc exHot exHotHR 900 (exHotData g) = .ok ss) (H : runTick 0 900 ss exHotCond = .ok t)
    (j : Fin 2) : t.thetaS j = 45 := by
  obtain ⟨ivs, k, hi, hs, hk, e⟩ := step_eqs Hp H
  have hw := C17_wall_equation_partial Hp H hk j (by norm_num [exHot, exHotHR]) (by simp [exHot])
  have h1 : ∀ m, t.dshA j m = 0 := by
    intro m; rw [e.dshA, hs]; simp [Tick.dshA, preCalcOf, exHot]
  have h2 : ∀ m, t.dshT j m = 0 := by
    intro m; rw [e.dshT, hs]; simp [Tick.dshT, preCalcOf, exHot]
  simp only [h1, h2] at hw
  rw [hw]
  simp [exHot, rearTemp, exHotData]

theorem hot_ot (Hp : makePreCalc exHot exHotHR 900 (exHotData g) = .ok ss) (H : runTick 0 900 ss exHotCond = .ok t) (i : Fin 2) :
    (t.ot i).mode = .cooling ∧ (t.ot i).thetaUpper = hotU := by
  obtain ⟨ivs, k, hi, hs, hk, e⟩ := step_eqs Hp H
  have h : getOtTargetAndHHum 45 45 0 .cooling 1 = .ok (t.ot i) := by have := e.ot i; rw [hs] at this; exact this
  have hp : getPvR 0 = 0 := by unfold getPvR; simp
  have hm : getHHumAndPmv 0 45 45 cloLight ≥ -0.7 := by
    have hg := cloFactor_pos (clo := 0.3) (by norm_num) (add_pos hHumR_pos hHumC_pos)
    have hk := pmv_coef_pos
    have hmax : max (0.42 * (getM - 58.15)) (0 : ℝ) = 0 := by unfold getM; norm_num
    have hot : getThetaOt hHumR hHumC 45 45 = 45 := by
      have := add_pos hHumR_pos hHumC_pos
      unfold getThetaOt; rw [← add_mul]; field_simp
    have h0 : 0 < getHHumAndPmv 0 45 45 cloLight := by
      unfold getHHumAndPmv getPmv
      simp only [hmax, hot, cloLight]
      apply mul_pos hk
      have e : getFcl (getIcl 0.3) * (hHumR + hHumC) * (35.7 - 0.028 * getM - 45) /
          (1 + getIcl 0.3 * getFcl (getIcl 0.3) * (hHumR + hHumC)) =
          cloFactor 0.3 (hHumR + hHumC) * (35.7 - 0.028 * getM - 45) := by unfold cloFactor; ring
      rw [e]
      generalize cloFactor 0.3 (hHumR + hHumC) = z at *
      unfold getM
      norm_num
      nlinarith
    linarith
  unfold getOtTargetAndHHum at h
  rw [hp] at h
  simp only [getOperationMode, bind, Except.bind, if_pos hm, gt_iff_lt, one_pos, if_true] at h
  have h' := Except.ok.inj h
  rw [← h']
  exact ⟨rfl, rfl⟩

theorem hot_vOut (Hp : makePreCalc exHot exHotHR 900 (exHotData g) = .ok ss) (H : runTick 0 900 ss exHotCond = .ok t) (i : Fin 2) :
    t.vOut i = 0.01 := by
  have hm := (hot_ot Hp H i).1
  obtain ⟨ivs, k, hi, hs, hk, e⟩ := step_eqs Hp H
  have hl := e.vLeak
  rw [hs] at hl
  have hl' : getInfiltration 2 (fun _ : Fin 2 => (30 : ℝ)) 1 "balanced" (fun _ => 45) 45 = .ok t.vLeak := hl
  have hz : t.vLeak i = 0 := by
    unfold getInfiltration at hl'
    simp [volumeAverage, infiltrationA, infiltrationB, bind, Except.bind] at hl'
    norm_num at hl'
    rw [← hl']
  rw [e.vOut]
  have hn : t.vNtrl i = 0 := by rw [e.vNtrl]; simp [Tick.vNtrl, hm]
  simp only [Tick.vOut, hz, hn, hs]
  simp [preCalcOf, House.vMec, exHot, exHotData]

theorem hot_wsr {hR : Fin 2 → ℝ} {data : Fin 1 → Record (Fin 2) (Fin 2)} {ivs : Matrix (Fin 2) (Fin 2) ℝ} (v : Fin 2 → ℝ) :
    (preCalcOf exHot hR 900 data ivs).wsr.mulVec v = 0 ∧ (preCalcOf exHot hR 900 data ivs).wsb.mulVec v = 0 := by
  constructor
  · have e : (preCalcOf exHot hR 900 data ivs).wsr = ivs * exHot.fia hR := rfl
    have z : (exHot.fia hR).mulVec v = 0 := by
      funext j; rw [fia_mulVec, kEi_mulVec]; simp [exHot]
    rw [e, ← Matrix.mulVec_mulVec, z, Matrix.mulVec_zero]
  · have e : (preCalcOf exHot hR 900 data ivs).wsb = ivs * exHot.flb hR := rfl
    have z : (exHot.flb hR).mulVec v = 0 := by
      funext j; rw [flb_mulVec, kEi_mulVec]; simp [exHot]
    rw [e, ← Matrix.mulVec_mulVec, z, Matrix.mulVec_zero]

theorem hot_temperature (Hp : makePreCalc exHot exHotHR 900 (exHotData g) = .ok ss)
    (H : runTick 0 900 ss exHotCond = .ok t) (i : Fin 2) : t.thetaR i = hotT := by
  have hmode := hot_ot Hp H
  have hvo := hot_vOut Hp H
  have hS := hot_surface Hp H
  have h13 := C13_operative_temperature Hp H i
  obtain ⟨ivs, k, hi, hs, hk, e⟩ := step_eqs Hp H
  subst hs
  obtain ⟨nat, p1, -, hnat, -, -⟩ := calc_passes e.load
  have hcoef := fun i => ot_coefs (e.ot i)
  -- surface temperatures without the loads are 45 degC as well
  have hw : ∀ j, (preCalcOf exHot exHotHR 900 (exHotData g) ivs).wsc k j + t.wsv j = 45 := by
    intro j
    have := hS j
    rw [e.thetaS] at this
    simp only [Tick.thetaS, (hot_wsr _).1, (hot_wsr _).2] at this
    simpa using this
  -- natural room temperatures
  let θ : Fin 2 → ℝ := t.xot.mulVec nat - t.xc
  have hθ : t.brm.mulVec θ = t.brc := by
    have h1 : t.brmOt.mulVec nat = t.brcOt := hnat
    rw [e.brmOt, e.brcOt] at h1
    simp only [Tick.brmOt, ← Matrix.mulVec_mulVec] at h1
    show t.brm.mulVec (t.xot.mulVec nat - t.xc) = t.brc
    rw [Matrix.mulVec_sub, h1]
    funext i; simp [Tick.brcOt]
  have hn : ∀ i, nat i = (hHumC * θ i + hHumR * 45) / (hHumC + hHumR) := by
    intro i
    have h1 : θ = t.xot.mulVec (fun i => nat i - Tick.kr t.ot i * 45) := by
      show t.xot.mulVec nat - t.xc = _
      rw [e.xc]
      have : (fun i => nat i - Tick.kr t.ot i * 45) = nat - fun i => Tick.kr t.ot i *
          (preCalcOf exHot exHotHR 900 (exHotData g) ivs).fMrtHum.mulVec
            (fun j => (preCalcOf exHot exHotHR 900 (exHotData g) ivs).wsc k j + t.wsv j) i := by
        funext i
        simp only [Pi.sub_apply, hw]
        have : (preCalcOf exHot exHotHR 900 (exHotData g) ivs).fMrtHum.mulVec (fun _ => (45 : ℝ)) i = 45 := by
          have := fMrtHum_mulVec exHot (fun _ => (45 : ℝ)) i
          rw [exHot_surfaces, Finset.sum_singleton] at this
          exact this.trans (by norm_num [exHot])
        rw [this]
      rw [this, Matrix.mulVec_sub]
      rfl
    have h2 := mulVec_npInv e.xot (fun i => nat i - Tick.kr t.ot i * 45)
    rw [← h1] at h2
    have h3 := congrFun h2 i
    simp only [Tick.otMat, Matrix.add_mulVec, Pi.add_apply, Matrix.mulVec_diagonal, rowScale_mulVec, ← Matrix.mulVec_mulVec,
      (hot_wsr θ).1, Matrix.mulVec_zero, Pi.zero_apply, mul_zero, add_zero] at h3
    simp only [Tick.kc, Tick.kr, (hcoef i).1, (hcoef i).2] at h3
    have := add_pos hHumR_pos hHumC_pos
    rw [eq_div_iff (by linarith)]
    have hne : hHumC + hHumR ≠ 0 := by linarith
    field_simp at h3
    linarith
  have hbrm : ∀ i l, t.brm i l = (if i = l then 77.26 else 0) + 1206 * exHot.vInt i l := by
    intro i l
    have z : ∀ j, (ivs * exHot.fia exHotHR) j l = 0 := by
      intro j
      have := congrFun (hot_wsr (hR := exHotHR) (data := exHotData g) (ivs := ivs) (Pi.single l 1)).1 j
      rw [Matrix.mulVec_single_one] at this
      exact this
    rw [e.brm, brm_apply, hvo, exHot_surfaces]
    simp only [z, mul_zero, Finset.sum_const_zero, sub_zero, Finset.sum_singleton]
    congr 1
    · congr 1
      norm_num [exHot, House.cRm, cAir, rhoAir]
    · norm_num [cAir, rhoAir]
  have hbrc : ∀ i, t.brc i = 77.26 * 45 := by
    intro i
    have hq : t.qHum i = 0 := by
      rw [e.qHum]; simp [Tick.qHum, preCalcOf, exHotData]
    have hp : (preCalcOf exHot exHotHR 900 (exHotData g) ivs).p.mulVec (fun j => (preCalcOf exHot exHotHR 900 (exHotData g) ivs).hC j
        * (preCalcOf exHot exHotHR 900 (exHotData g) ivs).aSrf j
        * ((preCalcOf exHot exHotHR 900 (exHotData g) ivs).wsc k j + t.wsv j)) i = 25 * 45 := by
      simp only [hw]
      have := p_mulVec exHot (fun j => exHot.hC j * exHot.area j * 45) i
      rw [exHot_surfaces, Finset.sum_singleton] at this
      calc _ = exHot.hC i * exHot.area i * 45 := this
        _ = 25 * 45 := by norm_num [exHot]
    rw [e.brc]
    simp only [Tick.brc, hp, hvo, hq]
    simp only [preCalcOf, exHot, House.cRm, exHotData, exHotCond, House.qSolFrt, cAir, rhoAir]
    norm_num
  obtain ⟨u1, u2⟩ := hotU_bounds
  have t0 : θ 0 = 45 := by
    have := congrFun hθ 0
    rw [hbrc] at this
    simp only [Matrix.mulVec, dotProduct, Fin.sum_univ_two, hbrm] at this
    norm_num [exHot] at this
    linarith
  have t1 : θ 1 = 45 - 12.06 * 45 / 77.26 := by
    have := congrFun hθ 1
    rw [hbrc] at this
    simp only [Matrix.mulVec, dotProduct, Fin.sum_univ_two, hbrm, t0] at this
    norm_num [exHot] at this ⊢
    linarith
  have hgt : ∀ i, 37 ≤ θ i := by
    intro i
    fin_cases i
    · show 37 ≤ θ 0
      rw [t0]; norm_num
    · show 37 ≤ θ 1
      rw [t1]; norm_num
  have hc := add_pos hHumR_pos hHumC_pos
  have hR0 := hHumR_pos
  have hC0 := hHumC_pos
  have hcool : hotU < nat i := by
    rw [hn i, lt_div_iff₀ (by linarith)]
    nlinarith [hgt i]
  have hset := (C09_full_demand _ _ e.load nat hnat i rfl).2 ⟨(hmode i).1, by
    show (t.ot i).thetaUpper < nat i
    rw [(hmode i).2]; exact hcool⟩
  have hset' : t.thetaOt i = hotU := by
    rw [← (hmode i).2]; exact hset
  rw [hset', exHot_surfaces, Finset.sum_singleton, hS] at h13
  have e1 : exHot.fMrtHum i = 1 := rfl
  rw [e1, eq_div_iff (by linarith)] at h13
  unfold hotT
  have e2 : hHumR / hHumC * (45 - hotU) * hHumC = hHumR * (45 - hotU) := by
    field_simp
  apply mul_right_cancel₀ hC0.ne'
  linarith

theorem hot_load (Hp : makePreCalc exHot exHotHR 900 (exHotData g) = .ok ss)
    (H : runTick 0 900 ss exHotCond = .ok t) (i : Fin 2) : t.lc i < -0.001 := by
  have hT := hot_temperature Hp H
  have hvo := hot_vOut Hp H
  have hS := hot_surface Hp H
  obtain ⟨k, hk⟩ := runTick_index H
  have h14 := C14_balance_as_coded Hp H hk i (by norm_num [exHot])
  have hq : t.qHum i = 0 := by
    obtain ⟨ivs, k, hi, hs, hk, e⟩ := step_eqs Hp H
    rw [e.qHum, hs]; simp [Tick.qHum, preCalcOf, exHotData]
  have hlr : t.lc i + exHot.beta i * t.lr i = t.lc i := by simp [exHot]
  obtain ⟨h1, h2⟩ := hotT_bounds
  rw [hT, hvo, hq] at h14
  simp only [convection, exHot_surfaces, Finset.sum_singleton, hS, Fin.sum_univ_two, hT] at h14
  fin_cases i
  · norm_num [exHot, exHotData, exHotCond, airCap] at h14 ⊢
    linarith
  · norm_num [exHot, exHotData, exHotCond, airCap] at h14 ⊢
    linarith

/-- Moisture generation that would leave room 0 at twice and room 1 at exactly the humidity of the air leaving the coils. -/
noncomputable def hotGen : Fin 2 → ℝ := ![1.2 * (30 / 900 + 0.01) * (2 * hotX), 1.2 * ((30 / 900 + 0.01) * hotX - 0.01 * (2 * hotX))]

/-- **C20 (violated).** There is a well-formed house, admissible data and a step that completes in which both rooms are convectively
cooled and the air conditioner of room 1 humidifies it: its latent load is positive. -/
theorem C20_violated : WellFormed exHot exHotHR 900 ∧ (∀ i, FanKeepsUp (exHot.rac i)) ∧ (∀ k, MoistRecord (exHotData hotGen k)) ∧
    ∃ ss t, makePreCalc exHot exHotHR 900 (exHotData hotGen) = .ok ss ∧ runTick 0 900 ss exHotCond = .ok t ∧
      (∀ i, t.lc i < -0.001) ∧ 0 < t.lCl 1 := by
  have hX := hotX_pos
  refine ⟨exHot_wellFormed, fun i => by unfold FanKeepsUp; norm_num [exHot], fun k => ?_, ?_⟩
  · refine ⟨by norm_num [exHotData], fun i => ?_, fun i => by norm_num [exHotData], fun i => by norm_num [exHotData]⟩
    fin_cases i
    · simp [exHotData, hotGen]; positivity
    · simp only [exHotData, hotGen, Fin.mk_one, Matrix.cons_val_one, Matrix.cons_val_fin_one]
      norm_num; linarith
  obtain ⟨ss, t, Hp, H⟩ := C21_step_completes_partial (c := exHotCond) (data := exHotData hotGen) (n := 0) exHot_wellFormed
    (fun _ => rfl) (fun _ => rfl) (fun k i => by norm_num [exHotData]) (fun i => by simp [exHotCond]) (by norm_num)
  have hl := hot_load Hp H
  have hT := hot_temperature Hp H
  have hvo := hot_vOut Hp H
  refine ⟨ss, t, Hp, H, hl, ?_⟩
  obtain ⟨ivs, k, hi, hs, hk, e⟩ := step_eqs Hp H
  subst hs
  have hM : ∀ i l, t.brmxNonDh i l = 1.2 * ((if i = l then 30 / 900 + 0.01 else 0) - exHot.vInt i l) := by
    intro i l
    rw [e.brmxNonDh]
    simp only [Tick.brmxNonDh, hvo, Matrix.add_apply, Matrix.smul_apply, Matrix.sub_apply, Matrix.diagonal_apply, smul_eq_mul]
    have z : ∀ i, (preCalcOf exHot exHotHR 900 (exHotData hotGen) ivs).gLh i = 0 := fun i => rfl
    have z1 : ∀ i, (preCalcOf exHot exHotHR 900 (exHotData hotGen) ivs).vRoom i = 30 := fun i => rfl
    simp only [z, z1, mul_zero, zero_div, rhoAir, ite_self, add_zero]
    rfl
  have hb : ∀ i, t.brxcNonDh i = hotGen i := by
    intro i
    rw [e.brxcNonDh]
    have hx : t.xHum i = 0 := by rw [e.xHum]; simp [Tick.xHum, preCalcOf, exHotData]
    simp [Tick.brxcNonDh, hx, exHotCond, preCalcOf, exHotData]
  have s0 := congrFun e.xNonDh.2 0
  have s1 := congrFun e.xNonDh.2 1
  simp only [Matrix.mulVec, dotProduct, Fin.sum_univ_two, hM, hb] at s0 s1
  norm_num [exHot, hotGen] at s0 s1
  have n0 : t.xNonDh 0 = 2 * hotX := by linarith
  have n1 : t.xNonDh 1 = hotX := by linarith
  -- both coils work
  have hr : ∀ i, 0 < (t.rac i).brmx ∧ (t.rac i).brxc = (t.rac i).brmx * hotX := by
    intro i
    have hq : -t.lc i > 0.001 := by linarith [hl i]
    have hq0 : 0 < -t.lc i := by norm_num at hq; linarith
    have hle : ¬ hotX > t.xNonDh i := by
      fin_cases i
      · show ¬ hotX > t.xNonDh 0
        rw [n0]; linarith
      · show ¬ hotX > t.xNonDh 1
        rw [n1]; linarith
    have hv := (getVac_pos (s := exHot.rac i) (by norm_num [exHot]) (by norm_num [exHot]) (by norm_num [exHot]) hq0).2
    have hrac : t.rac i = getDehumidCoeff (t.lc i) hotT (exHot.rac i) (t.xNonDh i) := by rw [e.rac, ← hT i]; rfl
    rw [hrac]
    unfold getDehumidCoeff
    simp only [hq, decide_true, if_true, hot_xe hq0, if_neg hle]
    refine ⟨?_, trivial⟩
    unfold rhoAir bypass
    have : (0 : ℝ) < 1.2 * (getVac (exHot.rac i) (-t.lc i) * (1 - 0.2)) := by
      apply mul_pos (by norm_num) (mul_pos hv (by norm_num))
    exact this
  have r0 := congrFun e.xR.2 0
  have r1 := congrFun e.xR.2 1
  simp only [Tick.brmx, Tick.brxc, Matrix.add_mulVec, Pi.add_apply, Matrix.mulVec_diagonal, (hr _).2] at r0 r1
  simp only [Matrix.mulVec, dotProduct, Fin.sum_univ_two, hM, hb] at r0 r1
  norm_num [exHot, hotGen] at r0 r1
  have b0 := (hr 0).1
  have b1 := (hr 1).1
  rw [e.lCl]
  simp only [Tick.lCl, Matrix.mulVec_diagonal, (hr 1).2]
  generalize (t.rac 0).brmx = B0 at *
  generalize (t.rac 1).brmx = B1 at *
  have x0 : t.xR 0 < 2 * hotX := by
    by_contra hge
    push Not at hge
    nlinarith [mul_pos b0 hX, mul_le_mul_of_nonneg_left hge b0.le]
  have x1 : t.xR 1 < hotX := by
    by_contra hge
    push Not at hge
    nlinarith [mul_le_mul_of_nonneg_left hge b1.le]
  have : -(B1 * t.xR 1 - B1 * hotX) * lWtr = B1 * (hotX - t.xR 1) * lWtr := by ring
  rw [this]
  exact mul_pos (mul_pos b1 (by linarith)) lWtr_pos

end HLC
