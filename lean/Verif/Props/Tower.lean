import Verif.Props.Duplex
import Verif.Props.RadiantRooms

/-!
# C21 fails for a floor-heated room above an air-conditioned one

One room with a radiative system is enough for the calculation to stop, when the room on the other side of a light partition is
conditioned as well.
-/

namespace HLC

set_option linter.unusedSectionVars false

open Spec

section rest

variable {I J : Type} [Fintype I] [Fintype J] [DecidableEq I] [DecidableEq J] {N : ℕ}

/-- A house at rest without air between rooms would stay as it is without heating. -/
theorem rest_natural {h : House I J} {hR : J → ℝ} {dt T : ℝ} (hw : WellFormed h hR dt) (hst : SteadyWalls h) (hint : h.vInt = 0)
    (hone : ∀ i, ∑ j ∈ surfaces h i, h.fMrtHum j = 1)
    {data : Fin N → Record I J} {k : Fin N} (hq : Calm T (data k)) {ivs : Matrix J J ℝ} (hi : npInv (h.ax hR) = .ok ivs)
    {c : Cond I J} {t : TickVars I J} (hr : AtRest h T c) (e : TickEqs (preCalcOf h hR dt data ivs) dt k c t) :
    t.brmOt.mulVec (fun _ => T) = t.brcOt := by
  have hsum := add_pos hHumC_pos hHumR_pos
  have h1 : (Tick.otMat (preCalcOf h hR dt data ivs) t.ot).mulVec (fun _ => T)
      = (fun _ => T) - fun i => Tick.kr t.ot i * (preCalcOf h hR dt data ivs).fMrtHum.mulVec
          (fun j => (preCalcOf h hR dt data ivs).wsc k j + t.wsv j) i := by
    funext i
    obtain ⟨w1, w2⟩ := ot_coefs (e.ot i)
    simp only [Tick.otMat, Matrix.add_mulVec, Pi.add_apply, Matrix.mulVec_diagonal, rowScale_mulVec, Pi.sub_apply]
    rw [← Matrix.mulVec_mulVec]
    have h4 : (preCalcOf h hR dt data ivs).wsr.mulVec (fun _ => T)
        = (fun _ => T) - fun j => (preCalcOf h hR dt data ivs).wsc k j + t.wsv j := by
      funext j
      have h3 : (preCalcOf h hR dt data ivs).wsr.mulVec (fun _ => T) j
        + (preCalcOf h hR dt data ivs).wsc k j + t.wsv j = T := rest_surfaces hw hst hr hq hi e j
      simp only [Pi.sub_apply]
      linarith
    rw [h4, Matrix.mulVec_sub, Pi.sub_apply]
    have h2 : (preCalcOf h hR dt data ivs).fMrtHum.mulVec (fun _ => T) i = T := by
      refine (fMrtHum_mulVec h _ i).trans ?_
      rw [← Finset.sum_mul, hone, one_mul]
    rw [h2]
    have h5 : Tick.kc t.ot i + Tick.kr t.ot i = 1 := by
      unfold Tick.kc Tick.kr
      rw [w1, w2, ← add_div, div_self hsum.ne']
    linear_combination T * h5
  have h6 : t.xot.mulVec (fun _ => T) = (fun _ => T) + t.xc := by
    have := congrArg t.xot.mulVec h1
    rw [npInv_mulVec e.xot, Matrix.mulVec_sub] at this
    have hxc : t.xc = t.xot.mulVec fun i => Tick.kr t.ot i * (preCalcOf h hR dt data ivs).fMrtHum.mulVec
          (fun j => (preCalcOf h hR dt data ivs).wsc k j + t.wsv j) i := e.xc
    rw [← hxc] at this
    rw [eq_sub_iff_add_eq.1 this]
  have h7 : t.brm.mulVec (fun _ => T) = t.brc := by
    funext i
    rw [rest_rooms hw hst hr hq hi e i]
    simp [hint]
  rw [e.brmOt, e.brcOt, Tick.brmOt, ← Matrix.mulVec_mulVec, h6, Matrix.mulVec_add, h7]
  rfl

end rest

/-- Room 0 with a heated floor above room 1 with an air conditioner. They share the ceiling of room 1 (1 m2) and a wall (40 m2), both
boards of 0.01 m2K/W, 0.1 m2K/W including the given resistance of the far side. -/
noncomputable def exTower : House (Fin 2) (Fin 4) where
  vRoom := ![8130344926915468996200477613019 / 378077773609870771009329072459, 30]
  beta := fun _ => 0
  vVentEx := fun _ => 0.01
  vInt := 0
  vNtrl := fun _ => 0.04
  cSh := fun _ => 1000
  gSh := fun _ => 10
  cLh := fun _ => 1000
  gLh := fun _ => 1
  isRadHeating := ![true, false]
  capH := fun _ => 1000
  isRadCooling := fun _ => false
  capC := fun _ => 0
  rac := fun _ => ⟨500, 5000, 6, 11⟩
  isGround := fun _ => false
  room := ![0, 0, 1, 1]
  area := ![1, 40, 1, 40]
  phiA0 := fun _ => 1 / 10
  phiT0 := fun _ => 1
  phiA1 := fun _ _ => 0
  phiT1 := fun _ _ => 0
  ratio := fun _ _ => 0
  hC := fun _ => 5 / 2
  flr := ![1, 0, 0, 0]
  solarAbs := fun _ => true
  fMrtHum := ![9 / 20, 11 / 20, 11 / 20, 9 / 20]
  kEo := fun _ => 0
  kEi := ![some (2, 1), some (3, 1), some (0, 1), some (1, 1)]
  story := 1
  cValue := 2
  pressure := "balanced"

/-- Radiative coefficients. -/
noncomputable def exTowerHR : Fin 4 → ℝ := fun _ => 5

/-- A day at 15 degC, demand for air conditioning in both rooms. -/
noncomputable def exTowerData : Fin 96 → Record (Fin 2) (Fin 4) := fun _ =>
  { thetaO := 15, xO := 0.004, vLocal := fun _ => 0, qGen := fun _ => 0, xGen := fun _ => 0, nHum := fun _ => 0
    acDemand := fun _ => 1, qTrsSol := fun _ => 0, thetaOSol := fun _ => 15 }

theorem exTower_surfaces : surfaces exTower 0 = {0, 1} ∧ surfaces exTower 1 = {2, 3} := by
  constructor <;> (simp only [surfaces, exTower]; decide)

theorem exTower_weights (i : Fin 2) : ∑ j ∈ surfaces exTower i, exTower.fMrtHum j = 1 := by
  obtain ⟨s0, s1⟩ := exTower_surfaces
  fin_cases i
  · show ∑ j ∈ surfaces exTower 0, exTower.fMrtHum j = 1
    rw [s0, Finset.sum_pair (by decide)]
    simp [exTower]
    norm_num
  · show ∑ j ∈ surfaces exTower 1, exTower.fMrtHum j = 1
    rw [s1, Finset.sum_pair (by decide)]
    simp [exTower]
    norm_num

theorem exTower_wellFormed : WellFormed exTower exTowerHR 900 where
  dt_pos := by norm_num
  vRoom_pos := by intro i; fin_cases i <;> norm_num [exTower]
  cSh_nonneg := by intro i; norm_num [exTower]
  gSh_nonneg := by intro i; norm_num [exTower]
  cLh_nonneg := by intro i; norm_num [exTower]
  gLh_nonneg := by intro i; norm_num [exTower]
  frtSh_pos := by intro i; norm_num [exTower]
  frtLh_pos := by intro i; norm_num [exTower]
  area_pos := by intro j; fin_cases j <;> norm_num [exTower]
  hC_pos := by intro j; norm_num [exTower]
  hR_pos := by intro j; norm_num [exTowerHR]
  phiA0_nonneg := by intro j; norm_num [exTower]
  phiT0_mem := by intro j; norm_num [exTower]
  kEi_mem := by
    intro j m coef e
    have : coef = 1 := by
      fin_cases j <;>
      · simp [exTower] at e
        exact e.2.symm
    rw [this]; norm_num
  fMrtHum_nonneg := by intro j; fin_cases j <;> norm_num [exTower]
  fMrtHum_sum := fun i => (exTower_weights i).le
  vInt_nonneg := by intro i l; simp [exTower]
  vInt_lt := by intro i; fin_cases i <;> norm_num [exTower]
  vVentEx_nonneg := by intro i; norm_num [exTower]
  vNtrl_nonneg := by intro i; norm_num [exTower]
  capH_nonneg := by intro i; norm_num [exTower]
  capC_nonneg := by intro i; norm_num [exTower]
  story_mem := Or.inl rfl
  pressure_mem := Or.inl rfl
  rac_q := by intro i; norm_num [exTower]
  rac_v := by intro i; norm_num [exTower]
  rac_fan := by intro i; norm_num [exTower]

theorem exTower_radiant : RadiantWellFormed exTower where
  beta_mem := by intro i; norm_num [exTower]
  flr_nonneg := by intro j; fin_cases j <;> norm_num [exTower]

theorem exTower_reaches : RadiantReaches exTower 0 :=
  .inr ⟨by norm_num [exTower], 0, by rw [exTower_surfaces.1]; simp, by norm_num [exTower], by norm_num [exTower]⟩

theorem exTower_steady : SteadyWalls exTower where
  ratio_ne := by intro j m; norm_num [exTower]
  transmission := by intro j; norm_num [exTower]
  weights := by intro j; fin_cases j <;> norm_num [exTower, Matrix.cons_val]

/-- Response of the surfaces to the air temperatures. -/
noncomputable def towerW : Matrix (Fin 4) (Fin 2) ℝ := !![11 / 23, 12 / 23; 11 / 23, 12 / 23; 12 / 23, 11 / 23; 12 / 23, 11 / 23]

/-- Response of the surfaces to the heat of the floor. -/
noncomputable def towerB : Matrix (Fin 4) (Fin 2) ℝ := !![1994 / 33005, 0; 108 / 33005, 0; 7864 / 99015, 0; 64 / 19803, 0]

theorem tower_ax : exTower.ax exTowerHR = !![285 / 164, -20 / 41, -2 / 123, -80 / 123; -1 / 82, 207 / 164, -2 / 123, -80 / 123;
    -2 / 123, -80 / 123, 285 / 164, -20 / 41; -2 / 123, -80 / 123, -1 / 82, 207 / 164] := by
  ext i j
  fin_cases i <;> fin_cases j <;>
    simp [House.ax, House.p, House.fMrt, House.kEiMat, House.hI, Matrix.mul_apply, Fin.sum_univ_four, exTower, exTowerHR,
      Matrix.cons_val] <;> norm_num

theorem tower_fia : exTower.fia exTowerHR = !![1 / 4, 1 / 3; 1 / 4, 1 / 3; 1 / 3, 1 / 4; 1 / 3, 1 / 4] := by
  ext i j
  fin_cases i <;> fin_cases j <;>
    simp [House.fia, House.p, House.kEiMat, House.hI, Matrix.mul_apply, Fin.sum_univ_four, exTower, exTowerHR,
      Matrix.cons_val] <;> norm_num

theorem tower_flb : exTower.flb exTowerHR = !![1 / 10, 0; 0, 0; 2 / 15, 0; 0, 0] := by
  ext i j
  fin_cases i <;> fin_cases j <;>
    simp [House.flb, House.flrBeta, House.flrMat, House.p, House.kEiMat, House.hI, Matrix.mul_apply, Fin.sum_univ_four,
      exTower, exTowerHR, Matrix.cons_val]
  norm_num

theorem tower_wsr {ivs : Matrix (Fin 4) (Fin 4) ℝ} (hi : npInv (exTower.ax exTowerHR) = .ok ivs) : ivs * exTower.fia exTowerHR = towerW := by
  have h : exTower.ax exTowerHR * towerW = exTower.fia exTowerHR := by
    rw [tower_ax, tower_fia]
    ext i j
    fin_cases i <;> fin_cases j <;> simp [towerW, Matrix.mul_apply, Fin.sum_univ_four] <;> norm_num
  rw [← h, ← Matrix.mul_assoc, npInv_mul hi, Matrix.one_mul]

theorem tower_wsb {ivs : Matrix (Fin 4) (Fin 4) ℝ} (hi : npInv (exTower.ax exTowerHR) = .ok ivs) : ivs * exTower.flb exTowerHR = towerB := by
  have h : exTower.ax exTowerHR * towerB = exTower.flb exTowerHR := by
    rw [tower_ax, tower_flb]
    ext i j
    fin_cases i <;> fin_cases j <;> simp [towerB, Matrix.mul_apply, Fin.sum_univ_four] <;> norm_num
  rw [← h, ← Matrix.mul_assoc, npInv_mul hi, Matrix.one_mul]

/-- Share of radiation in the heat exchange of an occupant. -/
theorem tower_kr {a b x d : ℝ} {m : OpMode} {ot : Fin 2 → OtTarget} {i : Fin 2} (H : getOtTargetAndHHum a b x m d = .ok (ot i)) :
    Tick.kr ot i = 19952387794053 / 39952387794053 ∧ Tick.kc ot i = 20000000000000 / 39952387794053 := by
  obtain ⟨w1, w2⟩ := ot_coefs H
  simp only [Tick.kr, Tick.kc, w1, w2]
  norm_num [hHumC, hHumR]

/-- How much cooler the air must be for the same operative temperature, per watt of floor heat. -/
theorem tower_xlr {ivs : Matrix (Fin 4) (Fin 4) ℝ} (hi : npInv (exTower.ax exTowerHR) = .ok ivs)
    {c : Cond (Fin 2) (Fin 4)} {t : TickVars (Fin 2) (Fin 4)} (e : TickEqs (preCalcOf exTower exTowerHR 900 exTowerData ivs) 900 0 c t) :
    t.xlr 0 0 = 62072470294157887777651041747 / 6153333497744665701160241616850 ∧
      t.xlr 1 0 = 3314157412913121042775588224 / 123066669954893314023204832337 := by
  have hk := fun i => tower_kr (e.ot i)
  have hwsr : (preCalcOf exTower exTowerHR 900 exTowerData ivs).wsr = towerW := tower_wsr hi
  have hwsb : (preCalcOf exTower exTowerHR 900 exTowerData ivs).wsb = towerB := tower_wsb hi
  have hf : (preCalcOf exTower exTowerHR 900 exTowerData ivs).fMrtHum = !![9 / 20, 11 / 20, 0, 0; 0, 0, 11 / 20, 9 / 20] := by
    ext i j
    fin_cases i <;> fin_cases j <;> simp [preCalcOf, House.fMrtHumMat, House.p, exTower]
  set ξ : Fin 2 → ℝ := ![62072470294157887777651041747 / 6153333497744665701160241616850,
    3314157412913121042775588224 / 123066669954893314023204832337] with hξ
  have hot : (Tick.otMat (preCalcOf exTower exTowerHR 900 exTowerData ivs) t.ot).mulVec ξ
      = fun i => Tick.kr t.ot i * ((preCalcOf exTower exTowerHR 900 exTowerData ivs).fMrtHum
        * (preCalcOf exTower exTowerHR 900 exTowerData ivs).wsb) i 0 := by
    funext i
    simp only [Tick.otMat, Matrix.add_mulVec, Pi.add_apply, Matrix.mulVec_diagonal, rowScale_mulVec]
    rw [(hk i).1, (hk i).2, hwsr, hwsb, hf]
    simp only [Matrix.mulVec, dotProduct, Matrix.mul_apply, Fin.sum_univ_four, Fin.sum_univ_two, hξ]
    fin_cases i <;> simp [towerW, towerB] <;> norm_num
  have hx : ∀ i, t.xlr i 0 = ξ i := by
    intro i
    have h1 : t.xlr i 0 = t.xot.mulVec (fun i => Tick.kr t.ot i * ((preCalcOf exTower exTowerHR 900 exTowerData ivs).fMrtHum
        * (preCalcOf exTower exTowerHR 900 exTowerData ivs).wsb) i 0) i := by
      rw [e.xlr]; rfl
    rw [h1, ← hot, npInv_mulVec e.xot]
  exact ⟨hx 0, hx 1⟩

/-- The heat of the floor has no effect on the operative temperature of the heated room. -/
theorem tower_zero {ivs : Matrix (Fin 4) (Fin 4) ℝ} (hi : npInv (exTower.ax exTowerHR) = .ok ivs)
    {c : Cond (Fin 2) (Fin 4)} {t : TickVars (Fin 2) (Fin 4)} (hc : ∀ i, c.thetaR i = 15)
    (e : TickEqs (preCalcOf exTower exTowerHR 900 exTowerData ivs) 900 0 c t) (hheat : (t.ot 0).mode = .heating) : t.brlOt 0 0 = 0 := by
  obtain ⟨x0, x1⟩ := tower_xlr hi e
  have hleak : t.vLeak 0 = 0 := by
    have h := e.vLeak
    have hv : volumeAverage exTower.vRoom c.thetaR = .ok 15 := by
      have : c.thetaR = fun _ => 15 := funext hc
      rw [this]
      simp only [volumeAverage, Fin.sum_univ_two, exTower]
      norm_num
    have hp : (preCalcOf exTower exTowerHR 900 exTowerData ivs).vRoom = exTower.vRoom := rfl
    have ho : (preCalcOf exTower exTowerHR 900 exTowerData ivs).thetaO 0 = 15 := rfl
    have hst : (preCalcOf exTower exTowerHR 900 exTowerData ivs).story = 1 := rfl
    have hpr : (preCalcOf exTower exTowerHR 900 exTowerData ivs).pressure = "balanced" := rfl
    rw [hp, ho, hst, hpr] at h
    simp only [getInfiltration, hv, bind, Except.bind, infiltrationA, infiltrationB] at h
    norm_num at h
    rw [← h]
  have hout : t.vOut 0 = 1 / 100 := by
    have h0 : t.vNtrl 0 = 0 := by rw [e.vNtrl]; simp [Tick.vNtrl, hheat]
    have h1 : (preCalcOf exTower exTowerHR 900 exTowerData ivs).vMec 0 0 = 1 / 100 := by
      show House.vMec exTower (exTowerData 0) 0 = _
      norm_num [House.vMec, exTower, exTowerData]
    rw [e.vOut]
    simp only [Tick.vOut, hleak, h0, h1]
    norm_num
  have hm : ∀ l, t.brm 0 l = exTower.brmNonVent 900 towerW 0 l + cAir * rhoAir * (if 0 = l then 1 / 100 else 0) := by
    intro l
    rw [e.brm]
    have hn : (preCalcOf exTower exTowerHR 900 exTowerData ivs).brmNonVent = exTower.brmNonVent 900 towerW := by
      rw [← tower_wsr hi]; rfl
    have hv : (preCalcOf exTower exTowerHR 900 exTowerData ivs).vInt = 0 := rfl
    simp only [Tick.brm, hn, hv, add_zero, Matrix.add_apply, Matrix.smul_apply, smul_eq_mul, Matrix.diagonal_apply, hout]
  have hl : (preCalcOf exTower exTowerHR 900 exTowerData ivs).brl = exTower.brl towerB := by
    rw [← tower_wsb hi]; rfl
  rw [e.brlOt]
  simp only [Tick.brlOt, hl, Matrix.add_apply, Matrix.mul_apply, Fin.sum_univ_two, x0, x1, hm]
  simp only [House.brl, House.brmNonVent, House.cRm, House.p, Matrix.add_apply, Matrix.mul_apply, Fin.sum_univ_four, Matrix.diagonal_apply]
  simp [exTower, towerW, towerB, cAir, rhoAir]
  norm_num

/-- The step from the initial state cannot be completed. -/
theorem tower_step {ss : PreCalc (Fin 2) (Fin 4) 96} {c : Cond (Fin 2) (Fin 4)} {t : TickVars (Fin 2) (Fin 4)}
    (Hp : makePreCalc exTower exTowerHR 900 exTowerData = .ok ss) (hr : AtRest exTower 15 c) (hm : ∀ i, c.thetaMrt i = 15)
    (hmode : ∀ i, c.mode i = .stopClose) (hx : ∀ i, getPvR (c.xR i) = coldP) : runTick 0 900 ss c ≠ .ok t := by
  intro Ht
  obtain ⟨ivs, k, hi, hs, hk, e⟩ := step_eqs Hp Ht
  have hidx : pyIndex 96 0 = .ok (0 : Fin 96) := by rfl
  have : k = 0 := Except.ok.inj (hk.symm.trans hidx)
  subst this
  subst hs
  obtain ⟨q1, q2⟩ := cold_pmv
  have hheat : ∀ i, (t.ot i).mode = .heating := by
    intro i
    have hot := e.ot i
    rw [hr.room, hm, hmode] at hot
    unfold getOtTargetAndHHum at hot
    rw [hx i] at hot
    have hd : (preCalcOf exTower exTowerHR 900 exTowerData ivs).acDemand 0 i = 1 := by simp [preCalcOf, exTowerData]
    rw [hd] at hot
    simp only [getOperationMode, bind, Except.bind, if_neg (not_le.2 q2), ge_iff_le, if_pos q1, gt_iff_lt, zero_lt_one, if_true] at hot
    rw [← Except.ok.inj hot]
  have hlow : ∀ i, 15 < (t.ot i).thetaLower := by
    intro i
    obtain ⟨w1, w2⟩ := ot_coefs (e.ot i)
    have htarget := ((C04_target_realises_pmv _ _ _ _ _ _ (e.ot i)).1 (hheat i)).1
    rw [w1, w2, hx i] at htarget
    exact cold_target htarget
  have hq : Calm 15 (exTowerData 0) := by constructor <;> intros <;> rfl
  obtain ⟨p1, hdet, h1, -⟩ := calc_passes' e.load (nat := fun _ => 15)
    (rest_natural exTower_wellFormed exTower_steady rfl exTower_weights hq hi hr e)
  set a := Tick.loadInput (preCalcOf exTower exTowerHR 900 exTowerData ivs) 0 t.ot t.brcOt t.brmOt t.brlOt with ha
  have hact : ∀ i, a.isHeating (fun _ => 15) i = true := fun i => isHeating_iff.2 ⟨hheat i, hlow i⟩
  have hnc : ∀ i, a.isCooling (fun _ => 15) i = false := by
    intro i
    refine isCooling_false fun hc => ?_
    have h2 : (t.ot i).mode = .cooling := hc.1
    rw [hheat i] at h2
    cases h2
  unfold getLoadAndTemp at h1
  simp only [bind, Except.bind] at h1
  split at h1
  · cases h1
  rename_i B hB
  refine (npInv_ok hB).1 ?_
  have hrad : a.isRadHeating = exTower.isRadHeating := rfl
  have hr0 : a.r0 (fun _ => 15) 0 = true ∧ a.r0 (fun _ => 15) 1 = false := by
    constructor <;> simp [LoadInput.r0, hact, hnc, hrad, exTower]
  have hc0 : a.c0 (fun _ => 15) 0 = false ∧ a.c0 (fun _ => 15) 1 = true := by
    constructor <;> simp [LoadInput.c0, hact, hnc, hrad, exTower]
  have hnt : ∀ i, a.nt (fun _ => 15) i = false := by
    intro i
    simp [LoadInput.nt, hact, hnc]
  have hz : a.brl 0 0 = 0 := tower_zero hi (fun i => hr.room i) e (hheat 0)
  rw [Matrix.det_fin_two]
  simp [loadX1, hnt, hc0, hr0, ind_true, ind_false, hz]

/-- **C21 (violated with one radiative room).** There is a well-formed house of two rooms, one heated by its floor and the other by an
air conditioner, for which the calculation stops with an exception in its first step: holding the operative temperature of the lower
room against the heat that comes through its ceiling takes away as much from the upper room as its floor supplies. -/
theorem C21_one_radiant_violated : WellFormed exTower exTowerHR 900 ∧ RadiantWellFormed exTower ∧ RadiantReaches exTower 0 ∧
    (∀ i, (exTower.isRadHeating i = true ↔ i = 0) ∧ exTower.isRadCooling i = false) ∧
    ∃ err, coreCalc exTower exTowerHR exTowerData 4 1 0 0 = .error err := by
  refine ⟨exTower_wellFormed, exTower_radiant, exTower_reaches, fun i => ⟨?_, rfl⟩, ?_⟩
  · fin_cases i <;> simp [exTower]
  cases H : coreCalc exTower exTowerHR exTowerData 4 1 0 0 with
  | error err => exact ⟨err, rfl⟩
  | ok r =>
    exfalso
    obtain ⟨c, t, Hp, Ht, -, c1, c2, c3, c4, c5, c6, c7, c8, c9⟩ := first_step H (fun _ => rfl)
    exact tower_step Hp ⟨fun i => by rw [c1], fun i => by rw [c5], fun i => by rw [c6], fun i => by rw [c7], fun i m => by rw [c8],
      fun i m => by rw [c9]; fin_cases i <;> simp [exTower]⟩ (fun i => by rw [c2]) (fun i => by rw [c3]) c4 Ht

end HLC
