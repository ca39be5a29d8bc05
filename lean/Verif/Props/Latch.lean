import Verif.Props.ColdHouse
import Verif.Props.Humid
import Verif.Props.Warmer

/-!
# C116: the length of the run-up can decide whether a house is heated
-/

namespace HLC

set_option linter.unusedSectionVars false

open Spec

/-! ## Comfort in heavy clothing at the humidity of the start -/

/-- Factor before the heat balance of the occupant. -/
noncomputable def pmvK : ℝ := 0.303 * Real.exp (-0.036 * getM) + 0.028

/-- Heat transfer through heavy clothing. -/
noncomputable def pmvG : ℝ := cloFactor 1.1 (hHumR + hHumC)

theorem pmvK_mem : 0 < pmvK ∧ pmvK ≤ 0.331 := by
  refine ⟨pmv_coef_pos, ?_⟩
  have : Real.exp (-0.036 * getM) ≤ 1 := Real.exp_le_one_iff.2 (by unfold getM; norm_num)
  unfold pmvK
  linarith

theorem pmvG_mem : 0 < pmvG ∧ pmvG ≤ 10 := by
  obtain ⟨h1, h2⟩ := hHum_bounds
  refine ⟨cloFactor_pos (by norm_num) (by linarith), ?_⟩
  unfold pmvG
  generalize hHumR + hHumC = h at *
  unfold cloFactor
  rw [fcl_heavy]
  unfold getIcl
  have : (0 : ℝ) < 1 + 1.1 * 0.155 * 1.1599725 * h := by nlinarith
  rw [div_le_iff₀ this]; nlinarith

/-- PMV of the heating mode in a room at `th` with mean radiant temperature `mr`. -/
noncomputable def heavyPmv (th mr : ℝ) : ℝ := getHHumAndPmv coldP th mr cloHeavy

theorem heavyPmv_sub (a m b k : ℝ) : heavyPmv b k - heavyPmv a m
    = pmvK * (0.0014 * 58.15 * (b - a) + pmvG * ((hHumR * (k - m) + hHumC * (b - a)) / (hHumR + hHumC))) := by
  have hs := add_pos hHumR_pos hHumC_pos
  have h := getPmv_affine a cloHeavy coldP (hHumR + hHumC) (getThetaOt hHumR hHumC m a) b coldP (getThetaOt hHumR hHumC k b)
  unfold heavyPmv getHHumAndPmv
  rw [h, sub_self, mul_zero, zero_add]
  have e : getThetaOt hHumR hHumC k b - getThetaOt hHumR hHumC m a = (hHumR * (k - m) + hHumC * (b - a)) / (hHumR + hHumC) := by
    unfold getThetaOt
    rw [← sub_div]
    congr 1
    ring
  rw [e]
  rfl

theorem heavyPmv_diag (a b : ℝ) : heavyPmv b b - heavyPmv a a = pmvK * (0.0014 * 58.15 + pmvG) * (b - a) := by
  have hs := add_pos hHumR_pos hHumC_pos
  rw [heavyPmv_sub, ← add_mul, mul_div_cancel_left₀ _ hs.ne']
  ring

theorem pmv_slope : 0 < pmvK * (0.0014 * 58.15 + pmvG) := mul_pos pmvK_mem.1 (by linarith [pmvG_mem.1])

/-- The temperature at which heavy clothing is felt at -0.6: between -0.7, below which heating starts, and -0.5, to which it heats. -/
noncomputable def mildT : ℝ := 15 + (-0.6 - heavyPmv 15 15) / (pmvK * (0.0014 * 58.15 + pmvG))

/-- The temperature to which a room is heated. -/
noncomputable def warmT : ℝ := mildT + 0.1 / (pmvK * (0.0014 * 58.15 + pmvG))

theorem mild_pmv : heavyPmv mildT mildT = -0.6 := by
  have h := heavyPmv_diag 15 mildT
  have e : mildT - 15 = (-0.6 - heavyPmv 15 15) / (pmvK * (0.0014 * 58.15 + pmvG)) := by unfold mildT; ring
  rw [e, mul_div_cancel₀ _ pmv_slope.ne'] at h
  linarith

theorem warm_pmv : heavyPmv warmT warmT = -0.5 := by
  have h := heavyPmv_diag mildT warmT
  have e : warmT - mildT = 0.1 / (pmvK * (0.0014 * 58.15 + pmvG)) := by unfold warmT; ring
  rw [e, mul_div_cancel₀ _ pmv_slope.ne', mild_pmv] at h
  linarith

theorem mild_gt : 15 < mildT := by
  have h := heavyPmv_diag 15 mildT
  have h1 : heavyPmv 15 15 ≤ -0.7 := cold_pmv.1
  rw [mild_pmv] at h
  have := pmv_slope
  by_contra hc
  push Not at hc
  nlinarith

theorem mild_lt_warm : mildT < warmT := by
  unfold warmT
  have := div_pos (show (0 : ℝ) < 0.1 by norm_num) pmv_slope
  linarith

theorem coldP_nonneg : 0 ≤ coldP := by
  unfold coldP
  have := initial_humidity_pos
  unfold getPvR getF
  positivity

theorem warm_le : warmT ≤ 34 := by
  have h := heavyPmv_diag warmT 34
  rw [warm_pmv] at h
  have h1 : 0 ≤ heavyPmv 34 34 := by
    have hp := coldP_nonneg
    have hmax : max (0.42 * (getM - 58.15)) (0 : ℝ) = 0 := by unfold getM; norm_num
    have hot : getThetaOt hHumR hHumC 34 34 = 34 := by
      have := add_pos hHumR_pos hHumC_pos
      unfold getThetaOt; rw [← add_mul]; field_simp
    have key : heavyPmv 34 34 = pmvK *
      (getM - 3.05 * (10 : ℝ) ^ (-3 : ℤ) * (5733 - 6.99 * getM - coldP) - 1.7 * (10 : ℝ) ^ (-5 : ℤ) * getM * (5867 - coldP)
        - 0.0014 * getM * (34 - 34) - pmvG * (35.7 - 0.028 * getM - 34)) := by
      unfold heavyPmv getHHumAndPmv getPmv pmvG cloFactor pmvK
      simp only [hmax, hot, cloHeavy]
      ring
    rw [key]
    refine mul_nonneg pmvK_mem.1.le ?_
    have := pmvG_mem.2
    have := pmvG_mem.1
    unfold getM
    norm_num
    nlinarith
  have := pmv_slope
  by_contra hc
  push Not at hc
  nlinarith

/-- The target of heating at the humidity of the start. -/
theorem target_warm {T : ℝ} (h : getPmv T 1.1 coldP (hHumC + hHumR) T = -0.5) : T = warmT := by
  have e : heavyPmv T T = -0.5 := by
    rw [← h]
    have : getThetaOt hHumR hHumC T T = T := by
      have := add_pos hHumR_pos hHumC_pos
      unfold getThetaOt; rw [← add_mul, mul_div_cancel_left₀ _ this.ne']
    unfold heavyPmv getHHumAndPmv
    rw [this, add_comm hHumR hHumC]
    rfl
  have h2 := heavyPmv_diag T warmT
  rw [e, warm_pmv, sub_self] at h2
  have := (mul_eq_zero.1 h2.symm).resolve_left pmv_slope.ne'
  linarith

/-! ## The house -/

/-- One tight room behind a single pane. -/
noncomputable def exLatch : House (Fin 1) (Fin 1) := { exCold with cValue := 0 }

/-- The same weather all the year; demand for air conditioning at all times but on one day, the `n`-th from the end of the year. -/
noncomputable def exLatchData (n : ℤ) : Fin 35040 → Record (Fin 1) (Fin 1) := fun k =>
  { thetaO := mildT, xO := startHumidity, vLocal := fun _ => 0, qGen := fun _ => 0, xGen := fun _ => 0, nHum := fun _ => 0
    acDemand := fun _ => if 35040 - 96 * n ≤ (k.1 : ℤ) ∧ (k.1 : ℤ) < 35040 - 96 * (n - 1) then 0 else 1
    qTrsSol := fun _ => 0, thetaOSol := fun _ => mildT }

theorem exLatch_wellFormed {hR : Fin 1 → ℝ} (hr : ∀ j, 0 < hR j) : WellFormed exLatch hR 900 := { exCold_wellFormed_any hr with }

theorem exLatch_surfaces (i : Fin 1) : surfaces exLatch i = {0} := exCold_surfaces i

section
variable {hR : Fin 1 → ℝ} {d : ℤ} {ss : PreCalc (Fin 1) (Fin 1) 35040} {n : ℤ} {k : Fin 35040} {c : Cond (Fin 1) (Fin 1)} {t : TickVars (Fin 1) (Fin 1)}

/-- The equations of a step with closed windows. -/
theorem latch_step (hr : ∀ j, 0 < hR j) (Hp : makePreCalc exLatch hR 900 (exLatchData d) = .ok ss) (H : runTick n 900 ss c = .ok t)
    (hk : pyIndex 35040 n = .ok k) (hm : (t.ot 0).mode ≠ .stopOpen) :
    t.thetaMrt 0 = mildT ∧ t.thetaOt 0 = (hHumC * t.thetaR 0 + hHumR * mildT) / (hHumC + hHumR) ∧
      40.2 * (t.thetaR 0 - c.thetaR 0) = 37.06 * (mildT - t.thetaR 0) + t.lc 0 := by
  have hw := exLatch_wellFormed hr
  have hh : exLatch.hI hR 0 ≠ 0 := (add_pos (hw.hC_pos 0) (hw.hR_pos 0)).ne'
  obtain ⟨ivs, k', hi, hs, hk', e⟩ := step_eqs Hp H
  obtain rfl : k' = k := Except.ok.inj (hk'.symm.trans hk)
  have hS : t.thetaS 0 = mildT := by
    have hwall := C17_wall_equation_partial Hp H hk 0 hh (by simp [exLatch, exCold])
    have h1 : ∀ m, t.dshA 0 m = 0 := by
      intro m; rw [e.dshA, hs]; simp [Tick.dshA, preCalcOf, exLatch, exCold]
    have h2 : ∀ m, t.dshT 0 m = 0 := by
      intro m; rw [e.dshT, hs]; simp [Tick.dshT, preCalcOf, exLatch, exCold]
    simp only [h1, h2] at hwall
    rw [hwall]
    simp [exLatch, exCold, rearTemp, exLatchData]
  have hM : t.thetaMrt 0 = mildT := by
    rw [e.thetaMrt, hs]
    refine (fMrtHum_mulVec exLatch _ 0).trans ?_
    rw [exLatch_surfaces, Finset.sum_singleton, hS]
    simp [exLatch, exCold]
  have h13 := C13_operative_temperature Hp H 0
  rw [exLatch_surfaces, Finset.sum_singleton, hS] at h13
  have hv : t.vOut 0 = 0.01 := by
    have hl : t.vLeak = fun _ => 0 := by
      have := e.vLeak
      rw [hs] at this
      exact leak_tight this
    have h0 : t.vNtrl 0 = 0 := by rw [e.vNtrl]; simp [Tick.vNtrl, hm]
    rw [e.vOut]
    simp only [Tick.vOut, hl, h0]
    rw [hs]
    norm_num [preCalcOf, House.vMec, exLatch, exCold, exLatchData]
  have hq : t.qHum 0 = 0 := by rw [e.qHum, hs]; simp [Tick.qHum, preCalcOf, exLatchData]
  have h14 := C14_balance_as_coded Hp H hk 0 (by norm_num [exLatch, exCold])
  simp only [convection, exLatch_surfaces, Finset.sum_singleton, hS, hq, hv] at h14
  refine ⟨hM, ?_, ?_⟩
  · rw [h13]
    simp [exLatch, exCold]
  · norm_num [exLatch, exCold, exLatchData, airCap] at h14
    norm_num
    linarith

/-- The humidity stays as it is while nothing is cooled. -/
theorem latch_humid (hr : ∀ j, 0 < hR j) (Hp : makePreCalc exLatch hR 900 (exLatchData d) = .ok ss) (H : runTick n 900 ss c = .ok t)
    (hk : pyIndex 35040 n = .ok k) (hl : 0 ≤ t.lc 0) (hx : ∀ i, c.xR i = startHumidity) (hf : ∀ i, c.xFrt i = startHumidity) :
    (∀ i, t.xR i = startHumidity) ∧ ∀ i, t.xFrt i = startHumidity := by
  have hw := exLatch_wellFormed hr
  have hn : NoMoisture (exLatchData d k) := ⟨fun _ => rfl, fun _ => rfl⟩
  have hmr : MoistRecord (exLatchData d k) := ⟨startHumidity_pos.le, fun _ => le_rfl, fun _ => le_rfl, fun _ => le_rfl⟩
  have a := step_humid_ceiling (hi := startHumidity) hw (fun i l => rfl) Hp H hk (fun _ => le_rfl) hn le_rfl (fun i => (hx i).le) fun i => (hf i).le
  have b := step_humid_floor (lo := startHumidity) hw Hp H hk startHumidity_pos.le hmr
    (fun i => C20_only_when_cooled Hp H i (by rw [Subsingleton.elim i 0]; linarith)) le_rfl (fun i => (hx i).ge) fun i => (hf i).ge
  exact ⟨fun i => le_antisymm (a.1 i) (b.1 i), fun i => le_antisymm (a.2 i) (b.2.1 i)⟩

/-- The mode of a step. -/
theorem latch_mode (Hp : makePreCalc exLatch hR 900 (exLatchData d) = .ok ss) (H : runTick n 900 ss c = .ok t)
    (hk : pyIndex 35040 n = .ok k) (hx : ∀ i, c.xR i = startHumidity) :
    getOperationMode ((exLatchData d k).acDemand 0) (c.mode 0) (heavyPmv (c.thetaR 0) (c.thetaMrt 0))
        (getHHumAndPmv coldP (c.thetaR 0) (c.thetaMrt 0) cloMiddle) (getHHumAndPmv coldP (c.thetaR 0) (c.thetaMrt 0) cloLight) = .ok (t.ot 0).mode ∧
      ((t.ot 0).mode = .heating → (t.ot 0).thetaLower = warmT) := by
  obtain ⟨ivs, k', hi, hs, hk', e⟩ := step_eqs Hp H
  obtain rfl : k' = k := Except.ok.inj (hk'.symm.trans hk)
  have hot := e.ot 0
  have hp : getPvR (c.xR 0) = coldP := by rw [hx, ← startHumidity_eq]; rfl
  have hd : ss.acDemand k' 0 = (exLatchData d k').acDemand 0 := by rw [hs]; rfl
  constructor
  · unfold getOtTargetAndHHum at hot
    simp only [bind, Except.bind, hp, hd] at hot
    split at hot
    · cases hot
    rename_i m hm
    have := Except.ok.inj hot
    rw [← this]
    exact hm
  · intro hm
    obtain ⟨w1, w2⟩ := ot_coefs hot
    have := ((C04_target_realises_pmv _ _ _ _ _ _ hot).1 hm).1
    rw [w1, w2, hp] at this
    exact target_warm this

/-- The air temperature that keeps the operative temperature at the target while the pane is at `mildT`. -/
noncomputable def keptT : ℝ := mildT + (warmT - mildT) * (hHumC + hHumR) / hHumC

theorem kept_gt : mildT < keptT := by
  unfold keptT
  have := div_pos (mul_pos (sub_pos.2 mild_lt_warm) (add_pos hHumC_pos hHumR_pos)) hHumC_pos
  linarith

theorem ot_warm_iff (x : ℝ) : (hHumC * x + hHumR * mildT) / (hHumC + hHumR) - warmT = hHumC / (hHumC + hHumR) * (x - keptT) := by
  have h1 := hHumC_pos.ne'
  have h2 := (add_pos hHumC_pos hHumR_pos).ne'
  unfold keptT
  field_simp
  ring

theorem kept_pmv : heavyPmv keptT mildT ≤ 0.7 := by
  have h := heavyPmv_sub mildT mildT keptT mildT
  rw [mild_pmv, sub_self, mul_zero, zero_add] at h
  have hs := pmv_slope
  obtain ⟨k0, -⟩ := pmvK_mem
  obtain ⟨g0, -⟩ := pmvG_mem
  have hw : pmvK * (0.0014 * 58.15 + pmvG) * (warmT - mildT) = 0.1 := by
    unfold warmT
    rw [add_sub_cancel_left, mul_div_cancel₀ _ hs.ne']
  have e1 : hHumC * (keptT - mildT) / (hHumR + hHumC) = warmT - mildT := by
    have h1 := hHumC_pos.ne'
    have h2 := (add_pos hHumC_pos hHumR_pos).ne'
    rw [add_comm hHumR]
    unfold keptT
    field_simp
    ring
  rw [e1] at h
  have e2 : keptT - mildT ≤ 3 * (warmT - mildT) := by
    obtain ⟨b1, b2⟩ := hHum_bounds
    have h4 : hHumC = 4 := rfl
    unfold keptT
    rw [add_sub_cancel_left, div_le_iff₀ hHumC_pos]
    have := sub_pos.2 mild_lt_warm
    have h5 : hHumR < 5 := by linarith
    rw [h4]
    nlinarith
  have hwm := sub_pos.2 mild_lt_warm
  have : pmvK * (0.0014 * 58.15 * (keptT - mildT) + pmvG * (warmT - mildT)) ≤ 3 * 0.1 := by
    rw [← hw]
    have : 0.0014 * 58.15 * (keptT - mildT) + pmvG * (warmT - mildT) ≤ 3 * ((0.0014 * 58.15 + pmvG) * (warmT - mildT)) := by
      nlinarith [mul_pos g0 hwm]
    calc _ ≤ pmvK * (3 * ((0.0014 * 58.15 + pmvG) * (warmT - mildT))) := mul_le_mul_of_nonneg_left this k0.le
      _ = _ := by ring
  linarith

/-- A room that is heated, with the pane at the equivalent outdoor temperature. -/
def Kept (c : Cond (Fin 1) (Fin 1)) : Prop :=
  c.mode 0 = .heating ∧ c.thetaMrt 0 = mildT ∧ c.thetaR 0 = keptT ∧ (∀ i, c.xR i = startHumidity) ∧ ∀ i, c.xFrt i = startHumidity

/-- A step in the heating mode from an air temperature not above the one needed. -/
theorem heated_step (hr : ∀ j, 0 < hR j) (Hp : makePreCalc exLatch hR 900 (exLatchData d) = .ok ss) (H : runTick n 900 ss c = .ok t)
    (hk : pyIndex 35040 n = .ok k) (hd : (exLatchData d k).acDemand 0 = 1) (hm : (t.ot 0).mode = .heating) (h0 : c.thetaR 0 ≤ keptT)
    (hx : ∀ i, c.xR i = startHumidity) (hf : ∀ i, c.xFrt i = startHumidity) : Kept t.next ∧ 0 < t.lc 0 ∧ t.thetaOt 0 = warmT := by
  obtain ⟨a, b, e⟩ := latch_step hr Hp H hk (by rw [hm]; decide)
  have hw := (latch_mode Hp H hk hx).2 hm
  obtain ⟨s1, s2⟩ := (step_target Hp H hk (fun i => by norm_num [exLatch, exCold]) 0 hd).1 hm
  rw [hw] at s1 s2
  have hq : 0 < hHumC / (hHumC + hHumR) := div_pos hHumC_pos (add_pos hHumC_pos hHumR_pos)
  have hi := ot_warm_iff (t.thetaR 0)
  have hg := kept_gt
  have h1 : keptT ≤ t.thetaR 0 := by
    rw [b] at s1
    by_contra hc
    push Not at hc
    nlinarith
  have hl : 0 < t.lc 0 := by nlinarith
  have hot := s2 (.inl hl.ne')
  have h2 : t.thetaR 0 = keptT := by
    rw [← b, hot, sub_self] at hi
    have := (mul_eq_zero.1 hi.symm).resolve_left hq.ne'
    linarith
  obtain ⟨u, v⟩ := latch_humid hr Hp H hk hl.le hx hf
  exact ⟨⟨hm, a, h2, u, v⟩, hl, hot⟩

/-- A kept room is heated in every step with demand. -/
theorem kept_step (hr : ∀ j, 0 < hR j) (Hp : makePreCalc exLatch hR 900 (exLatchData d) = .ok ss) (H : runTick n 900 ss c = .ok t)
    (hk : pyIndex 35040 n = .ok k) (hd : (exLatchData d k).acDemand 0 = 1) (hc : Kept c) : Kept t.next ∧ 0 < t.lc 0 ∧ t.thetaOt 0 = warmT := by
  obtain ⟨c1, c2, c3, c4, c5⟩ := hc
  refine heated_step hr Hp H hk hd ?_ c3.le c4 c5
  have h := (latch_mode Hp H hk c4).1
  rw [hd, c1, c2, c3] at h
  simp only [getOperationMode, gt_iff_lt, zero_lt_one, if_true, if_pos kept_pmv] at h
  exact (Except.ok.inj h).symm

/-- The first step with demand of a house in its initial state. -/
theorem start_heated (hr : ∀ j, 0 < hR j) (Hp : makePreCalc exLatch hR 900 (exLatchData d) = .ok ss)
    (H : runTick n 900 ss (initialConditions (Fin 1) (Fin 1)) = .ok t) (hk : pyIndex 35040 n = .ok k) (hd : (exLatchData d k).acDemand 0 = 1) :
    Kept t.next ∧ 0 < t.lc 0 ∧ t.thetaOt 0 = warmT := by
  have hx : ∀ i, (initialConditions (Fin 1) (Fin 1)).xR i = startHumidity := fun _ => startHumidity_eq
  refine heated_step hr Hp H hk hd ?_ ?_ hx (fun _ => startHumidity_eq)
  · have h := (latch_mode Hp H hk hx).1
    obtain ⟨q1, q2⟩ := cold_pmv
    have q1' : heavyPmv 15 15 ≤ -0.7 := q1
    rw [hd] at h
    simp only [getOperationMode, initialConditions, initialMode, gt_iff_lt, zero_lt_one, if_true, ge_iff_le, if_neg (not_le.2 q2), if_pos q1'] at h
    exact (Except.ok.inj h).symm
  · show (15 : ℝ) ≤ keptT
    linarith [mild_gt, kept_gt]

/-- A room that is left alone, near the outdoor temperature. -/
def Left (c : Cond (Fin 1) (Fin 1)) : Prop :=
  c.mode 0 = .stopClose ∧ c.thetaMrt 0 = mildT ∧ (mildT - 0.02 ≤ c.thetaR 0 ∧ c.thetaR 0 ≤ mildT) ∧
    (∀ i, c.xR i = startHumidity) ∧ ∀ i, c.xFrt i = startHumidity

theorem left_step (hr : ∀ j, 0 < hR j) (Hp : makePreCalc exLatch hR 900 (exLatchData d) = .ok ss) (H : runTick n 900 ss c = .ok t)
    (hk : pyIndex 35040 n = .ok k) (hd : (exLatchData d k).acDemand 0 = 1) (hc : Left c) :
    Left t.next ∧ t.lc 0 = 0 ∧ t.thetaOt 0 ≤ mildT := by
  obtain ⟨c1, c2, ⟨c3, c3'⟩, c4, c5⟩ := hc
  have hC0 := hHumC_pos
  have hR0 := hHumR_pos
  have hm : (t.ot 0).mode = .stopClose := by
    have h := (latch_mode Hp H hk c4).1
    rw [hd, c1, c2] at h
    have hsub := heavyPmv_sub (c.thetaR 0) mildT mildT mildT
    rw [mild_pmv, sub_self, mul_zero, zero_add] at hsub
    obtain ⟨k0, k1⟩ := pmvK_mem
    obtain ⟨g0, g1⟩ := pmvG_mem
    have hz : 0 ≤ hHumC * (mildT - c.thetaR 0) / (hHumR + hHumC) ∧ hHumC * (mildT - c.thetaR 0) / (hHumR + hHumC) ≤ 0.02 := by
      constructor
      · exact div_nonneg (mul_nonneg hC0.le (by linarith)) (by linarith)
      · rw [div_le_iff₀ (by linarith)]
        nlinarith
    have hA : 0 ≤ 0.0014 * 58.15 * (mildT - c.thetaR 0) + pmvG * (hHumC * (mildT - c.thetaR 0) / (hHumR + hHumC)) ∧
        0.0014 * 58.15 * (mildT - c.thetaR 0) + pmvG * (hHumC * (mildT - c.thetaR 0) / (hHumR + hHumC)) ≤ 0.22 := by
      constructor
      · nlinarith [mul_nonneg g0.le hz.1]
      · nlinarith [mul_le_mul g1 hz.2 hz.1 (by norm_num : (0 : ℝ) ≤ 10)]
    have hP : -0.7 < heavyPmv (c.thetaR 0) mildT ∧ heavyPmv (c.thetaR 0) mildT ≤ -0.6 := by
      constructor
      · nlinarith [mul_le_mul k1 hA.2 hA.1 (by norm_num : (0 : ℝ) ≤ 0.331)]
      · nlinarith [mul_nonneg k0.le hA.1]
    have h34 : getThetaOt hHumR hHumC mildT (c.thetaR 0) ≤ 34.0718 := by
      have := warm_le
      have := mild_lt_warm
      unfold getThetaOt
      rw [div_le_iff₀ (by linarith)]
      nlinarith
    obtain ⟨o1, o2⟩ := C03_clothing_order coldP (c.thetaR 0) mildT h34
    have hmid : getHHumAndPmv coldP (c.thetaR 0) mildT cloMiddle < 0 := by
      have : getHHumAndPmv coldP (c.thetaR 0) mildT cloMiddle ≤ heavyPmv (c.thetaR 0) mildT := o2
      linarith [hP.2]
    have hlight : getHHumAndPmv coldP (c.thetaR 0) mildT cloLight < 0.7 := by
      have : getHHumAndPmv coldP (c.thetaR 0) mildT cloLight ≤ getHHumAndPmv coldP (c.thetaR 0) mildT cloMiddle := o1
      linarith
    simp only [getOperationMode, gt_iff_lt, zero_lt_one, if_true, ge_iff_le, if_neg (not_le.2 hlight), if_neg (not_le.2 hP.1),
      if_neg (not_le.2 hmid)] at h
    exact (Except.ok.inj h).symm
  obtain ⟨a, b, e⟩ := latch_step hr Hp H hk (by rw [hm]; decide)
  have hl : t.lc 0 = 0 := by
    obtain ⟨ivs, k', hi, hs, hk', E⟩ := step_eqs Hp H
    have := natural_no_demand E.load (by rw [hs]; exact fun i => by norm_num [Tick.loadInput, preCalcOf, exLatch, exCold])
      (fun i => by rw [Subsingleton.elim i 0]; exact hm)
    have hlc : t.lc = fun _ => 0 := this.2.2.1
    rw [hlc]
  rw [hl] at e
  obtain ⟨u, v⟩ := latch_humid hr Hp H hk hl.ge c4 c5
  have h1 : mildT - 0.02 ≤ t.thetaR 0 := by linarith
  have h2 : t.thetaR 0 ≤ mildT := by linarith
  refine ⟨⟨hm, a, ⟨h1, h2⟩, u, v⟩, hl, ?_⟩
  rw [b, div_le_iff₀ (by linarith)]
  nlinarith

/-- A step without demand. -/
theorem free_step (hr : ∀ j, 0 < hR j) (Hp : makePreCalc exLatch hR 900 (exLatchData d) = .ok ss) (H : runTick n 900 ss c = .ok t)
    (hk : pyIndex 35040 n = .ok k) (hd : (exLatchData d k).acDemand 0 = 0) (hx : ∀ i, c.xR i = startHumidity) (hf : ∀ i, c.xFrt i = startHumidity) :
    t.next.mode 0 = .stopClose ∧ t.next.thetaMrt 0 = mildT ∧ mildT - t.next.thetaR 0 = 40.2 / 77.26 * (mildT - c.thetaR 0) ∧
      (∀ i, t.next.xR i = startHumidity) ∧ ∀ i, t.next.xFrt i = startHumidity := by
  have hm : (t.ot 0).mode = .stopClose := by
    have h := (latch_mode Hp H hk hx).1
    rw [hd] at h
    simp only [getOperationMode, gt_iff_lt, lt_irrefl, if_false] at h
    exact (Except.ok.inj h).symm
  obtain ⟨a, b, e⟩ := latch_step hr Hp H hk (by rw [hm]; decide)
  have hl := (step_no_demand Hp H hk (fun i => by norm_num [exLatch, exCold]) (i := 0) hd.le).1
  rw [hl] at e
  obtain ⟨u, v⟩ := latch_humid hr Hp H hk hl.ge hx hf
  refine ⟨hm, a, ?_, u, v⟩
  show mildT - t.thetaR 0 = _
  linarith

end

/-- Steps without demand from the initial state: the room comes near the outdoor temperature. -/
theorem free_run {hR : Fin 1 → ℝ} {d : ℤ} {ss : PreCalc (Fin 1) (Fin 1) 35040} (hr : ∀ j, 0 < hR j)
    (Hp : makePreCalc exLatch hR 900 (exLatchData d) = .ok ss) {c : Cond (Fin 1) (Fin 1)} {ns : List ℤ} {ts : List (TickVars (Fin 1) (Fin 1))}
    (H : Run ss 900 c ns ts) (hd : ∀ m ∈ ns, ∀ k, pyIndex 35040 m = .ok k → (exLatchData d k).acDemand 0 = 0)
    (hx : ∀ i, c.xR i = startHumidity) (hf : ∀ i, c.xFrt i = startHumidity) :
    mildT - (after c ts).thetaR 0 = (40.2 / 77.26) ^ ns.length * (mildT - c.thetaR 0) ∧
      (∀ i, (after c ts).xR i = startHumidity) ∧ (∀ i, (after c ts).xFrt i = startHumidity) ∧
      (ns ≠ [] → (after c ts).mode 0 = .stopClose ∧ (after c ts).thetaMrt 0 = mildT) := by
  induction H with
  | nil c => exact ⟨by simp [after], hx, hf, fun h => absurd rfl h⟩
  | cons h1 h2 ih =>
    rename_i c n ns t ts
    obtain ⟨k, hk⟩ := runTick_index h1
    obtain ⟨a1, a2, a3, a4, a5⟩ := free_step hr Hp h1 hk (hd n (by simp) k hk) hx hf
    obtain ⟨b1, b2, b3, b4⟩ := ih (fun m hm => hd m (List.mem_cons_of_mem _ hm)) a4 a5
    refine ⟨?_, b2, b3, fun _ => ?_⟩
    · show mildT - (after t.next ts).thetaR 0 = _
      rw [b1, a3, List.length_cons, pow_succ]
      ring
    · cases h2 with
      | nil => exact ⟨a1, a2⟩
      | cons => exact b4 (by simp)

/-- What holds of a state and of a step along a run. -/
theorem run_keeps {I J : Type} [Fintype I] [DecidableEq I] [Fintype J] [DecidableEq J] {N : ℕ} {ss : PreCalc I J N} {dt : ℝ}
    {P : Cond I J → Prop} {Q : TickVars I J → Prop} {c : Cond I J} {ns : List ℤ} {ts : List (TickVars I J)} (H : Run ss dt c ns ts) (h0 : P c)
    (hs : ∀ n ∈ ns, ∀ c t, P c → runTick n dt ss c = .ok t → P t.next ∧ Q t) : P (after c ts) ∧ ∀ t ∈ ts, Q t := by
  induction H with
  | nil c => exact ⟨h0, by simp⟩
  | cons h1 _ ih =>
    obtain ⟨a, b⟩ := hs _ (by simp) _ _ h0 h1
    obtain ⟨u, v⟩ := ih a fun n hn => hs n (List.mem_cons_of_mem _ hn)
    refine ⟨u, ?_⟩
    intro t' ht'
    rcases List.mem_cons.mp ht' with rfl | h
    · exact b
    · exact v t' h

theorem latch_demand {d m : ℤ} {k : Fin 35040} (hk : pyIndex 35040 m = .ok k) (hd : 1 ≤ d ∧ d ≤ 365) (hm : -96 * d ≤ m ∧ m < 35040 - 96 * d) :
    (exLatchData d k).acDemand 0 = if m < -96 * (d - 1) then 0 else 1 := by
  have h := pyIndex_spec hk
  push_cast at h
  show (if _ then (0 : ℝ) else 1) = _
  apply if_congr _ rfl rfl
  omega

theorem free_power : ((40.2 / 77.26 : ℝ)) ^ 96 * 19 ≤ 0.02 := by
  have h1 : ((40.2 / 77.26 : ℝ)) ^ 96 ≤ (40.2 / 77.26 : ℝ) ^ 16 := pow_le_pow_of_le_one (by norm_num) (by norm_num) (by norm_num)
  have h2 : (40.2 / 77.26 : ℝ) ^ 16 * 19 ≤ 0.02 := by norm_num
  linarith

section
variable {hR : Fin 1 → ℝ} {d dMain : ℤ} {r : CalcResult (Fin 1) 1 35040}

theorem latch_heated (hr : ∀ j, 0 < hR j) (hd : 1 ≤ d ∧ d ≤ 365) (hM : 0 ≤ dMain ∧ dMain ≤ 365 - d)
    {b : ℤ} (hb : 0 ≤ b ∧ b < d) (H : coreCalc exLatch hR (exLatchData d) 4 dMain d b = .ok r) (k : Fin r.nMain.toNat) :
    (r.log k).mode 0 = some .heating ∧ 0 < (r.log k).lCs 0 ∧ (r.log k).thetaOt 0 = warmT := by
  obtain ⟨gs, c0, up, mn, T⟩ := coreCalc_ok H
  have hc0 := start_eq (fun _ => rfl) T
  have hdt : (3600 / ((4 : ℤ) : ℝ)) = 900 := by norm_num
  have Hp := T.pre
  have hu := T.runUp
  have hm := T.main
  rw [hdt] at Hp hu hm
  rw [hc0] at hu hm
  have hall := hu.append hm
  rw [pyRange_append (by omega) (by omega)] at hall
  have key : ∀ t ∈ up ++ mn, (t.ot 0).mode = .heating ∧ 0 < t.lc 0 ∧ t.thetaOt 0 = warmT := by
    refine (run_keeps (P := fun c => c = initialConditions (Fin 1) (Fin 1) ∨ Kept c) hall (.inl rfl) ?_).2
    intro n hn c t hc ht
    obtain ⟨k, hk⟩ := runTick_index ht
    rw [mem_pyRange] at hn
    have hdm : (exLatchData d k).acDemand 0 = 1 := by
      rw [latch_demand hk hd (by omega), if_neg (by omega)]
    have : Kept t.next ∧ 0 < t.lc 0 ∧ t.thetaOt 0 = warmT := by
      rcases hc with rfl | hc
      · exact start_heated hr Hp ht hk hdm
      · exact kept_step hr Hp ht hk hdm hc
    exact ⟨.inr this.1, this.1.1, this.2⟩
  have hk : (k : ℕ) < mn.length := by rw [T.mn_length]; exact k.isLt
  rw [T.logged k hk]
  obtain ⟨a, b⟩ := key mn[(k : ℕ)] (by simp)
  exact ⟨congrArg some a, b⟩

theorem latch_left (hr : ∀ j, 0 < hR j) (hd : 1 ≤ d ∧ d ≤ 365) (hM : 0 ≤ dMain ∧ dMain ≤ 365 - d)
    (H : coreCalc exLatch hR (exLatchData d) 4 dMain d d = .ok r) (k : Fin r.nMain.toNat) :
    (r.log k).mode 0 = some .stopClose ∧ (r.log k).lCs 0 = 0 ∧ (r.log k).thetaOt 0 ≤ mildT := by
  obtain ⟨gs, c0, up, mn, T⟩ := coreCalc_ok H
  have hc0 := start_eq (fun _ => rfl) T
  have hdt : (3600 / ((4 : ℤ) : ℝ)) = 900 := by norm_num
  have Hp := T.pre
  have hu := T.runUp
  have hm := T.main
  rw [hdt] at Hp hu hm
  rw [hc0] at hu hm
  have hall := hu.append hm
  rw [pyRange_append (by omega) (by omega)] at hall
  -- the day without demand, and the rest
  have hc := hu
  rw [← pyRange_append (show -(d * 4 * 24) ≤ -96 * (d - 1) by omega) (show -96 * (d - 1) ≤ 0 by omega)] at hc
  obtain ⟨t1, t2, e12, r1, r2⟩ := hc.split
  have hfree := free_run hr Hp r1 (fun m hm k hk => by
    rw [mem_pyRange] at hm
    rw [latch_demand hk hd (by omega), if_pos (by omega)]) (fun _ => startHumidity_eq) (fun _ => startHumidity_eq)
  have hlen : (pyRange (-(d * 4 * 24)) (-96 * (d - 1))).length = 96 := by rw [pyRange_length]; omega
  obtain ⟨f1, f2, f3, f4⟩ := hfree
  obtain ⟨f5, f6⟩ := f4 (by intro h; rw [h] at hlen; simp at hlen)
  have hleft : Left (after (initialConditions (Fin 1) (Fin 1)) t1) := by
    refine ⟨f5, f6, ?_, f2, f3⟩
    rw [hlen] at f1
    have h15 : (initialConditions (Fin 1) (Fin 1)).thetaR 0 = 15 := rfl
    rw [h15] at f1
    have hp := free_power
    have hp0 : 0 ≤ (40.2 / 77.26 : ℝ) ^ 96 := by positivity
    have hg := mild_gt
    have hl := mild_lt_warm
    have hw := warm_le
    constructor <;> nlinarith
  have r3 := r2.append (by rw [e12, after_append] at hm; exact hm)
  have key : ∀ t ∈ t2 ++ mn, (t.ot 0).mode = .stopClose ∧ t.lc 0 = 0 ∧ t.thetaOt 0 ≤ mildT := by
    refine (run_keeps (P := Left) r3 hleft ?_).2
    intro n hn c t hc ht
    obtain ⟨k, hk⟩ := runTick_index ht
    rw [List.mem_append, mem_pyRange, mem_pyRange] at hn
    have hdm : (exLatchData d k).acDemand 0 = 1 := by
      rw [latch_demand hk hd (by omega), if_neg (by omega)]
    have := left_step hr Hp ht hk hdm hc
    exact ⟨this.1, this.1.1, this.2⟩
  have hk : (k : ℕ) < mn.length := by rw [T.mn_length]; exact k.isLt
  rw [T.logged k hk]
  obtain ⟨a, b⟩ := key mn[(k : ℕ)] (by simp)
  exact ⟨congrArg some a, b⟩

end

/-- **C116, violated.** However long the run-up (up to a year) and however long the calculation, one more day of run-up can decide whether
the house is heated at all: in one and the same house with the same hourly records, which ask for air conditioning in every step of
the calculation, the calculation with a run-up of `d - 1` days heats in every step and holds the target, and the one with a run-up of
`d` days never heats and stays a fixed distance below the target. -/
theorem C116_violated {hR : Fin 1 → ℝ} (hr : ∀ j, 0 < hR j) {d dMain : ℤ} (hd : 1 ≤ d ∧ d ≤ 365) (hM : 0 ≤ dMain ∧ dMain ≤ 365 - d) :
    mildT < warmT ∧ (∀ k : Fin 35040, (k : ℤ) < dMain * 4 * 24 → (exLatchData d k).acDemand 0 = 1) ∧
    ∃ rA rB, coreCalc exLatch hR (exLatchData d) 4 dMain d (d - 1) = .ok rA ∧ coreCalc exLatch hR (exLatchData d) 4 dMain d d = .ok rB ∧
      rA.nMain = dMain * 4 * 24 ∧ rB.nMain = dMain * 4 * 24 ∧
      (∀ k, (rA.log k).mode 0 = some .heating ∧ 0 < (rA.log k).lCs 0 ∧ (rA.log k).thetaOt 0 = warmT) ∧
      ∀ k, (rB.log k).mode 0 = some .stopClose ∧ (rB.log k).lCs 0 = 0 ∧ (rB.log k).thetaOt 0 ≤ mildT := by
  have hw := exLatch_wellFormed hr
  have hdt : (3600 / ((4 : ℤ) : ℝ)) = 900 := by norm_num
  have run : ∀ b : ℤ, 0 ≤ b → b ≤ d → ∃ r, coreCalc exLatch hR (exLatchData d) 4 dMain d b = .ok r := by
    intro b hb hbd
    apply C21_program_partial
    · rw [hdt]; exact hw
    · exact fun _ => rfl
    · exact fun _ => rfl
    · exact fun _ _ => le_rfl
    all_goals omega
  obtain ⟨rA, hA⟩ := run (d - 1) (by omega) (by omega)
  obtain ⟨rB, hB⟩ := run d (by omega) le_rfl
  obtain ⟨_, _, _, _, TA⟩ := coreCalc_ok hA
  obtain ⟨_, _, _, _, TB⟩ := coreCalc_ok hB
  refine ⟨mild_lt_warm, ?_, rA, rB, hA, hB, TA.nMain_eq, TB.nMain_eq, latch_heated hr hd hM (by omega) hA, latch_left hr hd hM hB⟩
  intro k hk
  show (if _ then (0 : ℝ) else 1) = 1
  rw [if_neg (by omega)]

/-- The mode and the target of a step are functions of the state before it and of the demand; with the same humidity the targets agree. -/
theorem target_agrees {a b x d a' b' d' : ℝ} {m m' : OpMode} {o o' : OtTarget} (H : getOtTargetAndHHum a b x m d = .ok o)
    (H' : getOtTargetAndHHum a' b' x m' d' = .ok o') (h : o.mode = o'.mode) : o.thetaLower = o'.thetaLower ∧ o.thetaUpper = o'.thetaUpper := by
  unfold getOtTargetAndHHum at H H'
  simp only [bind, Except.bind] at H H'
  split at H
  · cases H
  split at H'
  · cases H'
  have e := Except.ok.inj H
  have e' := Except.ok.inj H'
  subst e e'
  dsimp only at h ⊢
  subst h
  exact ⟨rfl, rfl⟩

/-- A room with a load and full demand is at the target of its mode. -/
theorem loaded_target {I J : Type} [Fintype I] [DecidableEq I] [Fintype J] [DecidableEq J] {N : ℕ} {h : House I J} {hR : J → ℝ}
    {data : Fin N → Record I J} {dt : ℝ} {ss : PreCalc I J N} {n : ℤ} {c : Cond I J} {t : TickVars I J} {k : Fin N}
    (Hp : makePreCalc h hR dt data = .ok ss) (H : runTick n dt ss c = .ok t) (hk : pyIndex N n = .ok k)
    (hcap : ∀ i, 0 ≤ h.capH i ∧ 0 ≤ h.capC i) (i : I) (hd : (data k).acDemand i = 1) (hl : t.lc i ≠ 0 ∨ t.lr i ≠ 0) :
    ((t.ot i).mode = .heating → t.thetaOt i = (t.ot i).thetaLower) ∧ ((t.ot i).mode = .cooling → t.thetaOt i = (t.ot i).thetaUpper) := by
  obtain ⟨ivs, k', -, hs, hk', e⟩ := step_eqs Hp H
  have : k' = k := Except.ok.inj (hk'.symm.trans hk)
  subst this
  obtain ⟨nat, p1, -, hnat, -, -⟩ := calc_passes e.load
  set a := Tick.loadInput ss k' t.ot t.brcOt t.brmOt t.brlOt with ha
  have hcap' : CapsNonneg a := by rw [ha, hs]; exact hcap
  have hdem : a.demand i = 1 := by rw [ha, hs]; exact hd
  have hfull := C09_full_demand a _ e.load nat hnat i hdem
  have hmode : a.mode i = (t.ot i).mode := rfl
  have hz := C08_no_load a _ e.load hcap' nat hnat i
  constructor
  · intro hm
    refine hfull.1 (by_contra fun hh => ?_)
    have := hz hh (by rintro ⟨h1, -⟩; rw [hmode, hm] at h1; cases h1)
    rcases hl with hl | hl
    · exact hl this.1
    · exact hl this.2
  · intro hm
    refine hfull.2 (by_contra fun hh => ?_)
    have := hz (by rintro ⟨h1, -⟩; rw [hmode, hm] at h1; cases h1) hh
    rcases hl with hl | hl
    · exact hl this.1
    · exact hl this.2

/-- **C116, what does not depend on the run-up.** Two calculations of one house that differ in the run-up only: in a row without demand
both are off, without loads; in a row with demand in which both heat, or both cool, with a load and with the same humidity in the row
before, they give the same operative temperature. What is missing: the mode itself (`C116_violated`). -/
theorem C116_rows_partial {I : Type} [Fintype I] [DecidableEq I] {m N : ℕ} {h : House I (Fin m)} {hR : Fin m → ℝ}
    {data : Fin N → Record I (Fin m)} {hourly dMain dRunUp dRunUp' dBuild dBuild' : ℤ} {r r' : CalcResult I m N}
    (hcap : ∀ i, 0 ≤ h.capH i ∧ 0 ≤ h.capC i)
    (H : coreCalc h hR data hourly dMain dRunUp dBuild = .ok r) (H' : coreCalc h hR data hourly dMain dRunUp' dBuild' = .ok r')
    (k : ℕ) (hk : k + 1 < r.nMain.toNat) (hk' : k + 1 < r'.nMain.toNat) (hN : k + 1 < N) (i : I) :
    ((data ⟨k + 1, hN⟩).acDemand i ≤ 0 →
      (r.log ⟨k + 1, hk⟩).mode i = some .stopClose ∧ (r'.log ⟨k + 1, hk'⟩).mode i = some .stopClose ∧
      (r.log ⟨k + 1, hk⟩).lCs i = 0 ∧ (r'.log ⟨k + 1, hk'⟩).lCs i = 0 ∧ (r.log ⟨k + 1, hk⟩).lRs i = 0 ∧ (r'.log ⟨k + 1, hk'⟩).lRs i = 0) ∧
    ((data ⟨k + 1, hN⟩).acDemand i = 1 → (r.log ⟨k, by omega⟩).xR i = (r'.log ⟨k, by omega⟩).xR i →
      (r.log ⟨k + 1, hk⟩).mode i = (r'.log ⟨k + 1, hk'⟩).mode i →
      ((r.log ⟨k + 1, hk⟩).mode i = some .heating ∨ (r.log ⟨k + 1, hk⟩).mode i = some .cooling) →
      ((r.log ⟨k + 1, hk⟩).lCs i ≠ 0 ∨ (r.log ⟨k + 1, hk⟩).lRs i ≠ 0) →
      ((r'.log ⟨k + 1, hk'⟩).lCs i ≠ 0 ∨ (r'.log ⟨k + 1, hk'⟩).lRs i ≠ 0) →
      (r.log ⟨k + 1, hk⟩).thetaOt i = (r'.log ⟨k + 1, hk'⟩).thetaOt i) := by
  obtain ⟨k1, t0, t, e1, i1, Hp, Ht, l0, l1⟩ := logged_pair H k hk
  obtain ⟨k2, s0, s, e2, i2, Hp', Hs, q0, q1⟩ := logged_pair H' k hk'
  obtain rfl : k1 = ⟨k + 1, hN⟩ := Fin.ext e1
  obtain ⟨ivs, j1, -, hs1, hj1, E1⟩ := step_eqs Hp Ht
  obtain ⟨ivs', j2, -, hs2, hj2, E2⟩ := step_eqs Hp' Hs
  have hz1 := Except.ok.inj (hj1.symm.trans i1)
  have hz2 := Except.ok.inj (hj2.symm.trans i1)
  rw [l0, l1, q0, q1]
  have o1 := E1.ot i
  have o2 := E2.ot i
  rw [hz1] at o1
  rw [hz2] at o2
  have d1 : r.ss.acDemand ⟨k + 1, hN⟩ i = (data ⟨k + 1, hN⟩).acDemand i := by rw [hs1]; rfl
  have d2 : r'.ss.acDemand ⟨k + 1, hN⟩ i = (data ⟨k + 1, hN⟩).acDemand i := by rw [hs2]; rfl
  constructor
  · intro hd
    obtain ⟨a1, a2, -⟩ := step_no_demand Hp Ht i1 hcap hd
    obtain ⟨b1, b2, -⟩ := step_no_demand Hp' Hs i1 hcap hd
    have off : ∀ {a b x : ℝ} {m : OpMode} {dd : ℝ} {o : OtTarget}, getOtTargetAndHHum a b x m dd = .ok o → dd ≤ 0 → o.mode = .stopClose := by
      intro a b x m dd o ho hdd
      unfold getOtTargetAndHHum getOperationMode at ho
      simp only [bind, Except.bind, gt_iff_lt, if_neg (not_lt.2 hdd)] at ho
      rw [← Except.ok.inj ho]
    exact ⟨congrArg some (off o1 (by rw [d1]; exact hd)), congrArg some (off o2 (by rw [d2]; exact hd)), a1, b1, a2, b2⟩
  · intro hd hx hmm hhc hl hl'
    have hmm' : (t.ot i).mode = (s.ot i).mode := Option.some.inj hmm
    have hx' : t0.next.xR i = s0.next.xR i := hx
    rw [hx'] at o1
    obtain ⟨u1, u2⟩ := target_agrees o1 o2 hmm'
    obtain ⟨sh, sc⟩ := loaded_target Hp Ht i1 hcap i hd hl
    obtain ⟨sh', sc'⟩ := loaded_target Hp' Hs i1 hcap i hd hl'
    show t.thetaOt i = s.thetaOt i
    rcases hhc with h1 | h1
    · have h2 : (t.ot i).mode = .heating := Option.some.inj h1
      rw [sh h2, sh' (hmm' ▸ h2), u1]
    · have h2 : (t.ot i).mode = .cooling := Option.some.inj h1
      rw [sc h2, sc' (hmm' ▸ h2), u2]

/-- The hypotheses are met: without the day without demand in the run-up, all calculations of the example house heat in every row, and the
rows agree whatever the run-up. -/
example {hR : Fin 1 → ℝ} (hr : ∀ j, 0 < hR j) : ∃ r r', coreCalc exLatch hR (exLatchData 30) 4 7 30 3 = .ok r ∧
    coreCalc exLatch hR (exLatchData 30) 4 7 30 20 = .ok r' ∧ (∀ k, (r.log k).mode 0 = some .heating ∧ 0 < (r.log k).lCs 0) ∧
    (∀ k, (r'.log k).mode 0 = some .heating ∧ 0 < (r'.log k).lCs 0) ∧ ∀ k k', (r.log k).thetaOt 0 = (r'.log k').thetaOt 0 := by
  have hdt : (3600 / ((4 : ℤ) : ℝ)) = 900 := by norm_num
  have run : ∀ b : ℤ, 0 ≤ b → b ≤ 30 → ∃ r, coreCalc exLatch hR (exLatchData 30) 4 7 30 b = .ok r := by
    intro b hb hbd
    apply C21_program_partial
    · rw [hdt]; exact exLatch_wellFormed hr
    · exact fun _ => rfl
    · exact fun _ => rfl
    · exact fun _ _ => le_rfl
    all_goals omega
  obtain ⟨r, h1⟩ := run 3 (by omega) (by omega)
  obtain ⟨r', h2⟩ := run 20 (by omega) (by omega)
  have a := fun k => latch_heated hr (d := 30) (dMain := 7) (by omega) (by omega) (by omega) h1 k
  have b := fun k => latch_heated hr (d := 30) (dMain := 7) (by omega) (by omega) (by omega) h2 k
  exact ⟨r, r', h1, h2, fun k => ⟨(a k).1, (a k).2.1⟩, fun k => ⟨(b k).1, (b k).2.1⟩, fun k k' => (a k).2.2.trans (b k').2.2.symm⟩

end HLC
