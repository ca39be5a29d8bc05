import Verif.Props.Insulated

/-!
# C117: where insulation makes a house be heated
-/

namespace HLC

set_option linter.unusedSectionVars false

open Spec

/-! ## Comfort in clothing of any kind at the humidity of the start -/

/-- Heat balance of a person at rest without losses through clothing. -/
noncomputable def restHeat : ℝ :=
  getM - 3.05 * (10 : ℝ) ^ (-3 : ℤ) * (5733 - 6.99 * getM - coldP) - 1.7 * (10 : ℝ) ^ (-5 : ℤ) * getM * (5867 - coldP)

theorem restHeat_ge : 36 ≤ restHeat := by
  have hp := coldP_nonneg
  unfold restHeat getM
  norm_num
  linarith

theorem pmv_formula (clo th mr : ℝ) : getHHumAndPmv coldP th mr clo
    = pmvK * (restHeat + 0.08141 * (th - 34) - cloFactor clo (hHumR + hHumC) * (34.0718 - getThetaOt hHumR hHumC mr th)) := by
  have hmax : max (0.42 * (getM - 58.15)) (0 : ℝ) = 0 := by unfold getM; norm_num
  unfold getHHumAndPmv getPmv cloFactor pmvK restHeat
  simp only [hmax]
  simp only [getM]
  ring

theorem heavy_bounds : 3.4 ≤ pmvG ∧ pmvG ≤ 3.7 := by
  obtain ⟨h1, h2⟩ := hHum_bounds
  unfold pmvG
  generalize hHumR + hHumC = h at *
  unfold cloFactor
  rw [fcl_heavy]
  unfold getIcl
  have : (0 : ℝ) < 1 + 1.1 * 0.155 * 1.1599725 * h := by nlinarith
  constructor
  · rw [le_div_iff₀ this]; nlinarith
  · rw [div_le_iff₀ this]; nlinarith

/-- Heat transfer through clothing of the middle kind. -/
noncomputable def midG : ℝ := cloFactor 0.7 (hHumR + hHumC)

theorem mid_bounds : 4.4 ≤ midG ∧ midG ≤ 4.7 := by
  obtain ⟨h1, h2⟩ := hHum_bounds
  unfold midG
  generalize hHumR + hHumC = h at *
  unfold cloFactor
  rw [fcl_middle]
  unfold getIcl
  have : (0 : ℝ) < 1 + 0.7 * 0.155 * 1.1199825 * h := by nlinarith
  constructor
  · rw [le_div_iff₀ this]; nlinarith
  · rw [div_le_iff₀ this]; nlinarith

theorem ot_same (x : ℝ) : getThetaOt hHumR hHumC x x = x := by
  have := add_pos hHumR_pos hHumC_pos
  unfold getThetaOt; rw [← add_mul, mul_div_cancel_left₀ _ this.ne']

theorem mild_le : mildT ≤ 25 := by
  have h := mild_pmv
  unfold heavyPmv at h
  rw [pmv_formula, ot_same] at h
  have hk := pmvK_mem.1
  have h0 := restHeat_ge
  obtain ⟨g1, g2⟩ := heavy_bounds
  by_contra hc
  push Not at hc
  have hcl : cloFactor cloHeavy (hHumR + hHumC) = pmvG := rfl
  rw [hcl] at h
  have : 0 < restHeat + 0.08141 * (mildT - 34) - pmvG * (34.0718 - mildT) := by
    rcases le_total mildT 34.0718 with h3 | h3
    · have : pmvG * (34.0718 - mildT) ≤ 3.7 * 9.0718 :=
        mul_le_mul g2 (by linarith) (by linarith) (by norm_num)
      linarith
    · have : 0 ≤ pmvG * (mildT - 34.0718) := mul_nonneg (by linarith) (by linarith)
      nlinarith
  have := mul_pos hk this
  linarith

/-- Weight of the air in the operative temperature where the surface is half as far off as the air. -/
noncomputable def halfW : ℝ := (hHumR / 2 + hHumC) / (hHumR + hHumC)

theorem halfW_mem : 0.74 ≤ halfW ∧ halfW ≤ 0.76 := by
  obtain ⟨h1, h2⟩ := hHum_bounds
  have h4 : hHumC = 4 := rfl
  unfold halfW
  rw [h4] at h1 h2 ⊢
  constructor
  · rw [le_div_iff₀ (by linarith)]; linarith
  · rw [div_le_iff₀ (by linarith)]; linarith

/-- Heat balance, in clothing of the middle kind, of a person in the room at `mildT`. -/
noncomputable def midDeficit : ℝ := restHeat + 0.08141 * (mildT - 34) - midG * (34.0718 - mildT)

theorem midDeficit_neg : midDeficit < 0 := by
  have h := mild_pmv
  have h25 := mild_le
  obtain ⟨-, o2⟩ := C03_clothing_order coldP mildT mildT (by rw [ot_same]; linarith)
  have h1 : getHHumAndPmv coldP mildT mildT 0.7 ≤ heavyPmv mildT mildT := o2
  rw [h, pmv_formula, ot_same] at h1
  have hk := pmvK_mem.1
  by_contra hc
  push Not at hc
  have : 0 ≤ pmvK * midDeficit := mul_nonneg hk.le hc
  unfold midDeficit midG at this
  linarith

/-- How much warmer than `mildT` the air of the insulated house must be for the windows to be opened. -/
noncomputable def overT : ℝ := -midDeficit / (0.08141 + midG * halfW)

theorem overT_pos : 0 < overT := by
  obtain ⟨g1, -⟩ := mid_bounds
  obtain ⟨w1, -⟩ := halfW_mem
  have := midDeficit_neg
  exact div_pos (by linarith) (by nlinarith)

theorem ot_half (s z : ℝ) : getThetaOt hHumR hHumC (s + z / 2) (s + z) = s + halfW * z := by
  have := add_pos hHumR_pos hHumC_pos
  unfold getThetaOt halfW
  field_simp
  ring

/-- There the middle clothing is felt as neutral. -/
theorem over_neutral : getHHumAndPmv coldP (mildT + overT) (mildT + overT / 2) cloMiddle = 0 := by
  rw [pmv_formula, ot_half]
  obtain ⟨g1, -⟩ := mid_bounds
  obtain ⟨w1, -⟩ := halfW_mem
  have hne : (0.08141 : ℝ) + midG * halfW ≠ 0 := by nlinarith
  have h : overT * (0.08141 + midG * halfW) = -midDeficit := div_mul_cancel₀ _ hne
  have hcl : cloFactor cloMiddle (hHumR + hHumC) = midG := rfl
  rw [hcl]
  unfold midDeficit at h
  rw [mul_eq_zero]
  right
  linarith

theorem over_ot : mildT + halfW * overT ≤ 26.8 := by
  have h := over_neutral
  rw [pmv_formula, ot_half] at h
  have hcl : cloFactor cloMiddle (hHumR + hHumC) = midG := rfl
  rw [hcl] at h
  have h2 := (mul_eq_zero.1 h).resolve_left pmvK_mem.1.ne'
  obtain ⟨g1, g2⟩ := mid_bounds
  have h0 := restHeat_ge
  have h15 := mild_gt
  have hz := overT_pos
  by_contra hc
  push Not at hc
  rcases le_total (mildT + halfW * overT) 34.0718 with h3 | h3
  · have : midG * (34.0718 - (mildT + halfW * overT)) ≤ 4.7 * 7.2718 := mul_le_mul g2 (by linarith) (by linarith) (by norm_num)
    linarith
  · have : midG * (34.0718 - (mildT + halfW * overT)) ≤ 0 := mul_nonpos_of_nonneg_of_nonpos (by linarith) (by linarith)
    linarith

theorem over_le : mildT + overT ≤ 31 := by
  have h := over_ot
  obtain ⟨w1, -⟩ := halfW_mem
  have h15 := mild_gt
  have hz := overT_pos
  nlinarith

/-! ## The house -/

/-- A day with the pane at the outer side at `mildT`, outdoor air at `air`, heat `g` released in the room and demand `dm`. -/
noncomputable def exRecord (air g dm : Fin 96 → ℝ) : Fin 96 → Record (Fin 1) (Fin 1) := fun k =>
  { thetaO := air k
    xO := startHumidity
    vLocal := fun _ => 0
    qGen := fun _ => g k
    xGen := fun _ => 0
    nHum := fun _ => 0
    acDemand := fun _ => dm k
    qTrsSol := fun _ => 0
    thetaOSol := fun _ => mildT }

/-- Outdoor air of a day with a frosty quarter of an hour. -/
noncomputable def frostAir (k : Fin 96) : ℝ := if k = 1 then -20 else mildT

/-- Much heat is released in the room before the frost, and what the ventilation loses then. -/
noncomputable def frostGain (k : Fin 96) : ℝ :=
  if k = 0 then 64.76 * overT + 40.2 * (mildT - 15) else if k = 1 then 12.06 * (mildT + 20) else 0

/-- Demand for air conditioning in two steps. -/
noncomputable def frostDemand (k : Fin 96) : ℝ := if k = 1 ∨ k = 2 then 1 else 0

/-- The records of that day. -/
noncomputable def exFrost : Fin 96 → Record (Fin 1) (Fin 1) := exRecord frostAir frostGain frostDemand

/-- One tight room behind a pane of resistance `R`. -/
noncomputable def exPane (R : ℝ) : House (Fin 1) (Fin 1) := insulated exLatch fun _ => R

theorem exPane_zero : exPane 0 = exLatch := rfl

theorem exLatch_storageless : Storageless exLatch := by
  constructor <;> intros <;> simp [exLatch, exCold]

section
variable {hR : Fin 1 → ℝ} {R : ℝ} {ss : PreCalc (Fin 1) (Fin 1) 96} {n : ℤ} {k : Fin 96} {c : Cond (Fin 1) (Fin 1)} {t : TickVars (Fin 1) (Fin 1)}
  {air g dm : Fin 96 → ℝ}

theorem exPane_wellFormed (hr : ∀ j, 0 < hR j) (h0 : 0 ≤ R) : WellFormed (exPane R) hR 900 :=
  insulated_wellFormed (exLatch_wellFormed hr) fun _ => by simpa [exLatch, exCold] using h0

theorem exPane_surfaces (i : Fin 1) : surfaces (exPane R) i = {0} := exCold_surfaces i

/-- The equations of a step. -/
theorem pane_step (hr : ∀ j, 0 < hR j) (h0 : 0 ≤ R) (Hp : makePreCalc (exPane R) hR 900 (exRecord air g dm) = .ok ss) (H : runTick n 900 ss c = .ok t)
    (hk : pyIndex 96 n = .ok k) (hc : Empty c) :
    Empty t.next ∧ (1 + 2.5 * R) * t.thetaMrt 0 = mildT + 2.5 * R * t.thetaR 0 ∧
      t.thetaOt 0 = getThetaOt hHumR hHumC (t.thetaMrt 0) (t.thetaR 0) ∧
      40.2 * (t.thetaR 0 - c.thetaR 0) = 25 * (t.thetaMrt 0 - t.thetaR 0)
        + (if (t.ot 0).mode = .stopOpen then 60.3 else 12.06) * (air k - t.thetaR 0) + g k + t.lc 0 := by
  have hw := exPane_wellFormed hr h0
  obtain ⟨a1, a2, S⟩ := step_averages hw (insulated_storageless exLatch_storageless) (fun _ _ => rfl) Hp H hk hc.absorbed hc.transmitted
  obtain ⟨ivs, k', hi, hs, hk', e⟩ := step_eqs Hp H
  obtain rfl : k' = k := Except.ok.inj (hk'.symm.trans hk)
  have hM : t.thetaMrt 0 = t.thetaS 0 := by
    rw [e.thetaMrt, hs]
    refine (fMrtHum_mulVec (exPane R) _ 0).trans ?_
    rw [exPane_surfaces, Finset.sum_singleton]
    simp [exPane, insulated, exLatch, exCold]
  have hrm : roomMrt (exPane R) hR 0 t.thetaS = t.thetaS 0 := by
    unfold roomMrt
    rw [exPane_surfaces, Finset.sum_singleton, Finset.sum_singleton]
    have h1 : (exPane R).area 0 * hR 0 ≠ 0 := mul_ne_zero (hw.area_pos 0).ne' (hr 0).ne'
    exact mul_div_cancel_left₀ _ h1
  have hsol : (exPane R).qSol (exRecord air g dm k') 0 = 0 := by simp [House.qSol, exRecord]
  have hS := S.surface 0
  have hroom : (exPane R).room 0 = 0 := rfl
  rw [hroom, hrm, hsol] at hS
  have h13 := C13_operative_temperature Hp H 0
  rw [exPane_surfaces, Finset.sum_singleton] at h13
  have hv : t.vOut 0 = if (t.ot 0).mode = .stopOpen then 0.05 else 0.01 := by
    have hl : t.vLeak = fun _ => 0 := by
      have := e.vLeak
      rw [hs] at this
      exact leak_tight this
    rw [e.vOut]
    have h0 : t.vNtrl 0 = if (t.ot 0).mode = .stopOpen then 0.04 else 0 := by
      rw [e.vNtrl, hs]; simp [Tick.vNtrl, preCalcOf, exPane, insulated, exLatch, exCold]
    simp only [Tick.vOut, hl, h0]
    rw [hs]
    split_ifs <;> norm_num [preCalcOf, House.vMec, exPane, insulated, exLatch, exCold, exRecord]
  have hq : t.qHum 0 = 0 := by rw [e.qHum, hs]; simp [Tick.qHum, preCalcOf, exRecord]
  have hroom := S.room 0
  simp only [convection, exPane_surfaces, Finset.sum_singleton, hq, hv] at hroom
  refine ⟨⟨a1, a2⟩, ?_, ?_, ?_⟩
  · rw [hM]
    simp [exPane, insulated, exLatch, exCold, exRecord] at hS
    linarith
  · rw [h13, hM]
    unfold getThetaOt
    simp [exPane, insulated, exLatch, exCold]
    ring
  · rw [hM]
    split_ifs at hroom ⊢ <;>
    · norm_num [exPane, insulated, exLatch, exCold, exRecord, airCap] at hroom
      norm_num
      linarith

/-- The humidity stays as it is while nothing is cooled. -/
theorem pane_humid (hr : ∀ j, 0 < hR j) (h0 : 0 ≤ R) (Hp : makePreCalc (exPane R) hR 900 (exRecord air g dm) = .ok ss) (H : runTick n 900 ss c = .ok t)
    (hk : pyIndex 96 n = .ok k) (hl : 0 ≤ t.lc 0) (hx : ∀ i, c.xR i = startHumidity) (hf : ∀ i, c.xFrt i = startHumidity) :
    (∀ i, t.xR i = startHumidity) ∧ ∀ i, t.xFrt i = startHumidity := by
  have hw := exPane_wellFormed hr h0
  have hn : NoMoisture (exRecord air g dm k) := ⟨fun _ => rfl, fun _ => rfl⟩
  have hmr : MoistRecord (exRecord air g dm k) := ⟨startHumidity_pos.le, fun _ => le_rfl, fun _ => le_rfl, fun _ => le_rfl⟩
  have a := step_humid_ceiling (hi := startHumidity) hw (fun i l => rfl) Hp H hk (fun _ => le_rfl) hn le_rfl (fun i => (hx i).le) fun i => (hf i).le
  have b := step_humid_floor (lo := startHumidity) hw Hp H hk startHumidity_pos.le hmr
    (fun i => C20_only_when_cooled Hp H i (by rw [Subsingleton.elim i 0]; linarith)) le_rfl (fun i => (hx i).ge) fun i => (hf i).ge
  exact ⟨fun i => le_antisymm (a.1 i) (b.1 i), fun i => le_antisymm (a.2 i) (b.2.1 i)⟩

/-- The mode of a step. -/
theorem pane_mode (Hp : makePreCalc (exPane R) hR 900 (exRecord air g dm) = .ok ss) (H : runTick n 900 ss c = .ok t)
    (hk : pyIndex 96 n = .ok k) (hx : ∀ i, c.xR i = startHumidity) :
    getOperationMode ((dm k)) (c.mode 0) (heavyPmv (c.thetaR 0) (c.thetaMrt 0))
        (getHHumAndPmv coldP (c.thetaR 0) (c.thetaMrt 0) cloMiddle) (getHHumAndPmv coldP (c.thetaR 0) (c.thetaMrt 0) cloLight) = .ok (t.ot 0).mode ∧
      ((t.ot 0).mode = .heating → (t.ot 0).thetaLower = warmT) := by
  obtain ⟨ivs, k', hi, hs, hk', e⟩ := step_eqs Hp H
  obtain rfl : k' = k := Except.ok.inj (hk'.symm.trans hk)
  have hot := e.ot 0
  have hp : getPvR (c.xR 0) = coldP := by rw [hx, ← startHumidity_eq]; rfl
  have hd : ss.acDemand k' 0 = (exRecord air g dm k').acDemand 0 := by rw [hs]; rfl
  constructor
  · unfold getOtTargetAndHHum at hot
    simp only [bind, Except.bind, hp, hd] at hot
    split at hot
    · cases hot
    rename_i m hm
    have := Except.ok.inj hot
    rw [← this]
    exact hm
  · intro hm
    obtain ⟨w1, w2⟩ := ot_coefs hot
    have := ((C04_target_realises_pmv _ _ _ _ _ _ hot).1 hm).1
    rw [w1, w2, hp] at this
    exact target_warm this

/-- No load unless the mode is heating or cooling. -/
theorem pane_off (Hp : makePreCalc (exPane R) hR 900 (exRecord air g dm) = .ok ss) (H : runTick n 900 ss c = .ok t)
    (hm : (t.ot 0).mode = .stopClose ∨ (t.ot 0).mode = .stopOpen) : t.lc 0 = 0 := by
  obtain ⟨ivs, k', hi, hs, hk', E⟩ := step_eqs Hp H
  obtain ⟨nat, p1, -, hnat, -, -⟩ := calc_passes E.load
  set a := Tick.loadInput ss k' t.ot t.brcOt t.brmOt t.brlOt with ha
  have hcap' : CapsNonneg a := by rw [ha, hs]; exact fun i => by norm_num [Tick.loadInput, preCalcOf, exPane, insulated, exLatch, exCold]
  have hmode : a.mode 0 = (t.ot 0).mode := rfl
  refine (C08_no_load a _ E.load hcap' nat hnat 0 ?_ ?_).1
  · rintro ⟨h1, -⟩; rw [hmode] at h1; rcases hm with h | h <;> rw [h] at h1 <;> cases h1
  · rintro ⟨h1, -⟩; rw [hmode] at h1; rcases hm with h | h <;> rw [h] at h1 <;> cases h1

/-- The state before the frosty quarter of an hour. -/
theorem first_hot (hr : ∀ j, 0 < hR j) (h0 : 0 ≤ R) (Hp : makePreCalc (exPane R) hR 900 exFrost = .ok ss)
    (H : runTick 0 900 ss (initialConditions (Fin 1) (Fin 1)) = .ok t) :
    Empty t.next ∧ t.next.mode 0 = .stopClose ∧ (1 + 2.5 * R) * t.next.thetaMrt 0 = mildT + 2.5 * R * t.next.thetaR 0 ∧
      40.2 * (t.next.thetaR 0 - mildT) = 25 * (t.next.thetaMrt 0 - t.next.thetaR 0) + 12.06 * (mildT - t.next.thetaR 0) + 64.76 * overT ∧
      (∀ i, t.next.xR i = startHumidity) ∧ ∀ i, t.next.xFrt i = startHumidity := by
  have hk : pyIndex 96 0 = .ok (0 : Fin 96) := rfl
  have hx : ∀ i, (initialConditions (Fin 1) (Fin 1)).xR i = startHumidity := fun _ => startHumidity_eq
  have hd : frostDemand 0 = 0 := by simp [frostDemand]
  have hm : (t.ot 0).mode = .stopClose := by
    have h := (pane_mode Hp H hk hx).1
    rw [hd] at h
    simp only [getOperationMode, gt_iff_lt, lt_irrefl, if_false] at h
    exact (Except.ok.inj h).symm
  have hl := pane_off Hp H (.inl hm)
  obtain ⟨a, b, -, e⟩ := pane_step hr h0 Hp H hk ⟨fun _ _ => rfl, fun _ _ => rfl⟩
  obtain ⟨u, v⟩ := pane_humid hr h0 Hp H hk hl.ge hx (fun _ => startHumidity_eq)
  have h15 : (initialConditions (Fin 1) (Fin 1)).thetaR 0 = 15 := rfl
  have hg : frostGain 0 = 64.76 * overT + 40.2 * (mildT - 15) := by simp [frostGain]
  have ho : frostAir 0 = mildT := by simp [frostAir]
  rw [hl, h15, hm, hg, ho, if_neg (by decide)] at e
  refine ⟨a, hm, b, ?_, u, v⟩
  show 40.2 * (t.thetaR 0 - mildT) = 25 * (t.thetaMrt 0 - t.thetaR 0) + 12.06 * (mildT - t.thetaR 0) + 64.76 * overT
  linarith

/-- A room that is not felt cold in heavy clothing and not warm in the middle kind. -/
theorem mild_modes {th mr : ℝ} (h1 : mildT ≤ th) (h2 : mildT ≤ mr) (hot : getThetaOt hHumR hHumC mr th ≤ 34)
    (h3 : getHHumAndPmv coldP th mr cloMiddle < 0) :
    getOperationMode 1 .stopClose (heavyPmv th mr) (getHHumAndPmv coldP th mr cloMiddle) (getHHumAndPmv coldP th mr cloLight) = .ok .stopClose := by
  obtain ⟨o1, -⟩ := C03_clothing_order coldP th mr (by linarith)
  have hl : getHHumAndPmv coldP th mr cloLight < 0.7 := by
    have : getHHumAndPmv coldP th mr cloLight ≤ getHHumAndPmv coldP th mr cloMiddle := o1
    linarith
  have hh : -0.7 < heavyPmv th mr := by
    have h := heavyPmv_sub mildT mildT th mr
    rw [mild_pmv] at h
    have hC0 := hHumC_pos
    have hR0 := hHumR_pos
    have : 0 ≤ pmvK * (0.0014 * 58.15 * (th - mildT) + pmvG * ((hHumR * (mr - mildT) + hHumC * (th - mildT)) / (hHumR + hHumC))) := by
      refine mul_nonneg pmvK_mem.1.le (add_nonneg (by nlinarith) (mul_nonneg pmvG_mem.1.le (div_nonneg ?_ (by linarith))))
      exact add_nonneg (mul_nonneg hR0.le (by linarith)) (mul_nonneg hC0.le (by linarith))
    linarith
  simp only [getOperationMode, gt_iff_lt, zero_lt_one, if_true, ge_iff_le, if_neg (not_le.2 hl), if_neg (not_le.2 hh), if_neg (not_le.2 h3)]

/-- Behind the single pane the air is at most as warm as needed for the middle clothing to be felt cool. -/
theorem mid_cool {y : ℝ} (h0 : 0 ≤ y) (h1 : y ≤ 64.76 / 77.26 * overT) :
    getThetaOt hHumR hHumC mildT (mildT + y) ≤ 34 ∧ getHHumAndPmv coldP (mildT + y) mildT cloMiddle < 0 := by
  have hn := over_neutral
  have ho := over_ot
  rw [pmv_formula, ot_half] at hn
  have hn := (mul_eq_zero.1 hn).resolve_left pmvK_mem.1.ne'
  have hz := overT_pos
  have hw := halfW_mem
  obtain ⟨g1, g2⟩ := mid_bounds
  have hC0 := hHumC_pos
  have hR0 := hHumR_pos
  have hcl : cloFactor cloMiddle (hHumR + hHumC) = midG := rfl
  have hot : getThetaOt hHumR hHumC mildT (mildT + y) ≤ mildT + halfW * overT := by
    rw [← ot_half]
    unfold getThetaOt
    rw [div_le_div_iff_of_pos_right (by linarith)]
    nlinarith
  refine ⟨by linarith, ?_⟩
  rw [pmv_formula, hcl]
  rw [hcl] at hn
  have : restHeat + 0.08141 * (mildT + y - 34) - midG * (34.0718 - getThetaOt hHumR hHumC mildT (mildT + y)) < 0 := by
    have := mul_le_mul_of_nonneg_left hot (show (0 : ℝ) ≤ midG by linarith)
    linarith
  nlinarith [pmvK_mem.1]

/-- The first three steps of the calculation. -/
theorem three_steps {r : CalcResult (Fin 1) 1 96} (H : coreCalc (exPane R) hR (exRecord air g dm) 4 1 0 0 = .ok r) :
    ∃ t0 t1 t2 : TickVars (Fin 1) (Fin 1), makePreCalc (exPane R) hR 900 (exRecord air g dm) = .ok r.ss ∧
      runTick 0 900 r.ss (initialConditions (Fin 1) (Fin 1)) = .ok t0 ∧ runTick 1 900 r.ss t0.next = .ok t1 ∧ runTick 2 900 r.ss t1.next = .ok t2 ∧
      ∀ k : Fin r.nMain.toNat, (k.1 = 0 → r.log k = LogRow.ofTick t0) ∧ (k.1 = 1 → r.log k = LogRow.ofTick t1) ∧
        (k.1 = 2 → r.log k = LogRow.ofTick t2) := by
  obtain ⟨gs, c0, up, mn, T⟩ := coreCalc_ok H
  have hc0 := start_eq (fun _ => rfl) T
  subst hc0
  have hdt : (3600 / ((4 : ℤ) : ℝ)) = 900 := by norm_num
  have Hp := T.pre
  have hu := T.runUp
  have hm := T.main
  have hlog := T.logged
  have hlen := T.mn_length
  rw [hdt] at Hp hu hm
  have z : pyRange (-((0 : ℤ) * 4 * 24)) 0 = [] := by simp [pyRange]
  have z3 : pyRange 0 ((1 : ℤ) * 4 * 24) = 0 :: 1 :: 2 :: pyRange 3 96 := by decide
  rw [z] at hu
  cases hu
  rw [z3] at hm
  cases hm with
  | cons a0 hm =>
    cases hm with
    | cons a1 hm =>
      cases hm with
      | cons a2 hm =>
        rename_i t0 t1 t2 ts
        refine ⟨t0, t1, t2, Hp, a0, a1, a2, fun k => ⟨fun hk => ?_, fun hk => ?_, fun hk => ?_⟩⟩
        all_goals
          rw [hlog k (by simp [hk])]
          simp [hk]

/-- The house with the single pane is never heated. -/
theorem thin_never {r : CalcResult (Fin 1) 1 96} (hr : ∀ j, 0 < hR j) (H : coreCalc exLatch hR exFrost 4 1 0 0 = .ok r) (k : Fin r.nMain.toNat) :
    (r.log k).lCs 0 = 0 := by
  rw [← exPane_zero] at H
  obtain ⟨t0, t1, t2, Hp, a0, a1, a2, hlog⟩ := three_steps H
  obtain ⟨m0, m1, m2, m3, m4, m5⟩ := first_hot hr le_rfl Hp a0
  have k1 : pyIndex 96 1 = .ok (1 : Fin 96) := rfl
  have k2 : pyIndex 96 2 = .ok (2 : Fin 96) := rfl
  have hz := overT_pos
  have e0 : t0.next.thetaMrt 0 = mildT := by linarith
  have y0 : t0.next.thetaR 0 = mildT + 64.76 / 77.26 * overT := by rw [e0] at m3; linarith
  have hm1 : (t1.ot 0).mode = .stopClose := by
    have h := (pane_mode Hp a1 k1 m4).1
    have hd : frostDemand 1 = 1 := by simp [frostDemand]
    obtain ⟨c1, c2⟩ := mid_cool (y := 64.76 / 77.26 * overT) (by positivity) le_rfl
    rw [hd, m1, y0, e0, mild_modes (by linarith [show 0 < 64.76 / 77.26 * overT by positivity]) le_rfl c1 c2] at h
    exact (Except.ok.inj h).symm
  have l1 := pane_off Hp a1 (.inl hm1)
  obtain ⟨b0, b1, -, b3⟩ := pane_step hr le_rfl Hp a1 k1 m0
  obtain ⟨u, v⟩ := pane_humid hr le_rfl Hp a1 k1 l1.ge m4 m5
  have e1 : t1.thetaMrt 0 = mildT := by linarith
  have g1 : frostGain 1 = 12.06 * (mildT + 20) := by simp [frostGain]
  have o1 : frostAir 1 = -20 := by simp [frostAir]
  rw [l1, e1, y0, hm1, g1, o1, if_neg (by decide)] at b3
  have y1 : t1.thetaR 0 = mildT + 40.2 / 77.26 * (64.76 / 77.26 * overT) := by linarith
  have hm2 : (t2.ot 0).mode = .stopClose := by
    have h := (pane_mode Hp a2 k2 u).1
    have hd : frostDemand 2 = 1 := by simp [frostDemand]
    obtain ⟨c1, c2⟩ := mid_cool (y := 40.2 / 77.26 * (64.76 / 77.26 * overT)) (by positivity) (by nlinarith)
    have n1 : t1.next.mode 0 = .stopClose := hm1
    have n2 : t1.next.thetaR 0 = mildT + 40.2 / 77.26 * (64.76 / 77.26 * overT) := y1
    have n3 : t1.next.thetaMrt 0 = mildT := e1
    rw [hd, n1, n2, n3, mild_modes (by linarith [show 0 < 40.2 / 77.26 * (64.76 / 77.26 * overT) by positivity]) le_rfl c1 c2] at h
    exact (Except.ok.inj h).symm
  have l2 := pane_off Hp a2 (.inl hm2)
  obtain ⟨q0, q1, q2⟩ := hlog k
  by_cases h1 : k.1 = 1
  · rw [q1 h1]; exact l1
  by_cases h2 : k.1 = 2
  · rw [q2 h2]; exact l2
  obtain ⟨k', c, t, e, -⟩ := logged_step H k
  refine (C08_program (fun i => by norm_num [exPane, insulated, exLatch, exCold]) H k k' e 0 ?_).1
  have d1 : k' ≠ 1 := by rintro rfl; exact h1 e.symm
  have d2 : k' ≠ 2 := by rintro rfl; exact h2 e.symm
  simp [exFrost, exRecord, frostDemand, d1, d2]

/-- The insulated house is aired and then heated. -/
theorem thick_heated {r : CalcResult (Fin 1) 1 96} (hr : ∀ j, 0 < hR j) (H : coreCalc (exPane 0.4) hR exFrost 4 1 0 0 = .ok r)
    (k : Fin r.nMain.toNat) : (k.1 = 1 → (r.log k).mode 0 = some .stopOpen) ∧ (k.1 = 2 → (r.log k).mode 0 = some .heating ∧ 0 < (r.log k).lCs 0) ∧
      0 ≤ (r.log k).lCs 0 := by
  have hr0 : (0 : ℝ) ≤ 0.4 := by norm_num
  obtain ⟨t0, t1, t2, Hp, a0, a1, a2, hlog⟩ := three_steps H
  obtain ⟨m0, m1, m2, m3, m4, m5⟩ := first_hot hr hr0 Hp a0
  have k1 : pyIndex 96 1 = .ok (1 : Fin 96) := rfl
  have k2 : pyIndex 96 2 = .ok (2 : Fin 96) := rfl
  have hz := overT_pos
  have hC0 := hHumC_pos
  have hR0 := hHumR_pos
  have h15 := mild_gt
  have h25 := mild_le
  have h31 := over_le
  have y0 : t0.next.thetaR 0 = mildT + overT := by linarith
  have e0 : t0.next.thetaMrt 0 = mildT + overT / 2 := by rw [y0] at m2; linarith
  have hm1 : (t1.ot 0).mode = .stopOpen := by
    have h := (pane_mode Hp a1 k1 m4).1
    have hd : frostDemand 1 = 1 := by simp [frostDemand]
    have hot : getThetaOt hHumR hHumC (mildT + overT / 2) (mildT + overT) ≤ 34.0718 := by rw [ot_half]; linarith [over_ot]
    obtain ⟨o1, o2⟩ := C03_clothing_order coldP (mildT + overT) (mildT + overT / 2) hot
    have hmid := over_neutral
    have hl : getHHumAndPmv coldP (mildT + overT) (mildT + overT / 2) cloLight < 0.7 := by
      have : getHHumAndPmv coldP (mildT + overT) (mildT + overT / 2) cloLight
        ≤ getHHumAndPmv coldP (mildT + overT) (mildT + overT / 2) cloMiddle := o1
      linarith
    have hh : -0.7 < heavyPmv (mildT + overT) (mildT + overT / 2) := by
      have : getHHumAndPmv coldP (mildT + overT) (mildT + overT / 2) cloMiddle ≤ heavyPmv (mildT + overT) (mildT + overT / 2) := o2
      linarith
    rw [hd, m1, y0, e0] at h
    simp only [getOperationMode, gt_iff_lt, zero_lt_one, if_true, ge_iff_le, if_neg (not_le.2 hl), if_neg (not_le.2 hh), if_pos hmid.ge] at h
    exact (Except.ok.inj h).symm
  have l1 := pane_off Hp a1 (.inr hm1)
  obtain ⟨b0, b1, -, b3⟩ := pane_step hr hr0 Hp a1 k1 m0
  obtain ⟨u, v⟩ := pane_humid hr hr0 Hp a1 k1 l1.ge m4 m5
  have g1 : frostGain 1 = 12.06 * (mildT + 20) := by simp [frostGain]
  have o1 : frostAir 1 = -20 := by simp [frostAir]
  rw [l1, y0, hm1, g1, o1, if_pos rfl] at b3
  have e1 : t1.thetaMrt 0 = (mildT + t1.thetaR 0) / 2 := by linarith
  have y1 : t1.thetaR 0 ≤ 8 := by rw [e1] at b3; linarith
  have hm2 : (t2.ot 0).mode = .heating := by
    have h := (pane_mode Hp a2 k2 u).1
    have hd : frostDemand 2 = 1 := by simp [frostDemand]
    have n1 : t1.next.mode 0 = .stopOpen := hm1
    have n2 : t1.next.thetaR 0 = t1.thetaR 0 := rfl
    have n3 : t1.next.thetaMrt 0 = t1.thetaMrt 0 := rfl
    obtain ⟨s1, s2⟩ := hHum_bounds
    have hc4 : hHumC = 4 := rfl
    have hmr : t1.thetaMrt 0 ≤ 16.5 := by linarith
    have hh : heavyPmv (t1.thetaR 0) (t1.thetaMrt 0) ≤ -0.7 := by
      have hs := heavyPmv_sub (t1.thetaR 0) (t1.thetaMrt 0) 15 15
      have hc : heavyPmv 15 15 ≤ -0.7 := cold_pmv.1
      have : 0 ≤ pmvK * (0.0014 * 58.15 * (15 - t1.thetaR 0)
          + pmvG * ((hHumR * (15 - t1.thetaMrt 0) + hHumC * (15 - t1.thetaR 0)) / (hHumR + hHumC))) := by
        refine mul_nonneg pmvK_mem.1.le (add_nonneg (by linarith) (mul_nonneg pmvG_mem.1.le (div_nonneg ?_ (by linarith))))
        rw [hc4] at *
        nlinarith
      linarith
    have hot : getThetaOt hHumR hHumC (t1.thetaMrt 0) (t1.thetaR 0) ≤ 34.0718 := by
      unfold getThetaOt
      rw [div_le_iff₀ (by linarith), hc4]
      nlinarith
    obtain ⟨p1, p2⟩ := C03_clothing_order coldP (t1.thetaR 0) (t1.thetaMrt 0) hot
    have hl : getHHumAndPmv coldP (t1.thetaR 0) (t1.thetaMrt 0) cloLight < 0.7 := by
      have q1 : getHHumAndPmv coldP (t1.thetaR 0) (t1.thetaMrt 0) cloLight ≤ getHHumAndPmv coldP (t1.thetaR 0) (t1.thetaMrt 0) cloMiddle := p1
      have q2 : getHHumAndPmv coldP (t1.thetaR 0) (t1.thetaMrt 0) cloMiddle ≤ heavyPmv (t1.thetaR 0) (t1.thetaMrt 0) := p2
      linarith
    rw [hd, n1, n2, n3] at h
    simp only [getOperationMode, gt_iff_lt, zero_lt_one, if_true, ge_iff_le, if_neg (not_le.2 hl), if_pos hh] at h
    exact (Except.ok.inj h).symm
  have l2 : 0 < t2.lc 0 := by
    obtain ⟨c0, c1, c2, c3⟩ := pane_step hr hr0 Hp a2 k2 b0
    have hd : frostDemand 2 = 1 := by simp [frostDemand]
    have ht := ((step_target Hp a2 k2 (fun i => by norm_num [exPane, insulated, exLatch, exCold]) 0 hd).1 hm2).1
    rw [(pane_mode Hp a2 k2 u).2 hm2, c2] at ht
    have g2 : frostGain 2 = 0 := by simp [frostGain]
    have o2 : frostAir 2 = mildT := by simp [frostAir]
    have n2 : t1.next.thetaR 0 = t1.thetaR 0 := rfl
    rw [hm2, g2, o2, n2, if_neg (by decide)] at c3
    have e2 : t2.thetaMrt 0 = (mildT + t2.thetaR 0) / 2 := by linarith
    by_contra hneg
    push Not at hneg
    have y2 : t2.thetaR 0 ≤ mildT := by rw [e2] at c3; linarith
    have hwm := mild_lt_warm
    unfold getThetaOt at ht
    rw [le_div_iff₀ (by linarith)] at ht
    have : t2.thetaMrt 0 ≤ mildT := by linarith
    nlinarith
  obtain ⟨q0, q1, q2⟩ := hlog k
  refine ⟨fun h1 => ?_, fun h2 => ?_, ?_⟩
  · rw [q1 h1]; exact congrArg some hm1
  · rw [q2 h2]; exact ⟨congrArg some hm2, l2⟩
  by_cases h1 : k.1 = 1
  · rw [q1 h1]; exact l1.ge
  by_cases h2 : k.1 = 2
  · rw [q2 h2]; exact l2.le
  obtain ⟨k', c, t, e, -⟩ := logged_step H k
  refine (C08_program (fun i => by norm_num [exPane, insulated, exLatch, exCold]) H k k' e 0 ?_).1.ge
  have d1 : k' ≠ 1 := by rintro rfl; exact h1 e.symm
  have d2 : k' ≠ 2 := by rintro rfl; exact h2 e.symm
  simp [exFrost, exRecord, frostDemand, d1, d2]

end

/-- **C117, violated.** Insulation can make a house be heated that is not heated without it. The same one-room house with the same records,
but for the resistance of its pane: without insulation it is never heated; with insulation a quarter of an hour of gains makes it
comfortable, the program opens the windows in the frost, and in the next step it is heated. -/
theorem C117_violated {hR : Fin 1 → ℝ} (hr : ∀ j, 0 < hR j) :
    (∀ j, exLatch.phiA0 j < (insulated exLatch fun _ => 0.4).phiA0 j) ∧
    ∃ r1 r2, coreCalc exLatch hR exFrost 4 1 0 0 = .ok r1 ∧ coreCalc (insulated exLatch fun _ => 0.4) hR exFrost 4 1 0 0 = .ok r2 ∧
      r1.nMain = 96 ∧ r2.nMain = 96 ∧ (∀ k, (r1.log k).lCs 0 = 0) ∧
      (∀ k, k.1 = 1 → (r2.log k).mode 0 = some .stopOpen) ∧ (∀ k, k.1 = 2 → (r2.log k).mode 0 = some .heating ∧ 0 < (r2.log k).lCs 0) ∧
      ∑ k, (r1.log k).lCs 0 < ∑ k, (r2.log k).lCs 0 := by
  have hdt : (3600 / ((4 : ℤ) : ℝ)) = 900 := by norm_num
  have run : ∀ R : ℝ, 0 ≤ R → ∃ r, coreCalc (exPane R) hR exFrost 4 1 0 0 = .ok r := by
    intro R h0
    apply C21_program_partial
    · rw [hdt]; exact exPane_wellFormed hr h0
    · exact fun _ => rfl
    · exact fun _ => rfl
    · exact fun _ _ => le_rfl
    all_goals norm_num
  obtain ⟨r1, H1⟩ := run 0 le_rfl
  obtain ⟨r2, H2⟩ := run 0.4 (by norm_num)
  obtain ⟨_, _, _, _, T1⟩ := coreCalc_ok H1
  obtain ⟨_, _, _, _, T2⟩ := coreCalc_ok H2
  have n1 : r1.nMain = 96 := by rw [T1.nMain_eq]; rfl
  have n2 : r2.nMain = 96 := by rw [T2.nMain_eq]; rfl
  rw [exPane_zero] at H1
  have z := thin_never hr H1
  have w := thick_heated hr H2
  refine ⟨fun j => by norm_num [insulated, exLatch, exCold], r1, r2, H1, H2, n1, n2, z, fun k => (w k).1, fun k => (w k).2.1, ?_⟩
  rw [Finset.sum_eq_zero fun k _ => z k]
  exact Finset.sum_pos' (fun k _ => (w k).2.2) ⟨⟨2, by rw [n2]; decide⟩, Finset.mem_univ _, ((w _).2.1 rfl).2⟩

/-! ## A concrete case of the theorems -/

/-- A still day with demand in every step and a lamp of `q` W. -/
noncomputable def exGlowDay (q : ℝ) : Fin 96 → Record (Fin 1) (Fin 1) := exRecord (fun _ => mildT) (fun _ => q) (fun _ => 1)

/-- A still day with demand in every step. -/
noncomputable def exEvenDay : Fin 96 → Record (Fin 1) (Fin 1) := exGlowDay 0

/-- A room is heated by more than 0.07 degrees. -/
theorem warm_ge : mildT + 0.07 ≤ warmT := by
  unfold warmT
  obtain ⟨h1, h2⟩ := heavy_bounds
  obtain ⟨k1, k2⟩ := pmvK_mem
  have : pmvK * (0.0014 * 58.15 + pmvG) ≤ 1.26 := by nlinarith
  have : (0.1 : ℝ) / 1.26 ≤ 0.1 / (pmvK * (0.0014 * 58.15 + pmvG)) := div_le_div_of_nonneg_left (by norm_num) pmv_slope this
  have : (0.07 : ℝ) ≤ 0.1 / 1.26 := by norm_num
  linarith

section
variable {hR : Fin 1 → ℝ} {R q : ℝ} {ss : PreCalc (Fin 1) (Fin 1) 96} {n : ℤ} {k : Fin 96} {c : Cond (Fin 1) (Fin 1)} {t : TickVars (Fin 1) (Fin 1)}

/-- A state in which the house behind a pane is heated in the next step. -/
structure Warmed (c : Cond (Fin 1) (Fin 1)) : Prop where
  empty : Empty c
  mode : c.mode 0 = .heating ∧ heavyPmv (c.thetaR 0) (c.thetaMrt 0) ≤ 0.7
  xR : ∀ i, c.xR i = startHumidity
  xFrt : ∀ i, c.xFrt i = startHumidity

theorem still_step (hr : ∀ j, 0 < hR j) (h0 : 0 ≤ R) (hq : q ≤ 0.5) (Hp : makePreCalc (exPane R) hR 900 (exGlowDay q) = .ok ss) (H : runTick n 900 ss c = .ok t)
    (hk : pyIndex 96 n = .ok k) (hc : Warmed c ∨ c = initialConditions (Fin 1) (Fin 1))
    (hlow : c = initialConditions (Fin 1) (Fin 1) ∨ getThetaOt hHumR hHumC (c.thetaMrt 0) (c.thetaR 0) ≤ warmT ∧
      (1 + 2.5 * R) * c.thetaMrt 0 = mildT + 2.5 * R * c.thetaR 0) :
    Warmed t.next ∧ (t.ot 0).mode = .heating ∧ t.thetaOt 0 = warmT ∧ 0 < t.lc 0 ∧ t.thetaMrt 0 ≤ t.thetaR 0 ∧
      (1 + 2.5 * R) * t.thetaMrt 0 = mildT + 2.5 * R * t.thetaR 0 := by
  have hx : ∀ i, c.xR i = startHumidity := by
    rcases hc with h | rfl
    · exact h.xR
    · exact fun _ => startHumidity_eq
  have hf : ∀ i, c.xFrt i = startHumidity := by
    rcases hc with h | rfl
    · exact h.xFrt
    · exact fun _ => startHumidity_eq
  have he : Empty c := by
    rcases hc with h | rfl
    · exact h.empty
    · exact ⟨fun _ _ => rfl, fun _ _ => rfl⟩
  have hC0 := hHumC_pos
  have hR0 := hHumR_pos
  have hwm := mild_lt_warm
  have hmo := pane_mode Hp H hk hx
  have hm : (t.ot 0).mode = .heating := by
    have h := hmo.1
    rcases hc with hc | rfl
    · rw [hc.mode.1] at h
      simp only [getOperationMode, gt_iff_lt, zero_lt_one, if_true, if_pos hc.mode.2] at h
      exact (Except.ok.inj h).symm
    · obtain ⟨q1, q2⟩ := cold_pmv
      have q1' : heavyPmv 15 15 ≤ -0.7 := q1
      simp only [getOperationMode, initialConditions, initialMode, gt_iff_lt, zero_lt_one, if_true, ge_iff_le, if_neg (not_le.2 q2), if_pos q1'] at h
      exact (Except.ok.inj h).symm
  obtain ⟨a0, a1, a2, a3⟩ := pane_step hr h0 Hp H hk he
  have hd : (exGlowDay q k).acDemand 0 = 1 := rfl
  obtain ⟨s1, s2⟩ := (step_target Hp H hk (fun i => by norm_num [exPane, insulated, exLatch, exCold]) 0 hd).1 hm
  rw [hmo.2 hm] at s1 s2
  rw [hm, if_neg (by decide)] at a3
  have hp1 : (0 : ℝ) < 1 + 2.5 * R := by linarith
  -- the weights of the surface
  have key : ∀ x y : ℝ, (1 + 2.5 * R) * y = mildT + 2.5 * R * x → y - mildT = 2.5 * R / (1 + 2.5 * R) * (x - mildT) := by
    intro x y hxy
    field_simp
    linarith
  have hb : 0 ≤ 2.5 * R / (1 + 2.5 * R) ∧ 2.5 * R / (1 + 2.5 * R) ≤ 1 :=
    ⟨div_nonneg (by linarith) hp1.le, by rw [div_le_one hp1]; linarith⟩
  have k1 := key _ _ a1
  set b := 2.5 * R / (1 + 2.5 * R) with hbdef
  have hot : ∀ x y : ℝ, y - mildT = b * (x - mildT) →
      (hHumR + hHumC) * (getThetaOt hHumR hHumC y x - mildT) = (hHumR * b + hHumC) * (x - mildT) := by
    intro x y hxy
    have hs := (add_pos hR0 hC0).ne'
    have : y = mildT + b * (x - mildT) := by linarith
    unfold getThetaOt
    rw [this, mul_sub, mul_div_cancel₀ _ hs]
    ring
  have o1 := hot _ _ k1
  rw [← a2] at o1
  have hcoef : 0 < hHumR * b + hHumC := by nlinarith [mul_nonneg hR0.le hb.1]
  have hsum : 0 < hHumR + hHumC := by linarith
  have hgt : mildT < t.thetaR 0 := by
    by_contra hle
    push Not at hle
    have := mul_nonpos_of_nonneg_of_nonpos hcoef.le (sub_nonpos.2 hle)
    nlinarith
  have hold : c.thetaR 0 ≤ t.thetaR 0 := by
    rcases hlow with rfl | ⟨l1, l2⟩
    · have := mild_gt
      show (15 : ℝ) ≤ _
      linarith
    · have o2 := hot _ _ (key _ _ l2)
      by_contra hlt
      push Not at hlt
      have := mul_lt_mul_of_pos_left (sub_lt_sub_right hlt mildT) hcoef
      nlinarith
  have hmr : t.thetaMrt 0 ≤ t.thetaR 0 := by nlinarith
  have hl : 0 < t.lc 0 := by
    have hge : warmT - mildT ≤ t.thetaR 0 - mildT := by
      by_contra hlt
      push Not at hlt
      have h1 := mul_lt_mul_of_pos_left hlt hcoef
      have h2 : (hHumR * b + hHumC) * (warmT - mildT) ≤ (hHumR + hHumC) * (warmT - mildT) :=
        mul_le_mul_of_nonneg_right (by nlinarith [hb.2]) (by linarith)
      have h3 := mul_le_mul_of_nonneg_left (sub_le_sub_right s1 mildT) hsum.le
      linarith
    have hwg := warm_ge
    linarith
  have hw := s2 (.inl hl.ne')
  obtain ⟨u, v⟩ := pane_humid hr h0 Hp H hk hl.le hx hf
  refine ⟨⟨a0, ⟨hm, ?_⟩, u, v⟩, hm, hw, hl, hmr, a1⟩
  -- still not too warm
  show heavyPmv (t.thetaR 0) (t.thetaMrt 0) ≤ 0.7
  have hpm := warm_pmv
  unfold heavyPmv at hpm ⊢
  rw [pmv_formula, ot_same] at hpm
  rw [pmv_formula, ← a2, hw]
  have hk0 := pmvK_mem
  have h34 := warm_le
  have h15 := mild_gt
  have hr40 : t.thetaR 0 - warmT ≤ 20 := by
    obtain ⟨q1, q2⟩ := hHum_bounds
    have h4 : hHumC = 4 := rfl
    rw [hw] at o1
    have : hHumC * (t.thetaR 0 - mildT) ≤ (hHumR * b + hHumC) * (t.thetaR 0 - mildT) := by
      nlinarith [mul_nonneg (mul_nonneg hR0.le hb.1) (sub_nonneg.2 hgt.le)]
    rw [h4] at q2 this o1
    have : (hHumR + 4) * (warmT - mildT) ≤ 8.1 * (warmT - mildT) := mul_le_mul_of_nonneg_right q2.le (by linarith)
    linarith
  have e : pmvK * (restHeat + 0.08141 * (t.thetaR 0 - 34) - cloFactor cloHeavy (hHumR + hHumC) * (34.0718 - warmT))
      = -0.5 + pmvK * (0.08141 * (t.thetaR 0 - warmT)) := by rw [← hpm]; ring
  rw [e]
  rcases le_total (t.thetaR 0) warmT with h | h
  · have := mul_nonneg hk0.1.le (show 0 ≤ 0.08141 * (warmT - t.thetaR 0) by linarith)
    linarith
  · have := mul_le_mul hk0.2 (show 0.08141 * (t.thetaR 0 - warmT) ≤ 1.7 by linarith) (by linarith) (by norm_num)
    linarith

/-- On the still day the house behind a pane is heated in every row. -/
theorem still_heated {r : CalcResult (Fin 1) 1 96} (hr : ∀ j, 0 < hR j) (h0 : 0 ≤ R) (hq : q ≤ 0.5) (H : coreCalc (exPane R) hR (exGlowDay q) 4 1 0 0 = .ok r)
    (k : Fin r.nMain.toNat) : (r.log k).mode 0 = some .heating ∧ (r.log k).thetaOt 0 = warmT ∧ 0 < (r.log k).lCs 0 ∧
      (r.log k).thetaMrt 0 ≤ (r.log k).thetaR 0 := by
  obtain ⟨gs, c0, up, mn, T⟩ := coreCalc_ok H
  have hc0 := start_eq (fun _ => rfl) T
  have hdt : (3600 / ((4 : ℤ) : ℝ)) = 900 := by norm_num
  have Hp := T.pre
  have hu := T.runUp
  have hm := T.main
  rw [hdt] at Hp hu hm
  rw [hc0] at hu hm
  have z : pyRange (-((0 : ℤ) * 4 * 24)) 0 = [] := by simp [pyRange]
  rw [z] at hu
  cases hu
  have key : ∀ t ∈ mn, (t.ot 0).mode = .heating ∧ t.thetaOt 0 = warmT ∧ 0 < t.lc 0 ∧ t.thetaMrt 0 ≤ t.thetaR 0 := by
    refine (run_keeps (P := fun c => c = initialConditions (Fin 1) (Fin 1) ∨ (Warmed c ∧
      getThetaOt hHumR hHumC (c.thetaMrt 0) (c.thetaR 0) ≤ warmT ∧ (1 + 2.5 * R) * c.thetaMrt 0 = mildT + 2.5 * R * c.thetaR 0)) hm (.inl rfl) ?_).2
    intro n hn c t hc ht
    obtain ⟨k, hk⟩ := runTick_index ht
    obtain ⟨b1, b2, b3, b4, b5, b6⟩ := still_step hr h0 hq Hp ht hk (hc.elim .inr fun h => .inl h.1) (hc.elim .inl fun h => .inr h.2)
    refine ⟨.inr ⟨b1, ?_, b6⟩, b2, b3, b4, b5⟩
    have he : Empty c := by
      rcases hc with rfl | h
      · exact ⟨fun _ _ => rfl, fun _ _ => rfl⟩
      · exact h.1.empty
    obtain ⟨-, -, a2, -⟩ := pane_step hr h0 Hp ht hk he
    show getThetaOt hHumR hHumC (t.thetaMrt 0) (t.thetaR 0) ≤ warmT
    rw [← a2, b3]
  have hk : (k : ℕ) < mn.length := by rw [T.mn_length]; exact k.isLt
  rw [T.logged k hk]
  obtain ⟨a, b⟩ := key mn[(k : ℕ)] (by simp)
  exact ⟨congrArg some a, b⟩

end

/-- The hypotheses of `C117_total_partial` are met: on the still day both houses are heated in every row, to the same temperature. -/
example {hR : Fin 1 → ℝ} (hr : ∀ j, 0 < hR j) : ∃ r1 r2, coreCalc exLatch hR exEvenDay 4 1 0 0 = .ok r1 ∧
    coreCalc (insulated exLatch fun _ => 0.4) hR exEvenDay 4 1 0 0 = .ok r2 ∧ r1.nMain = 96 ∧ (∀ k, 0 < (r1.log k).lCs 0) ∧ (∀ k, 0 < (r2.log k).lCs 0) ∧
    ∑ k, (r2.log k).lCs 0 ≤ ∑ k, (r1.log k).lCs 0 := by
  have hdt : (3600 / ((4 : ℤ) : ℝ)) = 900 := by norm_num
  have run : ∀ R : ℝ, 0 ≤ R → ∃ r, coreCalc (exPane R) hR exEvenDay 4 1 0 0 = .ok r := by
    intro R h0
    apply C21_program_partial
    · rw [hdt]; exact exPane_wellFormed hr h0
    · exact fun _ => rfl
    · exact fun _ => rfl
    · exact fun _ _ => le_rfl
    all_goals norm_num
  obtain ⟨r1, H1⟩ := run 0 le_rfl
  obtain ⟨r2, H2⟩ := run 0.4 (by norm_num)
  obtain ⟨_, _, _, _, T1⟩ := coreCalc_ok H1
  have w1 := still_heated hr le_rfl (by norm_num) H1
  have w2 := still_heated hr (by norm_num) (by norm_num) H2
  rw [exPane_zero] at H1
  refine ⟨r1, r2, H1, H2, by rw [T1.nMain_eq]; rfl, fun k => (w1 k).2.2.1, fun k => (w2 k).2.2.1, ?_⟩
  refine C117_total_partial (by rw [hdt]; exact exLatch_wellFormed hr) exLatch_storageless (fun _ => rfl) (fun _ _ => rfl)
    (fun _ => ⟨rfl, rfl⟩) (fun _ => by norm_num [exLatch, exCold]) (fun _ _ => le_rfl)
    (fun _ => ⟨le_rfl, fun _ => le_rfl, fun _ => le_rfl, fun _ => le_rfl, rfl, rfl⟩) ?_ H1 H2 ?_
  · intro k i
    refine ⟨le_rfl, ?_⟩
    show 4 * (0 : ℝ) * _ ≤ _
    norm_num [exLatch, exCold, airCap]
  · intro k h1 h2 hN
    refine ⟨?_, ?_, .inl ?_, ?_, .inl rfl⟩
    · show (r1.log ⟨k, h1⟩).mode 0 ≠ _
      rw [(w1 _).1]; simp
    · show (r2.log ⟨k, h2⟩).mode 0 ≠ _
      rw [(w2 _).1]; simp
    · show (r2.log ⟨k, h2⟩).thetaOt 0 ≤ (r1.log ⟨k, h1⟩).thetaOt 0
      rw [(w1 _).2.1, (w2 _).2.1]
    · intro j _
      obtain ⟨k', c, t, -, hk, Hp, Ht, el⟩ := logged_step H1 ⟨k, h1⟩
      have hm := (w1 ⟨k, h1⟩).2.2.2
      rw [el] at hm ⊢
      have hw := exLatch_wellFormed hr
      have hf := C16_surface_flux Hp Ht hk j (add_pos (hw.hC_pos j) (hw.hR_pos j)).ne'
      have h0 : j = 0 := Subsingleton.elim _ _
      subst h0
      have hM : t.thetaMrt 0 = t.thetaS 0 := by
        obtain ⟨ivs, k'', hi, hs, hk', e⟩ := step_eqs Hp Ht
        rw [e.thetaMrt, hs]
        refine (fMrtHum_mulVec exLatch _ 0).trans ?_
        rw [exLatch_surfaces, Finset.sum_singleton]
        simp [exLatch, exCold]
      have hrm : roomMrt exLatch hR (exLatch.room 0) t.thetaS = t.thetaS 0 := by
        unfold roomMrt
        rw [exLatch_surfaces, Finset.sum_singleton, Finset.sum_singleton]
        exact mul_div_cancel_left₀ _ (mul_ne_zero (hw.area_pos 0).ne' (hr 0).ne')
      have hsol : exLatch.qSol (exEvenDay k') 0 = 0 := by simp [House.qSol, exEvenDay, exGlowDay, exRecord]
      have hm' : t.thetaMrt 0 ≤ t.thetaR 0 := hm
      show 0 ≤ t.qSrf 0
      rw [hf, hrm, hsol, ← hM]
      have hroom : exLatch.room 0 = 0 := rfl
      have hflr : exLatch.flr 0 = 0 := rfl
      rw [hroom, hflr]
      have := mul_nonneg (hw.hC_pos 0).le (sub_nonneg.2 hm')
      simp only [sub_self, mul_zero, zero_mul, zero_div, add_zero]
      exact this

end HLC
