import Verif.Props.Balance
import Verif.Spec.Equilibrium

/-!
# C22: thermal equilibrium
-/

namespace HLC

set_option linter.unusedSectionVars false

variable {I J : Type} [Fintype I] [DecidableEq I] [Fintype J] [DecidableEq J] {N : ℕ}

open Spec

variable {h : House I J} {hR : J → ℝ} {dt : ℝ} {data : Fin N → Record I J} {ss : PreCalc I J N} {n : ℤ} {k : Fin N}
  {c : Cond I J} {t : TickVars I J} {T : ℝ}

/-- Without demand no room is conditioned and all loads vanish. -/
theorem no_demand {ss : PreCalc I J N} (e : TickEqs ss dt k c t) (hd : ∀ i, ss.acDemand k i ≤ 0)
    (hcap : ∀ i, 0 ≤ ss.capH i ∧ 0 ≤ ss.capC i) (i : I) :
    (t.ot i).mode = .stopClose ∧ t.lc i = 0 ∧ t.lr i = 0 := by
  have hm : ∀ i, (t.ot i).mode = .stopClose := by
    intro i
    have := e.ot i
    unfold getOtTargetAndHHum at this
    simp only [bind, Except.bind] at this
    split at this
    · cases this
    rename_i m hmode
    rw [← Except.ok.inj this]
    unfold getOperationMode at hmode
    rw [if_neg (not_lt.mpr (hd i))] at hmode
    exact (Except.ok.inj hmode).symm
  refine ⟨hm i, ?_⟩
  obtain ⟨nat, p1, h1, h2, h3, h4⟩ := calc_passes e.load
  have hh : ¬ Heated (Tick.loadInput ss k t.ot t.brcOt t.brmOt t.brlOt) nat i := fun hh => by
    have := hh.1
    simp only [Tick.loadInput, hm i] at this
    cases this
  have hc : ¬ Cooled (Tick.loadInput ss k t.ot t.brcOt t.brmOt t.brlOt) nat i := fun hh => by
    have := hh.1
    simp only [Tick.loadInput, hm i] at this
    cases this
  exact C08_no_load _ _ e.load hcap nat h2 i hh hc

/-- Convolution terms stay at rest. -/
theorem rest_convolution (hs : SteadyWalls h) (hr : AtRest h T c) (hq : Calm T (data k)) {ivs : Matrix J J ℝ}
    (e : TickEqs (preCalcOf h hR dt data ivs) dt k c t) :
    (∀ j m, t.dshA j m = 0) ∧ (∀ j m, t.dshT j m = T * h.phiT1 j m / (1 - h.ratio j m)) := by
  have hrear : ∀ j, t.thetaRear j = T := by
    intro j
    rw [e.thetaRear]
    simp only [Tick.thetaRear, preCalcOf, House.thetaDstrb, hq.solAir]
    have hei : c.thetaEi = fun _ => T := funext hr.equivalent
    rw [hei, kEi_mulVec]
    have := hs.weights j
    cases hk : h.kEi j with
    | none => rw [hk] at this; simp only [] at this ⊢; rw [add_zero] at this; rw [this]; ring
    | some a => rw [hk] at this; simp only [] at this ⊢; linear_combination T * this
  constructor
  · intro j m
    rw [e.dshA]
    simp only [Tick.dshA, preCalcOf, hr.flux, hr.absorbed]
    ring
  · intro j m
    rw [e.dshT]
    simp only [Tick.dshT, preCalcOf, hrear, hr.transmitted]
    have : 1 - h.ratio j m ≠ 0 := sub_ne_zero.mpr (Ne.symm (hs.ratio_ne j m))
    field_simp
    ring

/-- With all rooms at `T` the surfaces are at `T`: `WSR T + WSC + WSV = T`. -/
theorem rest_surfaces (hw : WellFormed h hR dt) (hs : SteadyWalls h) (hr : AtRest h T c) (hq : Calm T (data k))
    {ivs : Matrix J J ℝ} (hi : npInv (h.ax hR) = .ok ivs) (e : TickEqs (preCalcOf h hR dt data ivs) dt k c t) (j : J) :
    (ivs * h.fia hR).mulVec (fun _ => T) j + ivs.mulVec (h.crx hR (data k)) j + t.wsv j = T := by
  have hconv := rest_convolution hs hr hq e
  have hqsol : ∀ j, h.qSol (data k) j = 0 := by
    intro j; unfold House.qSol; simp [hq.noSun]
  have hsys : (h.ax hR).mulVec (fun _ => T) = (h.fia hR).mulVec (fun _ => T) + h.crx hR (data k) + Tick.cvl t.dshA t.dshT := by
    funext j
    have hcvl : Tick.cvl t.dshA t.dshT j = T * (1 - h.phiT0 j) := by
      unfold Tick.cvl
      rw [← hs.transmission j]
      simp only [hconv.1, hconv.2, add_zero]
      have : ∀ m, T * h.phiT1 j m / (1 - h.ratio j m) = T * (h.phiT1 j m / (1 - h.ratio j m)) := fun m => by ring
      simp only [this]
      rw [← Finset.mul_sum]
      ring
    simp only [Pi.add_apply]
    rw [hcvl, ax_mulVec, fia_mulVec]
    simp only [roomMrt_const hw, House.crx, House.thetaDstrb, House.hI]
    have hq0 : h.qSol (data k) = fun _ => 0 := funext hqsol
    rw [hq0]
    simp only [kEi_mulVec, hq.solAir]
    have hI_pos : h.hC j + hR j ≠ 0 := ne_of_gt (add_pos (hw.hC_pos j) (hw.hR_pos j))
    have hwt := hs.weights j
    cases hk : h.kEi j with
    | none =>
      rw [hk] at hwt
      simp only [add_zero] at hwt
      simp only [mul_zero, add_zero, sub_zero]
      rw [hwt]; ring
    | some a =>
      rw [hk] at hwt
      simp only [] at hwt ⊢
      have e2 : hR j * h.phiT0 j / (h.hC j + hR j) * (a.2 * T) + h.phiT0 j * h.hC j / (h.hC j + hR j) * (a.2 * T)
          = h.phiT0 j * a.2 * T := by field_simp; ring
      have e3 : h.phiT0 j * (T * h.kEo j) = h.phiT0 j * T - h.phiT0 j * a.2 * T := by linear_combination (h.phiT0 j * T) * hwt
      simp only [mul_zero, add_zero, zero_add]
      rw [e3]
      linear_combination -e2
  have h1 := congrFun (congrArg ivs.mulVec hsys) j
  rw [npInv_mulVec hi, Matrix.mulVec_add, Matrix.mulVec_add] at h1
  have hw' : t.wsv = ivs.mulVec (Tick.cvl t.dshA t.dshT) := e.wsv
  rw [hw', ← Matrix.mulVec_mulVec]
  simp only [Pi.add_apply] at h1
  exact h1.symm

/-- `BRM T = BRC + c rho (sum vInt) T` at rest. -/
theorem rest_rooms (hw : WellFormed h hR dt) (hs : SteadyWalls h) (hr : AtRest h T c) (hq : Calm T (data k))
    {ivs : Matrix J J ℝ} (hi : npInv (h.ax hR) = .ok ivs) (e : TickEqs (preCalcOf h hR dt data ivs) dt k c t) (i : I) :
    t.brm.mulVec (fun _ => T) i = t.brc i + airCap * (∑ l, h.vInt i l) * T := by
  rw [e.brm, e.brc]
  simp only [Tick.brm, Tick.brc, preCalcOf, House.brmNonVent, Matrix.add_mulVec, Matrix.smul_mulVec, Pi.add_apply,
    Matrix.mulVec_diagonal, Pi.smul_apply, smul_eq_mul, ← Matrix.mulVec_mulVec, p_mulVec]
  have hqh : t.qHum i = 0 := by
    rw [e.qHum]; simp [Tick.qHum, preCalcOf, hq.noPeople]
  have hint : h.vInt.mulVec (fun _ => T) i = (∑ l, h.vInt i l) * T := by
    simp only [Matrix.mulVec, dotProduct, Finset.sum_mul]
  have hsum : ∑ j ∈ surfaces h i,
      (Matrix.of fun j i => (h.p.transpose j i - (ivs * h.fia hR) j i) * h.area j * h.hC j).mulVec (fun _ => T) j
      = ∑ j ∈ surfaces h i, h.hC j * h.area j * (ivs.mulVec (h.crx hR (data k)) j + t.wsv j) := by
    apply Finset.sum_congr rfl
    intro j _
    have a2 : (Matrix.of fun j i => (h.p.transpose j i - (ivs * h.fia hR) j i) * h.area j * h.hC j).mulVec (fun _ => T) j
        = h.area j * h.hC j * (T - (ivs * h.fia hR).mulVec (fun _ => T) j) := by
      have hT : h.p.transpose.mulVec (fun _ => T) j = T := by rw [pT_mulVec]
      have hsub : T - (ivs * h.fia hR).mulVec (fun _ => T) j
          = (h.p.transpose - ivs * h.fia hR).mulVec (fun _ => T) j := by
        rw [Matrix.sub_mulVec, Pi.sub_apply, hT]
      rw [hsub, ← rowScale_mulVec (fun j => h.area j * h.hC j)]
      congr 2
      ext a b
      simp only [Matrix.sub_apply]; ring
    rw [a2]
    have := rest_surfaces hw hs hr hq hi e j
    linear_combination -(h.area j * h.hC j) * this
  rw [hsum, hqh, hint, hr.room, hr.furniture, hq.outdoor, hq.noGain]
  have hfr : House.qSolFrt (data k) i = 0 := by simp [House.qSolFrt, hq.noSun]
  rw [hfr]
  have hcap : cAir * rhoAir = airCap := rfl
  rw [hcap, mul_comm dt (h.gSh i)]
  ring

/-- **C22 (partial).** On a house without inter-room air flow a state at rest at `T` stays at rest at `T`, for every step without
gains and demand and with `T` outside. Missing: houses with inter-room air flow, where it fails (`C22_violated`). -/
theorem C22_equilibrium_partial (hw : WellFormed h hR dt) (hs : SteadyWalls h) (hv : ∀ i l, h.vInt i l = 0)
    (Hp : makePreCalc h hR dt data = .ok ss) (H : runTick n dt ss c = .ok t)
    (hk : pyIndex N n = .ok k) (hr : AtRest h T c) (hq : Quiet T (data k)) :
    AtRest h T t.next ∧ (∀ j, t.thetaS j = T) ∧
      (∀ i, ∑ j ∈ surfaces h i, h.fMrtHum j = 1 → t.thetaMrt i = T ∧ t.thetaOt i = T) := by
  have h13 := C13_operative_temperature Hp H
  obtain ⟨ivs, k', hi, hss, hk', e⟩ := step_eqs Hp H
  have : k' = k := Except.ok.inj (hk'.symm.trans hk)
  subst this
  subst hss
  have hload : ∀ i, t.lc i = 0 ∧ t.lr i = 0 := fun i =>
    (no_demand e (fun i => (hq.noDemand i).le) (fun i => ⟨hw.capH_nonneg i, hw.capC_nonneg i⟩) i).2
  have hlr : t.lr = fun _ => 0 := funext fun i => (hload i).2
  have hdet : t.brm.det ≠ 0 := by
    obtain ⟨nat, p1, h1, -⟩ := calc_passes e.load
    have h2 : t.brmOt.det ≠ 0 := h1
    rw [e.brmOt, Tick.brmOt, Matrix.det_mul] at h2
    exact left_ne_zero_of_mul h2
  have hθ : t.thetaR = fun _ => T := by
    apply mulVec_inj_of_det hdet
    funext i
    rw [rest_rooms hw hs hr hq.toCalm hi e i, room_system e i, (hload i).1, hlr]
    have h0 : (preCalcOf h hR dt data ivs).brl.mulVec (fun _ => 0) i = 0 := by simp [Matrix.mulVec, dotProduct]
    rw [h0]
    simp [hv]
  have hS : ∀ j, t.thetaS j = T := by
    intro j
    rw [e.thetaS]
    simp only [Tick.thetaS, preCalcOf]
    rw [hθ, hlr]
    have h0 : (ivs * h.flb hR).mulVec (fun _ => (0 : ℝ)) j = 0 := by simp [Matrix.mulVec, dotProduct]
    rw [h0]
    have := rest_surfaces hw hs hr hq.toCalm hi e j
    linarith
  have hI_pos : ∀ j, h.hC j + hR j ≠ 0 := fun j => ne_of_gt (add_pos (hw.hC_pos j) (hw.hR_pos j))
  have hEi : ∀ j, t.thetaEi j = T := by
    intro j
    rw [e.thetaEi]
    simp only [Tick.thetaEi, preCalcOf]
    rw [pT_mulVec, pT_fMrt_mulVec, flr_mulVec, hθ, hlr, show t.thetaS = fun _ => T from funext hS, roomMrt_const hw]
    have hqs : h.qSol (data k') j = 0 := by unfold House.qSol; simp [hq.noSun]
    rw [hqs]
    have := hI_pos j
    field_simp
    ring
  obtain ⟨hA, hTr⟩ := rest_convolution hs hr hq.toCalm e
  refine ⟨⟨fun i => congrFun hθ i, ?_, hEi, ?_, hA, hTr⟩, hS, ?_⟩
  · intro i
    show t.thetaFrt i = T
    rw [e.thetaFrt]
    simp only [Tick.thetaFrt, preCalcOf]
    rw [congrFun hθ i, hr.furniture]
    have hfr : House.qSolFrt (data k') i = 0 := by simp [House.qSolFrt, hq.noSun]
    rw [hfr]
    have hne : h.cSh i + dt * h.gSh i ≠ 0 := by
      have h1 := hw.cSh_nonneg i
      have h2 := hw.gSh_nonneg i
      have h3 := hw.frtSh_pos i
      have h4 := hw.dt_pos
      rcases lt_or_eq_of_le h1 with h5 | h5
      · have := mul_nonneg h4.le h2; exact ne_of_gt (by linarith)
      · have : 0 < h.gSh i := by linarith
        have := mul_pos h4 this; exact ne_of_gt (by linarith)
    rw [div_eq_iff hne]
    ring
  · intro j
    show t.qSrf j = 0
    rw [e.qSrf]
    simp only [Tick.qSrf, hEi, hS, sub_self, zero_mul]
  · intro i hsum
    have hm : ∑ j ∈ surfaces h i, h.fMrtHum j * t.thetaS j = T := by
      simp only [hS]
      rw [← Finset.sum_mul, hsum, one_mul]
    have hmrt : t.thetaMrt i = T := by
      rw [e.thetaMrt]
      exact (fMrtHum_mulVec h _ i).trans hm
    refine ⟨hmrt, ?_⟩
    rw [h13 i, hm, congrFun hθ i]
    have := hHumR_pos
    have h4 : (0 : ℝ) < hHumC := by unfold hHumC; norm_num
    field_simp

/-- **C22 (violated).** On every well-formed house in which air flows into some room from other rooms, every completed step from rest
at any temperature other than 0 degC leaves the equilibrium: some room temperature changes although nothing drives it. -/
theorem C22_violated (hw : WellFormed h hR dt) (hs : SteadyWalls h) {i : I} (hv : 0 < ∑ l, h.vInt i l) (hT : T ≠ 0)
    (Hp : makePreCalc h hR dt data = .ok ss) (H : runTick n dt ss c = .ok t)
    (hk : pyIndex N n = .ok k) (hr : AtRest h T c) (hq : Quiet T (data k)) : ∃ l, t.thetaR l ≠ T := by
  by_contra hall
  push Not at hall
  obtain ⟨ivs, k', hi, hss, hk', e⟩ := step_eqs Hp H
  have : k' = k := Except.ok.inj (hk'.symm.trans hk)
  subst this
  subst hss
  have hload : ∀ i, t.lc i = 0 ∧ t.lr i = 0 := fun i =>
    (no_demand e (fun i => (hq.noDemand i).le) (fun i => ⟨hw.capH_nonneg i, hw.capC_nonneg i⟩) i).2
  have hlr : t.lr = fun _ => 0 := funext fun i => (hload i).2
  have h1 := room_system e i
  rw [show t.thetaR = fun _ => T from funext hall, rest_rooms hw hs hr hq.toCalm hi e i, (hload i).1, hlr] at h1
  have h0 : (preCalcOf h hR dt data ivs).brl.mulVec (fun _ => 0) i = 0 := by simp [Matrix.mulVec, dotProduct]
  rw [h0] at h1
  have hcap : (0 : ℝ) < airCap := by unfold airCap; norm_num
  have : airCap * (∑ l, h.vInt i l) * T ≠ 0 := mul_ne_zero (mul_pos hcap hv).ne' hT
  apply this
  linarith

/-- **C14 (violated).** In the same situation the physical room heat balance fails in some room: the inter-room term of the program is
not the heat carried by the air. -/
theorem C14_violated (hw : WellFormed h hR dt) (hs : SteadyWalls h) {i : I} (hv : 0 < ∑ l, h.vInt i l) (hT : T ≠ 0)
    (hloc : ∀ i, 0 ≤ (data k).vLocal i)
    (Hp : makePreCalc h hR dt data = .ok ss) (H : runTick n dt ss c = .ok t)
    (hk : pyIndex N n = .ok k) (hr : AtRest h T c) (hq : Quiet T (data k)) :
    ∃ i, h.vRoom i * airCap * (t.thetaR i - c.thetaR i) / dt
      ≠ convection h i (t.thetaR i) t.thetaS + h.gSh i * (t.thetaFrt i - t.thetaR i)
        + airCap * t.vOut i * ((data k).thetaO - t.thetaR i) + interRoomHeat h i t.thetaR
        + (data k).qGen i + t.qHum i + t.lc i + h.beta i * t.lr i := by
  by_contra hall
  push Not at hall
  have hne : ∀ i, h.cSh i + dt * h.gSh i ≠ 0 := by
    intro i
    have h1 := hw.cSh_nonneg i
    have h2 := hw.gSh_nonneg i
    have h3 := hw.frtSh_pos i
    have h4 := hw.dt_pos
    rcases lt_or_eq_of_le h1 with h5 | h5
    · have := mul_nonneg h4.le h2; exact ne_of_gt (by linarith)
    · have : 0 < h.gSh i := by linarith
      have := mul_pos h4 this; exact ne_of_gt (by linarith)
  have hres : ∀ i, ∑ l, h.vInt i l * (2 * t.thetaR l - t.thetaR i) = 0 := fun i =>
    (C14_residual Hp H hk i (hne i)).mp (hall i)
  obtain ⟨ivs, k', hi, hss, hk', e⟩ := step_eqs Hp H
  have : k' = k := Except.ok.inj (hk'.symm.trans hk)
  subst this
  subst hss
  have hload : ∀ i, t.lc i = 0 ∧ t.lr i = 0 := fun i =>
    (no_demand e (fun i => (hq.noDemand i).le) (fun i => ⟨hw.capH_nonneg i, hw.capC_nonneg i⟩) i).2
  have hlr : t.lr = fun _ => 0 := funext fun i => (hload i).2
  -- the physical matrix: BRM with -vInt and the displaced air on the diagonal
  set B : Matrix I I ℝ := t.brm - (airCap • ((2 : ℝ) • h.vInt - Matrix.diagonal fun i => ∑ l, h.vInt i l)) with hB
  have hBθ : ∀ θ : I → ℝ, ∀ i, B.mulVec θ i = t.brm.mulVec θ i - airCap * ∑ l, h.vInt i l * (2 * θ l - θ i) := by
    intro θ i
    rw [hB, Matrix.sub_mulVec, Matrix.smul_mulVec, Matrix.sub_mulVec, Matrix.smul_mulVec]
    simp only [Pi.sub_apply, Pi.smul_apply, smul_eq_mul, Matrix.mulVec_diagonal]
    congr 2
    simp only [Matrix.mulVec, dotProduct, Finset.mul_sum, Finset.sum_mul]
    rw [← Finset.sum_sub_distrib]
    apply Finset.sum_congr rfl; intro l _; ring
  have h1 : B.mulVec t.thetaR = t.brc := by
    funext i
    rw [hBθ, hres i, room_system e i, (hload i).1, hlr]
    have h0 : (preCalcOf h hR dt data ivs).brl.mulVec (fun _ => 0) i = 0 := by simp [Matrix.mulVec, dotProduct]
    rw [h0]; ring
  have h2 : B.mulVec (fun _ => T) = t.brc := by
    funext i
    rw [hBθ, rest_rooms hw hs hr hq.toCalm hi e i]
    have : ∑ l, h.vInt i l * (2 * T - T) = (∑ l, h.vInt i l) * T := by
      rw [Finset.sum_mul]; apply Finset.sum_congr rfl; intro l _; ring
    rw [this]; ring
  have hvOut : ∀ i, 0 ≤ t.vOut i := by
    intro i
    have h1 := infiltration_nonneg e.vLeak i (hw.vRoom_pos i).le
    have h2 : 0 ≤ t.vNtrl i := by
      rw [e.vNtrl]; unfold Tick.vNtrl; split_ifs
      · exact hw.vNtrl_nonneg i
      · exact le_rfl
    have h3 : 0 ≤ (preCalcOf h hR dt data ivs).vMec k' i := add_nonneg (hw.vVentEx_nonneg i) (hloc i)
    rw [e.vOut]; unfold Tick.vOut
    linarith
  have hcap : (0 : ℝ) < airCap := by unfold airCap; norm_num
  have hcc : cAir * rhoAir = airCap := rfl
  have hBZ : ZDominant B := by
    have ent := fun i l => brm_apply h hR dt data ivs t.vOut i l
    rw [hcc] at ent
    have hA : ∀ i l, 0 ≤ ∑ j ∈ surfaces h i, h.area j * h.hC j * (ivs * h.fia hR) j l := fun i l =>
      Finset.sum_nonneg fun j _ => mul_nonneg (mul_nonneg (hw.area_pos j).le (hw.hC_pos j).le) (wsr_nonneg hw hi j l)
    constructor
    · intro i l hil
      rw [hB, e.brm]
      simp only [Matrix.sub_apply, Matrix.smul_apply, Matrix.diagonal_apply, if_neg hil, smul_eq_mul, sub_zero]
      rw [ent, if_neg hil]
      have := mul_nonneg hcap.le (hw.vInt_nonneg i l)
      linarith [hA i l]
    · intro i
      rw [row_sum_eq, hBθ, e.brm]
      have h3 : ∑ l, Tick.brm (preCalcOf h hR dt data ivs) t.vOut i l
          = h.cRm i / dt + h.cSh i * h.gSh i / (h.cSh i + h.gSh i * dt)
            + (∑ j ∈ surfaces h i, h.area j * h.hC j) + airCap * t.vOut i
            - (∑ l, ∑ j ∈ surfaces h i, h.area j * h.hC j * (ivs * h.fia hR) j l) + airCap * ∑ l, h.vInt i l := by
        simp only [ent]
        rw [Finset.sum_add_distrib, Finset.sum_sub_distrib, Finset.sum_ite_eq, if_pos (Finset.mem_univ i), Finset.mul_sum]
      rw [← row_sum_eq, h3]
      have h4 : ∑ l, ∑ j ∈ surfaces h i, h.area j * h.hC j * (ivs * h.fia hR) j l ≤ ∑ j ∈ surfaces h i, h.area j * h.hC j := by
        rw [Finset.sum_comm]
        apply Finset.sum_le_sum
        intro j _
        rw [← Finset.mul_sum]
        have := mul_pos (hw.area_pos j) (hw.hC_pos j)
        nlinarith [wsr_row hw hi j]
      have h5 : ∑ l, h.vInt i l * (2 * (1 : ℝ) - 1) = ∑ l, h.vInt i l := by
        apply Finset.sum_congr rfl; intro l _; ring
      rw [h5]
      have h6 : 0 < h.cRm i / dt := by
        refine div_pos ?_ hw.dt_pos
        unfold House.cRm rhoAir cAir
        have := hw.vRoom_pos i
        positivity
      have h7 : 0 ≤ h.cSh i * h.gSh i / (h.cSh i + h.gSh i * dt) :=
        div_nonneg (mul_nonneg (hw.cSh_nonneg i) (hw.gSh_nonneg i))
          (add_nonneg (hw.cSh_nonneg i) (mul_nonneg (hw.gSh_nonneg i) hw.dt_pos.le))
      have h8 := mul_nonneg hcap.le (hvOut i)
      linarith
  have hθ : t.thetaR = fun _ => T := mulVec_inj_of_det hBZ.det_ne_zero (h1.trans h2.symm)
  have h3 := hres i
  rw [hθ] at h3
  have h4 : ∑ l, h.vInt i l * (2 * T - T) = (∑ l, h.vInt i l) * T := by
    rw [Finset.sum_mul]; apply Finset.sum_congr rfl; intro l _; ring
  rw [h4] at h3
  exact (mul_ne_zero hv.ne' hT) h3

/-- The example house without inter-room air flow. -/
noncomputable def exHouse0 : House (Fin 2) (Fin 4) := { exHouse with vInt := 0 }

theorem exHouse0_wellFormed : WellFormed exHouse0 exHR 900 :=
  { exHouse_wellFormed with
    vInt_nonneg := fun i l => by simp [exHouse0]
    vInt_lt := fun i => by simpa [exHouse0] using exHouse_wellFormed.vRoom_pos i }

theorem exHouse_steady : SteadyWalls exHouse where
  ratio_ne := by intro j m; norm_num [exHouse]
  transmission := by
    intro j
    have : ∀ m : Fin 12, exHouse.phiT1 j m / (1 - exHouse.ratio j m) = if m = 0 then 1 - exHouse.phiT0 j else 0 := by
      intro m
      simp only [exHouse]
      split_ifs
      · rw [show (1 : ℝ) - 0.5 = 1 / 2 by norm_num]; ring
      · norm_num
    simp only [this]
    rw [Finset.sum_ite_eq' Finset.univ (0 : Fin 12), if_pos (Finset.mem_univ _)]
    ring
  weights := by intro j; fin_cases j <;> norm_num [exHouse]

/-- A state of the example house at rest at `T`. -/
noncomputable def exRest (T : ℝ) : Cond (Fin 2) (Fin 4) :=
  { initialConditions (Fin 2) (Fin 4) with
    thetaR := fun _ => T, thetaFrt := fun _ => T, thetaEi := fun _ => T
    dshT := fun j m => T * exHouse.phiT1 j m / (1 - exHouse.ratio j m) }

/-- Records without gains, demand and temperature differences. -/
noncomputable def exQuiet (T : ℝ) : Fin 3 → Record (Fin 2) (Fin 4) := fun k =>
  { exData k with
    thetaO := T, thetaOSol := fun _ => T, qGen := fun _ => 0, nHum := fun _ => 0, qTrsSol := fun _ => 0, acDemand := fun _ => 0 }

theorem exQuiet_local (T : ℝ) (k : Fin 3) (i : Fin 2) : 0 ≤ (exQuiet T k).vLocal i := by
  fin_cases i <;> norm_num [exQuiet, exData]

/-- The hypotheses of C22_equilibrium_partial are met at 20 degC by the example house without inter-room flow. -/
example : ∃ ss t, makePreCalc exHouse0 exHR 900 (exQuiet 20) = .ok ss ∧ runTick (-1) 900 ss (exRest 20) = .ok t ∧
    SteadyWalls exHouse0 ∧ (∀ i l, exHouse0.vInt i l = 0) ∧
    AtRest exHouse0 20 (exRest 20) ∧ Quiet 20 (exQuiet 20 2) ∧ pyIndex 3 (-1) = .ok 2 := by
  obtain ⟨ss, t, h1, h2⟩ := C21_step_completes_partial (c := exRest 20) (data := exQuiet 20) (n := -1) exHouse0_wellFormed
    (fun _ => rfl) (fun _ => rfl) (exQuiet_local 20) (fun i => by simp [exRest, initialConditions, initialMode]) (by norm_num)
  refine ⟨ss, t, h1, h2, ⟨exHouse_steady.1, exHouse_steady.2, exHouse_steady.3⟩, fun i l => rfl, ?_, ?_, by simp [pyIndex]⟩
  · constructor <;> intros <;> rfl
  · exact ⟨by constructor <;> intros <;> rfl, fun _ => rfl⟩

/-- The hypotheses of C22_violated and C14_violated are met at 20 degC by the example house (air flows from room 0 to room 1). -/
example : ∃ ss t, makePreCalc exHouse exHR 900 (exQuiet 20) = .ok ss ∧ runTick (-1) 900 ss (exRest 20) = .ok t ∧
    SteadyWalls exHouse ∧ 0 < ∑ l, exHouse.vInt 1 l ∧
    AtRest exHouse 20 (exRest 20) ∧ Quiet 20 (exQuiet 20 2) ∧ pyIndex 3 (-1) = .ok 2 := by
  obtain ⟨ss, t, h1, h2⟩ := C21_step_completes_partial (c := exRest 20) (data := exQuiet 20) (n := -1) exHouse_wellFormed
    (fun _ => rfl) (fun _ => rfl) (exQuiet_local 20) (fun i => by simp [exRest, initialConditions, initialMode]) (by norm_num)
  refine ⟨ss, t, h1, h2, exHouse_steady, ?_, ?_, ?_, by simp [pyIndex]⟩
  · simp only [Fin.sum_univ_two]; norm_num [exHouse]
  · constructor <;> intros <;> rfl
  · exact ⟨by constructor <;> intros <;> rfl, fun _ => rfl⟩

end HLC
