import Verif.Lemmas.Load
import Mathlib.Tactic.FinCases
import Mathlib.Tactic.Positivity
import Mathlib.LinearAlgebra.Matrix.Notation

/-!
# C07-C12: load calculation
-/

namespace HLC

set_option linter.unusedSectionVars false

variable {I : Type*} [Fintype I] [DecidableEq I]

open Spec

/-- **C07.** Whenever the load calculation returns, `BRM_ot θ = Lc + BRL_ot Lr + BRC_ot` holds in every room, for all modes,
targets, demands and capacities. -/
theorem C07_room_equations (a : LoadInput I) (res : LoadTemp I) (h : calcNextTempAndLoad a = .ok res) (i : I) :
    ∑ j, a.brm i j * res.theta j = res.lc i + ∑ j, a.brl i j * res.lr j + a.brc i := by
  obtain ⟨nat, p1, -, -, -, h2⟩ := calc_passes h
  have := congrFun (getLoadAndTemp_eq h2) i
  rw [Matrix.one_mulVec] at this
  simpa [Matrix.mulVec, dotProduct] using this

/-- **C08.** A room that is neither heated nor cooled gets no load at all. -/
theorem C08_no_load (a : LoadInput I) (res : LoadTemp I) (h : calcNextTempAndLoad a = .ok res) (hcap : CapsNonneg a)
    (nat : I → ℝ) (hn : IsNatural a nat) (i : I) (hh : ¬ Heated a nat i) (hc : ¬ Cooled a nat i) :
    res.lc i = 0 ∧ res.lr i = 0 := by
  obtain ⟨p1, -, h1, h2⟩ := calc_passes' h hn
  have hr : ¬ RadiantActive a nat i := by rintro (⟨x, -⟩ | ⟨x, -⟩) <;> contradiction
  have h0 := pass1_lr_zero h1 hr
  obtain ⟨ho, hu⟩ := not_limited hcap h0
  have hH := isHeating_false hh
  have hC := isCooling_false hc
  obtain ⟨-, fc, fr⟩ := getLoadAndTemp_fixed h2 i
  constructor
  · rw [fc (by simp [LoadInput.c1, LoadInput.c0, ho, hu, hH, hC])]
    simp [resetWhere]
  · rw [fr (by simp [LoadInput.r1, LoadInput.r0, ho, hu, hH, hC])]
    simp [LoadInput.lrSet1, ho, hu, resetWhere]

/-- **C08 (free running).** If no room is heated or cooled the operative temperatures are the natural ones. -/
theorem C08_free_running (a : LoadInput I) (res : LoadTemp I) (h : calcNextTempAndLoad a = .ok res) (hcap : CapsNonneg a)
    (nat : I → ℝ) (hn : IsNatural a nat) (hno : ∀ i, ¬ Heated a nat i ∧ ¬ Cooled a nat i) : res.theta = nat := by
  obtain ⟨p1, hd, -, -⟩ := calc_passes' h hn
  apply mulVec_inj_of_det hd
  rw [show a.brm.mulVec nat = a.brc from hn]
  funext i
  have e := C07_room_equations a res h i
  have z := fun j => C08_no_load a res h hcap nat hn j (hno j).1 (hno j).2
  simp only [fun j => (z j).1, fun j => (z j).2, mul_zero, Finset.sum_const_zero, zero_add] at e
  simpa [Matrix.mulVec, dotProduct] using e

/-- **C09.** A heated (cooled) room ends at demand·target + (1-demand)·natural temperature, limited equipment or not. -/
theorem C09_set_point (a : LoadInput I) (res : LoadTemp I) (h : calcNextTempAndLoad a = .ok res) (nat : I → ℝ)
    (hn : IsNatural a nat) (i : I) :
    (Heated a nat i → res.theta i = a.demand i * a.lower i + (1 - a.demand i) * nat i) ∧
    (Cooled a nat i → res.theta i = a.demand i * a.upper i + (1 - a.demand i) * nat i) := by
  obtain ⟨p1, -, -, h2⟩ := calc_passes' h hn
  obtain ⟨ft, -, -⟩ := getLoadAndTemp_fixed h2 i
  constructor
  · intro hh
    have hc : ¬ Cooled a nat i := fun hc => not_heated_of_cooled hc hh
    have e1 := isHeating_iff.mpr hh
    have e2 := isCooling_false hc
    rw [ft (by simp [LoadInput.nt, e1])]
    simp [resetWhere, LoadInput.nt, LoadInput.thetaSet, e1, e2]
    ring
  · intro hc
    have e2 := isCooling_iff.mpr hc
    rw [ft (by simp [LoadInput.nt, e2])]
    simp [resetWhere, LoadInput.nt, LoadInput.thetaSet, e2]
    ring

/-- **C09 (full demand).** With demand 1 the target itself is reached. -/
theorem C09_full_demand (a : LoadInput I) (res : LoadTemp I) (h : calcNextTempAndLoad a = .ok res) (nat : I → ℝ)
    (hn : IsNatural a nat) (i : I) (hd : a.demand i = 1) :
    (Heated a nat i → res.theta i = a.lower i) ∧ (Cooled a nat i → res.theta i = a.upper i) := by
  obtain ⟨h1, h2⟩ := C09_set_point a res h nat hn i
  constructor
  · intro hh; rw [h1 hh, hd]; ring
  · intro hh; rw [h2 hh, hd]; ring

/-- **C10.** A room in which the radiative system is not in charge has zero radiative load; where it is in charge, convective load
appears only if the radiative load is pinned at a capacity limit. -/
theorem C10_one_system (a : LoadInput I) (res : LoadTemp I) (h : calcNextTempAndLoad a = .ok res) (hcap : CapsNonneg a)
    (nat : I → ℝ) (hn : IsNatural a nat) (i : I) :
    (¬ RadiantActive a nat i → res.lr i = 0) ∧
    (RadiantActive a nat i → res.lc i ≠ 0 → res.lr i = a.capH i ∨ res.lr i = -a.capC i) := by
  obtain ⟨p1, -, h1, h2⟩ := calc_passes' h hn
  obtain ⟨-, fc, fr⟩ := getLoadAndTemp_fixed h2 i
  constructor
  · intro hr
    obtain ⟨ho, hu⟩ := not_limited hcap (pass1_lr_zero h1 hr)
    have hr0 : a.r0 nat i = false := by rw [← Bool.not_eq_true]; exact fun h' => hr (r0_iff.mp h')
    rw [fr (by simp [LoadInput.r1, ho, hu, hr0])]
    simp [LoadInput.lrSet1, ho, hu, resetWhere]
  · intro hr hlc
    have hr0 := r0_iff.mpr hr
    cases hu : a.underLr p1.lr i with
    | true =>
      right
      rw [fr (by simp [LoadInput.r1, hu])]
      simp [LoadInput.lrSet1, hu]
    | false =>
      cases ho : a.overLr p1.lr i with
      | true =>
        left
        rw [fr (by simp [LoadInput.r1, hu, ho])]
        simp [LoadInput.lrSet1, hu, ho]
      | false =>
        exfalso
        apply hlc
        have hc0 : a.c0 nat i = false := by
          rcases hr with ⟨x, y⟩ | ⟨x, y⟩
          · have := isHeating_iff.mpr x
            have hc := isCooling_false (fun hc => not_heated_of_cooled hc x)
            simp [LoadInput.c0, hc, y]
          · have := isCooling_iff.mpr x
            have hc := isHeating_false (not_heated_of_cooled x)
            simp [LoadInput.c0, hc, y]
        rw [fc (by simp [LoadInput.c1, hu, ho, hc0])]
        simp [resetWhere]

/-- Combined effect of all loads on a room: what has to be added to the natural balance. -/
theorem load_increment (a : LoadInput I) (res : LoadTemp I) (h : calcNextTempAndLoad a = .ok res)
    (nat : I → ℝ) (hn : IsNatural a nat) (i : I) :
    ∑ j, a.brm i j * (res.theta j - nat j) = res.lc i + ∑ j, a.brl i j * res.lr j := by
  have e := C07_room_equations a res h i
  have en := congrFun (show a.brm.mulVec nat = a.brc from hn) i
  simp only [Matrix.mulVec, dotProduct] at en
  simp only [mul_sub, Finset.sum_sub_distrib]
  linarith

/-! ### C11 capacity -/

/-- **C11 (partial).** If at most one room of the house has its radiative system in charge, the radiative load of every room is within
its capacities. Missing: several radiative rooms, where the claim is false (`C11_capacity_violated`). -/
theorem C11_capacity_partial (a : LoadInput I) (res : LoadTemp I) (h : calcNextTempAndLoad a = .ok res)
    (hcap : CapsNonneg a) (nat : I → ℝ) (hn : IsNatural a nat)
    (hone : ∀ i j, RadiantActive a nat i → RadiantActive a nat j → i = j) (i : I) :
    -a.capC i ≤ res.lr i ∧ res.lr i ≤ a.capH i := by
  obtain ⟨p1, -, h1, h2⟩ := calc_passes' h hn
  have hcapi := hcap i
  by_cases hr : RadiantActive a nat i
  · have hr0 := r0_iff.mpr hr
    obtain ⟨-, fc, fr⟩ := getLoadAndTemp_fixed h2 i
    cases hu : a.underLr p1.lr i with
    | true =>
      rw [fr (by simp [LoadInput.r1, hu])]
      simp only [LoadInput.lrSet1, hu, if_true]
      constructor <;> linarith [hcapi.1, hcapi.2]
    | false =>
      cases ho : a.overLr p1.lr i with
      | true =>
        rw [fr (by simp [LoadInput.r1, hu, ho])]
        simp only [LoadInput.lrSet1, hu, ho, if_true]
        constructor
        · simp; linarith [hcapi.1, hcapi.2]
        · simp
      | false =>
        -- nothing is limited anywhere, so the second pass repeats the first
        have hnone : ∀ j, a.overLr p1.lr j = false ∧ a.underLr p1.lr j = false := by
          intro j
          by_cases hj : RadiantActive a nat j
          · rw [← hone i j hr hj]; exact ⟨ho, hu⟩
          · exact not_limited hcap (pass1_lr_zero h1 hj)
        have ec : a.c1 nat p1.lr = a.c0 nat := by
          funext j; simp [LoadInput.c1, (hnone j).1, (hnone j).2]
        have er : a.r1 nat p1.lr = a.r0 nat := by
          funext j; simp [LoadInput.r1, (hnone j).1, (hnone j).2]
        have el : a.lrSet1 (resetWhere (a.r0 nat) fun _ => 0) p1.lr = fun _ => 0 := by
          funext j; simp [LoadInput.lrSet1, (hnone j).1, (hnone j).2, resetWhere]
        have ez : (resetWhere (a.c0 nat) fun _ => (0 : ℝ)) = fun _ => 0 := by funext j; simp [resetWhere]
        have et : resetWhere (a.nt nat) (a.thetaSet nat) = a.thetaSet nat := by
          funext j
          simp only [resetWhere, LoadInput.nt, LoadInput.thetaSet]
          split_ifs <;> simp_all
        rw [ec, er, el, ez, et, h1] at h2
        rw [← Except.ok.inj h2]
        unfold LoadInput.overLr at ho
        unfold LoadInput.underLr at hu
        simp only [decide_eq_false_iff_not, not_lt, gt_iff_lt] at ho hu
        exact ⟨hu, ho⟩
  · rw [(C10_one_system a res h hcap nat hn i).1 hr]
    constructor <;> linarith [hcapi.1, hcapi.2]

/-- Two rooms with floor heating: limiting room 0 makes room 1 exceed its capacity. -/
noncomputable def capExample : LoadInput (Fin 2) where
  isRadHeating := fun _ => true
  isRadCooling := fun _ => false
  brc := fun _ => 0
  brm := !![100, 0; 0, 100]
  brl := !![1, 0.1; 0.1, 1]
  lower := fun _ => 22
  upper := fun _ => 0
  capH := ![1000, 2050]
  capC := fun _ => 0
  mode := fun _ => .heating
  demand := fun _ => 1

theorem capExample_calc : calcNextTempAndLoad capExample =
    .ok { theta := fun _ => 22, lc := ![990, 0], lr := ![1000, 2100] } := by
  have hn : IsNatural capExample (fun _ => 0) := by
    unfold IsNatural capExample
    funext i; fin_cases i <;> simp [Matrix.mulVec, dotProduct]
  have hd : capExample.brm.det ≠ 0 := by simp [capExample, Matrix.det_fin_two]
  have ent : capExample.nt (fun _ => 0) = fun _ => false := by
    funext i; simp [LoadInput.nt, LoadInput.isHeating, LoadInput.isCooling, capExample]
  have ets : capExample.thetaSet (fun _ => 0) = fun _ => 22 := by
    funext i; simp [LoadInput.thetaSet, LoadInput.isHeating, LoadInput.isCooling, capExample]
  have ec : capExample.c0 (fun _ => 0) = fun _ => false := by
    funext i; simp [LoadInput.c0, LoadInput.isHeating, LoadInput.isCooling, capExample]
  have er : capExample.r0 (fun _ => 0) = fun _ => true := by
    funext i; simp [LoadInput.r0, LoadInput.isHeating, LoadInput.isCooling, capExample]
  have h1 : getLoadAndTemp capExample.brm 1 capExample.brl capExample.brc (fun _ => false) (fun _ => 22)
      (fun _ => false) (fun _ => 0) (fun _ => true) (fun _ => 0) =
      .ok { theta := fun _ => 22, lc := fun _ => 0, lr := fun _ => 2000 } := by
    rw [getLoadAndTemp_of_solution (fun _ => 2000)]
    · simp
    · simp [loadX1, capExample, Matrix.det_fin_two]; norm_num
    · funext i
      fin_cases i <;>
        simp [loadX1, loadX2, capExample, Matrix.mulVec, dotProduct, Fin.sum_univ_two, resetWhere] <;> norm_num
  refine calc_of_passes hd hn (p1 := { theta := fun _ => 22, lc := fun _ => 0, lr := fun _ => 2000 }) ?_ ?_
  · rw [ent, ets, ec, er, h1]
  · rw [ent, ets, ec, er]
    have ec1 : capExample.c1 (fun _ => 0) (fun _ => 2000) = ![true, false] := by
      funext i; fin_cases i <;>
        simp [LoadInput.c1, LoadInput.underLr, LoadInput.overLr, ec] <;> simp [capExample] <;> norm_num
    have er1 : capExample.r1 (fun _ => 0) (fun _ => 2000) = ![false, true] := by
      funext i; fin_cases i <;>
        simp [LoadInput.r1, LoadInput.underLr, LoadInput.overLr, er] <;> simp [capExample] <;> norm_num
    have el1 : capExample.lrSet1 (resetWhere (fun _ => true) fun _ => 0) (fun _ => 2000) = ![1000, 0] := by
      funext i; fin_cases i <;>
        simp [LoadInput.lrSet1, LoadInput.underLr, LoadInput.overLr, resetWhere] <;> simp [capExample] <;> norm_num
    simp only []
    rw [ec1, er1, el1]
    rw [getLoadAndTemp_of_solution ![990, 2100]]
    · congr 2 <;> funext i <;> fin_cases i <;> simp [resetWhere]
    · simp [loadX1, capExample, Matrix.det_fin_two]
    · funext i
      fin_cases i <;>
        simp [loadX1, loadX2, capExample, Matrix.mulVec, dotProduct, Fin.sum_univ_two, resetWhere] <;> norm_num

/-- **C11 fails in general.** There is a two-room house, with room equations of the physical kind (positive dominant matrix, non-negative
heat distribution), for which the returned radiative heating load of a room exceeds its capacity. -/
theorem C11_capacity_violated :
    ∃ (a : LoadInput (Fin 2)) (res : LoadTemp (Fin 2)), ZDominant a.brm ∧ (∀ i j, 0 ≤ a.brl i j) ∧ CapsNonneg a ∧
      calcNextTempAndLoad a = .ok res ∧ ∃ i, a.capH i < res.lr i := by
  refine ⟨capExample, _, ⟨?_, ?_⟩, ?_, ?_, capExample_calc, 1, ?_⟩
  · intro i j hij; fin_cases i <;> fin_cases j <;> simp_all [capExample]
  · intro i; fin_cases i <;> simp [capExample, Fin.sum_univ_two]
  · intro i j; fin_cases i <;> fin_cases j <;> simp [capExample] <;> norm_num
  · intro i; fin_cases i <;> simp [capExample]
  · simp [capExample]; norm_num

/-- The hypotheses of C07-C10 are met by this house (room 1 heated by its floor, room 0 by floor at capacity plus convection). -/
example : ∃ nat, IsNatural capExample nat ∧ CapsNonneg capExample ∧ ∀ i, Heated capExample nat i := by
  refine ⟨fun _ => 0, ?_, ?_, ?_⟩
  · unfold IsNatural capExample
    funext i; fin_cases i <;> simp [Matrix.mulVec, dotProduct]
  · intro i; fin_cases i <;> simp [capExample]
  · intro i; simp [Heated, capExample]

/-! ### C12 signs -/

/-- **C12 (partial, one room).** In a one-room house with positive coefficients (that of radiant heat only if there is radiant
equipment) and demand in [0,1], a heated room gets non-negative
convective and radiative loads, a cooled room non-positive ones. Missing: several coupled rooms, where the claim is false
(`C12_sign_violated`). -/
theorem C12_single_room_partial [Unique I] (a : LoadInput I) (res : LoadTemp I) (h : calcNextTempAndLoad a = .ok res)
    (hcap : CapsNonneg a) (nat : I → ℝ) (hn : IsNatural a nat) (hkt : 0 < a.brm default default)
    (hkr : a.isRadHeating default = true ∨ a.isRadCooling default = true → 0 < a.brl default default) (hd : 0 ≤ a.demand default ∧ a.demand default ≤ 1) :
    (Heated a nat default → 0 ≤ res.lc default ∧ 0 ≤ res.lr default) ∧
    (Cooled a nat default → res.lc default ≤ 0 ∧ res.lr default ≤ 0) := by
  have hinc := load_increment a res h nat hn default
  simp only [Fintype.sum_unique] at hinc
  have hset := C09_set_point a res h nat hn default
  have hcapd := hcap default
  obtain ⟨p1, -, h1, h2⟩ := calc_passes' h hn
  obtain ⟨-, fc, fr⟩ := getLoadAndTemp_fixed h2 default
  obtain ⟨f1t, f1c, -⟩ := getLoadAndTemp_fixed h1 default
  have e1 := congrFun (getLoadAndTemp_eq h1) default
  rw [Matrix.one_mulVec] at e1
  have en := congrFun (show a.brm.mulVec nat = a.brc from hn) default
  simp only [Matrix.mulVec, dotProduct, Fintype.sum_unique, Pi.add_apply] at e1 en
  constructor
  · intro hh
    have hc : ¬ Cooled a nat default := fun hc => not_heated_of_cooled hc hh
    have eH := isHeating_iff.mpr hh
    have eC := isCooling_false hc
    have hθ := hset.1 hh
    have hpos : 0 ≤ a.brm default default * (res.theta default - nat default) := by
      rw [hθ]
      have : 0 ≤ a.demand default * (a.lower default - nat default) := mul_nonneg hd.1 (by linarith [hh.2])
      apply mul_nonneg hkt.le; nlinarith
    by_cases hr : a.isRadHeating default = true
    · replace hkr := hkr (.inl hr)
      have hra : RadiantActive a nat default := Or.inl ⟨hh, hr⟩
      have hc0 : a.c0 nat default = false := by simp [LoadInput.c0, eC, hr]
      have hlc1 : p1.lc default = 0 := f1c hc0
      have hth1 : p1.theta default = res.theta default := by
        rw [f1t (by simp [LoadInput.nt, eH]), hθ]
        simp [LoadInput.thetaSet, eC, eH]; ring
      rw [hlc1, hth1] at e1
      have hlr1 : a.brl default default * p1.lr default = a.brm default default * (res.theta default - nat default) := by
        rw [mul_sub]; linarith
      have hlr1n : 0 ≤ p1.lr default := by
        rcases le_or_gt 0 (p1.lr default) with h | h
        · exact h
        · have := mul_neg_of_pos_of_neg hkr h
          linarith
      have hu : a.underLr p1.lr default = false := by
        unfold LoadInput.underLr; simp only [decide_eq_false_iff_not, not_lt]; linarith [hcapd.2]
      cases ho : a.overLr p1.lr default with
      | true =>
        have hlr : res.lr default = a.capH default := by
          rw [fr (by simp [LoadInput.r1, hu, ho])]; simp [LoadInput.lrSet1, hu, ho]
        unfold LoadInput.overLr at ho
        simp only [decide_eq_true_eq, gt_iff_lt] at ho
        rw [hlr] at hinc ⊢
        have := mul_lt_mul_of_pos_left ho hkr
        exact ⟨by linarith, hcapd.1⟩
      | false =>
        have hlc : res.lc default = 0 := by
          rw [fc (by simp [LoadInput.c1, hu, ho, hc0])]; simp [resetWhere]
        rw [hlc, zero_add] at hinc
        refine ⟨hlc.ge, ?_⟩
        rw [hinc] at hpos
        exact (mul_nonneg_iff_of_pos_left hkr).mp hpos
    · have hra : ¬ RadiantActive a nat default := by
        rintro (⟨-, y⟩ | ⟨y, -⟩)
        · exact hr y
        · exact hc y
      have hlr := (C10_one_system a res h hcap nat hn default).1 hra
      rw [hlr, mul_zero, add_zero] at hinc
      exact ⟨by linarith, hlr.ge⟩
  · intro hc
    have hh : ¬ Heated a nat default := not_heated_of_cooled hc
    have eC := isCooling_iff.mpr hc
    have eH := isHeating_false hh
    have hθ := hset.2 hc
    have hneg : a.brm default default * (res.theta default - nat default) ≤ 0 := by
      rw [hθ]
      have : 0 ≤ a.demand default * (nat default - a.upper default) := mul_nonneg hd.1 (by linarith [hc.2])
      apply mul_nonpos_of_nonneg_of_nonpos hkt.le; nlinarith
    by_cases hr : a.isRadCooling default = true
    · replace hkr := hkr (.inr hr)
      have hra : RadiantActive a nat default := Or.inr ⟨hc, hr⟩
      have hc0 : a.c0 nat default = false := by simp [LoadInput.c0, eH, hr]
      have hlc1 : p1.lc default = 0 := f1c hc0
      have hth1 : p1.theta default = res.theta default := by
        rw [f1t (by simp [LoadInput.nt, eC]), hθ]
        simp [LoadInput.thetaSet, eC]; ring
      rw [hlc1, hth1] at e1
      have hlr1 : a.brl default default * p1.lr default = a.brm default default * (res.theta default - nat default) := by
        rw [mul_sub]; linarith
      have hlr1n : p1.lr default ≤ 0 := by
        rcases le_or_gt (p1.lr default) 0 with h | h
        · exact h
        · have := mul_pos hkr h
          linarith
      have ho : a.overLr p1.lr default = false := by
        unfold LoadInput.overLr; simp only [decide_eq_false_iff_not, not_lt, gt_iff_lt]; linarith [hcapd.1]
      cases hu : a.underLr p1.lr default with
      | true =>
        have hlr : res.lr default = -a.capC default := by
          rw [fr (by simp [LoadInput.r1, hu])]; simp [LoadInput.lrSet1, hu]
        unfold LoadInput.underLr at hu
        simp only [decide_eq_true_eq] at hu
        rw [hlr] at hinc ⊢
        have := mul_lt_mul_of_pos_left hu hkr
        exact ⟨by linarith, by linarith [hcapd.2]⟩
      | false =>
        have hlc : res.lc default = 0 := by
          rw [fc (by simp [LoadInput.c1, hu, ho, hc0])]; simp [resetWhere]
        rw [hlc, zero_add] at hinc
        refine ⟨hlc.le, ?_⟩
        rw [hinc] at hneg
        by_contra hcon
        push Not at hcon
        have := mul_pos hkr hcon
        linarith
    · have hra : ¬ RadiantActive a nat default := by
        rintro (⟨y, -⟩ | ⟨-, y⟩)
        · exact hh y
        · exact hr y
      have hlr := (C10_one_system a res h hcap nat hn default).1 hra
      rw [hlr, mul_zero, add_zero] at hinc
      exact ⟨by linarith, hlr.le⟩

/-- **C12 (partial, total).** In a house with any number of rooms, all conditioned rooms heated convectively with demand in [0,1], and a
dominant room matrix with non-negative column sums: no room is colder than without heating and the total heating load is
non-negative. Missing: the sign of each single room's load (false, `C12_sign_violated`). -/
theorem C12_total_heating_partial (a : LoadInput I) (res : LoadTemp I) (h : calcNextTempAndLoad a = .ok res)
    (hcap : CapsNonneg a) (nat : I → ℝ) (hn : IsNatural a nat) (hz : ZDominant a.brm)
    (hcol : ∀ j, 0 ≤ ∑ i, a.brm i j) (hd : ∀ i, 0 ≤ a.demand i)
    (hnocool : ∀ i, ¬ Cooled a nat i) (hnorad : ∀ i, ¬ RadiantActive a nat i) :
    (∀ i, nat i ≤ res.theta i) ∧ 0 ≤ ∑ i, res.lc i := by
  have hlr := fun i => (C10_one_system a res h hcap nat hn i).1 (hnorad i)
  have hinc := fun i => load_increment a res h nat hn i
  simp only [hlr, mul_zero, Finset.sum_const_zero, add_zero] at hinc
  have hpos : ∀ i, 0 ≤ res.theta i - nat i := by
    apply hz.nonneg (x := fun i => res.theta i - nat i)
    intro i hi
    by_cases hh : Heated a nat i
    · exfalso
      rw [(C09_set_point a res h nat hn i).1 hh] at hi
      have := mul_nonneg (hd i) (sub_nonneg.mpr hh.2.le)
      nlinarith
    · have := (C08_no_load a res h hcap nat hn i hh (hnocool i)).1
      have e := hinc i
      rw [this] at e
      exact e.ge
  refine ⟨fun i => by linarith [hpos i], ?_⟩
  calc (0 : ℝ) ≤ ∑ j, (∑ i, a.brm i j) * (res.theta j - nat j) :=
        Finset.sum_nonneg fun j _ => mul_nonneg (hcol j) (hpos j)
    _ = ∑ i, ∑ j, a.brm i j * (res.theta j - nat j) := by
        rw [Finset.sum_comm]; simp only [Finset.sum_mul]
    _ = ∑ i, res.lc i := Finset.sum_congr rfl fun i _ => hinc i

/-- Two convectively heated rooms, the second one to a much higher set point. -/
noncomputable def signExample : LoadInput (Fin 2) where
  isRadHeating := fun _ => false
  isRadCooling := fun _ => false
  brc := fun _ => 0
  brm := !![200, -100; -100, 200]
  brl := 1
  lower := ![1, 20]
  upper := fun _ => 0
  capH := fun _ => 0
  capC := fun _ => 0
  mode := fun _ => .heating
  demand := fun _ => 1

theorem signExample_calc : calcNextTempAndLoad signExample =
    .ok { theta := ![1, 20], lc := ![-1800, 3900], lr := fun _ => 0 } := by
  have hn : IsNatural signExample (fun _ => 0) := by
    unfold IsNatural signExample
    funext i; fin_cases i <;> simp [Matrix.mulVec, dotProduct]
  have hd : signExample.brm.det ≠ 0 := by simp [signExample, Matrix.det_fin_two]; norm_num
  have ent : signExample.nt (fun _ => 0) = fun _ => false := by
    funext i; fin_cases i <;> simp [LoadInput.nt, LoadInput.isHeating, LoadInput.isCooling, signExample]
  have ets : signExample.thetaSet (fun _ => 0) = ![1, 20] := by
    funext i; fin_cases i <;> simp [LoadInput.thetaSet, LoadInput.isHeating, LoadInput.isCooling, signExample]
  have ec : signExample.c0 (fun _ => 0) = fun _ => true := by
    funext i; fin_cases i <;> simp [LoadInput.c0, LoadInput.isHeating, LoadInput.isCooling, signExample]
  have er : signExample.r0 (fun _ => 0) = fun _ => false := by
    funext i; fin_cases i <;> simp [LoadInput.r0, LoadInput.isHeating, LoadInput.isCooling, signExample]
  have h1 : getLoadAndTemp signExample.brm 1 signExample.brl signExample.brc (fun _ => false) ![1, 20]
      (fun _ => true) (fun _ => 0) (fun _ => false) (fun _ => 0) =
      .ok { theta := ![1, 20], lc := ![-1800, 3900], lr := fun _ => 0 } := by
    rw [getLoadAndTemp_of_solution ![-1800, 3900]]
    · simp
    · simp [loadX1, signExample, Matrix.det_fin_two]
    · funext i
      fin_cases i <;>
        simp [loadX1, loadX2, signExample, Matrix.mulVec, dotProduct, Fin.sum_univ_two, resetWhere] <;> norm_num
  refine calc_of_passes hd hn (p1 := { theta := ![1, 20], lc := ![-1800, 3900], lr := fun _ => 0 }) ?_ ?_
  · rw [ent, ets, ec, er, h1]
  · rw [ent, ets, ec, er]
    have ec1 : signExample.c1 (fun _ => 0) (fun _ => 0) = fun _ => true := by
      funext i; fin_cases i <;>
        simp [LoadInput.c1, ec]
    have er1 : signExample.r1 (fun _ => 0) (fun _ => 0) = fun _ => false := by
      funext i; fin_cases i <;> simp [LoadInput.r1, er]
    have el1 : signExample.lrSet1 (resetWhere (fun _ => false) fun _ => 0) (fun _ => 0) = fun _ => 0 := by
      funext i; fin_cases i <;> simp [LoadInput.lrSet1, LoadInput.underLr, LoadInput.overLr, resetWhere, signExample]
    have et : resetWhere (fun _ => false) (![1, 20] : Fin 2 → ℝ) = ![1, 20] := by
      funext i; simp [resetWhere]
    have ez : (resetWhere (fun _ => true) fun _ => (0 : ℝ)) = (fun _ => 0 : Fin 2 → ℝ) := by
      funext i; simp [resetWhere]
    simp only []
    rw [ec1, er1, el1, et, ez, h1]

/-- **C12 fails for single rooms of a multi-room house**: a heated room can be assigned a negative heating load. -/
theorem C12_sign_violated :
    ∃ (a : LoadInput (Fin 2)) (res : LoadTemp (Fin 2)) (nat : Fin 2 → ℝ), ZDominant a.brm ∧ CapsNonneg a ∧ IsNatural a nat ∧
      (∀ i, a.demand i = 1) ∧ calcNextTempAndLoad a = .ok res ∧ ∃ i, Heated a nat i ∧ res.lc i < 0 := by
  refine ⟨signExample, _, fun _ => 0, ⟨?_, ?_⟩, ?_, ?_, ?_, signExample_calc, 0, ?_, ?_⟩
  · intro i j hij; fin_cases i <;> fin_cases j <;> simp_all [signExample]
  · intro i; fin_cases i <;> simp [signExample, Fin.sum_univ_two] <;> norm_num
  · intro i; simp [signExample]
  · unfold IsNatural signExample
    funext i; fin_cases i <;> simp [Matrix.mulVec, dotProduct]
  · intro i; rfl
  · simp [Heated, signExample]
  · simp

/-- The hypotheses of `C12_total_heating_partial` are met by the same house. -/
example : (∀ j, 0 ≤ ∑ i, signExample.brm i j) ∧ (∀ i, 0 ≤ signExample.demand i) ∧
    (∀ i, ¬ Cooled signExample (fun _ => 0) i) ∧ (∀ i, ¬ RadiantActive signExample (fun _ => 0) i) := by
  refine ⟨?_, ?_, ?_, ?_⟩
  · intro j; fin_cases j <;> simp [signExample, Fin.sum_univ_two] <;> norm_num
  · intro i; simp [signExample]
  · intro i; simp [Cooled, signExample]
  · intro i; simp [RadiantActive, Cooled, signExample]

end HLC
