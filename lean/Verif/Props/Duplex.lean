import Verif.Props.ColdHouse

/-!
# C21 fails for two rooms heated from both sides of one partition
-/

namespace HLC

set_option linter.unusedSectionVars false

open Spec

/-- Two rooms separated by one partition, each heated by a panel on its side of it. The partition is a board of 0.0433 m2K/W; its
thermal resistance including the given resistance of the far side, 0.09 m2K/W, is 2/15 m2K/W. -/
noncomputable def exDuplex : House (Fin 2) (Fin 2) where
  vRoom := fun _ => 30
  beta := fun _ => 0
  vVentEx := fun _ => 0.01
  vInt := 0
  vNtrl := fun _ => 0.04
  cSh := fun _ => 1000
  gSh := fun _ => 10
  cLh := fun _ => 1000
  gLh := fun _ => 1
  isRadHeating := fun _ => true
  capH := fun _ => 1000
  isRadCooling := fun _ => false
  capC := fun _ => 0
  rac := fun _ => ⟨500, 5000, 6, 11⟩
  isGround := fun _ => false
  room := fun j => j
  area := fun _ => 10
  phiA0 := fun _ => 2 / 15
  phiT0 := fun _ => 1
  phiA1 := fun _ _ => 0
  phiT1 := fun _ _ => 0
  ratio := fun _ _ => 0
  hC := fun _ => 2.5
  flr := fun _ => 1
  solarAbs := fun _ => true
  fMrtHum := fun _ => 1
  kEo := fun _ => 0
  kEi := fun j => some (1 - j, 1)
  story := 1
  cValue := 2
  pressure := "balanced"

/-- Radiative coefficients. -/
noncomputable def exDuplexHR : Fin 2 → ℝ := fun _ => 5

/-- A day at 15 degC, demand for air conditioning. -/
noncomputable def exDuplexData : Fin 96 → Record (Fin 2) (Fin 2) := fun _ =>
  { thetaO := 15, xO := 0.004, vLocal := fun _ => 0, qGen := fun _ => 0, xGen := fun _ => 0, nHum := fun _ => 0
    acDemand := fun _ => 1, qTrsSol := fun _ => 0, thetaOSol := fun _ => 15 }

theorem exDuplex_surfaces (i : Fin 2) : surfaces exDuplex i = {i} := by
  ext j; simp only [surfaces, Finset.mem_filter, Finset.mem_univ, true_and, Finset.mem_singleton]; rfl

theorem exDuplex_wellFormed : WellFormed exDuplex exDuplexHR 900 where
  dt_pos := by norm_num
  vRoom_pos := by intro i; norm_num [exDuplex]
  cSh_nonneg := by intro i; norm_num [exDuplex]
  gSh_nonneg := by intro i; norm_num [exDuplex]
  cLh_nonneg := by intro i; norm_num [exDuplex]
  gLh_nonneg := by intro i; norm_num [exDuplex]
  frtSh_pos := by intro i; norm_num [exDuplex]
  frtLh_pos := by intro i; norm_num [exDuplex]
  area_pos := by intro j; norm_num [exDuplex]
  hC_pos := by intro j; norm_num [exDuplex]
  hR_pos := by intro j; norm_num [exDuplexHR]
  phiA0_nonneg := by intro j; norm_num [exDuplex]
  phiT0_mem := by intro j; norm_num [exDuplex]
  kEi_mem := by
    intro j m coef e
    simp only [exDuplex, Option.some.injEq, Prod.mk.injEq] at e
    rw [← e.2]; norm_num
  fMrtHum_nonneg := by intro j; norm_num [exDuplex]
  fMrtHum_sum := by intro i; rw [exDuplex_surfaces]; simp [exDuplex]
  vInt_nonneg := by intro i l; simp [exDuplex]
  vInt_lt := by intro i; norm_num [exDuplex]
  vVentEx_nonneg := by intro i; norm_num [exDuplex]
  vNtrl_nonneg := by intro i; norm_num [exDuplex]
  capH_nonneg := by intro i; norm_num [exDuplex]
  capC_nonneg := by intro i; norm_num [exDuplex]
  story_mem := Or.inl rfl
  pressure_mem := Or.inl rfl
  rac_q := by intro i; norm_num [exDuplex]
  rac_v := by intro i; norm_num [exDuplex]
  rac_fan := by intro i; norm_num [exDuplex]

theorem exDuplex_radiant : RadiantWellFormed exDuplex where
  beta_mem := by intro i; norm_num [exDuplex]
  flr_nonneg := by intro j; norm_num [exDuplex]

theorem exDuplex_reaches (i : Fin 2) : RadiantReaches exDuplex i :=
  .inr ⟨by norm_num [exDuplex], i, by rw [exDuplex_surfaces]; simp, by norm_num [exDuplex], by norm_num [exDuplex]⟩

theorem exDuplex_steady : SteadyWalls exDuplex where
  ratio_ne := by intro j m; norm_num [exDuplex]
  transmission := by intro j; norm_num [exDuplex]
  weights := by intro j; norm_num [exDuplex]

/-- The panel of either room warms every surface by the same amount. -/
theorem duplex_flb (j : Fin 2) : exDuplex.flb exDuplexHR j 0 = exDuplex.flb exDuplexHR j 1 := by
  simp only [House.flb, Matrix.of_apply, Matrix.mul_apply, Fin.sum_univ_two, House.flrBeta, House.flrMat, House.p, House.kEiMat, House.hI]
  fin_cases j <;> norm_num [exDuplex, exDuplexHR]

/-- The room would stay at 15 degC without heating. -/
theorem duplex_natural {ivs : Matrix (Fin 2) (Fin 2) ℝ} (hi : npInv (exDuplex.ax exDuplexHR) = .ok ivs)
    {c : Cond (Fin 2) (Fin 2)} {t : TickVars (Fin 2) (Fin 2)} (hr : AtRest exDuplex 15 c)
    (e : TickEqs (preCalcOf exDuplex exDuplexHR 900 exDuplexData ivs) 900 0 c t) :
    t.brmOt.mulVec (fun _ => 15) = t.brcOt := by
  have hq : Calm 15 (exDuplexData 0) := by constructor <;> intros <;> rfl
  have hw := exDuplex_wellFormed
  have hsum := add_pos hHumC_pos hHumR_pos
  have h1 : (Tick.otMat (preCalcOf exDuplex exDuplexHR 900 exDuplexData ivs) t.ot).mulVec (fun _ => (15 : ℝ))
      = (fun _ => (15 : ℝ)) - fun i => Tick.kr t.ot i * (preCalcOf exDuplex exDuplexHR 900 exDuplexData ivs).fMrtHum.mulVec
          (fun j => (preCalcOf exDuplex exDuplexHR 900 exDuplexData ivs).wsc 0 j + t.wsv j) i := by
    funext i
    obtain ⟨w1, w2⟩ := ot_coefs (e.ot i)
    simp only [Tick.otMat, Matrix.add_mulVec, Pi.add_apply, Matrix.mulVec_diagonal, rowScale_mulVec, Pi.sub_apply]
    have h2 : ∀ f : Fin 2 → ℝ, (preCalcOf exDuplex exDuplexHR 900 exDuplexData ivs).fMrtHum.mulVec f i = f i := by
      intro f
      refine (fMrtHum_mulVec exDuplex f i).trans ?_
      rw [exDuplex_surfaces, Finset.sum_singleton]
      simp [exDuplex]
    rw [h2, ← Matrix.mulVec_mulVec, h2]
    have h3 := rest_surfaces hw exDuplex_steady hr hq hi e i
    have h4 : (preCalcOf exDuplex exDuplexHR 900 exDuplexData ivs).wsr.mulVec (fun _ => (15 : ℝ)) i
        = 15 - ((preCalcOf exDuplex exDuplexHR 900 exDuplexData ivs).wsc 0 i + t.wsv i) := by
      have h3' : (preCalcOf exDuplex exDuplexHR 900 exDuplexData ivs).wsr.mulVec (fun _ => (15 : ℝ)) i
        + (preCalcOf exDuplex exDuplexHR 900 exDuplexData ivs).wsc 0 i + t.wsv i = 15 := h3
      linarith
    rw [h4]
    have h5 : Tick.kc t.ot i + Tick.kr t.ot i = 1 := by
      unfold Tick.kc Tick.kr
      rw [w1, w2, ← add_div, div_self hsum.ne']
    linear_combination 15 * h5
  have h6 : t.xot.mulVec (fun _ => (15 : ℝ)) = (fun _ => (15 : ℝ)) + t.xc := by
    have := congrArg t.xot.mulVec h1
    rw [npInv_mulVec e.xot, Matrix.mulVec_sub] at this
    have hxc : t.xc = t.xot.mulVec fun i => Tick.kr t.ot i * (preCalcOf exDuplex exDuplexHR 900 exDuplexData ivs).fMrtHum.mulVec
          (fun j => (preCalcOf exDuplex exDuplexHR 900 exDuplexData ivs).wsc 0 j + t.wsv j) i := e.xc
    rw [← hxc] at this
    rw [eq_sub_iff_add_eq.1 this]
  have h7 : t.brm.mulVec (fun _ => (15 : ℝ)) = t.brc := by
    funext i
    rw [rest_rooms hw exDuplex_steady hr hq hi e i]
    simp [exDuplex]
  rw [e.brmOt, e.brcOt, Tick.brmOt, ← Matrix.mulVec_mulVec, h6, Matrix.mulVec_add, h7]
  rfl

/-- The step from the initial state cannot be completed. -/
theorem duplex_step {ss : PreCalc (Fin 2) (Fin 2) 96} {c : Cond (Fin 2) (Fin 2)} {t : TickVars (Fin 2) (Fin 2)}
    (Hp : makePreCalc exDuplex exDuplexHR 900 exDuplexData = .ok ss) (hr : AtRest exDuplex 15 c) (hm : ∀ i, c.thetaMrt i = 15)
    (hmode : ∀ i, c.mode i = .stopClose) (hx : ∀ i, getPvR (c.xR i) = coldP) : runTick 0 900 ss c ≠ .ok t := by
  intro Ht
  obtain ⟨ivs, k, hi, hs, hk, e⟩ := step_eqs Hp Ht
  have hidx : pyIndex 96 0 = .ok (0 : Fin 96) := by rfl
  have : k = 0 := Except.ok.inj (hk.symm.trans hidx)
  subst this
  subst hs
  obtain ⟨q1, q2⟩ := cold_pmv
  have hheat : ∀ i, (t.ot i).mode = .heating := by
    intro i
    have hot := e.ot i
    rw [hr.room, hm, hmode] at hot
    unfold getOtTargetAndHHum at hot
    rw [hx i] at hot
    have hd : (preCalcOf exDuplex exDuplexHR 900 exDuplexData ivs).acDemand 0 i = 1 := by simp [preCalcOf, exDuplexData]
    rw [hd] at hot
    simp only [getOperationMode, bind, Except.bind, if_neg (not_le.2 q2), ge_iff_le, if_pos q1, gt_iff_lt, zero_lt_one, if_true] at hot
    rw [← Except.ok.inj hot]
  have hlow : ∀ i, 15 < (t.ot i).thetaLower := by
    intro i
    obtain ⟨w1, w2⟩ := ot_coefs (e.ot i)
    have htarget := ((C04_target_realises_pmv _ _ _ _ _ _ (e.ot i)).1 (hheat i)).1
    rw [w1, w2, hx i] at htarget
    exact cold_target htarget
  obtain ⟨p1, hdet, h1, -⟩ := calc_passes' e.load (nat := fun _ => 15) (duplex_natural hi hr e)
  have hact : ∀ i, (Tick.loadInput (preCalcOf exDuplex exDuplexHR 900 exDuplexData ivs) 0 t.ot t.brcOt t.brmOt t.brlOt).isHeating
      (fun _ => 15) i = true := fun i => isHeating_iff.2 ⟨hheat i, hlow i⟩
  have hnc : ∀ i, (Tick.loadInput (preCalcOf exDuplex exDuplexHR 900 exDuplexData ivs) 0 t.ot t.brcOt t.brmOt t.brlOt).isCooling
      (fun _ => 15) i = false := by
    intro i
    refine isCooling_false fun hc => ?_
    have h2 : (t.ot i).mode = .cooling := hc.1
    rw [hheat i] at h2
    cases h2
  unfold getLoadAndTemp at h1
  simp only [bind, Except.bind] at h1
  split at h1
  · cases h1
  rename_i B hB
  refine (npInv_ok hB).1 (Matrix.det_zero_of_column_eq (i := 0) (j := 1) (by decide) fun i => ?_)
  have hwsb : ∀ j, (ivs * exDuplex.flb exDuplexHR) j 0 = (ivs * exDuplex.flb exDuplexHR) j 1 := by
    intro j
    simp only [Matrix.mul_apply, duplex_flb]
  have hcol : ∀ {A : Type} [Fintype A] (M : Matrix (Fin 2) A ℝ) (M' : Matrix A (Fin 2) ℝ), (∀ a, M' a 0 = M' a 1) → ∀ i, (M * M') i 0 = (M * M') i 1 := by
    intro A _ M M' h i
    simp only [Matrix.mul_apply, h]
  have hbrl : ∀ i, t.brlOt i 0 = t.brlOt i 1 := by
    intro i
    rw [e.brlOt, e.xlr]
    simp only [Tick.brlOt, Tick.xlr, Matrix.add_apply]
    congr 1
    · simp only [preCalcOf, House.brl, Matrix.add_apply]
      congr 1
      · exact hcol _ _ (fun j => by simp only [Matrix.of_apply, hwsb]) i
      · simp [Matrix.diagonal_apply, exDuplex]
    · refine hcol _ _ (fun a => hcol _ _ (fun b => ?_) a) i
      simp only [Matrix.of_apply]
      congr 1
      exact hcol _ _ hwsb b
  have hr0 : ∀ i, (Tick.loadInput (preCalcOf exDuplex exDuplexHR 900 exDuplexData ivs) 0 t.ot t.brcOt t.brmOt t.brlOt).r0 (fun _ => 15) i = true := by
    intro i
    simp [LoadInput.r0, hact, hnc]
    rfl
  have hc0 : ∀ i, (Tick.loadInput (preCalcOf exDuplex exDuplexHR 900 exDuplexData ivs) 0 t.ot t.brcOt t.brmOt t.brlOt).c0 (fun _ => 15) i = false := by
    intro i
    simp [LoadInput.c0, hact, hnc]
    rfl
  have hnt : ∀ i, (Tick.loadInput (preCalcOf exDuplex exDuplexHR 900 exDuplexData ivs) 0 t.ot t.brcOt t.brmOt t.brlOt).nt (fun _ => 15) i = false := by
    intro i
    simp [LoadInput.nt, hact, hnc]
  simp only [loadX1, Matrix.of_apply, hnt, hc0, hr0, ind_true, ind_false, mul_zero, mul_one, zero_sub, sub_zero]
  exact congrArg Neg.neg (hbrl i)

/-- **C21 (violated).** There is a well-formed house of two rooms with radiative heating whose heat reaches the rooms for which the
calculation stops with an exception in its first step: the panels on both sides of the partition have the same effect on both rooms,
the matrix of the load calculation is singular. -/
theorem C21_violated : WellFormed exDuplex exDuplexHR 900 ∧ RadiantWellFormed exDuplex ∧ (∀ i, RadiantReaches exDuplex i) ∧
    ∃ err, coreCalc exDuplex exDuplexHR exDuplexData 4 1 0 0 = .error err := by
  refine ⟨exDuplex_wellFormed, exDuplex_radiant, exDuplex_reaches, ?_⟩
  cases H : coreCalc exDuplex exDuplexHR exDuplexData 4 1 0 0 with
  | error err => exact ⟨err, rfl⟩
  | ok r =>
    exfalso
    obtain ⟨c, t, Hp, Ht, -, c1, c2, c3, c4, c5, c6, c7, c8, c9⟩ := first_step H (fun _ => rfl)
    exact duplex_step Hp ⟨fun i => by rw [c1], fun i => by rw [c5], fun i => by rw [c6], fun i => by rw [c7], fun i m => by rw [c8],
      fun i m => by rw [c9]; simp [exDuplex]⟩ (fun i => by rw [c2]) (fun i => by rw [c3]) c4 Ht

end HLC
