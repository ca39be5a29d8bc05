import Verif.Lemmas.WellFormed

/-!
# C21: a step never fails on a well-formed house
-/

namespace HLC

set_option linter.unusedSectionVars false

variable {I J : Type} [Fintype I] [DecidableEq I] [Fintype J] [DecidableEq J] {N : ℕ}

open Spec

variable {h : House I J} {hR : J → ℝ} {dt : ℝ} {data : Fin N → Record I J} {ss : PreCalc I J N} {n : ℤ} {k : Fin N}
  {c : Cond I J} {t : TickVars I J}

theorem getOperationMode_total {d : ℝ} {m : OpMode} {a b e : ℝ} (hm : m ≠ .heatingAndCooling) :
    ∃ m', getOperationMode d m a b e = .ok m' := by
  unfold getOperationMode
  cases m <;> split_ifs <;> simp_all

theorem getOtTarget_total {a b x d : ℝ} {m : OpMode} (hm : m ≠ .heatingAndCooling) :
    ∃ o, getOtTargetAndHHum a b x m d = .ok o := by
  unfold getOtTargetAndHHum
  simp only [bind, Except.bind]
  obtain ⟨m', hm'⟩ := getOperationMode_total (d := d) (a := getHHumAndPmv (getPvR x) a b cloHeavy)
    (b := getHHumAndPmv (getPvR x) a b cloMiddle) (e := getHHumAndPmv (getPvR x) a b cloLight) hm
  rw [hm']
  exact ⟨_, rfl⟩

/-- The system of the load calculation is non-singular when every conditioned room has its convective load as the unknown. -/
theorem loadX1_det {A X M kr : Matrix I I ℝ} (hMX : M * X = 1) (hA : ∀ i, RowDom A i) (hM : ∀ i, RowDom M i)
    (nt : I → Bool) : (loadX1 (A * X) 1 kr nt (fun i => !nt i) (fun _ => false)).det ≠ 0 := by
  intro hdet
  obtain ⟨v, hv, h0⟩ := Matrix.exists_mulVec_eq_zero_iff.mpr hdet
  apply hv
  set u : I → ℝ := fun i => ind (nt i) * v i with hu
  set w : I → ℝ := fun i => ind (!nt i) * v i with hw
  have e1 : (A * X).mulVec u = w := by
    funext i
    have := congrFun h0 i
    simp only [loadX1, Matrix.mulVec, dotProduct, Matrix.of_apply, Pi.zero_apply, sub_mul, Finset.sum_sub_distrib, ind_false,
      mul_zero, zero_mul, sub_zero, Matrix.one_apply, ite_mul, one_mul, Finset.sum_ite_eq,
      Finset.mem_univ, if_true] at this
    simp only [Matrix.mulVec, dotProduct, hu, hw]
    have e : ∑ x, (A * X) i x * (ind (nt x) * v x) = ∑ x, (A * X) i x * ind (nt x) * v x :=
      Finset.sum_congr rfl fun x _ => by ring
    rw [e]
    linarith
  set θ := X.mulVec u with hθ
  have e2 : A.mulVec θ = w := by rw [hθ, Matrix.mulVec_mulVec, e1]
  have e3 : M.mulVec θ = u := by rw [hθ, Matrix.mulVec_mulVec, hMX, Matrix.one_mulVec]
  have hB : (Matrix.of fun i l => if nt i then A i l else M i l).det ≠ 0 := by
    apply det_ne_zero_of_rowDom
    intro i
    unfold RowDom
    simp only [Matrix.of_apply]
    cases nt i
    · exact hM i
    · exact hA i
  have e4 : (Matrix.of fun i l => if nt i then A i l else M i l).mulVec θ = 0 := by
    funext i
    cases hnt : nt i
    · have : (Matrix.of fun i l => if nt i then A i l else M i l).mulVec θ i = M.mulVec θ i := by
        simp [Matrix.mulVec, dotProduct, Matrix.of_apply, hnt]
      rw [this, e3, hu]
      simp [hnt]
    · have : (Matrix.of fun i l => if nt i then A i l else M i l).mulVec θ i = A.mulVec θ i := by
        simp [Matrix.mulVec, dotProduct, Matrix.of_apply, hnt]
      rw [this, e2, hw]
      simp [hnt]
  have hθ0 : θ = 0 := by
    by_contra hne
    exact hB (Matrix.exists_mulVec_eq_zero_iff.mp ⟨θ, hne, e4⟩)
  rw [hθ0, Matrix.mulVec_zero] at e2 e3
  funext i
  have h2 := congrFun e2 i
  have h3 := congrFun e3 i
  simp only [hu, hw, Pi.zero_apply] at h2 h3
  simp only [Pi.zero_apply]
  cases hnt : nt i <;> simp [hnt] at h2 h3 <;> linarith

theorem getLoadAndTemp_total {kt kc kr : Matrix I I ℝ} {k : I → ℝ} {nt : I → Bool} {ts : I → ℝ} {c : I → Bool}
    {lcs : I → ℝ} {r : I → Bool} {lrs : I → ℝ} (hdet : (loadX1 kt kc kr nt c r).det ≠ 0) :
    ∃ res, getLoadAndTemp kt kc kr k nt ts c lcs r lrs = .ok res := by
  unfold getLoadAndTemp
  simp only [bind, Except.bind]
  rw [npInv_of_det_ne_zero hdet]
  exact ⟨_, rfl⟩

/-- Existence of the load calculation for any input whose system is non-singular with the masks of either pass. -/
theorem calc_total {a : LoadInput I} (hdet : a.brm.det ≠ 0)
    (hx : ∀ nat, (loadX1 a.brm 1 a.brl (a.nt nat) (a.c0 nat) (a.r0 nat)).det ≠ 0)
    (hx2 : ∀ nat p1, getLoadAndTemp a.brm 1 a.brl a.brc (a.nt nat) (a.thetaSet nat) (a.c0 nat) (fun _ => 0) (a.r0 nat)
      (fun _ => 0) = .ok p1 → (loadX1 a.brm 1 a.brl (a.nt nat) (a.c1 nat p1.lr) (a.r1 nat p1.lr)).det ≠ 0) :
    ∃ res, calcNextTempAndLoad a = .ok res := by
  have hn : IsNatural a ((a.brm)⁻¹.mulVec a.brc) := mulVec_npInv (npInv_of_det_ne_zero hdet) _
  obtain ⟨p1, hp1⟩ := getLoadAndTemp_total (k := a.brc) (ts := a.thetaSet ((a.brm)⁻¹.mulVec a.brc)) (lcs := fun _ => 0)
    (lrs := fun _ => 0) (hx ((a.brm)⁻¹.mulVec a.brc))
  obtain ⟨res, hres⟩ := getLoadAndTemp_total (k := a.brc)
    (ts := resetWhere (a.nt ((a.brm)⁻¹.mulVec a.brc)) (a.thetaSet ((a.brm)⁻¹.mulVec a.brc)))
    (lcs := resetWhere (a.c0 ((a.brm)⁻¹.mulVec a.brc)) fun _ => 0)
    (lrs := a.lrSet1 (resetWhere (a.r0 ((a.brm)⁻¹.mulVec a.brc)) fun _ => 0) p1.lr)
    (hx2 _ _ hp1)
  exact ⟨res, calc_of_passes hdet hn hp1 hres⟩

theorem calc_total_noRad {a : LoadInput I} {A X M : Matrix I I ℝ} (hbrm : a.brm = A * X) (hMX : M * X = 1)
    (hA : ∀ i, RowDom A i) (hM : ∀ i, RowDom M i) (hH : ∀ i, a.isRadHeating i = false) (hC : ∀ i, a.isRadCooling i = false)
    (hcap : CapsNonneg a) : ∃ res, calcNextTempAndLoad a = .ok res := by
  have hc0 : ∀ nat, a.c0 nat = fun i => !a.nt nat i := by
    intro nat; funext i
    unfold LoadInput.c0 LoadInput.nt
    rw [hH, hC]
    cases a.isCooling nat i <;> cases a.isHeating nat i <;> rfl
  have hr0 : ∀ nat, a.r0 nat = fun _ => false := by
    intro nat; funext i
    unfold LoadInput.r0
    rw [hH, hC]
    cases a.isCooling nat i <;> cases a.isHeating nat i <;> rfl
  have hd : ∀ nat, (loadX1 a.brm 1 a.brl (a.nt nat) (a.c0 nat) (a.r0 nat)).det ≠ 0 := by
    intro nat
    rw [hc0, hr0, hbrm]
    exact loadX1_det hMX hA hM _
  apply calc_total
  · rw [hbrm, Matrix.det_mul]
    refine mul_ne_zero (det_ne_zero_of_rowDom hA) ?_
    have := congrArg Matrix.det hMX
    rw [Matrix.det_mul, Matrix.det_one] at this
    intro h0; rw [h0, mul_zero] at this; exact zero_ne_one this
  · exact hd
  · intro nat p1 hp1
    have hlim : ∀ i, a.overLr p1.lr i = false ∧ a.underLr p1.lr i = false := by
      intro i
      apply not_limited hcap
      exact (getLoadAndTemp_fixed hp1 i).2.2 (by rw [hr0])
    have h1 : a.c1 nat p1.lr = a.c0 nat := by
      funext i; unfold LoadInput.c1; rw [(hlim i).1, (hlim i).2]; rfl
    have h2 : a.r1 nat p1.lr = a.r0 nat := by
      funext i; unfold LoadInput.r1; rw [(hlim i).1, (hlim i).2]; rfl
    rw [h1, h2]
    exact hd nat

/-- A completed preparation plus a completed load calculation gives a completed step. -/
theorem tick_total [Nonempty I] (hw : WellFormed h hR dt) (hloc : ∀ k i, 0 ≤ (data k).vLocal i)
    (hm : ∀ i, c.mode i ≠ .heatingAndCooling) (hk : pyIndex N n = .ok k)
    (hload : ∀ (ivs : Matrix J J ℝ) (ot : I → OtTarget) (vOut : I → ℝ) (brc : I → ℝ) (xot : Matrix I I ℝ) (xc : I → ℝ),
      npInv (h.ax hR) = .ok ivs → (∀ i, (ot i).hHumC = hHumC ∧ (ot i).hHumR = hHumR) → (∀ i, 0 ≤ vOut i) →
      npInv (Tick.otMat (preCalcOf h hR dt data ivs) ot) = .ok xot →
      (∀ i, getOtTargetAndHHum (c.thetaR i) (c.thetaMrt i) (c.xR i) (c.mode i) ((data k).acDemand i) = .ok (ot i)) →
      ∃ res, calcNextTempAndLoad (Tick.loadInput (preCalcOf h hR dt data ivs) k ot
        (Tick.brcOt brc (Tick.brm (preCalcOf h hR dt data ivs) vOut) xc)
        (Tick.brmOt (Tick.brm (preCalcOf h hR dt data ivs) vOut) xot)
        (Tick.brlOt (preCalcOf h hR dt data ivs) (Tick.brm (preCalcOf h hR dt data ivs) vOut)
          (Tick.xlr (preCalcOf h hR dt data ivs) ot xot))) = .ok res) :
    ∃ ss t, makePreCalc h hR dt data = .ok ss ∧ runTick n dt ss c = .ok t := by
  have hi := ax_inv hw
  set ivs := (h.ax hR)⁻¹ with hivs
  have Hp : makePreCalc h hR dt data = .ok (preCalcOf h hR dt data ivs) := by
    unfold makePreCalc
    simp only [bind, Except.bind, hi]
  refine ⟨preCalcOf h hR dt data ivs, ?_⟩
  have hot : ∀ i, ∃ o, getOtTargetAndHHum (c.thetaR i) (c.thetaMrt i) (c.xR i) (c.mode i)
      ((preCalcOf h hR dt data ivs).acDemand k i) = .ok o := fun i => getOtTarget_total (hm i)
  choose ot hot using hot
  have hcoef : ∀ i, (ot i).hHumC = hHumC ∧ (ot i).hHumR = hHumR := fun i => ot_coefs (hot i)
  obtain ⟨vLeak, hleak⟩ := infiltration_ok hw c.thetaR (data k).thetaO
  have hvout : ∀ i, 0 ≤ Tick.vOut (preCalcOf h hR dt data ivs) k vLeak (Tick.vNtrl (preCalcOf h hR dt data ivs) ot) i := by
    intro i
    have h1 := infiltration_nonneg hleak i (hw.vRoom_pos i).le
    have h2 : 0 ≤ Tick.vNtrl (preCalcOf h hR dt data ivs) ot i := by
      unfold Tick.vNtrl; split_ifs
      · exact hw.vNtrl_nonneg i
      · exact le_rfl
    have h3 : 0 ≤ (preCalcOf h hR dt data ivs).vMec k i := add_nonneg (hw.vVentEx_nonneg i) (hloc k i)
    unfold Tick.vOut
    linarith
  have hxot := npInv_of_det_ne_zero (det_ne_zero_of_rowDom fun i => otMat_rowDom (data := data) hw hi hcoef i)
  obtain ⟨lt, hlt⟩ := hload ivs ot _ (Tick.brc (preCalcOf h hR dt data ivs) dt k c
      (Tick.wsv (preCalcOf h hR dt data ivs) (Tick.cvl (Tick.dshA (preCalcOf h hR dt data ivs) c)
        (Tick.dshT (preCalcOf h hR dt data ivs) c (Tick.thetaRear (preCalcOf h hR dt data ivs) k c))))
      (Tick.vOut (preCalcOf h hR dt data ivs) k vLeak (Tick.vNtrl (preCalcOf h hR dt data ivs) ot))
      (Tick.qHum (preCalcOf h hR dt data ivs) k c)) _
    (Tick.xc (preCalcOf h hR dt data ivs) k ot (Tick.otMat (preCalcOf h hR dt data ivs) ot)⁻¹
      (Tick.wsv (preCalcOf h hR dt data ivs) (Tick.cvl (Tick.dshA (preCalcOf h hR dt data ivs) c)
        (Tick.dshT (preCalcOf h hR dt data ivs) c (Tick.thetaRear (preCalcOf h hR dt data ivs) k c)))))
    hi hcoef hvout hxot hot
  have hb1 := npInv_of_det_ne_zero (A := Tick.brmxNonDh (preCalcOf h hR dt data ivs) dt
      (Tick.vOut (preCalcOf h hR dt data ivs) k vLeak (Tick.vNtrl (preCalcOf h hR dt data ivs) ot))) (by
    have := (brmx_zdominant (data := data) (ivs := ivs) hw hvout (r := fun _ => 0) (fun _ => le_rfl)).det_ne_zero
    simpa using this)
  have hrac := fun (lc θ x : I → ℝ) => npInv_of_det_ne_zero (A := Tick.brmx (Tick.brmxNonDh (preCalcOf h hR dt data ivs) dt
      (Tick.vOut (preCalcOf h hR dt data ivs) k vLeak (Tick.vNtrl (preCalcOf h hR dt data ivs) ot)))
      (Tick.rac (preCalcOf h hR dt data ivs) lc θ x))
    (brmx_zdominant (data := data) (ivs := ivs) hw hvout
      (fun i => rac_brmx_nonneg hw (lc i) (θ i) (x i) i)).det_ne_zero
  have hot' := allRooms_of ot hot
  have hleak' : getInfiltration (preCalcOf h hR dt data ivs).cValue (preCalcOf h hR dt data ivs).vRoom
      (preCalcOf h hR dt data ivs).story (preCalcOf h hR dt data ivs).pressure c.thetaR
      ((preCalcOf h hR dt data ivs).thetaO k) = .ok vLeak := hleak
  have : ∃ t, tickAt (preCalcOf h hR dt data ivs) dt k c = .ok t := by
    unfold tickAt
    simp only [bind, Except.bind]
    rw [hot']
    simp only []
    rw [hleak']
    simp only []
    rw [hxot]
    simp only []
    rw [hlt]
    simp only []
    rw [hb1]
    simp only []
    rw [hrac]
    exact ⟨_, rfl⟩
  obtain ⟨t, ht⟩ := this
  refine ⟨t, Hp, ?_⟩
  unfold runTick
  simp only [bind, Except.bind, hk]
  exact ht

/-- **C21 (partial).** On a well-formed house without radiative heating or cooling every step with an existing record completes,
whatever the temperatures, humidities and histories in the state, as long as no room is in the unused mode
HEATING_AND_COOLING. Missing: several rooms of which some have radiative systems (for one room see
`C21_single_room_partial`). -/
theorem C21_step_completes_partial [Nonempty I] (hw : WellFormed h hR dt) (hH : ∀ i, h.isRadHeating i = false)
    (hC : ∀ i, h.isRadCooling i = false) (hloc : ∀ k i, 0 ≤ (data k).vLocal i)
    (hm : ∀ i, c.mode i ≠ .heatingAndCooling) (hn : -(N : ℤ) ≤ n ∧ n < N) :
    ∃ ss t, makePreCalc h hR dt data = .ok ss ∧ runTick n dt ss c = .ok t := by
  have hk : ∃ k, pyIndex N n = .ok k := by
    unfold pyIndex
    by_cases h0 : 0 ≤ n
    · rw [dif_pos ⟨h0, hn.2⟩]; exact ⟨_, rfl⟩
    · rw [dif_neg (fun h1 => h0 h1.1), dif_pos ⟨by omega, by omega⟩]; exact ⟨_, rfl⟩
  obtain ⟨k, hk⟩ := hk
  apply tick_total hw hloc hm hk
  intro ivs ot vOut brc xot xc hi hcoef hv hxot _
  refine calc_total_noRad (A := Tick.brm (preCalcOf h hR dt data ivs) vOut) (X := xot) rfl (mul_npInv hxot)
    (fun i => brm_rowDom hw hi hv i) (fun i => otMat_rowDom hw hi hcoef i) hH hC ?_
  exact fun i => ⟨hw.capH_nonneg i, hw.capC_nonneg i⟩

/-- Some of the radiant heat of the room reaches the room: a convective part, or a surface that takes part of it. -/
def RadiantReaches (h : House I J) (i : I) : Prop :=
  0 < h.beta i ∨ (h.beta i < 1 ∧ ∃ j ∈ surfaces h i, 0 < h.flr j ∧ 0 < h.phiA0 j)

theorem brl_pos [Unique I] (hw : WellFormed h hR dt) (hr : RadiantWellFormed h) {ivs : Matrix J J ℝ}
    (hi : npInv (h.ax hR) = .ok ivs) (hb : RadiantReaches h default) : 0 < h.brl (ivs * h.flb hR) default default := by
  have e : h.brl (ivs * h.flb hR) default default
      = ∑ j ∈ surfaces h default, (ivs * h.flb hR) j default * h.hC j * h.area j + h.beta default := by
    simp only [House.brl, Matrix.add_apply, Matrix.diagonal_apply_eq]
    rw [Matrix.mul_apply, sum_p]
    rfl
  rw [e]
  have hterm : ∀ j, 0 ≤ (ivs * h.flb hR) j default * h.hC j * h.area j := fun j =>
    mul_nonneg (mul_nonneg (wsb_nonneg hw hr hi j _) (hw.hC_pos j).le) (hw.area_pos j).le
  rcases hb with hb | ⟨hb, j, hj, hf, hp⟩
  · have := Finset.sum_nonneg (s := surfaces h default) fun j _ => hterm j
    linarith
  · have hb0 := (hr.beta_mem default).1
    have hflb : 0 < h.flb hR j default := by
      have hroom : h.room j = default := Subsingleton.elim _ _
      simp only [House.flb, Matrix.of_apply, House.hI]
      have n1 : 0 < h.flrBeta j default * h.phiA0 j / h.area j := by
        simp only [House.flrBeta, House.flrMat, Matrix.of_apply, House.p, if_pos hroom]
        have := hw.area_pos j
        have h1 : 0 < 1 - h.beta default := by linarith
        positivity
      have hfb : ∀ j i, 0 ≤ h.flrBeta j i := fun j i => by
        simp only [House.flrBeta, House.flrMat, Matrix.of_apply]
        exact mul_nonneg (mul_nonneg (p_nonneg h i j) (hr.flr_nonneg j)) (sub_nonneg.mpr (hr.beta_mem i).2)
      have n2 : 0 ≤ (h.kEiMat * h.flrBeta) j default * h.phiT0 j / (h.hC j + hR j) / h.area j :=
        div_nonneg (div_nonneg (mul_nonneg (mul_nonneg_entries (kEi_nonneg hw) hfb j default) (hw.phiT0_mem j).1)
          (add_pos (hw.hC_pos j) (hw.hR_pos j)).le) (hw.area_pos j).le
      linarith
    have hpos : 0 < (ivs * h.flb hR) j default := by
      rw [mul_apply_eq_mulVec]
      exact ivs_pos hw hi (fun j => flb_nonneg hw hr j default) hflb
    have : 0 < ∑ j ∈ surfaces h default, (ivs * h.flb hR) j default * h.hC j * h.area j :=
      Finset.sum_pos' (fun j _ => hterm j) ⟨j, hj, mul_pos (mul_pos hpos (hw.hC_pos j)) (hw.area_pos j)⟩
    linarith

/-- **C21 (single room, partial).** With one room, radiative systems included, every step completes, provided the radiant heat
reaches the room at all. For several rooms with radiative systems it fails (`C21_violated`). -/
theorem C21_single_room_partial [Unique I] (hw : WellFormed h hR dt) (hr : RadiantWellFormed h)
    (hreach : RadiantReaches h default) (hloc : ∀ k i, 0 ≤ (data k).vLocal i)
    (hm : ∀ i, c.mode i ≠ .heatingAndCooling) (hn : -(N : ℤ) ≤ n ∧ n < N) :
    ∃ ss t, makePreCalc h hR dt data = .ok ss ∧ runTick n dt ss c = .ok t := by
  have hk : ∃ k, pyIndex N n = .ok k := by
    unfold pyIndex
    by_cases h0 : 0 ≤ n
    · rw [dif_pos ⟨h0, hn.2⟩]; exact ⟨_, rfl⟩
    · rw [dif_neg (fun h1 => h0 h1.1), dif_pos ⟨by omega, by omega⟩]; exact ⟨_, rfl⟩
  obtain ⟨k, hk⟩ := hk
  apply tick_total hw hloc hm hk
  intro ivs ot vOut brc xot xc hi hcoef hv hxot _
  set pc := preCalcOf h hR dt data ivs with hpc
  have hbrm : 0 < Tick.brm pc vOut default default := (brm_rowDom hw hi hv default).diag_pos
  have hxotp : 0 < xot default default := by
    have h1 : Tick.otMat pc ot default default * xot default default = 1 := by
      have := congrFun (congrFun (mul_npInv hxot) default) default
      rwa [Matrix.mul_apply, Fintype.sum_unique, Matrix.one_apply_eq] at this
    have h2 : 0 < Tick.otMat pc ot default default := (otMat_rowDom hw hi hcoef default).diag_pos
    by_contra hc
    have := mul_nonpos_of_nonneg_of_nonpos h2.le (not_lt.mp hc)
    linarith
  have hkt : 0 < Tick.brmOt (Tick.brm pc vOut) xot default default := by
    unfold Tick.brmOt
    rw [Matrix.mul_apply, Fintype.sum_unique]
    exact mul_pos hbrm hxotp
  have hkr : 0 < Tick.brlOt pc (Tick.brm pc vOut) (Tick.xlr pc ot xot) default default := by
    unfold Tick.brlOt
    rw [Matrix.add_apply, Matrix.mul_apply, Fintype.sum_unique]
    have h1 : 0 < pc.brl default default := brl_pos hw hr hi hreach
    have h2 : 0 ≤ Tick.xlr pc ot xot default default := by
      unfold Tick.xlr
      rw [Matrix.mul_apply, Fintype.sum_unique, Matrix.of_apply]
      refine mul_nonneg hxotp.le (mul_nonneg ?_ ?_)
      · unfold Tick.kr; rw [(hcoef _).1, (hcoef _).2]
        have := hHumR_pos
        have h4 : (0 : ℝ) < hHumC := by unfold hHumC; norm_num
        positivity
      · refine mul_nonneg_entries (fun a b => ?_) (wsb_nonneg hw hr hi) _ _
        show 0 ≤ h.fMrtHumMat a b
        simp only [House.fMrtHumMat, Matrix.of_apply]
        exact mul_nonneg (p_nonneg h a b) (hw.fMrtHum_nonneg b)
    have := mul_nonneg hbrm.le h2
    linarith
  -- the scalar system
  have hdet : ∀ nt c r : I → Bool, (nt default = true ∧ c default = false ∧ r default = false) ∨
      (nt default = false ∧ c default = true ∧ r default = false) ∨ (nt default = false ∧ c default = false ∧ r default = true) →
      (loadX1 (Tick.brmOt (Tick.brm pc vOut) xot) 1 (Tick.brlOt pc (Tick.brm pc vOut) (Tick.xlr pc ot xot)) nt c r).det ≠ 0 := by
    intro nt c r hcase
    rw [Matrix.det_unique]
    simp only [loadX1, Matrix.of_apply, Matrix.one_apply_eq]
    rcases hcase with ⟨h1, h2, h3⟩ | ⟨h1, h2, h3⟩ | ⟨h1, h2, h3⟩ <;> rw [h1, h2, h3] <;>
      simp only [ind_true, ind_false, mul_one, mul_zero, sub_zero, zero_sub] <;>
      first
        | exact ne_of_gt hkt
        | exact neg_ne_zero.mpr one_ne_zero
        | exact neg_ne_zero.mpr (ne_of_gt hkr)
  have masks : ∀ (a : LoadInput I) nat, (a.nt nat default = true ∧ a.c0 nat default = false ∧ a.r0 nat default = false) ∨
      (a.nt nat default = false ∧ a.c0 nat default = true ∧ a.r0 nat default = false) ∨
      (a.nt nat default = false ∧ a.c0 nat default = false ∧ a.r0 nat default = true) := by
    intro a nat
    have hex : ¬ (a.isCooling nat default = true ∧ a.isHeating nat default = true) := fun hh =>
      not_heated_of_cooled (isCooling_iff.mp hh.1) (isHeating_iff.mp hh.2)
    unfold LoadInput.nt LoadInput.c0 LoadInput.r0
    cases hc1 : a.isCooling nat default <;> cases hc2 : a.isHeating nat default <;> cases a.isRadCooling default <;>
      cases a.isRadHeating default <;> simp_all
  apply calc_total
  · rw [Matrix.det_unique]
    exact ne_of_gt hkt
  · intro nat
    exact hdet _ _ _ (masks _ nat)
  · intro nat p1 hp1
    apply hdet
    have hcap : CapsNonneg (Tick.loadInput pc k ot (Tick.brcOt brc (Tick.brm pc vOut) xc) (Tick.brmOt (Tick.brm pc vOut) xot)
        (Tick.brlOt pc (Tick.brm pc vOut) (Tick.xlr pc ot xot))) := fun i => ⟨hw.capH_nonneg i, hw.capC_nonneg i⟩
    have hlr := (getLoadAndTemp_fixed hp1 default).2.2
    generalize Tick.loadInput pc k ot (Tick.brcOt brc (Tick.brm pc vOut) xc) (Tick.brmOt (Tick.brm pc vOut) xot)
        (Tick.brlOt pc (Tick.brm pc vOut) (Tick.xlr pc ot xot)) = a at hcap hlr hp1 ⊢
    rcases masks a nat with ⟨h1, h2, h3⟩ | ⟨h1, h2, h3⟩ | ⟨h1, h2, h3⟩
    · have := not_limited hcap (hlr h3)
      left
      unfold LoadInput.c1 LoadInput.r1
      rw [this.1, this.2]
      exact ⟨h1, h2, h3⟩
    · have := not_limited hcap (hlr h3)
      right; left
      unfold LoadInput.c1 LoadInput.r1
      rw [this.1, this.2]
      exact ⟨h1, h2, h3⟩
    · right
      unfold LoadInput.c1 LoadInput.r1
      rw [h1, h2, h3]
      cases a.underLr p1.lr default <;> cases a.overLr p1.lr default <;> simp

end HLC
