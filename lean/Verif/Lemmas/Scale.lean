import Verif.Spec.Scale
import Verif.Lemmas.Tick
import Verif.Lemmas.Load

/-!
# One step of a house `s` times as large
-/

set_option linter.unusedSectionVars false

namespace HLC
open Spec

variable {I J : Type} [Fintype I] [DecidableEq I] [Fintype J] [DecidableEq J] {N : ℕ} {s : ℝ}

/-- The parameters of the house `s` times as large. -/
noncomputable def preScaled (s : ℝ) (p : PreCalc I J N) : PreCalc I J N where
  vRoom := fun i => s * p.vRoom i
  cRoom := fun i => s * p.cRoom i
  cSh := fun i => s * p.cSh i
  cLh := fun i => s * p.cLh i
  gSh := fun i => s * p.gSh i
  gLh := fun i => s * p.gLh i
  vInt := s • p.vInt
  aSrf := fun j => s * p.aSrf j
  vMec := fun n i => s * p.vMec n i
  qGen := fun n i => s * p.qGen n i
  nHum := fun n i => s * p.nHum n i
  xGen := fun n i => s * p.xGen n i
  acDemand := p.acDemand
  qTrsSol := fun n i => s * p.qTrsSol n i
  qSolFrt := fun n i => s * p.qSolFrt n i
  qSol := p.qSol
  thetaDstrb := p.thetaDstrb
  fMrtHum := p.fMrtHum
  ratio := p.ratio
  phiA0 := p.phiA0
  phiA1 := p.phiA1
  phiT0 := p.phiT0
  phiT1 := p.phiT1
  vNtrl := fun i => s * p.vNtrl i
  isRadHeating := p.isRadHeating
  isRadCooling := p.isRadCooling
  capH := fun i => s * p.capH i
  capC := fun i => s * p.capC i
  flr := p.flr
  hR := p.hR
  hC := p.hC
  fMrt := p.fMrt
  beta := p.beta
  wsr := p.wsr
  wsb := s⁻¹ • p.wsb
  brmNonVent := s • p.brmNonVent
  ivsAx := p.ivsAx
  brl := p.brl
  p := p.p
  isGround := p.isGround
  wsc := p.wsc
  kEi := p.kEi
  thetaO := p.thetaO
  xO := p.xO
  thetaOAve := p.thetaOAve
  rac := fun i => racScaled s (p.rac i)
  story := p.story
  cValue := p.cValue
  pressure := p.pressure

/-- What a step of the house `s` times as large computes. -/
noncomputable def tickScaled (s : ℝ) (t : TickVars I J) : TickVars I J where
  ot := t.ot
  thetaRear := t.thetaRear
  qHum := fun i => s * t.qHum i
  xHum := fun i => s * t.xHum i
  vLeak := fun i => s * t.vLeak i
  dshA := t.dshA
  dshT := t.dshT
  wsv := t.wsv
  vNtrl := fun i => s * t.vNtrl i
  vOut := fun i => s * t.vOut i
  brc := fun i => s * t.brc i
  brm := s • t.brm
  xot := t.xot
  xlr := s⁻¹ • t.xlr
  xc := t.xc
  brmOt := s • t.brmOt
  brlOt := t.brlOt
  brcOt := fun i => s * t.brcOt i
  thetaOt := t.thetaOt
  lc := fun i => s * t.lc i
  lr := fun i => s * t.lr i
  thetaR := t.thetaR
  thetaFrt := t.thetaFrt
  thetaS := t.thetaS
  thetaMrt := t.thetaMrt
  thetaEi := t.thetaEi
  qSrf := t.qSrf
  brmxNonDh := s • t.brmxNonDh
  brxcNonDh := fun i => s * t.brxcNonDh i
  xNonDh := t.xNonDh
  rac := fun i => ⟨s * (t.rac i).brmx, s * (t.rac i).brxc⟩
  xR := t.xR
  lCl := fun i => s * t.lCl i
  xFrt := t.xFrt

theorem next_scaled (t : TickVars I J) : (tickScaled s t).next = t.next := rfl

theorem ofTick_scaled (t : TickVars I J) : LogRow.ofTick (tickScaled s t) = rowScaled s (LogRow.ofTick t) := rfl

theorem mulVec_scale {A B : Type} [Fintype B] (M : Matrix A B ℝ) (v : B → ℝ) (x : A) :
    M.mulVec (fun y => s * v y) x = s * M.mulVec v x := by
  simp only [Matrix.mulVec, dotProduct, Finset.mul_sum]
  exact Finset.sum_congr rfl fun y _ => by ring

theorem smul_mulVec_apply {A B : Type} [Fintype B] (M : Matrix A B ℝ) (v : B → ℝ) (x : A) : (s • M).mulVec v x = s * M.mulVec v x := by
  rw [Matrix.smul_mulVec]; rfl

/-! ## The load calculation -/

/-- The arguments of the load calculation of the house `s` times as large. -/
noncomputable def loadInputScaled (s : ℝ) (a : LoadInput I) : LoadInput I where
  isRadHeating := a.isRadHeating
  isRadCooling := a.isRadCooling
  brc := fun i => s * a.brc i
  brm := s • a.brm
  brl := a.brl
  lower := a.lower
  upper := a.upper
  capH := fun i => s * a.capH i
  capC := fun i => s * a.capC i
  mode := a.mode
  demand := a.demand

theorem resetWhere_scale (m : I → Bool) (a : I → ℝ) : resetWhere m (fun i => s * a i) = fun i => s * resetWhere m a i := by
  funext i
  simp only [resetWhere]
  split_ifs <;> simp

theorem getLoadAndTemp_scale (hs : s ≠ 0) {kt kr : Matrix I I ℝ} {k : I → ℝ} {nt : I → Bool} {a : I → ℝ} {c : I → Bool} {b : I → ℝ}
    {r : I → Bool} {d : I → ℝ} {res : LoadTemp I} (hx : ∀ i, nt i = true → c i = false ∧ r i = false)
    (H : getLoadAndTemp kt 1 kr k nt a c b r d = .ok res) :
    getLoadAndTemp (s • kt) 1 kr (fun i => s * k i) nt a c (fun i => s * b i) r (fun i => s * d i)
      = .ok ⟨res.theta, fun i => s * res.lc i, fun i => s * res.lr i⟩ := by
  have H0 := H
  unfold getLoadAndTemp at H
  simp only [bind, Except.bind] at H
  cases hinv : npInv (loadX1 kt 1 kr nt c r) with
  | error e => rw [hinv] at H; cases H
  | ok B =>
    clear H
    have hdet := (npInv_ok hinv).1
    have hv := mulVec_npInv hinv (loadX2 kt 1 kr k (resetWhere nt a) (resetWhere c b) (resetWhere r d))
    generalize B.mulVec _ = v at hv
    have hres := Except.ok.inj (H0.symm.trans (getLoadAndTemp_of_solution v hdet hv))
    have hX : loadX1 (s • kt) 1 kr nt c r = loadX1 kt 1 kr nt c r * Matrix.diagonal fun j => if nt j then s else 1 := by
      funext i j
      rw [Matrix.mul_diagonal]
      simp only [loadX1, Matrix.of_apply, Matrix.smul_apply, smul_eq_mul]
      cases hn : nt j
      · simp
      · obtain ⟨h1, h2⟩ := hx j hn
        simp [h1, h2, mul_comm]
    have hX1 : (loadX1 (s • kt) 1 kr nt c r).mulVec (fun j => if nt j then v j else s * v j)
        = loadX2 (s • kt) 1 kr (fun i => s * k i) (resetWhere nt a) (resetWhere c fun i => s * b i) (resetWhere r fun i => s * d i) := by
      rw [hX, ← Matrix.mulVec_mulVec]
      have e : (Matrix.diagonal fun j => if nt j then s else 1).mulVec (fun j => if nt j then v j else s * v j) = fun j => s * v j := by
        funext j
        rw [Matrix.mulVec_diagonal]
        split_ifs <;> ring
      funext i
      rw [e, mulVec_scale, congrFun hv i, resetWhere_scale, resetWhere_scale]
      simp only [loadX2, mulVec_scale, smul_mulVec_apply]
      ring
    have hdet' : (loadX1 (s • kt) 1 kr nt c r).det ≠ 0 := by
      rw [hX, Matrix.det_mul, Matrix.det_diagonal]
      refine mul_ne_zero hdet (Finset.prod_ne_zero_iff.mpr fun j _ => ?_)
      split_ifs
      · exact hs
      · exact one_ne_zero
    rw [getLoadAndTemp_of_solution _ hdet' hX1, hres]
    congr 2
    · funext i
      cases hn : nt i <;> simp [hn]
    · funext i
      cases hc : c i
      · simp [hc]
      · have : nt i = false := by
          cases hn : nt i
          · rfl
          · rw [(hx i hn).1] at hc; cases hc
        simp [hc, this]
    · funext i
      cases hc : r i
      · simp [hc]
      · have : nt i = false := by
          cases hn : nt i
          · rfl
          · rw [(hx i hn).2] at hc; cases hc
        simp [hc, this]

theorem nt_excl {a : LoadInput I} {nat : I → ℝ} {i : I} (h : a.nt nat i = true) : a.c0 nat i = false ∧ a.r0 nat i = false := by
  unfold LoadInput.nt at h
  unfold LoadInput.c0 LoadInput.r0
  cases h1 : a.isCooling nat i
  · cases h2 : a.isHeating nat i
    · simp
    · simp [h1, h2] at h
  · simp [h1] at h

theorem calcNextTempAndLoad_scale (hs : 0 < s) {a : LoadInput I} (hcap : CapsNonneg a) {res : LoadTemp I}
    (H : calcNextTempAndLoad a = .ok res) :
    calcNextTempAndLoad (loadInputScaled s a) = .ok ⟨res.theta, fun i => s * res.lc i, fun i => s * res.lr i⟩ := by
  obtain ⟨nat, p1, hd, hn, h1, h2⟩ := calc_passes H
  have hd' : (s • a.brm).det ≠ 0 := by
    rw [Matrix.det_smul]
    exact mul_ne_zero (pow_ne_zero _ hs.ne') hd
  have hn' : IsNatural (loadInputScaled s a) nat := by
    have : a.brm.mulVec nat = a.brc := hn
    show (s • a.brm).mulVec nat = fun i => s * a.brc i
    funext i
    rw [smul_mulVec_apply, this]
  have h1' := getLoadAndTemp_scale hs.ne' (fun i hi => nt_excl hi) h1
  have ho : ∀ i, (loadInputScaled s a).overLr (fun i => s * p1.lr i) i = a.overLr p1.lr i := fun i => by
    simp only [LoadInput.overLr, loadInputScaled, gt_iff_lt, mul_lt_mul_iff_right₀ hs]
  have hu : ∀ i, (loadInputScaled s a).underLr (fun i => s * p1.lr i) i = a.underLr p1.lr i := fun i => by
    simp only [LoadInput.underLr, loadInputScaled, ← mul_neg, mul_lt_mul_iff_right₀ hs]
  have h2' := getLoadAndTemp_scale (s := s) hs.ne' (fun i hi => by
    have h0 : p1.lr i = 0 := (getLoadAndTemp_fixed h1 i).2.2 (nt_excl hi).2
    obtain ⟨e1, e2⟩ := not_limited hcap h0
    simp only [LoadInput.c1, LoadInput.r1, e1, e2]
    exact nt_excl hi) h2
  refine calc_of_passes hd' hn' (p1 := ⟨p1.theta, fun i => s * p1.lc i, fun i => s * p1.lr i⟩) ?_ ?_
  · simp only [mul_zero] at h1'
    exact h1'
  · have e1 : (loadInputScaled s a).c1 nat (fun i => s * p1.lr i) = a.c1 nat p1.lr := by
      funext i
      simp only [LoadInput.c1, ho, hu]
      rfl
    have e2 : (loadInputScaled s a).r1 nat (fun i => s * p1.lr i) = a.r1 nat p1.lr := by
      funext i
      simp only [LoadInput.r1, ho, hu]
      rfl
    have e3 : (loadInputScaled s a).lrSet1 (resetWhere (a.r0 nat) fun _ => 0) (fun i => s * p1.lr i)
        = fun i => s * a.lrSet1 (resetWhere (a.r0 nat) fun _ => 0) p1.lr i := by
      funext i
      simp only [LoadInput.lrSet1, ho, hu]
      split_ifs
      · simp [loadInputScaled]
      · rfl
      · simp [resetWhere]
    have e4 : resetWhere (a.c0 nat) (fun _ => (0 : ℝ)) = fun i => s * resetWhere (a.c0 nat) (fun _ => 0) i := by
      funext i
      simp [resetWhere]
    show getLoadAndTemp (s • a.brm) 1 a.brl (fun i => s * a.brc i) (a.nt nat) (resetWhere (a.nt nat) (a.thetaSet nat))
      ((loadInputScaled s a).c1 nat fun i => s * p1.lr i) (resetWhere (a.c0 nat) fun _ => 0)
      ((loadInputScaled s a).r1 nat fun i => s * p1.lr i)
      ((loadInputScaled s a).lrSet1 (resetWhere (a.r0 nat) fun _ => 0) fun i => s * p1.lr i) = _
    rw [e1, e2, e3, e4]
    exact h2'

/-! ## The parameters -/

variable (h : House I J) (hR : J → ℝ) (d : Record I J)

theorem p_scaled : (houseScaled s h).p = h.p := rfl

theorem kEiMat_scaled : (houseScaled s h).kEiMat = h.kEiMat := rfl

theorem fMrt_scaled (hs : s ≠ 0) : (houseScaled s h).fMrt hR = h.fMrt hR := by
  funext i j
  simp only [House.fMrt, Matrix.of_apply, p_scaled]
  show h.p i j * (s * h.area j * hR j) / ∑ k, h.p i k * (s * h.area k * hR k) = _
  have : ∑ k, h.p i k * (s * h.area k * hR k) = s * ∑ k, h.p i k * (h.area k * hR k) := by
    rw [Finset.mul_sum]
    exact Finset.sum_congr rfl fun k _ => by ring
  rw [this, show h.p i j * (s * h.area j * hR j) = s * (h.p i j * (h.area j * hR j)) by ring, mul_div_mul_left _ _ hs]

theorem aSrfAbs_scaled (i : I) : (houseScaled s h).aSrfAbs i = s * h.aSrfAbs i := by
  simp only [House.aSrfAbs, p_scaled, Finset.mul_sum]
  exact Finset.sum_congr rfl fun k _ => by simp only [houseScaled]; ring

theorem qSol_scaled (hs : s ≠ 0) : (houseScaled s h).qSol (recordScaled s d) = h.qSol d := by
  funext j
  simp only [House.qSol, p_scaled, aSrfAbs_scaled]
  congr 2
  refine Finset.sum_congr rfl fun i _ => ?_
  show h.p i j * (s * d.qTrsSol i / (s * h.aSrfAbs i)) = _
  rw [mul_div_mul_left _ _ hs]

theorem ax_scaled (hs : s ≠ 0) : (houseScaled s h).ax hR = h.ax hR := by
  funext j k
  simp only [House.ax, Matrix.of_apply, fMrt_scaled h hR hs, p_scaled, kEiMat_scaled]
  rfl

theorem fia_scaled : (houseScaled s h).fia hR = h.fia hR := rfl

theorem crx_scaled (hs : s ≠ 0) : (houseScaled s h).crx hR (recordScaled s d) = h.crx hR d := by
  funext j
  simp only [House.crx, qSol_scaled h d hs, kEiMat_scaled]
  rfl

theorem flb_scaled : (houseScaled s h).flb hR = s⁻¹ • h.flb hR := by
  funext j i
  simp only [House.flb, Matrix.of_apply, kEiMat_scaled, Matrix.smul_apply, smul_eq_mul]
  show h.flrBeta j i * h.phiA0 j / (s * h.area j) + (h.kEiMat * h.flrBeta) j i * h.phiT0 j / h.hI hR j / (s * h.area j) = _
  rw [mul_add]
  congr 1 <;> simp only [div_eq_mul_inv, mul_inv] <;> ring

theorem brl_scaled (hs : s ≠ 0) (w : Matrix J I ℝ) : (houseScaled s h).brl (s⁻¹ • w) = h.brl w := by
  unfold House.brl
  rw [p_scaled]
  congr 2
  funext j i
  simp only [Matrix.of_apply, Matrix.smul_apply, smul_eq_mul, houseScaled]
  rw [show s⁻¹ * w j i * h.hC j * (s * h.area j) = (s⁻¹ * s) * (w j i * h.hC j * h.area j) by ring, inv_mul_cancel₀ hs, one_mul]

theorem series_scaled (hs : s ≠ 0) (a b dt : ℝ) : s * a * (s * b) / (s * a + s * b * dt) = s * (a * b / (a + b * dt)) := by
  rw [show s * a * (s * b) = s * (s * (a * b)) by ring, show s * a + s * b * dt = s * (a + b * dt) by ring, mul_div_mul_left _ _ hs,
    mul_div_assoc]

theorem brmNonVent_scaled (hs : s ≠ 0) (dt : ℝ) (w : Matrix J I ℝ) : (houseScaled s h).brmNonVent dt w = s • h.brmNonVent dt w := by
  unfold House.brmNonVent
  rw [smul_add, smul_add, p_scaled, ← Matrix.mul_smul]
  congr 1
  · congr 1
    · funext i l
      simp only [Matrix.smul_apply, Matrix.diagonal_apply, smul_eq_mul, House.cRm, houseScaled]
      split_ifs
      · ring
      · ring
    · congr 1
      funext j i
      simp only [Matrix.of_apply, Matrix.smul_apply, smul_eq_mul, houseScaled]
      ring
  · funext i l
    simp only [Matrix.smul_apply, Matrix.diagonal_apply, smul_eq_mul, houseScaled]
    split_ifs
    · exact series_scaled hs _ _ _
    · ring

theorem preCalcOf_scaled (hs : s ≠ 0) (dt : ℝ) (data : Fin N → Record I J) (ivs : Matrix J J ℝ) :
    preCalcOf (houseScaled s h) hR dt (fun n => recordScaled s (data n)) ivs = preScaled s (preCalcOf h hR dt data ivs) := by
  have h1 : ∀ n, (houseScaled s h).qSol (recordScaled s (data n)) = h.qSol (data n) := fun n => qSol_scaled h (data n) hs
  have h2 : ∀ n, (houseScaled s h).crx hR (recordScaled s (data n)) = h.crx hR (data n) := fun n => crx_scaled h hR (data n) hs
  have h3 : (houseScaled s h).cRm = fun i => s * h.cRm i := by funext i; simp only [House.cRm, houseScaled]; ring
  have h4 : ∀ n, (houseScaled s h).vMec (recordScaled s (data n)) = fun i => s * h.vMec (data n) i := by
    intro n; funext i; simp only [House.vMec, houseScaled, recordScaled]; ring
  have h5 : ∀ n, House.qSolFrt (recordScaled s (data n)) = fun i => s * House.qSolFrt (data n) i := by
    intro n; funext i; simp only [House.qSolFrt, recordScaled]; ring
  simp only [preCalcOf, h1, h2, h3, h4, h5, fia_scaled, flb_scaled, Matrix.mul_smul, brl_scaled h hs, brmNonVent_scaled h hs,
    fMrt_scaled h hR hs]
  rfl

theorem makePreCalc_scaled (hs : s ≠ 0) (dt : ℝ) (data : Fin N → Record I J) :
    makePreCalc (houseScaled s h) hR dt (fun n => recordScaled s (data n)) = (makePreCalc h hR dt data).map (preScaled s) := by
  unfold makePreCalc
  rw [ax_scaled h hR hs]
  cases npInv (h.ax hR) with
  | error x => rfl
  | ok ivs => exact congrArg Except.ok (preCalcOf_scaled h hR hs dt data ivs)

/-! ## One step -/

theorem getInfiltration_scaled (hs : s ≠ 0) {c : ℝ} {v : I → ℝ} {n : ℤ} {p : String} {th : I → ℝ} {o : ℝ} {q : I → ℝ}
    (H : getInfiltration c v n p th o = .ok q) : getInfiltration c (fun i => s * v i) n p th o = .ok fun i => s * q i := by
  have e1 : ∑ i, s * v i = s * ∑ i, v i := (Finset.mul_sum _ _ _).symm
  have e2 : ∑ i, th i * (s * v i) = s * ∑ i, th i * v i := by
    rw [Finset.mul_sum]; exact Finset.sum_congr rfl fun i _ => by ring
  have e : volumeAverage (fun i => s * v i) th = volumeAverage v th := by
    unfold volumeAverage
    simp only [e1, e2, mul_eq_zero, hs, false_or, mul_div_mul_left _ _ hs]
  unfold getInfiltration at H ⊢
  rw [e]
  simp only [bind, Except.bind] at H ⊢
  cases h1 : volumeAverage v th with
  | error x => rw [h1] at H; cases H
  | ok a =>
    cases h2 : infiltrationA n with
    | error x => rw [h1, h2] at H; cases H
    | ok b =>
      cases h3 : infiltrationB n p with
      | error x => rw [h1, h2, h3] at H; cases H
      | ok w =>
        rw [h1, h2, h3] at H
        simp only [Except.ok.injEq] at H ⊢
        subst H
        funext i
        ring

theorem getVac_scaled (hs : s ≠ 0) (a : RacSpec) (q : ℝ) : getVac (racScaled s a) (s * q) = s * getVac a q := by
  unfold getVac racScaled
  simp only [← mul_sub]
  rw [mul_div_mul_left _ _ hs]
  ring

theorem getDehumidCoeff_scaled (hs : s ≠ 0) {l : ℝ} (hl : SameSide s l) (th x : ℝ) (a : RacSpec) :
    getDehumidCoeff (s * l) th (racScaled s a) x = ⟨s * (getDehumidCoeff l th a x).brmx, s * (getDehumidCoeff l th a x).brxc⟩ := by
  have e0 : -(s * l) = s * -l := by ring
  by_cases hc : 0.001 < -l
  · have hc' := hl.1 hc
    have e1 : getXeOut (s * -l) th (s * getVac a (-l)) = getXeOut (-l) th (getVac a (-l)) := by
      unfold getXeOut
      rw [show cAir * rhoAir * (s * getVac a (-l)) * (1 - bypass) = s * (cAir * rhoAir * getVac a (-l) * (1 - bypass)) by ring,
        mul_div_mul_left _ _ hs]
    simp only [getDehumidCoeff, gt_iff_lt, hc, hc', decide_true, if_true]
    rw [e0, getVac_scaled hs, e1]
    split_ifs
    · simp
    · congr 1 <;> ring
  · have hc' : ¬ 0.001 < -(s * l) := fun h => hc (hl.2 h)
    simp only [getDehumidCoeff, gt_iff_lt, hc, hc', decide_false]
    simp

theorem diagonal_scale {A : Type} [DecidableEq A] (v : A → ℝ) : Matrix.diagonal (fun i => s * v i) = s • Matrix.diagonal v := by
  rw [← Matrix.diagonal_smul]; rfl

/-- The step of the larger house with the humidities `x` that result from the coefficients `rac` of its coils. -/
noncomputable def tickWith (s : ℝ) (t : TickVars I J) (ss : PreCalc I J N) (dt : ℝ) (c : Cond I J) (rac : I → DehumCoef) (x : I → ℝ) :
    TickVars I J :=
  { tickScaled s t with
    rac := rac
    xR := x
    lCl := Tick.lCl rac x
    xFrt := Tick.xFrt (preScaled s ss) dt c x }

/-- Everything but the humidities scales; these are what the coils of the larger house make of them. -/
theorem tickEqs_with (hs : 0 < s) {ss : PreCalc I J N} {dt : ℝ} {k : Fin N} {c : Cond I J} {t : TickVars I J}
    (hcap : ∀ i, 0 ≤ ss.capH i ∧ 0 ≤ ss.capC i) (E : TickEqs ss dt k c t) {rac : I → DehumCoef} {x : I → ℝ}
    (hr : rac = Tick.rac (preScaled s ss) (fun i => s * t.lc i) t.thetaR t.xNonDh)
    (hx : (Tick.brmx (s • t.brmxNonDh) rac).det ≠ 0 ∧
      (Tick.brmx (s • t.brmxNonDh) rac).mulVec x = Tick.brxc (fun i => s * t.brxcNonDh i) rac) :
    TickEqs (preScaled s ss) dt k c (tickWith s t ss dt c rac x) := by
  have hs' := hs.ne'
  constructor
  case ot => exact E.ot
  case thetaRear => exact E.thetaRear
  case qHum =>
    funext i
    simp only [tickWith, tickScaled, E.qHum, Tick.qHum, preScaled]
    ring
  case xHum =>
    funext i
    simp only [tickWith, tickScaled, E.xHum, Tick.xHum, preScaled]
    ring
  case vLeak => exact getInfiltration_scaled hs' E.vLeak
  case dshA => exact E.dshA
  case dshT => exact E.dshT
  case wsv => exact E.wsv
  case vNtrl =>
    funext i
    simp only [tickWith, tickScaled, E.vNtrl, Tick.vNtrl, preScaled]
    split_ifs
    · rfl
    · simp
  case vOut =>
    funext i
    simp only [tickWith, tickScaled, E.vOut, Tick.vOut, preScaled]
    ring
  case brc =>
    funext i
    have e1 : (preScaled s ss).p.mulVec (fun j => (preScaled s ss).hC j * (preScaled s ss).aSrf j * ((preScaled s ss).wsc k j + t.wsv j)) i
        = s * ss.p.mulVec (fun j => ss.hC j * ss.aSrf j * (ss.wsc k j + t.wsv j)) i := by
      rw [← mulVec_scale]
      congr 1
      funext j
      simp only [preScaled]
      ring
    have e2 : s * ss.gSh i * (s * ss.cSh i * c.thetaFrt i + s * ss.qSolFrt k i * dt) / (s * ss.cSh i + dt * (s * ss.gSh i))
        = s * (ss.gSh i * (ss.cSh i * c.thetaFrt i + ss.qSolFrt k i * dt) / (ss.cSh i + dt * ss.gSh i)) := by
      rw [show s * ss.gSh i * (s * ss.cSh i * c.thetaFrt i + s * ss.qSolFrt k i * dt)
          = s * (s * (ss.gSh i * (ss.cSh i * c.thetaFrt i + ss.qSolFrt k i * dt))) by ring,
        show s * ss.cSh i + dt * (s * ss.gSh i) = s * (ss.cSh i + dt * ss.gSh i) by ring, mul_div_mul_left _ _ hs', mul_div_assoc]
    show s * t.brc i = _
    unfold Tick.brc
    rw [show (tickWith s t ss dt c rac x).wsv = t.wsv from rfl, e1]
    show _ = s * ss.cRoom i / dt * c.thetaR i + s * _ + cAir * rhoAir * (s * t.vOut i) * ss.thetaO k + s * ss.qGen k i + s * t.qHum i
      + s * ss.gSh i * (s * ss.cSh i * c.thetaFrt i + s * ss.qSolFrt k i * dt) / (s * ss.cSh i + dt * (s * ss.gSh i))
    rw [e2, E.brc]
    unfold Tick.brc
    ring
  case brm =>
    show s • t.brm = s • ss.brmNonVent + (cAir * rhoAir) • (Matrix.diagonal (fun i => s * t.vOut i) + s • ss.vInt)
    rw [E.brm, Tick.brm, diagonal_scale, ← smul_add, smul_add s, smul_comm s (cAir * rhoAir)]
  case xot => exact E.xot
  case xlr =>
    show s⁻¹ • t.xlr = Tick.xlr (preScaled s ss) t.ot t.xot
    rw [E.xlr]
    unfold Tick.xlr
    rw [← Matrix.mul_smul]
    congr 1
    funext i l
    show _ = Tick.kr t.ot i * (ss.fMrtHum * (s⁻¹ • ss.wsb)) i l
    rw [Matrix.mul_smul]
    simp only [Matrix.smul_apply, Matrix.of_apply, smul_eq_mul]
    ring
  case xc => exact E.xc
  case brmOt =>
    show s • t.brmOt = (s • t.brm) * t.xot
    rw [E.brmOt, Tick.brmOt, Matrix.smul_mul]
  case brlOt =>
    show t.brlOt = ss.brl + (s • t.brm) * (s⁻¹ • t.xlr)
    rw [E.brlOt, Tick.brlOt, Matrix.smul_mul, Matrix.mul_smul, smul_smul, mul_inv_cancel₀ hs', one_smul]
  case brcOt =>
    funext i
    show s * t.brcOt i = s * t.brc i + (s • t.brm).mulVec t.xc i
    rw [E.brcOt, Tick.brcOt, smul_mulVec_apply]
    ring
  case load => exact calcNextTempAndLoad_scale hs (fun i => hcap i) E.load
  case thetaR =>
    funext i
    show t.thetaR i = t.xot.mulVec t.thetaOt i - (s⁻¹ • t.xlr).mulVec (fun i => s * t.lr i) i - t.xc i
    rw [smul_mulVec_apply, mulVec_scale, ← mul_assoc, inv_mul_cancel₀ hs', one_mul, E.thetaR]
    rfl
  case thetaFrt =>
    funext i
    show t.thetaFrt i = (s * ss.cSh i * c.thetaFrt i + dt * (s * ss.gSh i) * t.thetaR i + s * ss.qSolFrt k i * dt)
      / (s * ss.cSh i + dt * (s * ss.gSh i))
    rw [show s * ss.cSh i * c.thetaFrt i + dt * (s * ss.gSh i) * t.thetaR i + s * ss.qSolFrt k i * dt
        = s * (ss.cSh i * c.thetaFrt i + dt * ss.gSh i * t.thetaR i + ss.qSolFrt k i * dt) by ring,
      show s * ss.cSh i + dt * (s * ss.gSh i) = s * (ss.cSh i + dt * ss.gSh i) by ring, mul_div_mul_left _ _ hs', E.thetaFrt]
    rfl
  case thetaS =>
    funext j
    show t.thetaS j = ss.wsr.mulVec t.thetaR j + ss.wsc k j + (s⁻¹ • ss.wsb).mulVec (fun i => s * t.lr i) j + t.wsv j
    rw [smul_mulVec_apply, mulVec_scale, ← mul_assoc, inv_mul_cancel₀ hs', one_mul, E.thetaS]
    rfl
  case thetaMrt => exact E.thetaMrt
  case thetaEi =>
    funext j
    have e : ss.flr.mulVec (fun i => (1 - ss.beta i) * (s * t.lr i)) j = s * ss.flr.mulVec (fun i => (1 - ss.beta i) * t.lr i) j := by
      rw [← mulVec_scale]
      congr 1
      funext i
      ring
    show t.thetaEi j = (ss.hC j * ss.p.transpose.mulVec t.thetaR j + ss.hR j * (ss.p.transpose * ss.fMrt).mulVec t.thetaS j + ss.qSol k j
      + ss.flr.mulVec (fun i => (1 - ss.beta i) * (s * t.lr i)) j / (s * ss.aSrf j)) / (ss.hC j + ss.hR j)
    rw [e, mul_div_mul_left _ _ hs', E.thetaEi]
    rfl
  case qSrf => exact E.qSrf
  case brmxNonDh =>
    show s • t.brmxNonDh = Tick.brmxNonDh (preScaled s ss) dt fun i => s * t.vOut i
    rw [E.brmxNonDh]
    funext i l
    simp only [Tick.brmxNonDh, preScaled, Matrix.smul_apply, Matrix.add_apply, Matrix.sub_apply, Matrix.diagonal_apply, smul_eq_mul]
    split_ifs
    · have e := series_scaled hs' (ss.cLh i) (ss.gLh i) dt
      rw [show dt * (s * ss.gLh i) = s * ss.gLh i * dt by ring, e, show dt * ss.gLh i = ss.gLh i * dt by ring]
      ring
    · ring
  case brxcNonDh =>
    funext i
    have e := series_scaled hs' (ss.cLh i) (ss.gLh i) dt
    show s * t.brxcNonDh i = rhoAir * (s * ss.vRoom i / dt * c.xR i + s * t.vOut i * ss.xO k)
      + s * ss.cLh i * (s * ss.gLh i) / (s * ss.cLh i + dt * (s * ss.gLh i)) * c.xFrt i + s * ss.xGen k i + s * t.xHum i
    rw [show dt * (s * ss.gLh i) = s * ss.gLh i * dt by ring, e, E.brxcNonDh, Tick.brxcNonDh, show dt * ss.gLh i = ss.gLh i * dt by ring]
    ring
  case xNonDh =>
    refine ⟨?_, ?_⟩
    · show (s • t.brmxNonDh).det ≠ 0
      rw [Matrix.det_smul]
      exact mul_ne_zero (pow_ne_zero _ hs') E.xNonDh.1
    · funext i
      show (s • t.brmxNonDh).mulVec t.xNonDh i = s * t.brxcNonDh i
      rw [smul_mulVec_apply, E.xNonDh.2]
  case rac => exact hr
  case xR => exact hx
  case lCl => rfl
  case xFrt => rfl

theorem tickEqs_scaled (hs : 0 < s) {ss : PreCalc I J N} {dt : ℝ} {k : Fin N} {c : Cond I J} {t : TickVars I J}
    (hcap : ∀ i, 0 ≤ ss.capH i ∧ 0 ≤ ss.capC i) (hd : ∀ i, SameSide s (t.lc i)) (E : TickEqs ss dt k c t) :
    TickEqs (preScaled s ss) dt k c (tickScaled s t) := by
  have hs' := hs.ne'
  have hr : (tickScaled s t).rac = Tick.rac (preScaled s ss) (fun i => s * t.lc i) t.thetaR t.xNonDh := by
    funext i
    show (⟨s * (t.rac i).brmx, s * (t.rac i).brxc⟩ : DehumCoef) = getDehumidCoeff (s * t.lc i) (t.thetaR i) (racScaled s (ss.rac i)) (t.xNonDh i)
    rw [getDehumidCoeff_scaled hs' (hd i), E.rac]
    rfl
  have hx : (Tick.brmx (s • t.brmxNonDh) (tickScaled s t).rac).det ≠ 0 ∧
      (Tick.brmx (s • t.brmxNonDh) (tickScaled s t).rac).mulVec t.xR = Tick.brxc (fun i => s * t.brxcNonDh i) (tickScaled s t).rac := by
    have e : Tick.brmx (s • t.brmxNonDh) (tickScaled s t).rac = s • Tick.brmx t.brmxNonDh t.rac := by
      show s • t.brmxNonDh + Matrix.diagonal (fun i => s * (t.rac i).brmx) = s • (t.brmxNonDh + Matrix.diagonal fun i => (t.rac i).brmx)
      rw [diagonal_scale, smul_add]
    rw [e]
    refine ⟨?_, ?_⟩
    · rw [Matrix.det_smul]
      exact mul_ne_zero (pow_ne_zero _ hs') E.xR.1
    · funext i
      show (s • Tick.brmx t.brmxNonDh t.rac).mulVec t.xR i = s * t.brxcNonDh i + s * (t.rac i).brxc
      rw [smul_mulVec_apply, E.xR.2, Tick.brxc]
      ring
  have h1 : (tickScaled s t).lCl = Tick.lCl (tickScaled s t).rac t.xR := by
    funext i
    show s * t.lCl i = -((Matrix.diagonal fun l => s * (t.rac l).brmx).mulVec t.xR i - s * (t.rac i).brxc) * lWtr
    rw [diagonal_scale, smul_mulVec_apply, E.lCl, Tick.lCl]
    ring
  have h2 : t.xFrt = Tick.xFrt (preScaled s ss) dt c t.xR := by
    funext i
    show t.xFrt i = (s * ss.cLh i * c.xFrt i + dt * (s * ss.gLh i) * t.xR i) / (s * ss.cLh i + dt * (s * ss.gLh i))
    rw [show s * ss.cLh i * c.xFrt i + dt * (s * ss.gLh i) * t.xR i = s * (ss.cLh i * c.xFrt i + dt * ss.gLh i * t.xR i) by ring,
      show s * ss.cLh i + dt * (s * ss.gLh i) = s * (ss.cLh i + dt * ss.gLh i) by ring, mul_div_mul_left _ _ hs', E.xFrt]
    rfl
  have he : tickScaled s t = tickWith s t ss dt c (tickScaled s t).rac t.xR := by
    unfold tickWith
    rw [← h1, ← h2]
    rfl
  rw [he]
  exact tickEqs_with hs hcap E hr hx

theorem runTick_scaled (hs : 0 < s) {ss : PreCalc I J N} {dt : ℝ} {n : ℤ} {c : Cond I J} {t : TickVars I J}
    (hcap : ∀ i, 0 ≤ ss.capH i ∧ 0 ≤ ss.capC i) (hd : ∀ i, SameSide s (t.lc i)) (H : runTick n dt ss c = .ok t) :
    runTick n dt (preScaled s ss) c = .ok (tickScaled s t) := by
  obtain ⟨k, hk, ht⟩ := runTick_ok H
  unfold runTick
  rw [hk]
  exact tickAt_of_eqs (tickEqs_scaled hs hcap hd (tickAt_ok ht))

end HLC
