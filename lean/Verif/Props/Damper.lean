import Verif.Spec.Damper
import Verif.Props.Idle
import Verif.Props.Humid

/-!
# C139: more moisture makes no room drier
-/

set_option linter.unusedSectionVars false

namespace HLC
open Spec

/-- A room that exchanges air with outdoors only, with a coil: the humidity after the coil increases with the moisture that enters. -/
theorem coil_mono {D r r' x x' y y' lc θ : ℝ} {s : RacSpec} (hD : 0 < D) (hb : ∀ z, 0 ≤ (getDehumidCoeff lc θ s z).brmx) (hr : r ≤ r')
    (hy : D * y = r) (hy' : D * y' = r')
    (hx : (D + (getDehumidCoeff lc θ s y).brmx) * x = r + (getDehumidCoeff lc θ s y).brxc)
    (hx' : (D + (getDehumidCoeff lc θ s y').brmx) * x' = r' + (getDehumidCoeff lc θ s y').brxc) : x ≤ x' ∧ (r < r' → x < x') := by
  have hyy : y ≤ y' := le_of_mul_le_mul_left (by linarith) hD
  obtain ⟨xe, b, hbx⟩ : ∃ xe b : ℝ, ∀ z, (getDehumidCoeff lc θ s z).brmx = (if xe > z then 0 else b)
      ∧ (getDehumidCoeff lc θ s z).brxc = if xe > z then 0 else b * xe := ⟨_, _, fun z => ⟨rfl, rfl⟩⟩
  rw [(hbx y).1, (hbx y).2] at hx
  rw [(hbx y').1, (hbx y').2] at hx'
  have both : ∀ {K : ℝ} {z z' p p' : ℝ}, 0 < K → K * z = p → K * z' = p' → p ≤ p' → z ≤ z' ∧ (p < p' → z < z') := by
    intro K z z' p p' hK h1 h2 h3
    exact ⟨le_of_mul_le_mul_left (by linarith) hK, fun h4 => lt_of_mul_lt_mul_left (by linarith) hK.le⟩
  by_cases g' : xe > y'
  · have g : xe > y := lt_of_le_of_lt hyy g'
    rw [if_pos g, if_pos g, add_zero, add_zero] at hx
    rw [if_pos g', if_pos g', add_zero, add_zero] at hx'
    exact both hD hx hx' hr
  · have hb' := hb y'
    rw [(hbx y').1, if_neg g'] at hb'
    rw [if_neg g', if_neg g'] at hx'
    by_cases g : xe > y
    · rw [if_pos g, if_pos g, add_zero, add_zero] at hx
      have h1 : x = y := mul_left_cancel₀ hD.ne' (hx.trans hy.symm)
      have h2 : xe ≤ x' := by
        have : D * xe ≤ D * y' := mul_le_mul_of_nonneg_left (not_lt.1 g') hD.le
        refine le_of_mul_le_mul_left ?_ (add_pos_of_pos_of_nonneg hD hb')
        linarith
      have h3 : x < x' := by rw [h1]; exact lt_of_lt_of_le g h2
      exact ⟨h3.le, fun _ => h3⟩
    · rw [if_neg g, if_neg g] at hx
      have := both (add_pos_of_pos_of_nonneg hD hb') hx hx' (by linarith)
      exact ⟨this.1, fun h => this.2 (by linarith)⟩

section
variable {I J : Type} [Fintype I] [DecidableEq I] [Fintype J] [DecidableEq J] {N : ℕ} {h : House I J} {hR : J → ℝ} {dt : ℝ}

/-- **C139 (one step).** -/
theorem step_damper {ss ss' : PreCalc I J N} {n : ℤ} {k : Fin N} {A B : Fin N → Record I J} {c c' : Cond I J} {t t' : TickVars I J}
    (hw : WellFormed h hR dt) (Hp : makePreCalc h hR dt A = .ok ss) (Hp' : makePreCalc h hR dt B = .ok ss') (H : runTick n dt ss c = .ok t)
    (H' : runTick n dt ss' c' = .ok t') (hk : pyIndex N n = .ok k) (hloc : ∀ i, 0 ≤ (A k).vLocal i) (hAB : Damper (A k) (B k))
    (hs : SameButHumidity (LogRow.ofTick t) (LogRow.ofTick t')) (hcoil : (∀ i l, i ≠ l → h.vInt i l = 0) ∨ ∀ i, -0.001 ≤ t.lc i)
    (hx : ∀ i, c.xR i ≤ c'.xR i) (hxf : ∀ i, c.xFrt i ≤ c'.xFrt i) :
    RowDamper (LogRow.ofTick t) (LogRow.ofTick t') ∧ ∀ i, (A k).xGen i < (B k).xGen i → t.xR i < t'.xR i := by
  have hfr := fun i => C15_furniture_moisture Hp H i (lh_ne hw i)
  have hfr' := fun i => C15_furniture_moisture Hp' H' i (lh_ne hw i)
  obtain ⟨ivs, k1, -, hs1, hk1, e⟩ := step_eqs Hp H
  obtain rfl : k1 = k := Except.ok.inj (hk1.symm.trans hk)
  obtain ⟨ivs', k2, -, hs2, hk2, e'⟩ := step_eqs Hp' H'
  obtain rfl : k2 = k1 := Except.ok.inj (hk2.symm.trans hk)
  subst hs1 hs2
  have hvL : t'.vLeak = t.vLeak := congrArg LogRow.vLeak hs
  have hvN : t'.vNtrl = t.vNtrl := congrArg LogRow.vNtrl hs
  have hlc : t'.lc = t.lc := congrArg LogRow.lCs hs
  have hth : t'.thetaR = t.thetaR := congrArg LogRow.thetaR hs
  have hxh : t'.xHum = t.xHum := congrArg LogRow.xHum hs
  have hloc' : (B k2).vLocal = (A k2).vLocal := by
    have := congrArg Record.vLocal hAB.same
    exact this
  have hvo : t'.vOut = t.vOut := by
    rw [e.vOut, e'.vOut, hvL, hvN]
    funext i
    simp only [Tick.vOut, preCalcOf, House.vMec, hloc']
  have hM : t'.brmxNonDh = t.brmxNonDh := by rw [e.brmxNonDh, e'.brmxNonDh, hvo]; rfl
  have vpos : ∀ i, 0 ≤ t.vOut i := vOut_nonneg hw hloc e
  have hne : ∀ i, 0 < h.cLh i + dt * h.gLh i := fun i =>
    lt_of_le_of_ne (add_nonneg (hw.cLh_nonneg i) (mul_nonneg hw.dt_pos.le (hw.gLh_nonneg i))) (lh_ne hw i).symm
  have hrhs : ∀ i, t.brxcNonDh i ≤ t'.brxcNonDh i ∧ ((A k2).xGen i < (B k2).xGen i → t.brxcNonDh i < t'.brxcNonDh i) := by
    intro i
    rw [e.brxcNonDh, e'.brxcNonDh, hvo, hxh]
    have hrho : (0 : ℝ) ≤ rhoAir := by unfold rhoAir; norm_num
    have h1 : h.vRoom i / dt * c.xR i ≤ h.vRoom i / dt * c'.xR i :=
      mul_le_mul_of_nonneg_left (hx i) (div_nonneg (hw.vRoom_pos i).le hw.dt_pos.le)
    have h2 : t.vOut i * (A k2).xO ≤ t.vOut i * (B k2).xO := mul_le_mul_of_nonneg_left hAB.outdoor (vpos i)
    have h3 : h.cLh i * h.gLh i / (h.cLh i + dt * h.gLh i) * c.xFrt i ≤ h.cLh i * h.gLh i / (h.cLh i + dt * h.gLh i) * c'.xFrt i :=
      mul_le_mul_of_nonneg_left (hxf i) (div_nonneg (mul_nonneg (hw.cLh_nonneg i) (hw.gLh_nonneg i)) (hne i).le)
    have h4 := mul_le_mul_of_nonneg_left (add_le_add h1 h2) hrho
    have h5 := hAB.released i
    simp only [Tick.brxcNonDh, preCalcOf]
    exact ⟨by linarith, fun h6 => by linarith⟩
  have z0 : ZDominant t.brmxNonDh := by
    have := brmx_zdominant (data := A) (ivs := ivs) hw vpos (r := fun _ => 0) (fun _ => le_rfl)
    rw [e.brmxNonDh]
    have e0 : (Matrix.diagonal fun _ : I => (0 : ℝ)) = 0 := Matrix.diagonal_zero
    rw [e0, add_zero] at this
    exact this
  have hrac : ∀ i, t.rac i = getDehumidCoeff (t.lc i) (t.thetaR i) (h.rac i) (t.xNonDh i) := fun i => by rw [e.rac]; rfl
  have hrac' : ∀ i, t'.rac i = getDehumidCoeff (t.lc i) (t.thetaR i) (h.rac i) (t'.xNonDh i) := fun i => by rw [e'.rac, hlc, hth]; rfl
  have rooms : ∀ i, t.xR i ≤ t'.xR i ∧ (t.brxcNonDh i < t'.brxcNonDh i → t.xR i < t'.xR i) := by
    rcases hcoil with hv | hl
    · intro i
      have hdiag : ∀ x : I → ℝ, t.brmxNonDh.mulVec x i = t.brmxNonDh i i * x i := by
        intro x
        unfold Matrix.mulVec dotProduct
        refine Finset.sum_eq_single i (fun l _ hl => ?_) (fun h => absurd (Finset.mem_univ i) h)
        rw [e.brmxNonDh]
        simp [Tick.brmxNonDh, preCalcOf, hl.symm, hv i l hl.symm]
      have hD : 0 < t.brmxNonDh i i := by
        have := z0.rowSum i
        have h1 := hdiag fun _ => 1
        unfold Matrix.mulVec dotProduct at h1
        simp only [mul_one] at h1
        rwa [h1] at this
      have y1 := congrFun e.xNonDh.2 i
      have y2 := congrFun e'.xNonDh.2 i
      have x1 := congrFun e.xR.2 i
      have x2 := congrFun e'.xR.2 i
      rw [hM] at y2
      simp only [Tick.brmx, Tick.brxc, Matrix.add_mulVec, Pi.add_apply, Matrix.mulVec_diagonal, hM] at x1 x2
      rw [hdiag] at y1 y2 x1 x2
      rw [hrac i] at x1
      rw [hrac' i] at x2
      exact coil_mono hD (fun z => rac_brmx_nonneg hw _ _ _ i) (hrhs i).1 y1 y2 (by rw [add_mul]; exact x1) (by rw [add_mul]; exact x2)
    · have off : ∀ i z, (getDehumidCoeff (t.lc i) (t.thetaR i) (h.rac i) z).brmx = 0 ∧
          (getDehumidCoeff (t.lc i) (t.thetaR i) (h.rac i) z).brxc = 0 := by
        intro i z
        rcases rac_cases h (t.lc i) (t.thetaR i) z i with g | ⟨g, -⟩
        · exact g
        · linarith [hl i]
      have x1 : ∀ i, t.brmxNonDh.mulVec t.xR i = t.brxcNonDh i := by
        intro i
        have := congrFun e.xR.2 i
        simp only [Tick.brmx, Tick.brxc, Matrix.add_mulVec, Pi.add_apply, Matrix.mulVec_diagonal, hrac, (off _ _).1, (off _ _).2, zero_mul,
          add_zero] at this
        exact this
      have x2 : ∀ i, t.brmxNonDh.mulVec t'.xR i = t'.brxcNonDh i := by
        intro i
        have := congrFun e'.xR.2 i
        simp only [Tick.brmx, Tick.brxc, Matrix.add_mulVec, Pi.add_apply, Matrix.mulVec_diagonal, hrac', (off _ _).1, (off _ _).2, zero_mul,
          add_zero, hM] at this
        exact this
      have dif : ∀ i, t.brmxNonDh.mulVec (fun l => t'.xR l - t.xR l) i = t'.brxcNonDh i - t.brxcNonDh i := by
        intro i
        have : (fun l => t'.xR l - t.xR l) = t'.xR - t.xR := rfl
        rw [this, Matrix.mulVec_sub, Pi.sub_apply, x1, x2]
      have nn := z0.nonneg (x := fun l => t'.xR l - t.xR l) fun i _ => by rw [dif]; exact sub_nonneg.2 (hrhs i).1
      intro i
      refine ⟨sub_nonneg.1 (nn i), fun hlt => ?_⟩
      by_contra hc
      have h0 : t'.xR i - t.xR i = 0 := le_antisymm (sub_nonpos.2 (not_lt.1 hc)) (nn i)
      have h1 : t.brmxNonDh.mulVec (fun l => t'.xR l - t.xR l) i ≤ 0 := by
        unfold Matrix.mulVec dotProduct
        refine Finset.sum_nonpos fun l _ => ?_
        by_cases hl : i = l
        · subst hl
          show t.brmxNonDh i i * (t'.xR i - t.xR i) ≤ 0
          rw [h0, mul_zero]
        · exact mul_nonpos_of_nonpos_of_nonneg (z0.offDiag i l hl) (nn l)
      rw [dif] at h1
      linarith
  refine ⟨⟨fun i => (rooms i).1, fun i => ?_⟩, fun i hg => (rooms i).2 ((hrhs i).2 hg)⟩
  have h1 : (h.cLh i + dt * h.gLh i) * (t'.xFrt i - t.xFrt i) = h.cLh i * (c'.xFrt i - c.xFrt i) + dt * h.gLh i * (t'.xR i - t.xR i) := by
    linear_combination hfr' i - hfr i
  have h2 : 0 ≤ h.cLh i * (c'.xFrt i - c.xFrt i) := mul_nonneg (hw.cLh_nonneg i) (sub_nonneg.2 (hxf i))
  have h3 : 0 ≤ dt * h.gLh i * (t'.xR i - t.xR i) := mul_nonneg (mul_nonneg hw.dt_pos.le (hw.gLh_nonneg i)) (sub_nonneg.2 (rooms i).1)
  have h4 : 0 ≤ (h.cLh i + dt * h.gLh i) * (t'.xFrt i - t.xFrt i) := by rw [h1]; exact add_nonneg h2 h3
  exact sub_nonneg.1 (nonneg_of_mul_nonneg_right h4 (hne i))

/-- **C139 (a run).** -/
theorem run_damper {ss ss' : PreCalc I J N} {A B : Fin N → Record I J} (hw : WellFormed h hR dt)
    (Hp : makePreCalc h hR dt A = .ok ss) (Hp' : makePreCalc h hR dt B = .ok ss') (hloc : ∀ k i, 0 ≤ (A k).vLocal i)
    (hAB : ∀ k, Damper (A k) (B k)) {c c' : Cond I J} {ns : List ℤ} {ts ts' : List (TickVars I J)}
    (hx : ∀ i, c.xR i ≤ c'.xR i) (hxf : ∀ i, c.xFrt i ≤ c'.xFrt i) (H : Run ss dt c ns ts) (H' : Run ss' dt c' ns ts') :
    ∀ (j : ℕ) (hj : j < ns.length) (h1 : j < ts.length) (h2 : j < ts'.length),
      (∀ (l : ℕ) (_ : l < ns.length) (g1 : l < ts.length) (g2 : l < ts'.length), l ≤ j →
        SameButHumidity (LogRow.ofTick ts[l]) (LogRow.ofTick ts'[l]) ∧ ((∀ i l, i ≠ l → h.vInt i l = 0) ∨ ∀ i, -0.001 ≤ ts[l].lc i)) →
      RowDamper (LogRow.ofTick ts[j]) (LogRow.ofTick ts'[j]) ∧
        ∀ k : Fin N, pyIndex N ns[j] = .ok k → ∀ i, (A k).xGen i < (B k).xGen i → ts[j].xR i < ts'[j].xR i := by
  induction H generalizing c' ts' with
  | nil => intro j hj; simp at hj
  | cons a1 _ ih =>
    rename_i t _
    cases H' with
    | cons b1 b2 =>
      rename_i t' _
      intro j hj h1 h2 hd
      obtain ⟨k, hk⟩ := runTick_index a1
      obtain ⟨d1, d2⟩ := hd 0 (by simp) (by simp) (by simp) (by omega)
      have s1 := step_damper hw Hp Hp' a1 b1 hk (hloc k) (hAB k) d1 d2 hx hxf
      cases j with
      | zero =>
        refine ⟨s1.1, fun k' hk' => ?_⟩
        obtain rfl : k' = k := Except.ok.inj (hk'.symm.trans hk)
        exact s1.2
      | succ j =>
        exact ih (c' := t'.next) s1.1.rooms s1.1.furniture b2 j (by simpa using hj) (by simpa using h1) (by simpa using h2)
          fun l hl g1 g2 hlj => hd (l + 1) (by simpa using hl) (by simpa using g1) (by simpa using g2) (by omega)

/-- The equipment of a house. -/
def ownEquipment (h : House I J) : Equipment I J where
  beta := h.beta
  vNtrl := h.vNtrl
  cLh := h.cLh
  gLh := h.gLh
  isRadHeating := h.isRadHeating
  capH := h.capH
  isRadCooling := h.isRadCooling
  capC := h.capC
  rac := h.rac
  flr := h.flr

theorem equipped_own (h : House I J) : equipped h (ownEquipment h) = h := rfl

/-- Records that differ in moisture, in the form of `C107_rows`. -/
theorem damper_moistened {A B : Fin N → Record I J} (hAB : ∀ k, Damper (A k) (B k)) :
    B = fun n => moistened (A n) (B n).xO (B n).xGen (B n).acDemand := funext fun n => (hAB n).same

end

section
variable {I : Type} [Fintype I] [DecidableEq I] {m N : ℕ} {h : House I (Fin m)} {hR : Fin m → ℝ}
  {A B : Fin N → Record I (Fin m)} {hourly dMain dRunUp dRunUpBuild : ℤ} {r r' : CalcResult I m N}

/-- **C139** for given radiative coefficients. -/
theorem C139_rows (hw : WellFormed h hR (3600 / (hourly : ℝ))) (hru : 0 ≤ dRunUpBuild * hourly * 24)
    (hloc : ∀ k i, 0 ≤ (A k).vLocal i) (hAB : ∀ k, Damper (A k) (B k))
    (H : coreCalc h hR A hourly dMain dRunUp dRunUpBuild = .ok r) (H' : coreCalc h hR B hourly dMain dRunUp dRunUpBuild = .ok r') (k : ℕ)
    (hup : NoDemand (fun n => (A n).acDemand) (-(dRunUpBuild * hourly * 24)) (-1))
    (hup' : NoDemand (fun n => (B n).acDemand) (-(dRunUpBuild * hourly * 24)) (-1))
    (hrows : ∀ (l : ℕ) (g : l < r.nMain.toNat) (g' : l < r'.nMain.toNat), l ≤ k → SameButHumidity (r.log ⟨l, g⟩) (r'.log ⟨l, g'⟩) ∧
      ((∀ i l, i ≠ l → h.vInt i l = 0) ∨ ∀ i, -0.001 ≤ (r.log ⟨l, g⟩).lCs i))
    (hk : k < r.nMain.toNat) (hk' : k < r'.nMain.toNat) :
    RowDamper (r.log ⟨k, hk⟩) (r'.log ⟨k, hk'⟩) ∧
      ∀ (hN : k < N) (i : I), (A ⟨k, hN⟩).xGen i < (B ⟨k, hN⟩).xGen i → (r.log ⟨k, hk⟩).xR i < (r'.log ⟨k, hk'⟩).xR i := by
  have hcap : ∀ i, 0 ≤ h.capH i ∧ 0 ≤ h.capC i := fun i => ⟨hw.capH_nonneg i, hw.capC_nonneg i⟩
  obtain ⟨gs, c0, up, mn, T⟩ := coreCalc_ok H
  obtain ⟨gs', c0', up', mn', T'⟩ := coreCalc_ok H'
  obtain ⟨ivs, hi, hs⟩ := makePreCalc_ok T.pre
  obtain ⟨ivs', hi', hs'⟩ := makePreCalc_ok T'.pre
  obtain rfl : ivs' = ivs := Except.ok.inj (hi'.symm.trans hi)
  have hB := damper_moistened hAB
  have hG : makePreCalcGround r'.ss = makePreCalcGround r.ss := by rw [hs, hs', hB]; rfl
  have hg : r'.ground = r.ground := by
    have g1 := groundRun_fold T.ground
    have g2 := groundRun_fold T'.ground
    rw [hG] at g2
    have := Except.ok.inj (g2.symm.trans g1)
    rw [T.ground_last, T'.ground_last, hG]
    exact this
  have hst : c0' = c0 := by
    have s1 := T.start
    have s2 := T'.start
    rw [hg, show r'.ss.isGround = r.ss.isGround by rw [hs, hs']; rfl] at s2
    exact Except.ok.inj (s2.symm.trans s1)
  have U := T.runUp
  have U' := T'.runUp
  rw [hs] at U
  rw [hs', hB] at U'
  have R := T.runUp.append T.main
  have R' := T'.runUp.append T'.main
  rw [hst] at R' U'
  have hl : up'.length = up.length := T'.runUp.length_eq.trans T.runUp.length_eq.symm
  have hu : up.length = (pyRange (-(dRunUpBuild * hourly * 24)) 0).length := T.runUp.length_eq
  have hm1 : k < mn.length := by rw [T.mn_length]; exact hk
  have hm2 : k < mn'.length := by rw [T'.mn_length]; exact hk'
  have hm3 : mn.length = (pyRange 0 (dMain * hourly * 24)).length := T.main.length_eq
  have idle := fun (l : ℕ) (g : l < up.length) => run_idle (e := ownEquipment h) (ivs := ivs') hcap hcap
    (⟨rfl, rfl, rfl, rfl, rfl, rfl⟩ : SameTemp c0 c0) U U' l (by omega) g (by omega) (by
      intro q hq hle k' hk2 i
      have hsp := pyIndex_spec hk2
      rw [pyRange_length] at hu
      rw [pyRange_getElem] at hsp
      exact ⟨hup _ (by omega) (by omega) k' hsp i, hup' _ (by omega) (by omega) k' hsp i⟩)
  have quiet : ∀ (l : ℕ) (g : l < up.length), ∀ i, -0.001 ≤ up[l].lc i := by
    intro l g i
    obtain ⟨d, b⟩ := run_at T.runUp l (by omega) g
    obtain ⟨q, hq⟩ := runTick_index b
    have hsp := pyIndex_spec hq
    rw [pyRange_length] at hu
    rw [pyRange_getElem] at hsp
    have hd := hup _ (by omega) (by omega) q hsp
    rw [(step_no_demand T.pre b hq hcap (hd i)).1]
    norm_num
  have f1 : ∀ (q : ℕ) (g : up.length + q < (up ++ mn).length) (g' : q < mn.length), (up ++ mn)[up.length + q] = mn[q] := by
    intro q g g'
    rw [List.getElem_append_right (by omega)]; simp
  have f2 : ∀ (q : ℕ) (g : up.length + q < (up' ++ mn').length) (g' : q < mn'.length), (up' ++ mn')[up.length + q] = mn'[q] := by
    intro q g g'
    rw [List.getElem_append_right (by omega)]; simp [hl]
  have j1 : up.length + k < (up ++ mn).length := by rw [List.length_append]; omega
  have j2 : up.length + k < (up' ++ mn').length := by rw [List.length_append]; omega
  have key := run_damper hw T.pre T'.pre hloc hAB (fun _ => le_rfl) (fun _ => le_rfl) R R' (up.length + k)
    (by rw [List.length_append]; omega) j1 j2 (by
      intro l hl' g1 g2 hle
      by_cases h5 : l < up.length
      · rw [List.getElem_append_left h5, List.getElem_append_left (by omega)]
        refine ⟨?_, .inr (quiet l h5)⟩
        have := (idle l h5).row
        show LogRow.ofTick up'[l] = _
        rw [this]
      · obtain ⟨q, rfl⟩ : ∃ q, l = up.length + q := ⟨l - up.length, by omega⟩
        have g5 : q < mn.length := by omega
        have g6 : q < mn'.length := by omega
        have g3 : q < r.nMain.toNat := by rw [← T.mn_length]; exact g5
        have g4 : q < r'.nMain.toNat := by rw [← T'.mn_length]; exact g6
        have := hrows q g3 g4 (by omega)
        rw [T.logged ⟨q, g3⟩ g5, T'.logged ⟨q, g4⟩ g6] at this
        rw [f1 q g1 g5, f2 q g2 g6]
        exact this)
  rw [f1 k j1 hm1, f2 k j2 hm2] at key
  rw [T.logged ⟨k, hk⟩ hm1, T'.logged ⟨k, hk'⟩ hm2]
  refine ⟨key.1, fun hN i hg => key.2 ⟨k, hN⟩ ?_ i hg⟩
  have hx : (pyRange (-(dRunUpBuild * hourly * 24)) 0 ++ pyRange 0 (dMain * hourly * 24))[up.length + k]'(by rw [List.length_append]; omega) = k := by
    rw [List.getElem_append_right (by omega), pyRange_getElem]
    omega
  rw [hx]
  unfold pyIndex
  rw [dif_pos (by omega)]
  congr 1

/-- **C139** for given radiative coefficients, while no room has demanded conditioning: then the columns other than the humidities agree. -/
theorem C139_free (hw : WellFormed h hR (3600 / (hourly : ℝ))) (hru : 0 ≤ dRunUpBuild * hourly * 24)
    (hloc : ∀ k i, 0 ≤ (A k).vLocal i) (hAB : ∀ k, Damper (A k) (B k))
    (H : coreCalc h hR A hourly dMain dRunUp dRunUpBuild = .ok r) (H' : coreCalc h hR B hourly dMain dRunUp dRunUpBuild = .ok r') (k : ℕ)
    (hd : NoDemand (fun n => (A n).acDemand) (-(dRunUpBuild * hourly * 24)) k)
    (hd' : NoDemand (fun n => (B n).acDemand) (-(dRunUpBuild * hourly * 24)) k)
    (hk : k < r.nMain.toNat) (hk' : k < r'.nMain.toNat) :
    RowDamper (r.log ⟨k, hk⟩) (r'.log ⟨k, hk'⟩) ∧ SameButHumidity (r.log ⟨k, hk⟩) (r'.log ⟨k, hk'⟩) ∧
      ∀ (hN : k < N) (i : I), (A ⟨k, hN⟩).xGen i < (B ⟨k, hN⟩).xGen i → (r.log ⟨k, hk⟩).xR i < (r'.log ⟨k, hk'⟩).xR i := by
  have hcap : ∀ i, 0 ≤ h.capH i ∧ 0 ≤ h.capC i := fun i => ⟨hw.capH_nonneg i, hw.capC_nonneg i⟩
  have H2 : coreCalc (equipped h (ownEquipment h)) hR (fun n => moistened (A n) (B n).xO (B n).xGen (B n).acDemand) hourly dMain dRunUp dRunUpBuild
      = .ok r' := by rw [equipped_own, ← damper_moistened hAB]; exact H'
  have same : ∀ (l : ℕ) (g : l < r.nMain.toNat) (g' : l < r'.nMain.toNat), l ≤ k → SameButHumidity (r.log ⟨l, g⟩) (r'.log ⟨l, g'⟩) := by
    intro l g g' hl
    have := C107_rows (e := ownEquipment h) hcap hcap hru H H2 l (fun n h1 h2 => hd n h1 (by omega)) (fun n h1 h2 => hd' n h1 (by omega)) g g'
    unfold SameButHumidity
    rw [this]
  have key := C139_rows hw hru hloc hAB H H' k (fun n h1 h2 => hd n h1 (by omega)) (fun n h1 h2 => hd' n h1 (by omega)) (fun l g g' hl => by
    refine ⟨same l g g' hl, .inr fun i => ?_⟩
    obtain ⟨q, c, t, e1, e2, Hp, Ht, el⟩ := logged_step H ⟨l, g⟩
    rw [el]
    have := (step_no_demand Hp Ht e2 hcap (hd l (by omega) (by omega) q (pyIndex_spec e2) i)).1
    show -0.001 ≤ t.lc i
    rw [this]
    norm_num) hk hk'
  exact ⟨key.1, same k hk hk' le_rfl, key.2⟩

end

section
variable {q m N : ℕ} {solve : List ℝ → ℝ} {h : House (Fin q) (Fin m)} {A B : Fin N → Record (Fin q) (Fin m)}
  {hourly dMain dRunUp dRunUpBuild : ℤ} {r r' : CalcResult (Fin q) m N}

/-- **C139.** Two completed calculations of the same house that differ in moisture only, the second with at least as humid outdoor air and as
much moisture released in every room at all times. As long as no room has demanded conditioning, since the start of the run-up, no humidity
of a room or its furniture is lower in the second, all other columns agree, and a room in which more is released in a row is more humid in
that row. -/
theorem C139_program (hw : WellFormed h (getHr solve h.area h.room) (3600 / (hourly : ℝ))) (hru : 0 ≤ dRunUpBuild * hourly * 24)
    (hloc : ∀ k i, 0 ≤ (A k).vLocal i) (hAB : ∀ k, Damper (A k) (B k))
    (H : program solve h A hourly dMain dRunUp dRunUpBuild = .ok r) (H' : program solve h B hourly dMain dRunUp dRunUpBuild = .ok r') (k : ℕ)
    (hd : NoDemand (fun n => (A n).acDemand) (-(dRunUpBuild * hourly * 24)) k)
    (hd' : NoDemand (fun n => (B n).acDemand) (-(dRunUpBuild * hourly * 24)) k)
    (hk : k < r.nMain.toNat) (hk' : k < r'.nMain.toNat) :
    RowDamper (r.log ⟨k, hk⟩) (r'.log ⟨k, hk'⟩) ∧ SameButHumidity (r.log ⟨k, hk⟩) (r'.log ⟨k, hk'⟩) ∧
      ∀ (hN : k < N) (i : Fin q), (A ⟨k, hN⟩).xGen i < (B ⟨k, hN⟩).xGen i → (r.log ⟨k, hk⟩).xR i < (r'.log ⟨k, hk'⟩).xR i :=
  C139_free hw hru hloc hAB H H' k hd hd' hk hk'

end

/-- The hypotheses are met by the cold house in dry weather and in damp weather with steam, for every row before ten o'clock. -/
theorem C139_example : ∃ (solve : List ℝ → ℝ) (r r' : CalcResult (Fin 1) 1 96), SolvesRooms solve exCold.area exCold.room ∧
    program solve exCold exLate 4 1 0 0 = .ok r ∧ program solve exCold exDamp 4 1 0 0 = .ok r' ∧ r.nMain = 96 ∧ r'.nMain = 96 ∧
    ∀ k < 40, ∀ (hk : k < r.nMain.toNat) (hk' : k < r'.nMain.toNat), (r.log ⟨k, hk⟩).xR 0 < (r'.log ⟨k, hk'⟩).xR 0 := by
  obtain ⟨solve, hsol⟩ := exists_solver
  have hpos : ∀ j, 0 < exCold.area j := fun j => by norm_num [exCold]
  have hsr := solvesRooms_of hsol exCold.room hpos
  have hr : ∀ j, 0 < getHr solve exCold.area exCold.room j := fun j => by
    have := C33_coefficients solve _ _ hpos hsr j; linarith [this.1, this.2.1]
  have hw : WellFormed exCold (getHr solve exCold.area exCold.room) (3600 / ((4 : ℤ) : ℝ)) := by
    have := exCold_wellFormed_any hr
    norm_num at this ⊢
    exact this
  obtain ⟨r, H⟩ : ∃ r, coreCalc exCold (getHr solve exCold.area exCold.room) exLate 4 1 0 0 = .ok r := by
    apply C21_program_partial hw (fun _ => rfl) (fun _ => rfl)
    · intro k i; norm_num [exLate, moistened, exColdData]
    all_goals norm_num
  obtain ⟨r', H'⟩ : ∃ r', coreCalc exCold (getHr solve exCold.area exCold.room) exDamp 4 1 0 0 = .ok r' := by
    apply C21_program_partial hw (fun _ => rfl) (fun _ => rfl)
    · intro k i; norm_num [exDamp, exLate, moistened, exColdData]
    all_goals norm_num
  have m1 : r.nMain = 96 := by obtain ⟨_, _, _, _, T⟩ := coreCalc_ok H; rw [T.nMain_eq]; norm_num
  have m2 : r'.nMain = 96 := by obtain ⟨_, _, _, _, T⟩ := coreCalc_ok H'; rw [T.nMain_eq]; norm_num
  refine ⟨solve, r, r', hsr, H, H', m1, m2, ?_⟩
  intro k hk h1 h2
  have key := C139_program (solve := solve) (h := exCold) (A := exLate) (B := exDamp) hw (by norm_num)
    (fun k i => by norm_num [exLate, moistened, exColdData])
    (fun k => ⟨rfl, by norm_num [exDamp, exLate, moistened], fun i => by norm_num [exDamp, exLate, moistened]⟩) H H' k (by
      intro n g1 g2 q hq i
      have : q < 40 := by rw [Fin.lt_def]; show (q : ℕ) < 40; omega
      simp [exLate, moistened, this]) (by
      intro n g1 g2 q hq i
      have : q < 48 := by rw [Fin.lt_def]; show (q : ℕ) < 48; omega
      simp [exDamp, moistened, this]) h1 h2
  exact key.2.2 (by omega) 0 (by norm_num [exDamp, exLate, moistened])

end HLC
