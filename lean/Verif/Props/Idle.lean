import Verif.Spec.Idle
import Verif.Props.Renumber
import Verif.Props.ColdHouse

/-!
# C107: without demand, temperatures do not depend on equipment or moisture
-/

set_option linter.unusedSectionVars false

namespace HLC
open Spec

section
variable {I J : Type} [Fintype I] [DecidableEq I] [Fintype J] [DecidableEq J] {N : ℕ}

/-- Two states with the same temperatures. -/
structure SameTemp (c c' : Cond I J) : Prop where
  thetaR : c'.thetaR = c.thetaR
  dshA : c'.dshA = c.dshA
  dshT : c'.dshT = c.dshT
  qSrf : c'.qSrf = c.qSrf
  thetaFrt : c'.thetaFrt = c.thetaFrt
  thetaEi : c'.thetaEi = c.thetaEi

/-- Two steps that differ in humidities only. -/
structure SameStep (t t' : TickVars I J) : Prop where
  row : LogRow.ofTick t' = { LogRow.ofTick t with xR := t'.xR, xFrt := t'.xFrt }
  next : SameTemp t.next t'.next

theorem ot_no_demand {ss : PreCalc I J N} {dt : ℝ} {k : Fin N} {c : Cond I J} {t : TickVars I J} (E : TickEqs ss dt k c t)
    (hd : ∀ i, ss.acDemand k i ≤ 0) : t.ot = fun _ => ⟨hHumC, hHumR, .stopClose, 0, 0⟩ := by
  funext i
  have := E.ot i
  unfold getOtTargetAndHHum at this
  simp only [getOperationMode, if_neg (not_lt.2 (hd i)), bind, Except.bind] at this
  rw [← Except.ok.inj this]
  simp

/-- Without demand the operative temperatures are the natural ones. -/
theorem natural_no_demand {a : LoadInput I} {res : LoadTemp I} (H : calcNextTempAndLoad a = .ok res) (hcap : CapsNonneg a)
    (hm : ∀ i, a.mode i = .stopClose) :
    a.brm.det ≠ 0 ∧ a.brm.mulVec res.theta = a.brc ∧ res.lc = (fun _ => 0) ∧ res.lr = fun _ => 0 := by
  obtain ⟨nat, p1, hdet, hnat, -, h2⟩ := calc_passes H
  have h0 : ∀ i, res.lc i = 0 ∧ res.lr i = 0 := fun i => C08_no_load _ _ H hcap nat hnat i
    (by rintro ⟨h1, -⟩; rw [hm i] at h1; cases h1) (by rintro ⟨h1, -⟩; rw [hm i] at h1; cases h1)
  have hc : res.lc = fun _ => 0 := funext fun i => (h0 i).1
  have hr : res.lr = fun _ => 0 := funext fun i => (h0 i).2
  refine ⟨hdet, ?_, hc, hr⟩
  have := getLoadAndTemp_eq h2
  rw [hc, hr] at this
  rw [this]
  funext i
  simp [Matrix.mulVec, dotProduct]

theorem step_idle {h : House I J} {e : Equipment I J} {hR : J → ℝ} {dt : ℝ} {data : Fin N → Record I J} {xO : Fin N → ℝ}
    {xGen dem : Fin N → I → ℝ} {ivs : Matrix J J ℝ} {k : Fin N} {c c' : Cond I J} {t t' : TickVars I J}
    (hcap : ∀ i, 0 ≤ h.capH i ∧ 0 ≤ h.capC i) (hcap' : ∀ i, 0 ≤ e.capH i ∧ 0 ≤ e.capC i)
    (hd : ∀ i, (data k).acDemand i ≤ 0) (hd' : ∀ i, dem k i ≤ 0)
    (E : TickEqs (preCalcOf h hR dt data ivs) dt k c t)
    (E' : TickEqs (preCalcOf (equipped h e) hR dt (fun n => moistened (data n) (xO n) (xGen n) (dem n)) ivs) dt k c' t')
    (hc : SameTemp c c') : SameStep t t' := by
  have o := ot_no_demand E hd
  have o' := ot_no_demand E' hd'
  have oo : t'.ot = t.ot := o'.trans o.symm
  have l := natural_no_demand E.load hcap (fun i => by simp only [Tick.loadInput, o])
  have l' := natural_no_demand E'.load hcap' (fun i => by simp only [Tick.loadInput, o'])
  have lc : t.lc = fun _ => 0 := l.2.2.1
  have lr : t.lr = fun _ => 0 := l.2.2.2
  have lc' : t'.lc = fun _ => 0 := l'.2.2.1
  have lr' : t'.lr = fun _ => 0 := l'.2.2.2
  have rear : t'.thetaRear = t.thetaRear := by
    rw [E.thetaRear, E'.thetaRear]; unfold Tick.thetaRear; rw [hc.thetaEi]; rfl
  have qh : t'.qHum = t.qHum := by rw [E.qHum, E'.qHum]; unfold Tick.qHum; rw [hc.thetaR]; rfl
  have xh : t'.xHum = t.xHum := by rw [E.xHum, E'.xHum]; unfold Tick.xHum; rw [hc.thetaR]; rfl
  have leak : t'.vLeak = t.vLeak := by
    have := E'.vLeak
    rw [hc.thetaR] at this
    exact Except.ok.inj (this.symm.trans E.vLeak)
  have da : t'.dshA = t.dshA := by rw [E.dshA, E'.dshA]; unfold Tick.dshA; rw [hc.qSrf, hc.dshA]; rfl
  have dT : t'.dshT = t.dshT := by rw [E.dshT, E'.dshT, rear]; unfold Tick.dshT; rw [hc.dshT]; rfl
  have wsv : t'.wsv = t.wsv := by rw [E.wsv, E'.wsv, da, dT]; rfl
  have nv : t'.vNtrl = t.vNtrl := by rw [E.vNtrl, E'.vNtrl, o, o']; unfold Tick.vNtrl; rfl
  have vo : t'.vOut = t.vOut := by rw [E.vOut, E'.vOut, leak, nv]; rfl
  have brc : t'.brc = t.brc := by
    rw [E.brc, E'.brc, wsv, vo, qh]; unfold Tick.brc; rw [hc.thetaR, hc.thetaFrt]; rfl
  have brm : t'.brm = t.brm := by rw [E.brm, E'.brm, vo]; rfl
  have xot : t'.xot = t.xot := by
    have := E'.xot
    rw [oo] at this
    exact Except.ok.inj (this.symm.trans E.xot)
  have xc : t'.xc = t.xc := by rw [E.xc, E'.xc, oo, xot, wsv]; rfl
  have bmo : t'.brmOt = t.brmOt := by rw [E.brmOt, E'.brmOt, brm, xot]
  have bco : t'.brcOt = t.brcOt := by rw [E.brcOt, E'.brcOt, brc, brm, xc]
  have th : t'.thetaOt = t.thetaOt := by
    have h1 : t.brmOt.det ≠ 0 := l.1
    have h2 : t.brmOt.mulVec t.thetaOt = t.brcOt := l.2.1
    have h3 : t'.brmOt.mulVec t'.thetaOt = t'.brcOt := l'.2.1
    rw [bmo, bco, ← h2] at h3
    exact Matrix.mulVec_injective_of_isUnit ((Matrix.isUnit_iff_isUnit_det _).2 (isUnit_iff_ne_zero.2 h1)) h3
  have z : ∀ A : Matrix I I ℝ, A.mulVec (fun _ => (0 : ℝ)) = fun _ => 0 := fun A => by funext i; simp [Matrix.mulVec, dotProduct]
  have z' : ∀ A : Matrix J I ℝ, A.mulVec (fun _ => (0 : ℝ)) = fun _ => 0 := fun A => by funext i; simp [Matrix.mulVec, dotProduct]
  have thR : t'.thetaR = t.thetaR := by
    rw [E.thetaR, E'.thetaR, xot, xc, th, lr, lr']; unfold Tick.thetaR; rw [z, z]
  have thF : t'.thetaFrt = t.thetaFrt := by
    rw [E.thetaFrt, E'.thetaFrt, thR]; unfold Tick.thetaFrt; rw [hc.thetaFrt]; rfl
  have thS : t'.thetaS = t.thetaS := by
    rw [E.thetaS, E'.thetaS, thR, wsv, lr, lr']; unfold Tick.thetaS; rw [z', z']; rfl
  have thM : t'.thetaMrt = t.thetaMrt := by rw [E.thetaMrt, E'.thetaMrt, thS]; rfl
  have thE : t'.thetaEi = t.thetaEi := by
    rw [E.thetaEi, E'.thetaEi, thR, thS, lr, lr']; unfold Tick.thetaEi; simp only [mul_zero, z']; rfl
  have qs : t'.qSrf = t.qSrf := by rw [E.qSrf, E'.qSrf, thE, thS]; rfl
  have lcl : ∀ {ss : PreCalc I J N} {c : Cond I J} {t : TickVars I J}, TickEqs ss dt k c t → t.lc = (fun _ => 0) → t.lCl = fun _ => 0 := by
    intro ss c t e h0
    funext i
    rw [e.lCl]
    simp only [Tick.lCl, Matrix.mulVec_diagonal]
    have hr : (t.rac i).brmx = 0 ∧ (t.rac i).brxc = 0 := by
      rw [e.rac, h0]
      unfold Tick.rac getDehumidCoeff
      norm_num
    rw [hr.1, hr.2]
    ring
  have cl : t'.lCl = t.lCl := (lcl E' lc').trans (lcl E lc).symm
  refine ⟨?_, ⟨thR, da, dT, qs, thF, thE⟩⟩
  unfold LogRow.ofTick
  simp only [oo, thR, thM, thF, thE, qh, xh, lc, lc', lr, lr', cl, leak, nv, th, thS, rear, qs]

/-- The record of a step number. -/
theorem pyIndex_spec {n : ℤ} {k : Fin N} (hk : pyIndex N n = .ok k) : (k : ℤ) = n ∨ (n < 0 ∧ (k : ℤ) = n + N) := by
  unfold pyIndex at hk
  split_ifs at hk with h1 h2
  · left; rw [← Except.ok.inj hk]; show ((n.toNat : ℕ) : ℤ) = n; omega
  · right; rw [← Except.ok.inj hk]; refine ⟨h2.1, ?_⟩; show ((((N : ℤ) + n).toNat : ℕ) : ℤ) = n + N; omega

theorem run_idle {h : House I J} {e : Equipment I J} {hR : J → ℝ} {dt : ℝ} {data : Fin N → Record I J} {xO : Fin N → ℝ}
    {xGen dem : Fin N → I → ℝ} {ivs : Matrix J J ℝ}
    (hcap : ∀ i, 0 ≤ h.capH i ∧ 0 ≤ h.capC i) (hcap' : ∀ i, 0 ≤ e.capH i ∧ 0 ≤ e.capC i) {c c' : Cond I J} {ns : List ℤ}
    {ts ts' : List (TickVars I J)} (hc : SameTemp c c') (H : Run (preCalcOf h hR dt data ivs) dt c ns ts)
    (H' : Run (preCalcOf (equipped h e) hR dt (fun n => moistened (data n) (xO n) (xGen n) (dem n)) ivs) dt c' ns ts') :
    ∀ (j : ℕ) (_ : j < ns.length) (h1 : j < ts.length) (h2 : j < ts'.length),
      (∀ (l : ℕ) (hl : l < ns.length), l ≤ j → ∀ k : Fin N, pyIndex N ns[l] = .ok k → ∀ i, (data k).acDemand i ≤ 0 ∧ dem k i ≤ 0) →
      SameStep ts[j] ts'[j] := by
  induction H generalizing c' ts' with
  | nil => intro j hj; simp at hj
  | cons a1 _ ih =>
    cases H' with
    | cons b1 b2 =>
      intro j hj h1 h2 hd
      obtain ⟨k, hk, e1⟩ := runTick_ok a1
      obtain ⟨k', hk', e2⟩ := runTick_ok b1
      obtain rfl : k' = k := Except.ok.inj (hk'.symm.trans hk)
      have s1 := step_idle hcap hcap' (fun i => (hd 0 (by simp) (by omega) k' hk i).1) (fun i => (hd 0 (by simp) (by omega) k' hk i).2)
        (tickAt_ok e1) (tickAt_ok e2) hc
      cases j with
      | zero => exact s1
      | succ j =>
        exact ih s1.next b2 j (by simpa using hj) (by simpa using h1) (by simpa using h2)
          fun l hl hlj => hd (l + 1) (by simpa using hl) (by omega)

end

section
variable {I : Type} [Fintype I] [DecidableEq I] {m N : ℕ} {h : House I (Fin m)} {e : Equipment I (Fin m)} {hR : Fin m → ℝ}
  {data : Fin N → Record I (Fin m)} {xO : Fin N → ℝ} {xGen dem : Fin N → I → ℝ} {hourly dMain dRunUp dRunUpBuild : ℤ}
  {r r' : CalcResult I m N}

/-- **C107** for given radiative coefficients. -/
theorem C107_rows (hcap : ∀ i, 0 ≤ h.capH i ∧ 0 ≤ h.capC i) (hcap' : ∀ i, 0 ≤ e.capH i ∧ 0 ≤ e.capC i)
    (hru : 0 ≤ dRunUpBuild * hourly * 24)
    (H : coreCalc h hR data hourly dMain dRunUp dRunUpBuild = .ok r)
    (H' : coreCalc (equipped h e) hR (fun n => moistened (data n) (xO n) (xGen n) (dem n)) hourly dMain dRunUp dRunUpBuild = .ok r')
    (k : ℕ) (hd : NoDemand (fun n => (data n).acDemand) (-(dRunUpBuild * hourly * 24)) k)
    (hd' : NoDemand dem (-(dRunUpBuild * hourly * 24)) k) (hk : k < r.nMain.toNat) (hk' : k < r'.nMain.toNat) :
    r'.log ⟨k, hk'⟩ = { r.log ⟨k, hk⟩ with xR := (r'.log ⟨k, hk'⟩).xR, xFrt := (r'.log ⟨k, hk'⟩).xFrt } := by
  obtain ⟨gs, c0, up, mn, T⟩ := coreCalc_ok H
  obtain ⟨gs', c0', up', mn', T'⟩ := coreCalc_ok H'
  obtain ⟨ivs, hi, hs⟩ := makePreCalc_ok T.pre
  obtain ⟨ivs', hi', hs'⟩ := makePreCalc_ok T'.pre
  obtain rfl : ivs' = ivs := Except.ok.inj (hi'.symm.trans hi)
  have hG : makePreCalcGround r'.ss = makePreCalcGround r.ss := by rw [hs, hs']; rfl
  have hg : r'.ground = r.ground := by
    have g1 := groundRun_fold T.ground
    have g2 := groundRun_fold T'.ground
    rw [hG] at g2
    have := Except.ok.inj (g2.symm.trans g1)
    rw [T.ground_last, T'.ground_last, hG]
    exact this
  have hst : c0' = c0 := by
    have s1 := T.start
    have s2 := T'.start
    rw [hg, show r'.ss.isGround = r.ss.isGround by rw [hs, hs']; rfl] at s2
    exact Except.ok.inj (s2.symm.trans s1)
  have R := T.runUp.append T.main
  have R' := T'.runUp.append T'.main
  rw [hst] at R'
  rw [hs] at R
  rw [hs'] at R'
  have hl : up'.length = up.length := T'.runUp.length_eq.trans T.runUp.length_eq.symm
  have hu : up.length = (pyRange (-(dRunUpBuild * hourly * 24)) 0).length := T.runUp.length_eq
  have hm1 : k < mn.length := by rw [T.mn_length]; exact hk
  have hm2 : k < mn'.length := by rw [T'.mn_length]; exact hk'
  have hm3 : mn.length = (pyRange 0 (dMain * hourly * 24)).length := T.main.length_eq
  have key := run_idle hcap hcap' ⟨rfl, rfl, rfl, rfl, rfl, rfl⟩ R R' (up.length + k) (by rw [List.length_append]; omega)
    (by rw [List.length_append]; omega) (by rw [List.length_append]; omega) (by
      intro l hl hle k' hk2 i
      have hsp := pyIndex_spec hk2
      have hb : -(dRunUpBuild * hourly * 24) ≤ (pyRange (-(dRunUpBuild * hourly * 24)) 0 ++ pyRange 0 (dMain * hourly * 24))[l]
          ∧ (pyRange (-(dRunUpBuild * hourly * 24)) 0 ++ pyRange 0 (dMain * hourly * 24))[l] ≤ k := by
        rw [List.getElem_append]
        split_ifs with h5
        · rw [pyRange_getElem]
          rw [pyRange_length] at h5
          omega
        · rw [pyRange_getElem]
          rw [pyRange_length] at h5 hu
          rw [pyRange_length]
          omega
      exact ⟨hd _ hb.1 hb.2 k' hsp i, hd' _ hb.1 hb.2 k' hsp i⟩)
  have e1 : (up ++ mn)[up.length + k]'(by rw [List.length_append]; omega) = mn[k] := by
    rw [List.getElem_append_right (by omega)]; simp
  have e2 : (up' ++ mn')[up.length + k]'(by rw [List.length_append]; omega) = mn'[k] := by
    rw [List.getElem_append_right (by omega)]; simp [hl]
  have hrow := key.row
  rw [e1, e2] at hrow
  rw [T.logged ⟨k, hk⟩ hm1, T'.logged ⟨k, hk'⟩ hm2]
  exact hrow

end

/-! ## The program -/

section
variable {q m N : ℕ} {solve : List ℝ → ℝ} {h : House (Fin q) (Fin m)} {e : Equipment (Fin q) (Fin m)}
  {data : Fin N → Record (Fin q) (Fin m)} {xO : Fin N → ℝ} {xGen dem : Fin N → Fin q → ℝ} {hourly dMain dRunUp dRunUpBuild : ℤ}
  {r r' : CalcResult (Fin q) m N}

/-- **C107.** Two completed calculations of the same building under the same heat gains and outdoor temperatures, with any equipment,
any window opening and any moisture: as long as no room has demanded conditioning, since the start of the run-up, every column of the
results is the same except the humidities of room air and furniture. -/
theorem C107_program (hcap : ∀ i, 0 ≤ h.capH i ∧ 0 ≤ h.capC i) (hcap' : ∀ i, 0 ≤ e.capH i ∧ 0 ≤ e.capC i)
    (hru : 0 ≤ dRunUpBuild * hourly * 24)
    (H : program solve h data hourly dMain dRunUp dRunUpBuild = .ok r)
    (H' : program solve (equipped h e) (fun n => moistened (data n) (xO n) (xGen n) (dem n)) hourly dMain dRunUp dRunUpBuild = .ok r')
    (k : ℕ) (hd : NoDemand (fun n => (data n).acDemand) (-(dRunUpBuild * hourly * 24)) k)
    (hd' : NoDemand dem (-(dRunUpBuild * hourly * 24)) k) (hk : k < r.nMain.toNat) (hk' : k < r'.nMain.toNat) :
    r'.log ⟨k, hk'⟩ = { r.log ⟨k, hk⟩ with xR := (r'.log ⟨k, hk'⟩).xR, xFrt := (r'.log ⟨k, hk'⟩).xFrt } :=
  C107_rows hcap hcap' hru H H' k hd hd' hk hk'

end

/-! ## A concrete case -/

/-- Stronger equipment, wider windows and damp furniture. -/
noncomputable def exOther : Equipment (Fin 1) (Fin 1) where
  beta := fun _ => 0.3
  vNtrl := fun _ => 0.4
  cLh := fun _ => 500
  gLh := fun _ => 0.01
  isRadHeating := fun _ => false
  capH := fun _ => 700
  isRadCooling := fun _ => false
  capC := fun _ => 600
  rac := fun _ => ⟨700, 7000, 8, 15⟩
  flr := fun _ => 0

/-- The cold house without demand until ten o'clock. -/
noncomputable def exLate : Fin 96 → Record (Fin 1) (Fin 1) := fun k => moistened (exColdData k) 0.004 (fun _ => 0) fun _ => if k < 40 then 0 else 1

/-- Damp weather, a lot of steam, and no demand until noon. -/
noncomputable def exDamp : Fin 96 → Record (Fin 1) (Fin 1) := fun k => moistened (exLate k) 0.012 (fun _ => 0.001) fun _ => if k < 48 then 0 else 1

theorem exOther_wellFormed {hR : Fin 1 → ℝ} (hr : ∀ j, 0 < hR j) : WellFormed (equipped exCold exOther) hR 900 :=
  { exCold_wellFormed_any hr with
    cLh_nonneg := by intro i; norm_num [equipped, exOther]
    gLh_nonneg := by intro i; norm_num [equipped, exOther]
    frtLh_pos := by intro i; norm_num [equipped, exOther]
    vNtrl_nonneg := by intro i; norm_num [equipped, exOther]
    capH_nonneg := by intro i; norm_num [equipped, exOther]
    capC_nonneg := by intro i; norm_num [equipped, exOther]
    rac_q := by intro i; norm_num [equipped, exOther]
    rac_v := by intro i; norm_num [equipped, exOther]
    rac_fan := by intro i; norm_num [equipped, exOther] }

/-- The hypotheses of `C107_program` are met by the cold house and the same house with other equipment in damp weather, for every row before
ten o'clock. -/
example : ∃ (solve : List ℝ → ℝ) (r r' : CalcResult (Fin 1) 1 96), SolvesRooms solve exCold.area exCold.room ∧
    program solve exCold exLate 4 1 0 0 = .ok r ∧ program solve (equipped exCold exOther) exDamp 4 1 0 0 = .ok r' ∧
    (∀ k : ℕ, k < 40 → NoDemand (fun n => (exLate n).acDemand) (-(0 * 4 * 24)) k ∧ NoDemand (fun n => (exDamp n).acDemand) (-(0 * 4 * 24)) k) ∧
    r.nMain = 96 ∧ r'.nMain = 96 ∧
    ∀ k < 40, ∀ (hk : k < r.nMain.toNat) (hk' : k < r'.nMain.toNat), (r'.log ⟨k, hk'⟩).thetaOt = (r.log ⟨k, hk⟩).thetaOt := by
  obtain ⟨solve, hsol⟩ := exists_solver
  have hpos : ∀ j, 0 < exCold.area j := fun j => by norm_num [exCold]
  have hsr := solvesRooms_of hsol exCold.room hpos
  have hr : ∀ j, 0 < getHr solve exCold.area exCold.room j := fun j => by
    have := C33_coefficients solve _ _ hpos hsr j; linarith [this.1, this.2.1]
  obtain ⟨r, H⟩ : ∃ r, coreCalc exCold (getHr solve exCold.area exCold.room) exLate 4 1 0 0 = .ok r := by
    apply C21_program_partial
    · have := exCold_wellFormed_any hr
      norm_num at this ⊢
      exact this
    · exact fun _ => rfl
    · exact fun _ => rfl
    · intro k i; norm_num [exLate, moistened, exColdData]
    all_goals norm_num
  obtain ⟨r', H'⟩ : ∃ r', coreCalc (equipped exCold exOther) (getHr solve exCold.area exCold.room) exDamp 4 1 0 0 = .ok r' := by
    apply C21_program_partial
    · have := exOther_wellFormed hr
      norm_num at this ⊢
      exact this
    · exact fun _ => rfl
    · exact fun _ => rfl
    · intro k i; norm_num [exDamp, exLate, moistened, exColdData]
    all_goals norm_num
  have hn : ∀ k : ℕ, k < 40 → NoDemand (fun n => (exLate n).acDemand) (-(0 * 4 * 24)) k
      ∧ NoDemand (fun n => (exDamp n).acDemand) (-(0 * 4 * 24)) k := by
    intro k hk
    constructor <;> intro n h1 h2 q hq i
    · have : q < 40 := by rw [Fin.lt_def]; show (q : ℕ) < 40; omega
      simp [exLate, moistened, this]
    · have : q < 48 := by rw [Fin.lt_def]; show (q : ℕ) < 48; omega
      simp [exDamp, moistened, this]
  have m1 : r.nMain = 96 := by obtain ⟨_, _, _, _, T⟩ := coreCalc_ok H; rw [T.nMain_eq]; norm_num
  have m2 : r'.nMain = 96 := by obtain ⟨_, _, _, _, T⟩ := coreCalc_ok H'; rw [T.nMain_eq]; norm_num
  refine ⟨solve, r, r', hsr, H, H', hn, m1, m2, ?_⟩
  intro k hk h1 h2
  have := C107_program (solve := solve) (h := exCold) (e := exOther) (data := exLate) (xO := fun _ => 0.012) (xGen := fun _ _ => 0.001)
    (dem := fun n _ => if n < 48 then 0 else 1) (fun i => by norm_num [exCold]) (fun i => by norm_num [exOther]) (by norm_num)
    H H' k (hn k hk).1 (hn k hk).2 h1 h2
  rw [this]

end HLC
