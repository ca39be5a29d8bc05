import Verif.Model.Sequence
import Verif.Lemmas.MMatrix

/-!
# What a completed step satisfies: inversion of `makePreCalc`, `tickAt` and `runTick`
-/

namespace HLC

set_option linter.unusedSectionVars false

variable {I J : Type} [Fintype I] [DecidableEq I] [Fintype J] [DecidableEq J] {N : ℕ}

theorem makePreCalc_ok {h : House I J} {hR : J → ℝ} {dt : ℝ} {data : Fin N → Record I J} {ss : PreCalc I J N}
    (H : makePreCalc h hR dt data = .ok ss) : ∃ ivs, npInv (h.ax hR) = .ok ivs ∧ ss = preCalcOf h hR dt data ivs := by
  unfold makePreCalc at H
  simp only [bind, Except.bind] at H
  cases hx : npInv (h.ax hR) with
  | error e => rw [hx] at H; cases H
  | ok B => rw [hx] at H; simp only [Except.ok.injEq] at H; exact ⟨B, rfl, H.symm⟩

theorem allRooms_ok {α : Type} {f : I → Except PyErr α} {g : I → α} (H : allRooms f = .ok g) (i : I) : f i = .ok (g i) := by
  unfold allRooms at H
  split_ifs at H with h
  rw [← Except.ok.inj H]
  exact (h i).choose_spec

theorem allRooms_of {α : Type} {f : I → Except PyErr α} (g : I → α) (H : ∀ i, f i = .ok (g i)) : allRooms f = .ok g := by
  unfold allRooms
  have h : ∀ i, ∃ a, f i = .ok a := fun i => ⟨_, H i⟩
  rw [dif_pos h]
  congr 1
  funext i
  exact Except.ok.inj ((h i).choose_spec.symm.trans (H i))

/-- The equations between the local variables of a completed step. -/
structure TickEqs (ss : PreCalc I J N) (dt : ℝ) (k : Fin N) (c : Cond I J) (t : TickVars I J) : Prop where
  ot : ∀ i, getOtTargetAndHHum (c.thetaR i) (c.thetaMrt i) (c.xR i) (c.mode i) (ss.acDemand k i) = .ok (t.ot i)
  thetaRear : t.thetaRear = Tick.thetaRear ss k c
  qHum : t.qHum = Tick.qHum ss k c
  xHum : t.xHum = Tick.xHum ss k c
  vLeak : getInfiltration ss.cValue ss.vRoom ss.story ss.pressure c.thetaR (ss.thetaO k) = .ok t.vLeak
  dshA : t.dshA = Tick.dshA ss c
  dshT : t.dshT = Tick.dshT ss c t.thetaRear
  wsv : t.wsv = Tick.wsv ss (Tick.cvl t.dshA t.dshT)
  vNtrl : t.vNtrl = Tick.vNtrl ss t.ot
  vOut : t.vOut = Tick.vOut ss k t.vLeak t.vNtrl
  brc : t.brc = Tick.brc ss dt k c t.wsv t.vOut t.qHum
  brm : t.brm = Tick.brm ss t.vOut
  xot : npInv (Tick.otMat ss t.ot) = .ok t.xot
  xlr : t.xlr = Tick.xlr ss t.ot t.xot
  xc : t.xc = Tick.xc ss k t.ot t.xot t.wsv
  brmOt : t.brmOt = Tick.brmOt t.brm t.xot
  brlOt : t.brlOt = Tick.brlOt ss t.brm t.xlr
  brcOt : t.brcOt = Tick.brcOt t.brc t.brm t.xc
  load : calcNextTempAndLoad (Tick.loadInput ss k t.ot t.brcOt t.brmOt t.brlOt) = .ok ⟨t.thetaOt, t.lc, t.lr⟩
  thetaR : t.thetaR = Tick.thetaR t.xot t.xlr t.xc t.thetaOt t.lr
  thetaFrt : t.thetaFrt = Tick.thetaFrt ss dt k c t.thetaR
  thetaS : t.thetaS = Tick.thetaS ss k t.thetaR t.lr t.wsv
  thetaMrt : t.thetaMrt = Tick.thetaMrt ss t.thetaS
  thetaEi : t.thetaEi = Tick.thetaEi ss k t.thetaR t.lr t.thetaS
  qSrf : t.qSrf = Tick.qSrf ss t.thetaEi t.thetaS
  brmxNonDh : t.brmxNonDh = Tick.brmxNonDh ss dt t.vOut
  brxcNonDh : t.brxcNonDh = Tick.brxcNonDh ss dt k c t.vOut t.xHum
  xNonDh : t.brmxNonDh.det ≠ 0 ∧ t.brmxNonDh.mulVec t.xNonDh = t.brxcNonDh
  rac : t.rac = Tick.rac ss t.lc t.thetaR t.xNonDh
  xR : (Tick.brmx t.brmxNonDh t.rac).det ≠ 0 ∧ (Tick.brmx t.brmxNonDh t.rac).mulVec t.xR = Tick.brxc t.brxcNonDh t.rac
  lCl : t.lCl = Tick.lCl t.rac t.xR
  xFrt : t.xFrt = Tick.xFrt ss dt c t.xR

theorem tickAt_ok {ss : PreCalc I J N} {dt : ℝ} {k : Fin N} {c : Cond I J} {t : TickVars I J}
    (H : tickAt ss dt k c = .ok t) : TickEqs ss dt k c t := by
  unfold tickAt at H
  simp only [bind, Except.bind] at H
  split at H
  · cases H
  rename_i ot hot
  split at H
  · cases H
  rename_i vLeak hleak
  split at H
  · cases H
  rename_i xot hxot
  split at H
  · cases H
  rename_i lt hlt
  split at H
  · cases H
  rename_i inv1 hinv1
  split at H
  · cases H
  rename_i inv2 hinv2
  have H' := Except.ok.inj H
  subst H'
  exact {
    ot := allRooms_ok hot
    thetaRear := rfl, qHum := rfl, xHum := rfl, vLeak := hleak, dshA := rfl, dshT := rfl, wsv := rfl, vNtrl := rfl, vOut := rfl
    brc := rfl, brm := rfl, xot := hxot, xlr := rfl, xc := rfl, brmOt := rfl, brlOt := rfl, brcOt := rfl, load := hlt
    thetaR := rfl, thetaFrt := rfl, thetaS := rfl, thetaMrt := rfl, thetaEi := rfl, qSrf := rfl, brmxNonDh := rfl
    brxcNonDh := rfl
    xNonDh := ⟨(npInv_ok hinv1).1, mulVec_npInv hinv1 _⟩
    rac := rfl
    xR := ⟨(npInv_ok hinv2).1, mulVec_npInv hinv2 _⟩
    lCl := rfl, xFrt := rfl }

/-- The equations determine the step. -/
theorem tickAt_of_eqs {ss : PreCalc I J N} {dt : ℝ} {k : Fin N} {c : Cond I J} {t : TickVars I J} (E : TickEqs ss dt k c t) :
    tickAt ss dt k c = .ok t := by
  have hinv : ∀ {A : Matrix I I ℝ} {x b : I → ℝ}, A.det ≠ 0 ∧ A.mulVec x = b → ∃ B, npInv A = .ok B ∧ B.mulVec b = x := by
    intro A x b ⟨hd, hx⟩
    refine ⟨A⁻¹, by rw [npInv, if_neg hd], ?_⟩
    rw [← hx, Matrix.mulVec_mulVec, Matrix.nonsing_inv_mul _ (isUnit_iff_ne_zero.2 hd), Matrix.one_mulVec]
  obtain ⟨i1, hi1, e1⟩ := hinv E.xNonDh
  obtain ⟨i2, hi2, e2⟩ := hinv E.xR
  unfold tickAt
  simp only [bind, Except.bind, allRooms_of t.ot E.ot, E.vLeak, ← E.thetaRear, ← E.qHum, ← E.xHum, ← E.dshA, ← E.dshT, ← E.wsv, ← E.vNtrl,
    ← E.vOut, ← E.brc, ← E.brm, E.xot, ← E.xlr, ← E.xc, ← E.brmOt, ← E.brlOt, ← E.brcOt, E.load, ← E.thetaR, ← E.thetaFrt, ← E.thetaS,
    ← E.thetaMrt, ← E.thetaEi, ← E.qSrf, ← E.brmxNonDh, ← E.brxcNonDh, hi1, e1, ← E.rac, hi2, e2, ← E.lCl, ← E.xFrt]

theorem runTick_ok {ss : PreCalc I J N} {dt : ℝ} {n : ℤ} {c : Cond I J} {t : TickVars I J}
    (H : runTick n dt ss c = .ok t) : ∃ k, pyIndex N n = .ok k ∧ tickAt ss dt k c = .ok t := by
  unfold runTick at H
  simp only [bind, Except.bind] at H
  cases hk : pyIndex N n with
  | error e => rw [hk] at H; cases H
  | ok k => rw [hk] at H; exact ⟨k, rfl, H⟩

/-- Everything a completed step of a completed preparation satisfies. -/
theorem step_eqs {h : House I J} {hR : J → ℝ} {dt : ℝ} {data : Fin N → Record I J} {ss : PreCalc I J N} {n : ℤ}
    {c : Cond I J} {t : TickVars I J} (Hp : makePreCalc h hR dt data = .ok ss) (H : runTick n dt ss c = .ok t) :
    ∃ ivs k, npInv (h.ax hR) = .ok ivs ∧ ss = preCalcOf h hR dt data ivs ∧ pyIndex N n = .ok k ∧ TickEqs ss dt k c t := by
  obtain ⟨ivs, hi, hs⟩ := makePreCalc_ok Hp
  obtain ⟨k, hk, ht⟩ := runTick_ok H
  exact ⟨ivs, k, hi, hs, hk, tickAt_ok ht⟩

end HLC
