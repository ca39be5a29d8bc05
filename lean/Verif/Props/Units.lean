import Verif.Props.ScaleProgram
import Verif.Spec.Units

/-!
# C129: an air conditioner takes no more heat out of a room than it can

The capacities of an air conditioner are used for the flow of air over its coil, which determines the moisture it takes out, and for nothing
else.
-/

set_option linter.unusedSectionVars false

namespace HLC

open HLC.Spec

section
variable {I J : Type} [Fintype I] [DecidableEq I] [Fintype J] [DecidableEq J] {N : ℕ} {ss : PreCalc I J N} {dt : ℝ} {u : I → RacSpec}

/-- The pre-calculated data of the house with other air conditioners. -/
theorem makePreCalc_units {h : House I J} {hR : J → ℝ} {data : Fin N → Record I J} (u : I → RacSpec) (H : makePreCalc h hR dt data = .ok ss) :
    makePreCalc (withUnits h u) hR dt data = .ok { ss with rac := u } := by
  obtain ⟨ivs, hi, rfl⟩ := makePreCalc_ok H
  unfold makePreCalc
  have : (withUnits h u).ax hR = h.ax hR := rfl
  rw [this, hi]
  rfl

/-- One step from the same state: all but the moisture is the same, and the state after it if no room is cooled. -/
theorem units_step {n : ℤ} {c : Cond I J} {t t' : TickVars I J} (H : runTick n dt ss c = .ok t) (H' : runTick n dt { ss with rac := u } c = .ok t') :
    SameButMoisture (LogRow.ofTick t) (LogRow.ofTick t') ∧ ((∀ i, -0.001 ≤ t.lc i) → t'.next = t.next) := by
  obtain ⟨k, hk, h1⟩ := runTick_ok H
  obtain ⟨k', hk', h1'⟩ := runTick_ok H'
  cases Except.ok.inj (hk'.symm.trans hk)
  have e := tickAt_ok h1
  have e' := tickAt_ok h1'
  have ot : t'.ot = t.ot := funext fun i => Except.ok.inj ((e'.ot i).symm.trans (e.ot i))
  have rear : t'.thetaRear = t.thetaRear := e'.thetaRear.trans e.thetaRear.symm
  have qHum : t'.qHum = t.qHum := e'.qHum.trans e.qHum.symm
  have xHum : t'.xHum = t.xHum := e'.xHum.trans e.xHum.symm
  have vLeak : t'.vLeak = t.vLeak := Except.ok.inj (e'.vLeak.symm.trans e.vLeak)
  have dshA : t'.dshA = t.dshA := e'.dshA.trans e.dshA.symm
  have dshT : t'.dshT = t.dshT := by rw [e'.dshT, rear, e.dshT]; rfl
  have wsv : t'.wsv = t.wsv := by rw [e'.wsv, dshA, dshT, e.wsv]; rfl
  have vNtrl : t'.vNtrl = t.vNtrl := by rw [e'.vNtrl, ot, e.vNtrl]; rfl
  have vOut : t'.vOut = t.vOut := by rw [e'.vOut, vLeak, vNtrl, e.vOut]; rfl
  have brc : t'.brc = t.brc := by rw [e'.brc, wsv, vOut, qHum, e.brc]; rfl
  have brm : t'.brm = t.brm := by rw [e'.brm, vOut, e.brm]; rfl
  have xot : t'.xot = t.xot := by
    have := e'.xot
    rw [ot] at this
    exact Except.ok.inj (this.symm.trans e.xot)
  have xlr : t'.xlr = t.xlr := by rw [e'.xlr, ot, xot, e.xlr]; rfl
  have xc : t'.xc = t.xc := by rw [e'.xc, ot, xot, wsv, e.xc]; rfl
  have brmOt : t'.brmOt = t.brmOt := by rw [e'.brmOt, brm, xot, e.brmOt]
  have brlOt : t'.brlOt = t.brlOt := by rw [e'.brlOt, brm, xlr, e.brlOt]; rfl
  have brcOt : t'.brcOt = t.brcOt := by rw [e'.brcOt, brc, brm, xc, e.brcOt]
  have load := e'.load
  rw [ot, brcOt, brmOt, brlOt] at load
  have hl := Except.ok.inj (load.symm.trans e.load)
  injection hl with thetaOt lc lr
  have thetaR : t'.thetaR = t.thetaR := by rw [e'.thetaR, xot, xlr, xc, thetaOt, lr, e.thetaR]
  have thetaFrt : t'.thetaFrt = t.thetaFrt := by rw [e'.thetaFrt, thetaR, e.thetaFrt]; rfl
  have thetaS : t'.thetaS = t.thetaS := by rw [e'.thetaS, thetaR, lr, wsv, e.thetaS]; rfl
  have thetaMrt : t'.thetaMrt = t.thetaMrt := by rw [e'.thetaMrt, thetaS, e.thetaMrt]; rfl
  have thetaEi : t'.thetaEi = t.thetaEi := by rw [e'.thetaEi, thetaR, lr, thetaS, e.thetaEi]; rfl
  have qSrf : t'.qSrf = t.qSrf := by rw [e'.qSrf, thetaEi, thetaS, e.qSrf]; rfl
  refine ⟨?_, fun hun => ?_⟩
  · constructor <;> simp only [LogRow.ofTick, ot, rear, qHum, xHum, vLeak, vNtrl, thetaOt, lc, lr, thetaR, thetaFrt, thetaS, thetaMrt, thetaEi, qSrf]
    exact ⟨trivial, trivial⟩
  · have brmx : t'.brmxNonDh = t.brmxNonDh := by rw [e'.brmxNonDh, vOut, e.brmxNonDh]; rfl
    have brxc : t'.brxcNonDh = t.brxcNonDh := by rw [e'.brxcNonDh, vOut, xHum, e.brxcNonDh]; rfl
    have off : ∀ (s : RacSpec) (i : I) (x : ℝ), getDehumidCoeff (t.lc i) (t.thetaR i) s x = ⟨0, 0⟩ := by
      intro s i x
      have : ¬ -t.lc i > 0.001 := by have := hun i; linarith
      unfold getDehumidCoeff
      simp only [this, decide_false]
      simp
    have r1 : t.rac = fun _ => ⟨0, 0⟩ := by rw [e.rac]; exact funext fun i => off _ i _
    have r2 : t'.rac = fun _ => ⟨0, 0⟩ := by rw [e'.rac, lc, thetaR]; exact funext fun i => off _ i _
    have x1 := e.xR
    have x2 := e'.xR
    rw [r1] at x1
    rw [brmx, brxc, r2] at x2
    have xR : t'.xR = t.xR := mulVec_inj_of_det x1.1 (x2.2.trans x1.2.symm)
    have xFrt : t'.xFrt = t.xFrt := by rw [e'.xFrt, xR, e.xFrt]; rfl
    simp only [TickVars.next, ot, thetaR, thetaMrt, xR, dshA, dshT, qSrf, thetaFrt, xFrt, thetaEi]

/-- Several steps from the same state: up to the first step in which a room is cooled, all but the moisture is the same. -/
theorem units_run {c : Cond I J} {ns : List ℤ} {ts ts' : List (TickVars I J)} (H : Run ss dt c ns ts) (H' : Run { ss with rac := u } dt c ns ts') (p : ℕ)
    (hp : p < ts.length) (hp' : p < ts'.length) (hun : ∀ (q : ℕ) (hq : q < ts.length), q < p → ∀ i, -0.001 ≤ (ts[q]).lc i) :
    SameButMoisture (LogRow.ofTick ts[p]) (LogRow.ofTick ts'[p]) := by
  induction H generalizing p ts' with
  | nil => simp at hp
  | cons h1 h2 ih =>
    cases H' with
    | cons h1' h2' =>
      obtain ⟨a, b⟩ := units_step h1 h1'
      match p with
      | 0 => exact a
      | p + 1 =>
        rw [b fun i => hun 0 (by simp) (by omega) i] at h2'
        exact ih h2' p (by simpa using hp) (by simpa using hp') fun q hq hqp i => hun (q + 1) (by simpa using hq) (by omega) i

end

section
variable {I : Type} [Fintype I] [DecidableEq I] {m N : ℕ} {h : House I (Fin m)} {hR : Fin m → ℝ} {data : Fin N → Record I (Fin m)}
  {hourly dMain dRunUp dRunUpBuild : ℤ} {r r' : CalcResult I m N} {u : I → RacSpec}

/-- **C129, what the capacities do.** Two complete calculations of houses that differ in nothing but their air conditioners. Up to and including
the first row in which a room is cooled, all columns but the humidities and the latent load are the same. -/
theorem C129_same (H : coreCalc h hR data hourly dMain dRunUp dRunUpBuild = .ok r)
    (H' : coreCalc (withUnits h u) hR data hourly dMain dRunUp dRunUpBuild = .ok r') {k : ℕ} (hk : k < r.nMain.toNat) (hk' : k < r'.nMain.toNat)
    (hup : ∀ t, StepOf r hourly 0 dRunUpBuild t → ∀ i, -0.001 ≤ t.lc i) (hrow : ∀ q : Fin r.nMain.toNat, (q : ℕ) < k → ∀ i, -0.001 ≤ (r.log q).lCs i) :
    SameButMoisture (r.log ⟨k, hk⟩) (r'.log ⟨k, hk'⟩) := by
  obtain ⟨gs, c0, up, mn, T⟩ := coreCalc_ok H
  obtain ⟨gs', c0', up', mn', T'⟩ := coreCalc_ok H'
  have hs : r'.ss = { r.ss with rac := u } := Except.ok.inj (T'.pre.symm.trans (makePreCalc_units u T.pre))
  have hg : gs' = gs := by
    have h1 := T'.ground
    rw [hs] at h1
    exact groundRun_unique h1 T.ground
  have hgr : r'.ground = r.ground := by rw [T'.ground_last, T.ground_last, hg, hs]; rfl
  have hc : c0' = c0 := by
    have h1 := T'.start
    rw [hs, hgr] at h1
    exact Except.ok.inj (h1.symm.trans T.start)
  subst hc
  have R := T.runUp.append T.main
  have R' := T'.runUp.append T'.main
  rw [hs] at R'
  have lup : up'.length = up.length := by rw [T'.runUp.length_eq, T.runUp.length_eq]
  have hmk : k < mn.length := by rw [T.mn_length]; exact hk
  have hmk' : k < mn'.length := by rw [T'.mn_length]; exact hk'
  have key := units_run R R' (up.length + k) (by simp; omega) (by simp; omega) ?_
  · rw [T.logged ⟨k, hk⟩ hmk, T'.logged ⟨k, hk'⟩ hmk']
    have e1 : (up ++ mn)[up.length + k]'(by simp; omega) = mn[k] := by simp
    have e2 : (up' ++ mn')[up.length + k]'(by simp; omega) = mn'[k] := by simp [← lup]
    rw [e1, e2] at key
    exact key
  · intro q hq hqp i
    by_cases hqu : q < up.length
    · rw [List.getElem_append_left hqu]
      refine hup _ ⟨_, up, T.start, ?_, by simp⟩ i
      have : pyRange 0 (0 * hourly * 24) = [] := List.length_eq_zero_iff.mp (by rw [pyRange_length]; simp)
      rw [this, List.append_nil]
      exact T.runUp
    · rw [List.getElem_append_right (by omega)]
      have hq' : q - up.length < mn.length := by omega
      have := hrow ⟨q - up.length, by rw [← T.mn_length]; exact hq'⟩ (by simp; omega) i
      rw [T.logged _ hq'] at this
      exact this

/-- **C129, violated.** Every calculation in which a room is cooled can be made to exceed the capacity: with an air conditioner of any smaller maximum
capacity the load in the first row in which rooms are cooled is the same. -/
theorem C129_violated (H : coreCalc h hR data hourly dMain dRunUp dRunUpBuild = .ok r)
    (H' : coreCalc (withUnits h u) hR data hourly dMain dRunUp dRunUpBuild = .ok r') {k : ℕ} (hk : k < r.nMain.toNat) (hk' : k < r'.nMain.toNat)
    (hup : ∀ t, StepOf r hourly 0 dRunUpBuild t → ∀ i, -0.001 ≤ t.lc i) (hrow : ∀ q : Fin r.nMain.toNat, (q : ℕ) < k → ∀ i, -0.001 ≤ (r.log q).lCs i)
    {i : I} (hu : (u i).qMax < -(r.log ⟨k, hk⟩).lCs i) : ((withUnits h u).rac i).qMax < -(r'.log ⟨k, hk'⟩).lCs i := by
  rw [← (C129_same H H' hk hk' hup hrow).convective]
  exact hu

end

/-- The cooled room of the steam day, with any air conditioner whose fan goes with its capacity. -/
theorem steam_units {u : Fin 1 → RacSpec} (hq : ∀ i, (u i).qMin < (u i).qMax) (hv : ∀ i, (u i).vMin ≤ (u i).vMax)
    (hf : ∀ i, (u i).vMax * (u i).qMin ≤ (u i).vMin * (u i).qMax) {hR : Fin 1 → ℝ} (hr : ∀ j, 0 < hR j) :
    ∃ r, coreCalc (withUnits exCold u) hR exSteamData 4 1 0 0 = .ok r := by
  apply C21_program_partial
  · have hdt : (3600 / ((4 : ℤ) : ℝ)) = 900 := by norm_num
    rw [hdt]
    have w := exCold_wellFormed_any hr
    exact { w with
      rac_q := hq
      rac_v := hv
      rac_fan := hf }
  · exact fun _ => rfl
  · exact fun _ => rfl
  · intro k i; norm_num [exSteamData]
  all_goals norm_num

/-- **C129, violated by the program.** There is a house of one room and a day of data, calculated to the end, in which the air conditioner takes more
sensible heat out of the room than its maximum capacity: twice as much. -/
theorem C129_program_violated : ∃ (solve : List ℝ → ℝ) (h : House (Fin 1) (Fin 1)) (data : Fin 96 → Record (Fin 1) (Fin 1)) (r : CalcResult (Fin 1) 1 96),
    SolvesRooms solve h.area h.room ∧ WellFormed h (getHr solve h.area h.room) 900 ∧ program solve h data 4 1 0 0 = .ok r ∧ 0 < (h.rac 0).qMin ∧
    0 < (h.rac 0).vMin ∧ ∃ hk : 1 < r.nMain.toNat, -(r.log ⟨1, hk⟩).lCs 0 = 2 * (h.rac 0).qMax := by
  obtain ⟨solve, hsol⟩ := exists_solver
  have hpos : ∀ j, 0 < exCold.area j := fun j => by norm_num [exCold]
  have hsr := solvesRooms_of hsol exCold.room hpos
  have hr : ∀ j, 0 < getHr solve exCold.area exCold.room j := fun j => by
    have := C33_coefficients solve _ _ hpos hsr j; linarith [this.1, this.2.1]
  obtain ⟨r, H⟩ := exSteam_completes hr
  obtain ⟨t0, t1, Hp, H0, H1, hn, hlog⟩ := first_two H (fun _ => rfl)
  obtain ⟨a1, a2, a3, a4, a5, a6⟩ := steam_first hr Hp H0 rfl (fun _ => rfl)
  obtain ⟨b1, b2⟩ := steam_second hr Hp H1 a1 a2 a3 a4 a6
  have hk : 1 < r.nMain.toNat := by rw [hn]; decide
  obtain ⟨Q, hQ⟩ : ∃ Q, Q = -t1.lc 0 / 2 := ⟨_, rfl⟩
  have hQ0 : 0 < Q := by norm_num at b1; linarith
  obtain ⟨u, hu⟩ : ∃ u : Fin 1 → RacSpec, u = fun _ => ⟨Q / 10, Q, 6, 11⟩ := ⟨_, rfl⟩
  have uq : ∀ i, (u i).qMin < (u i).qMax := fun i => by rw [hu]; show Q / 10 < Q; linarith
  have uv : ∀ i, (u i).vMin ≤ (u i).vMax := fun i => by rw [hu]; norm_num
  have uf : ∀ i, (u i).vMax * (u i).qMin ≤ (u i).vMin * (u i).qMax := fun i => by rw [hu]; show 11 * (Q / 10) ≤ 6 * Q; linarith
  obtain ⟨r', H'⟩ := steam_units uq uv uf hr
  obtain ⟨_, _, _, _, T'⟩ := coreCalc_ok H'
  have hk' : 1 < r'.nMain.toNat := by rw [T'.nMain_eq]; decide
  refine ⟨solve, withUnits exCold u, exSteamData, r', hsr, ?_, H', ?_, ?_, hk', ?_⟩
  · exact { exCold_wellFormed_any hr with
      rac_q := uq
      rac_v := uv
      rac_fan := uf }
  · show 0 < (u 0).qMin
    rw [hu]; show 0 < Q / 10; linarith
  · show 0 < (u 0).vMin
    rw [hu]; norm_num
  · have e := C129_same H H' hk hk' ?_ ?_
    · rw [← congrFun e.convective 0, hlog hk]
      show -t1.lc 0 = 2 * (u 0).qMax
      rw [hu]
      show -t1.lc 0 = 2 * Q
      rw [hQ]; ring
    · rintro t ⟨c, ts, -, hrun, ht⟩ i
      have : ts = [] := by
        have := hrun.length_eq
        rw [List.length_append, pyRange_length, pyRange_length] at this
        exact List.length_eq_zero_iff.mp (by simpa using this)
      rw [this] at ht
      simp at ht
    · intro q hq i
      have hq0 : q = ⟨0, by omega⟩ := Fin.ext (by simpa using hq)
      rw [hq0, Subsingleton.elim i 0]
      obtain ⟨k', t, -, -, Ht, el⟩ := first_row (fun _ => rfl) H ⟨0, by omega⟩ rfl
      have hdt : (3600 / ((4 : ℤ) : ℝ)) = 900 := by norm_num
      rw [hdt] at Ht
      have := Except.ok.inj (Ht.symm.trans H0)
      rw [el, this]
      show -0.001 ≤ t0.lc 0
      rw [a5]
      norm_num

end HLC
