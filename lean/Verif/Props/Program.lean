import Verif.Props.Runs
import Verif.Props.Moisture
import Verif.Props.Equilibrium
import Verif.Spec.Executed

/-!
# The whole program (C01, C19, C21, C22, C30 for complete calculations)
-/

namespace HLC

set_option linter.unusedSectionVars false

open Spec

section
variable {I J : Type} [Fintype I] [DecidableEq I] [Fintype J] [DecidableEq J] {N : ℕ}
variable {h : House I J} {hR : J → ℝ} {dt : ℝ} {data : Fin N → Record I J} {ss : PreCalc I J N} {n : ℤ} {k : Fin N}
  {c : Cond I J} {t : TickVars I J}

theorem legal_iff_ne {m : OpMode} : Legal m ↔ m ≠ .heatingAndCooling := by
  unfold Legal; cases m <;> simp

/-- A completed step that starts with legal modes ends with legal modes, STOP_CLOSE where there is no demand. -/
theorem step_mode (Hp : makePreCalc h hR dt data = .ok ss) (H : runTick n dt ss c = .ok t) (hk : pyIndex N n = .ok k)
    (hc : ∀ i, Legal (c.mode i)) (i : I) :
    Legal ((t.ot i).mode) ∧ ((data k).acDemand i ≤ 0 → (t.ot i).mode = .stopClose) := by
  obtain ⟨ivs, k', hi, hs, hk', e⟩ := step_eqs Hp H
  have : k' = k := Except.ok.inj (hk'.symm.trans hk)
  subst this
  subst hs
  have e1 := e.ot i
  unfold getOtTargetAndHHum at e1
  simp only [bind, Except.bind] at e1
  split at e1
  · cases e1
  rename_i m hm
  rw [← Except.ok.inj e1]
  obtain ⟨m', hm', hl⟩ := mode_step_legal ((data k').acDemand i) (c.mode i) (getHHumAndPmv (getPvR (c.xR i)) (c.thetaR i) (c.thetaMrt i) cloHeavy)
    (getHHumAndPmv (getPvR (c.xR i)) (c.thetaR i) (c.thetaMrt i) cloMiddle)
    (getHHumAndPmv (getPvR (c.xR i)) (c.thetaR i) (c.thetaMrt i) cloLight) (hc i)
  have em : m' = m := Except.ok.inj (hm'.symm.trans hm)
  subst em
  refine ⟨hl, fun hd => ?_⟩
  rw [mode_step_no_demand _ _ _ _ _ (not_lt.mpr hd)] at hm'
  exact (Except.ok.inj hm').symm

theorem run_modes (Hp : makePreCalc h hR dt data = .ok ss) {ns : List ℤ} {ts : List (TickVars I J)} (H : Run ss dt c ns ts)
    (hc : ∀ i, Legal (c.mode i)) : (∀ i, Legal ((after c ts).mode i)) ∧ ∀ t ∈ ts, ∀ i, Legal ((t.ot i).mode) := by
  have := Run.invariant (P := fun c => ∀ i, Legal (c.mode i)) (Q := fun _ _ => True) H hc (fun n _ c t hc ht _ i => by
    obtain ⟨k, hk⟩ := runTick_index ht
    exact (step_mode Hp ht hk hc i).1) (fun _ _ => trivial)
  exact this

/-- A run along which every step completes. -/
theorem run_exists {P : Cond I J → Prop} {ns : List ℤ} (hP : P c)
    (hstep : ∀ n ∈ ns, ∀ c, P c → ∃ t, runTick n dt ss c = .ok t ∧ P t.next) : ∃ ts, Run ss dt c ns ts ∧ P (after c ts) := by
  induction ns generalizing c with
  | nil => exact ⟨[], Run.nil c, hP⟩
  | cons n ns ih =>
    obtain ⟨t, ht, hp⟩ := hstep n (by simp) c hP
    obtain ⟨ts, h1, h2⟩ := ih hp (fun n hn => hstep n (List.mem_cons_of_mem _ hn))
    exact ⟨t :: ts, Run.cons ht h1, h2⟩

/-- **C22** for ever (partial: no inter-room air flow): with quiet records a house at rest stays at rest. -/
theorem C22_forever_partial (hw : WellFormed h hR dt) (hs : SteadyWalls h) (hv : ∀ i l, h.vInt i l = 0)
    (Hp : makePreCalc h hR dt data = .ok ss) {T : ℝ} (hq : ∀ k, Quiet T (data k)) {ns : List ℤ} {ts : List (TickVars I J)}
    (H : Run ss dt c ns ts) (hr : AtRest h T c) : ∀ t ∈ ts, AtRest h T t.next ∧ ∀ j, t.thetaS j = T := by
  induction H with
  | nil c => simp
  | cons h1 _ ih =>
    obtain ⟨k, hk⟩ := runTick_index h1
    obtain ⟨h2, h3, -⟩ := C22_equilibrium_partial hw hs hv Hp h1 hk hr (hq k)
    intro t' ht'
    rcases List.mem_cons.mp ht' with rfl | h
    · exact ⟨h2, h3⟩
    · exact ih h2 t' h

end

section
variable {I : Type} [Fintype I] [DecidableEq I] {m N : ℕ}
variable {h : House I (Fin m)} {hR : Fin m → ℝ} {data : Fin N → Record I (Fin m)} {hourly dMain dRunUp dRunUpBuild : ℤ}
  {r : CalcResult I m N}

theorem initial_legal (i : I) : Legal ((initialConditions I (Fin m)).mode i) := Or.inr (Or.inr (Or.inr rfl))

theorem updateByGround_fields {isGround : Fin m → Bool} {c c' : Cond I (Fin m)} {gc : List GroundCell}
    (H : updateByGround isGround c gc = .ok c') : c'.mode = c.mode ∧ c'.xR = c.xR ∧ c'.xFrt = c.xFrt := by
  unfold updateByGround at H
  simp only [bind, Except.bind] at H
  split at H
  · cases H
  split at H
  · cases H
  rw [← Except.ok.inj H]
  exact ⟨rfl, rfl, rfl⟩

/-- **C01** for the whole program: in every column of the log of every completed calculation every room has one of the four legal
modes, and STOP_CLOSE if it has no air-conditioning demand in that step. -/
theorem C01_program (H : coreCalc h hR data hourly dMain dRunUp dRunUpBuild = .ok r) (k : Fin r.nMain.toNat) (i : I) :
    ∃ md, (r.log k).mode i = some md ∧ Legal md ∧ ∃ k' : Fin N, (k' : ℕ) = k ∧ ((data k').acDemand i ≤ 0 → md = .stopClose) := by
  obtain ⟨gs, c0, up, mn, T⟩ := coreCalc_ok H
  have hk : (k : ℕ) < mn.length := by rw [T.mn_length]; exact k.isLt
  have h0 : ∀ i, Legal (c0.mode i) := by
    intro i; rw [(updateByGround_fields T.start).1]; exact initial_legal i
  have h1 := (run_modes T.pre T.runUp h0).1
  have hsplit : pyRange 0 (dMain * hourly * 24) = pyRange 0 k ++ pyRange k (dMain * hourly * 24) := by
    rw [pyRange_append (by omega)]
    have := T.nMain_eq; have := k.isLt; omega
  have hrun := T.main
  rw [hsplit] at hrun
  obtain ⟨t1, t2, ets, r1, r2⟩ := hrun.split
  have hl1 : t1.length = k := by rw [r1.length_eq, pyRange_length]; omega
  have hcons : pyRange (k : ℤ) (dMain * hourly * 24) = (k : ℤ) :: pyRange (k + 1) (dMain * hourly * 24) := by
    rw [← pyRange_append (show (k : ℤ) ≤ k + 1 by omega) (by have := T.nMain_eq; have := k.isLt; omega)]
    have : pyRange (k : ℤ) (k + 1) = [(k : ℤ)] := by simp [pyRange]
    rw [this]; rfl
  rw [hcons] at r2
  cases r2 with
  | cons h2 h3 =>
    rename_i t ts
    have hm := (run_modes T.pre r1 h1).1
    obtain ⟨k', hk'⟩ := runTick_index h2
    have ek : (k' : ℕ) = k := by
      by_cases hN : (k : ℕ) < N
      · rw [pyIndex_nonneg hN] at hk'; rw [← Except.ok.inj hk']
      · rw [pyIndex_error (Or.inr (by omega))] at hk'; cases hk'
    obtain ⟨a, b⟩ := step_mode T.pre h2 hk' hm i
    refine ⟨(t.ot i).mode, ?_, a, k', ek, b⟩
    rw [T.logged k hk]
    subst ets
    simp [← hl1, LogRow.ofTick]

/-- **C19** for the whole program: humidities of rooms and furniture in the log are positive, provided that in the steps the calculation
executes rooms that are cooled are between -150 and 90 degC. -/
theorem C19_program (hw : WellFormed h hR (3600 / (hourly : ℝ))) (hfan : ∀ i, FanKeepsUp (h.rac i))
    (hd : ∀ k, MoistRecord (data k)) (H : coreCalc h hR data hourly dMain dRunUp dRunUpBuild = .ok r)
    (hθ : ∀ t, StepOf r hourly dMain dRunUpBuild t → ∀ i, t.lc i < -0.001 → -150 < t.thetaR i ∧ t.thetaR i ≤ 90)
    (k : Fin r.nMain.toNat) (i : I) : 0 < (r.log k).xR i ∧ 0 < (r.log k).xFrt i := by
  obtain ⟨gs, c0, up, mn, T⟩ := coreCalc_ok H
  have hk : (k : ℕ) < mn.length := by rw [T.mn_length]; exact k.isLt
  obtain ⟨-, e1, e2⟩ := updateByGround_fields T.start
  have hx : ∀ i, 0 < c0.xR i := fun i => by rw [e1]; exact initial_humidity_pos
  have hxf : ∀ i, 0 < c0.xFrt i := fun i => by rw [e2]; exact initial_humidity_pos
  have hrun := T.runUp.append T.main
  have := C19_humidity_pos hw hfan T.pre hd hrun hx hxf (fun t ht => hθ t ⟨c0, _, T.start, hrun, ht⟩) mn[(k : ℕ)]
    (List.mem_append_right _ (List.getElem_mem hk)) i
  rw [T.logged k hk]
  exact this

/-! ## The program completes -/

theorem foldlM_runUp_total {M : ℕ} {dt : ℝ} {ss : PreCalc I (Fin m) N} {ns : List ℤ} {c : Cond I (Fin m)} (log : Logger I (Fin m) M)
    {ts : List (TickVars I (Fin m))} (H : Run ss dt c ns ts) :
    ns.foldlM (fun s n => runTickLogged n dt ss s.1 s.2 true) (c, log) = .ok (after c ts, log) := by
  induction H with
  | nil c => rfl
  | cons h1 _ ih =>
    rename_i c n ns t ts _
    rw [List.foldlM_cons]
    have : runTickLogged (M := M) n dt ss c log true = .ok (t.next, log) := by
      unfold runTickLogged
      simp only [bind, Except.bind, h1, logUnless, Bool.not_true, Bool.false_eq_true, if_false]
    simp only [this]
    exact ih

theorem foldlM_main_total {M : ℕ} {dt : ℝ} {ss : PreCalc I (Fin m) N} {ns : List ℤ} {c : Cond I (Fin m)} (log : Logger I (Fin m) M)
    {ts : List (TickVars I (Fin m))} (H : Run ss dt c ns ts) (hr : ∀ n ∈ ns, 0 ≤ n ∧ n < M) :
    ∃ log', ns.foldlM (fun s n => runTickLogged n dt ss s.1 s.2 false) (c, log) = .ok (after c ts, log') := by
  induction H generalizing log with
  | nil c => exact ⟨log, rfl⟩
  | cons h1 _ ih =>
    rename_i c n ns t ts _
    rw [List.foldlM_cons]
    obtain ⟨h0, hM⟩ := hr n (by simp)
    have e := pyIndex_nonneg (N := M) (m := n.toNat) (by omega)
    rw [Int.toNat_of_nonneg h0] at e
    have : runTickLogged (M := M) n dt ss c log false
        = .ok (t.next, Function.update log ⟨n.toNat, by omega⟩ (LogRow.ofTick t)) := by
      unfold runTickLogged
      simp only [bind, Except.bind, h1, logUnless, Bool.not_false, if_true, logWrite, e]
    simp only [this]
    exact ih _ (fun n hn => hr n (List.mem_cons_of_mem _ hn))

theorem foldlM_ground_total {g : PreCalcGround N} {ns : List ℤ} (gc : List GroundCell)
    (hr : ∀ n ∈ ns, -(N : ℤ) ≤ n ∧ n < 0) : ∃ gc', ns.foldlM (groundTick g) gc = .ok gc' := by
  induction ns generalizing gc with
  | nil => exact ⟨gc, rfl⟩
  | cons n ns ih =>
    obtain ⟨h0, h1⟩ := hr n (by simp)
    have e := pyIndex_neg (N := N) (m := (-n).toNat) (by omega) (by omega)
    rw [show -(((-n).toNat : ℕ) : ℤ) = n by omega] at e
    rw [List.foldlM_cons]
    have : ∃ x, groundTick g gc n = .ok x := by
      unfold groundTick
      simp only [bind, Except.bind, e]
      exact ⟨_, rfl⟩
    obtain ⟨x, hx⟩ := this
    rw [hx]
    exact ih x (fun n hn => hr n (List.mem_cons_of_mem _ hn))

/-- If every single step completes from every state with legal modes, the whole calculation completes. -/
theorem program_total {ss : PreCalc I (Fin m) N} (Hp : makePreCalc h hR (3600 / (hourly : ℝ)) data = .ok ss) (h0 : 0 < hourly)
    (hM : 0 ≤ dMain) (hB : 0 ≤ dRunUpBuild) (hd : dRunUpBuild ≤ dRunUp) (hN : dRunUp * hourly * 24 ≤ N)
    (hN' : dMain * hourly * 24 ≤ N)
    (hstep : ∀ n, -(N : ℤ) ≤ n → n < N → ∀ c : Cond I (Fin m), (∀ i, c.mode i ≠ .heatingAndCooling) →
      ∃ t, runTick n (3600 / (hourly : ℝ)) ss c = .ok t) :
    ∃ r, coreCalc h hR data hourly dMain dRunUp dRunUpBuild = .ok r := by
  have hm0 : 0 ≤ dMain * hourly * 24 := by positivity
  have hb0 : 0 ≤ dRunUpBuild * hourly * 24 := by positivity
  have hbr : dRunUpBuild * hourly * 24 ≤ dRunUp * hourly * 24 := by
    have := mul_le_mul_of_nonneg_right hd h0.le
    linarith
  obtain ⟨gc, hgc⟩ := foldlM_ground_total (g := makePreCalcGround ss) (ns := pyRange (-(dRunUp * hourly * 24)) (-(dRunUpBuild * hourly * 24)))
    (initialGround (makePreCalcGround ss).nGrounds) (fun n hn => by rw [mem_pyRange] at hn; omega)
  obtain ⟨gs, hgr, hlast⟩ := foldlM_ground hgc
  have hlen : gc.length = (Finset.univ.filter fun j => ss.isGround j = true).card := by
    have hw : (makePreCalcGround ss).walls.length = (Finset.univ.filter fun j => ss.isGround j = true).card := by
      rw [← filter_finRange_length]; simp [makePreCalcGround, maskSelect]
    rw [hlast, lastGround_length hgr, hw]
    rw [hw, ← filter_finRange_length]
    simp [initialGround, makePreCalcGround]
  obtain ⟨c0, hc0, -, -, hmode, -⟩ := C26_hand_over ss.isGround (initialConditions I (Fin m)) gc hlen
  have hP : ∀ n, -(N : ℤ) ≤ n → n < N → ∀ c : Cond I (Fin m), (∀ i, Legal (c.mode i)) →
      ∃ t, runTick n (3600 / (hourly : ℝ)) ss c = .ok t ∧ ∀ i, Legal (t.next.mode i) := by
    intro n a b c hc
    obtain ⟨t, ht⟩ := hstep n a b c (fun i => legal_iff_ne.mp (hc i))
    obtain ⟨k, hk⟩ := runTick_index ht
    exact ⟨t, ht, fun i => (step_mode Hp ht hk hc i).1⟩
  have hl0 : ∀ i, Legal (c0.mode i) := fun i => by rw [hmode]; exact initial_legal i
  obtain ⟨up, hup, hl1⟩ := run_exists (ns := pyRange (-(dRunUpBuild * hourly * 24)) 0) hl0 (fun n hn c hc => by
    rw [mem_pyRange] at hn; exact hP n (by omega) (by omega) c hc)
  obtain ⟨mn, hmn, -⟩ := run_exists (ns := pyRange 0 (dMain * hourly * 24)) hl1 (fun n hn c hc => by
    rw [mem_pyRange] at hn; exact hP n (by omega) (by omega) c hc)
  have hMn : ¬ (dMain * hourly * 24 < 0) := by omega
  have e1 := foldlM_runUp_total (M := (dMain * hourly * 24).toNat) (fun _ => LogRow.empty I (Fin m)) hup
  obtain ⟨log', e2⟩ := foldlM_main_total (M := (dMain * hourly * 24).toNat) (fun _ => LogRow.empty I (Fin m)) hmn
    (fun n hn => by rw [mem_pyRange] at hn; omega)
  unfold coreCalc getNStep deltaT
  simp only [bind, Except.bind, not_lt.mpr hd, if_false, if_neg h0.ne', Hp, nStepMain, nStepRunUp, nStepRunUpBuild, newLogger,
    if_neg hMn, hgc, hc0, e1, e2]
  exact ⟨_, rfl⟩

/-- **C21** for the whole program (partial: no radiative systems): the calculation of a well-formed house completes for every weather
and schedule of sufficient length. -/
theorem C21_program_partial [Nonempty I] (hw : WellFormed h hR (3600 / (hourly : ℝ))) (hH : ∀ i, h.isRadHeating i = false)
    (hC : ∀ i, h.isRadCooling i = false) (hloc : ∀ k i, 0 ≤ (data k).vLocal i) (h0 : 0 < hourly) (hM : 0 ≤ dMain)
    (hB : 0 ≤ dRunUpBuild) (hd : dRunUpBuild ≤ dRunUp) (hN : dRunUp * hourly * 24 ≤ N) (hN' : dMain * hourly * 24 ≤ N) :
    ∃ r, coreCalc h hR data hourly dMain dRunUp dRunUpBuild = .ok r := by
  obtain ⟨ss, Hp⟩ : ∃ ss, makePreCalc h hR (3600 / (hourly : ℝ)) data = .ok ss := by
    unfold makePreCalc
    rw [ax_inv hw]
    exact ⟨_, rfl⟩
  apply program_total Hp h0 hM hB hd hN hN'
  intro n a b c hc
  obtain ⟨ss', t, Hp', ht⟩ := C21_step_completes_partial hw hH hC hloc hc ⟨a, b⟩
  have : ss' = ss := Except.ok.inj (Hp'.symm.trans Hp)
  subst this
  exact ⟨t, ht⟩

/-- **C21** for the whole program, one room with radiative systems. -/
theorem C21_program_single_partial [Unique I] (hw : WellFormed h hR (3600 / (hourly : ℝ))) (hr : RadiantWellFormed h)
    (hreach : RadiantReaches h default) (hloc : ∀ k i, 0 ≤ (data k).vLocal i) (h0 : 0 < hourly) (hM : 0 ≤ dMain)
    (hB : 0 ≤ dRunUpBuild) (hd : dRunUpBuild ≤ dRunUp) (hN : dRunUp * hourly * 24 ≤ N) (hN' : dMain * hourly * 24 ≤ N) :
    ∃ r, coreCalc h hR data hourly dMain dRunUp dRunUpBuild = .ok r := by
  obtain ⟨ss, Hp⟩ : ∃ ss, makePreCalc h hR (3600 / (hourly : ℝ)) data = .ok ss := by
    unfold makePreCalc
    rw [ax_inv hw]
    exact ⟨_, rfl⟩
  apply program_total Hp h0 hM hB hd hN hN'
  intro n a b c hc
  obtain ⟨ss', t, Hp', ht⟩ := C21_single_room_partial hw hr hreach hloc hc ⟨a, b⟩
  have : ss' = ss := Except.ok.inj (Hp'.symm.trans Hp)
  subst this
  exact ⟨t, ht⟩

/-! ## C30 -/

theorem Spec.Run.transfer {hR' : Fin m → ℝ} {dt : ℝ} {data' : Fin N → Record I (Fin m)} {ss ss' : PreCalc I (Fin m) N}
    (Hp : makePreCalc h hR' dt data = .ok ss) (Hp' : makePreCalc h hR' dt data' = .ok ss') {c : Cond I (Fin m)} {ns : List ℤ}
    {ts : List (TickVars I (Fin m))} (H : Run ss dt c ns ts)
    (hd : ∀ n ∈ ns, ∀ k, pyIndex N n = .ok k → data k = data' k) : Run ss' dt c ns ts := by
  induction H with
  | nil c => exact Run.nil c
  | cons h1 _ ih =>
    obtain ⟨k, hk⟩ := runTick_index h1
    refine Run.cons ?_ (ih fun n hn => hd n (List.mem_cons_of_mem _ hn))
    rw [← C28_reads_one_record Hp Hp' hk hk (hd _ (by simp) k hk)]
    exact h1

theorem groundRun_transfer {g g' : PreCalcGround N} (hw : g.walls = g'.walls) (ha : g.walls = [] ∨ g.thetaOAve = g'.thetaOAve)
    {gc : List GroundCell} {ns : List ℤ} {gs : List (List GroundCell)} (H : GroundRun g gc ns gs)
    (hd : ∀ n ∈ ns, ∀ k, pyIndex N n = .ok k → g.thetaO k = g'.thetaO k) : GroundRun g' gc ns gs := by
  induction H with
  | nil gc => exact GroundRun.nil gc
  | cons h1 _ ih =>
    obtain ⟨k, hk, e⟩ := groundTick_ok h1
    refine GroundRun.cons ?_ (ih fun n hn => hd n (List.mem_cons_of_mem _ hn))
    unfold groundTick
    simp only [bind, Except.bind, hk]
    rw [e, ← hw, hd _ (by simp) k hk]
    rcases ha with ha | ha
    · simp [ha]
    · rw [ha]

theorem groundRun_unique {g : PreCalcGround N} {gc : List GroundCell} {ns : List ℤ} {gs gs' : List (List GroundCell)}
    (H : GroundRun g gc ns gs) (H' : GroundRun g gc ns gs') : gs = gs' := by
  induction H generalizing gs' with
  | nil gc => cases H'; rfl
  | cons h1 _ ih =>
    cases H' with
    | cons h1' h2' =>
      have e := Except.ok.inj (h1.symm.trans h1')
      subst e
      rw [ih h2']

/-- **C30 (partial).** Two calculations of the same house whose records agree on the run-up and up to main step `n` write the same log
up to step `n`, provided there are no ground boundaries or the two weather files have the same annual mean outdoor temperature.
Missing: ground boundaries with different annual means, where it fails (`C30_violated`): the ground run-up uses the mean over the
whole year, so it knows the future. -/
theorem C30_causal_partial {data' : Fin N → Record I (Fin m)} {r' : CalcResult I m N}
    (H : coreCalc h hR data hourly dMain dRunUp dRunUpBuild = .ok r) (H' : coreCalc h hR data' hourly dMain dRunUp dRunUpBuild = .ok r')
    (h0 : 0 < hourly) (hB : 0 ≤ dRunUpBuild) (n : ℕ)
    (hup : ∀ k : Fin N, (N : ℤ) - dRunUp * hourly * 24 ≤ (k : ℕ) → data k = data' k)
    (hmain : ∀ k : Fin N, (k : ℕ) ≤ n → data k = data' k)
    (hg : (∀ j, h.isGround j = false) ∨ ∑ k, (data k).thetaO = ∑ k, (data' k).thetaO) :
    r.nMain = r'.nMain ∧ ∀ (k : ℕ) (hk : k < r.nMain.toNat) (hk' : k < r'.nMain.toNat), k ≤ n → r.log ⟨k, hk⟩ = r'.log ⟨k, hk'⟩ := by
  obtain ⟨gs, c0, up, mn, T⟩ := coreCalc_ok H
  obtain ⟨gs', c0', up', mn', T'⟩ := coreCalc_ok H'
  obtain ⟨ivs, hi, hs⟩ := makePreCalc_ok T.pre
  obtain ⟨ivs', hi', hs'⟩ := makePreCalc_ok T'.pre
  have ei : ivs = ivs' := Except.ok.inj (hi.symm.trans hi')
  subst ei
  have hb0 : 0 ≤ dRunUpBuild * hourly * 24 := by positivity
  have hneg : ∀ n : ℤ, n < 0 → -(dRunUp * hourly * 24) ≤ n → ∀ k, pyIndex N n = .ok k → data k = data' k := by
    intro n h1 h2 k hk
    by_cases hN : -(N : ℤ) ≤ n
    · have e := pyIndex_neg (N := N) (m := (-n).toNat) (by omega) (by omega)
      rw [show -(((-n).toNat : ℕ) : ℤ) = n by omega, hk] at e
      have e' := Except.ok.inj e
      apply hup
      rw [e']
      simp only []
      omega
    · rw [pyIndex_error (Or.inl (by omega))] at hk; cases hk
  have hbr : dRunUpBuild * hourly * 24 ≤ dRunUp * hourly * 24 := by
    have := mul_le_mul_of_nonneg_right T.days h0.le
    linarith
  have egs : gs = gs' := by
    have hwall : (makePreCalcGround r.ss).walls = (makePreCalcGround r'.ss).walls := by rw [hs, hs']; rfl
    have := groundRun_transfer (g' := makePreCalcGround r'.ss) hwall ?_ T.ground ?_
    · have hng : (makePreCalcGround r.ss).nGrounds = (makePreCalcGround r'.ss).nGrounds := by rw [hs, hs']; rfl
      rw [hng] at this
      exact groundRun_unique this T'.ground
    · rcases hg with hg | hg
      · left
        rw [hs]
        simp [makePreCalcGround, maskSelect, preCalcOf, hg]
      · right
        rw [hs, hs']
        simp only [makePreCalcGround, preCalcOf, hg]
    · intro n hn k hk
      rw [mem_pyRange] at hn
      have := hneg n (by omega) hn.1 k hk
      rw [hs, hs']
      simp only [makePreCalcGround, preCalcOf, this]
  have ec0 : c0 = c0' := by
    have h1 := T.start
    have h2 := T'.start
    rw [T.ground_last] at h1
    rw [T'.ground_last, ← egs] at h2
    rw [hs] at h1
    rw [hs'] at h2
    exact Except.ok.inj (h1.symm.trans h2)
  subst ec0
  have eup : up = up' := by
    refine (T.runUp.transfer T.pre T'.pre ?_).unique T'.runUp
    intro n hn k hk
    rw [mem_pyRange] at hn
    exact hneg n hn.2 (by omega) k hk
  subst eup
  have eM : r.nMain = r'.nMain := by rw [T.nMain_eq, T'.nMain_eq]
  refine ⟨eM, ?_⟩
  intro k hk hk' hkn
  have hkM : (k : ℤ) + 1 ≤ dMain * hourly * 24 := by have := T.nMain_eq; omega
  have hsp : pyRange 0 (dMain * hourly * 24) = pyRange 0 (k + 1) ++ pyRange (k + 1) (dMain * hourly * 24) :=
    (pyRange_append (by omega) hkM).symm
  have hm := T.main
  have hm' := T'.main
  rw [hsp] at hm hm'
  obtain ⟨a, b, e1, ra, -⟩ := hm.split
  obtain ⟨a', b', e2, ra', -⟩ := hm'.split
  have eab : a = a' := by
    refine (ra.transfer T.pre T'.pre ?_).unique ra'
    intro n' hn k' hk'
    rw [mem_pyRange] at hn
    by_cases hN : n' < N
    · have e := pyIndex_nonneg (N := N) (m := n'.toNat) (by omega)
      rw [Int.toNat_of_nonneg hn.1, hk'] at e
      have e' := Except.ok.inj e
      apply hmain
      rw [e']
      simp only []
      omega
    · rw [pyIndex_error (Or.inr (by omega))] at hk'; cases hk'
  subst eab
  have hla : a.length = k + 1 := by rw [ra.length_eq, pyRange_length]; omega
  have l1 := T.logged ⟨k, hk⟩ (by rw [T.mn_length]; exact hk)
  have l2 := T'.logged ⟨k, hk'⟩ (by rw [T'.mn_length]; exact hk')
  rw [l1, l2]
  subst e1 e2
  congr 1
  simp only []
  rw [List.getElem_append_left (by omega), List.getElem_append_left (by omega)]

end

end HLC
