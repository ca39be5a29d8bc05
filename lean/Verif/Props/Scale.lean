import Verif.Lemmas.Scale
import Verif.Props.Renumber
import Verif.Props.ColdHouse

/-!
# C98: a house twice as large has twice the loads
-/

set_option linter.unusedSectionVars false

namespace HLC
open Spec

section
variable {I J : Type} [Fintype I] [DecidableEq I] [Fintype J] [DecidableEq J] {N : ℕ} {s : ℝ}

theorem run_scaled (hs : 0 < s) {ss : PreCalc I J N} {dt : ℝ} {c : Cond I J} {ns : List ℤ} {ts : List (TickVars I J)}
    (hcap : ∀ i, 0 ≤ ss.capH i ∧ 0 ≤ ss.capC i) (H : Run ss dt c ns ts) (hd : ∀ t ∈ ts, ∀ i, SameSide s (t.lc i)) :
    Run (preScaled s ss) dt c ns (ts.map (tickScaled s)) := by
  induction H with
  | nil c => exact Run.nil _
  | cons h1 _ ih =>
    exact Run.cons (runTick_scaled hs hcap (hd _ (List.mem_cons_self ..)) h1) (ih fun t ht => hd t (List.mem_cons_of_mem _ ht))

theorem after_scaled (c : Cond I J) (ts : List (TickVars I J)) : after c (ts.map (tickScaled s)) = after c ts := by
  induction ts generalizing c with
  | nil => rfl
  | cons t ts ih => exact ih t.next

/-- A room that is not cooled is on the same side. -/
theorem sameSide_of_nonneg (hs : 0 < s) {l : ℝ} (hl : 0 ≤ l) : SameSide s l := by
  have := mul_nonneg hs.le hl
  constructor <;> intro h <;> norm_num at h <;> linarith

/-- So is a room that is cooled with more than 0.001 W in both houses. -/
theorem sameSide_of_cooled {l : ℝ} (h1 : 0.001 < -l) (h2 : 0.001 < -(s * l)) : SameSide s l := ⟨fun _ => h2, fun _ => h1⟩

end

section
variable {I : Type} [Fintype I] [DecidableEq I] {m N : ℕ} {s : ℝ} {h : House I (Fin m)} {hR : Fin m → ℝ}
  {data : Fin N → Record I (Fin m)} {hourly dMain dRunUp dRunUpBuild : ℤ} {r : CalcResult I m N}

/-- **C98** for given radiative coefficients. -/
theorem C98_scale_partial (hs : 0 < s) (hcap : ∀ i, 0 ≤ h.capH i ∧ 0 ≤ h.capC i)
    (H : coreCalc h hR data hourly dMain dRunUp dRunUpBuild = .ok r)
    (hd : ∀ t, StepOf r hourly dMain dRunUpBuild t → ∀ i, SameSide s (t.lc i)) :
    ∃ r', coreCalc (houseScaled s h) hR (fun n => recordScaled s (data n)) hourly dMain dRunUp dRunUpBuild = .ok r' ∧
      r'.nMain = r.nMain ∧
      ∀ (k : ℕ) (hk : k < r.nMain.toNat) (hk' : k < r'.nMain.toNat), r'.log ⟨k, hk'⟩ = rowScaled s (r.log ⟨k, hk⟩) := by
  obtain ⟨gs, c0, up, mn, T⟩ := coreCalc_ok H
  have Hp' : makePreCalc (houseScaled s h) hR (3600 / (hourly : ℝ)) (fun n => recordScaled s (data n)) = .ok (preScaled s r.ss) := by
    rw [makePreCalc_scaled h hR hs.ne', T.pre]; rfl
  have hcap' : ∀ i, 0 ≤ r.ss.capH i ∧ 0 ≤ r.ss.capC i := by
    obtain ⟨ivs, -, hss⟩ := makePreCalc_ok T.pre
    rw [hss]
    exact hcap
  have hrun := T.runUp.append T.main
  have hall : ∀ t ∈ up ++ mn, ∀ i, SameSide s (t.lc i) := fun t ht => hd t ⟨c0, _, T.start, hrun, ht⟩
  have hg := groundRun_fold T.ground
  rw [← T.ground_last] at hg
  obtain ⟨r', h1, -, h3, h4⟩ := coreCalc_of_runs T.days T.hourly_ne (by rw [← T.nMain_eq]; exact T.nMain_nonneg) Hp' hg T.start
    (run_scaled hs hcap' T.runUp fun t ht => hall t (List.mem_append_left _ ht))
    (by rw [after_scaled]; exact run_scaled hs hcap' T.main fun t ht => hall t (List.mem_append_right _ ht))
  refine ⟨r', h1, h3.trans T.nMain_eq.symm, ?_⟩
  intro k hk hk'
  have hl : k < mn.length := by rw [T.mn_length]; exact hk
  rw [h4 ⟨k, hk'⟩ (by simpa using hl), T.logged ⟨k, hk⟩ hl]
  simp only [List.getElem_map]
  exact ofTick_scaled _

end

/-! ## The program -/

section
variable {k m N : ℕ} {s : ℝ}

theorem areaRatios_scaled (hs : s ≠ 0) (as : List ℝ) : areaRatios (as.map (s * ·)) = areaRatios as := by
  unfold areaRatios
  rw [List.sum_map_mul_left, List.map_map, List.map_id']
  refine List.map_congr_left fun a _ => ?_
  show s * a / (s * as.sum) = _
  rw [mul_div_mul_left _ _ hs]

/-- The radiative coefficients depend on the proportions of a room only. -/
theorem getHr_scaled (hs : s ≠ 0) (solve : List ℝ → ℝ) (area : Fin m → ℝ) (room : Fin m → Fin k) :
    getHr solve (fun j => s * area j) room = getHr solve area room := by
  have e : ∀ i, getFi solve (maskSelect (fun j => decide (room j = i)) fun j => s * area j)
      = getFi solve (maskSelect (fun j => decide (room j = i)) area) := by
    intro i
    have : (maskSelect (fun j => decide (room j = i)) fun j => s * area j)
        = (maskSelect (fun j => decide (room j = i)) area).map (s * ·) := by simp [maskSelect, Function.comp_def]
    rw [this]
    unfold getFi
    rw [areaRatios_scaled hs]
  funext j
  unfold getHr getHrList
  simp only [e]

variable {solve : List ℝ → ℝ} {h : House (Fin k) (Fin m)} {data : Fin N → Record (Fin k) (Fin m)}
  {hourly dMain dRunUp dRunUpBuild : ℤ} {r : CalcResult (Fin k) m N}

/-- **C98** (partial: no room is cooled with a load between 0.001 W and 0.001 W / `s`). If a calculation completes, so does the one of the
house `s` times as large with `s` times the gains; temperatures, humidities and modes of every room and every part are the same in every
step, and loads, gains and air flows are `s` times as large. -/
theorem C98_program_partial (hs : 0 < s) (hcap : ∀ i, 0 ≤ h.capH i ∧ 0 ≤ h.capC i)
    (H : program solve h data hourly dMain dRunUp dRunUpBuild = .ok r)
    (hd : ∀ t, StepOf r hourly dMain dRunUpBuild t → ∀ i, SameSide s (t.lc i)) :
    ∃ r', program solve (houseScaled s h) (fun n => recordScaled s (data n)) hourly dMain dRunUp dRunUpBuild = .ok r' ∧
      r'.nMain = r.nMain ∧
      ∀ (k : ℕ) (hk : k < r.nMain.toNat) (hk' : k < r'.nMain.toNat), r'.log ⟨k, hk'⟩ = rowScaled s (r.log ⟨k, hk⟩) := by
  unfold program at H ⊢
  rw [show getHr solve (houseScaled s h).area (houseScaled s h).room = getHr solve h.area h.room from getHr_scaled hs.ne' solve h.area h.room]
  exact C98_scale_partial hs hcap H hd

end

/-! ## The threshold of the air conditioner -/

/-- **C98 (violated).** The air conditioner dehumidifies above a cooling load of 0.001 W, whatever its size. There is a house, data and a
state in which both rooms are cooled and the step has a latent load; in the same house at a suitable scale, from the same state, the
sensible loads are to scale but there is no latent load. -/
theorem C98_violated : ∃ (h : House (Fin 2) (Fin 2)) (hR : Fin 2 → ℝ) (data : Fin 1 → Record (Fin 2) (Fin 2)) (c : Cond (Fin 2) (Fin 2))
    (s : ℝ) (ss ss' : PreCalc (Fin 2) (Fin 2) 1) (t t' : TickVars (Fin 2) (Fin 2)), WellFormed h hR 900 ∧ 0 < s ∧
    makePreCalc h hR 900 data = .ok ss ∧ runTick 0 900 ss c = .ok t ∧
    makePreCalc (houseScaled s h) hR 900 (fun n => recordScaled s (data n)) = .ok ss' ∧ runTick 0 900 ss' c = .ok t' ∧
    (∀ i, t.lc i < -0.001) ∧ (∀ i, t'.lc i = s * t.lc i) ∧ 0 < t.lCl 1 ∧ t'.lCl 1 = 0 := by
  obtain ⟨hw, -, -, ss, t, Hp, H, hl, hpos⟩ := C20_violated
  have hneg : ∀ i, 0 < -t.lc i := fun i => by have := hl i; norm_num at this; linarith
  have hsum : 0 < -t.lc 0 + -t.lc 1 := by linarith [hneg 0, hneg 1]
  obtain ⟨s, hs⟩ : ∃ s, s = 0.001 / (-t.lc 0 + -t.lc 1) := ⟨_, rfl⟩
  have hs0 : 0 < s := by rw [hs]; positivity
  have hmul : s * (-t.lc 0 + -t.lc 1) = 0.001 := by rw [hs]; exact div_mul_cancel₀ _ hsum.ne'
  have hsmall : ∀ i, ¬ 0.001 < -(s * t.lc i) := by
    intro i
    rw [not_lt]
    fin_cases i
    · show -(s * t.lc 0) ≤ 0.001
      nlinarith [mul_pos hs0 (hneg 1)]
    · show -(s * t.lc 1) ≤ 0.001
      nlinarith [mul_pos hs0 (hneg 0)]
  obtain ⟨kk, hk, ht⟩ := runTick_ok H
  have E := tickAt_ok ht
  have hcap : ∀ i, 0 ≤ ss.capH i ∧ 0 ≤ ss.capC i := by
    obtain ⟨ivs, -, hss⟩ := makePreCalc_ok Hp
    rw [hss]
    exact fun i => ⟨hw.capH_nonneg i, hw.capC_nonneg i⟩
  have hr : (fun _ => ⟨0, 0⟩ : Fin 2 → DehumCoef) = Tick.rac (preScaled s ss) (fun i => s * t.lc i) t.thetaR t.xNonDh := by
    funext i
    simp only [Tick.rac, getDehumidCoeff, gt_iff_lt, hsmall i, decide_false]
    simp
  have hx : (Tick.brmx (s • t.brmxNonDh) fun _ => ⟨0, 0⟩).det ≠ 0 ∧
      (Tick.brmx (s • t.brmxNonDh) fun _ => ⟨0, 0⟩).mulVec t.xNonDh = Tick.brxc (fun i => s * t.brxcNonDh i) fun _ => ⟨0, 0⟩ := by
    have e : (Tick.brmx (s • t.brmxNonDh) fun _ => ⟨0, 0⟩) = s • t.brmxNonDh := by simp [Tick.brmx]
    rw [e]
    refine ⟨?_, ?_⟩
    · rw [Matrix.det_smul]
      exact mul_ne_zero (pow_ne_zero _ hs0.ne') E.xNonDh.1
    · funext i
      rw [smul_mulVec_apply, E.xNonDh.2]
      simp [Tick.brxc]
  have E' := tickEqs_with hs0 hcap E hr hx
  refine ⟨exHot, exHotHR, exHotData hotGen, exHotCond, s, ss, preScaled s ss, t,
    tickWith s t ss 900 exHotCond (fun _ => ⟨0, 0⟩) t.xNonDh, hw, hs0, Hp, H, ?_, ?_, hl, fun i => rfl, hpos, ?_⟩
  · rw [makePreCalc_scaled exHot exHotHR hs0.ne', Hp]; rfl
  · unfold runTick
    rw [hk]
    exact tickAt_of_eqs E'
  · show Tick.lCl (fun _ => ⟨0, 0⟩) t.xNonDh 1 = 0
    simp [Tick.lCl]

/-! ## A concrete case -/

/-- The hypotheses of `C98_program_partial` are met by the cold house, which is heated with more than 1000 W in the first step: the house
three times as large is heated with three times as much. -/
example : ∃ (solve : List ℝ → ℝ) (r : CalcResult (Fin 1) 1 96), (∀ i, 0 ≤ exCold.capH i ∧ 0 ≤ exCold.capC i) ∧
    SolvesRooms solve exCold.area exCold.room ∧ program solve exCold exColdData 4 1 0 0 = .ok r ∧
    (∀ t, StepOf r 4 1 0 t → ∀ i, SameSide 3 (t.lc i)) ∧
    ∃ r', program solve (houseScaled 3 exCold) (fun n => recordScaled 3 (exColdData n)) 4 1 0 0 = .ok r' ∧
      ∀ (hk : 0 < r.nMain.toNat) (hk' : 0 < r'.nMain.toNat), 1000 ≤ (r.log ⟨0, hk⟩).lCs 0 ∧
        (r'.log ⟨0, hk'⟩).lCs 0 = 3 * (r.log ⟨0, hk⟩).lCs 0 := by
  obtain ⟨solve, hsol⟩ := exists_solver
  have hpos : ∀ j, 0 < exCold.area j := fun j => by norm_num [exCold]
  have hsr := solvesRooms_of hsol exCold.room hpos
  have hr : ∀ j, 0 < getHr solve exCold.area exCold.room j := fun j => by
    have := C33_coefficients solve _ _ hpos hsr j; linarith [this.1, this.2.1]
  obtain ⟨r, H⟩ := exCold_completes_any hr
  have hcap : ∀ i, 0 ≤ exCold.capH i ∧ 0 ≤ exCold.capC i := fun i => by norm_num [exCold]
  have hside : ∀ t, StepOf r 4 1 0 t → ∀ i, SameSide 3 (t.lc i) := by
    rintro t ⟨c0, ts, h1, h2, h3⟩ i
    obtain ⟨gs, c0', up, mn, T⟩ := coreCalc_ok H
    have hc : c0 = c0' := Except.ok.inj (h1.symm.trans T.start)
    subst hc
    have hts : ts = up ++ mn := h2.unique (T.runUp.append T.main)
    have hup : up = [] := by
      have := T.runUp.length_eq
      rw [pyRange_length] at this
      exact List.length_eq_zero_iff.mp (by simpa using this)
    subst hup
    rw [hts, List.nil_append] at h3
    obtain ⟨n, hn, rfl⟩ := List.getElem_of_mem h3
    have hn' : n < r.nMain.toNat := by rw [← T.mn_length]; exact hn
    have hlog := T.logged ⟨n, hn'⟩ hn
    have h96 : n < 96 := by
      have := T.nMain_eq
      rw [this] at hn'
      norm_num at hn'
      exact hn'
    have hl : (mn[n]).lc i = (r.log ⟨n, hn'⟩).lCs i := by rw [hlog]; rfl
    apply sameSide_of_nonneg (by norm_num)
    rw [hl, Subsingleton.elim i 0]
    by_cases h0 : n = 0
    · subst h0
      have := (cold_step_any hr H hn').2.1
      linarith
    · have := (C08_program hcap H ⟨n, hn'⟩ ⟨n, h96⟩ rfl 0 (by
        have : (⟨n, h96⟩ : Fin 96) ≠ 0 := fun h => h0 (congrArg Fin.val h)
        simp [exColdData, this])).1
      rw [this]
  obtain ⟨r', h1, -, h3⟩ := C98_program_partial (s := 3) (by norm_num) hcap H hside
  refine ⟨solve, r, hcap, hsr, H, hside, r', h1, fun hk hk' => ⟨(cold_step_any hr H hk).2.1, ?_⟩⟩
  rw [h3 0 hk hk']
  rfl

end HLC
