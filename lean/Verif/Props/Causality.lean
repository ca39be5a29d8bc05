import Verif.Props.Program
import Verif.Props.Balance

/-!
# C30: the ground run-up uses the annual mean, so the log depends on later records
-/

namespace HLC

open Spec

/-- One room whose only boundary is in contact with the ground. -/
noncomputable def exGround : House (Fin 1) (Fin 1) where
  vRoom := fun _ => 30
  beta := fun _ => 0
  vVentEx := fun _ => 0
  vInt := 0
  vNtrl := fun _ => 0
  cSh := fun _ => 378000
  gSh := fun _ => 80
  cLh := fun _ => 500
  gLh := fun _ => 1
  isRadHeating := fun _ => false
  capH := fun _ => 0
  isRadCooling := fun _ => false
  capC := fun _ => 0
  rac := fun _ => ⟨500, 5000, 6, 11⟩
  isGround := fun _ => true
  room := fun _ => 0
  area := fun _ => 20
  phiA0 := fun _ => 0
  phiT0 := fun _ => 0
  phiA1 := fun _ m => if m = 0 then 0.05 else 0
  phiT1 := fun _ _ => 0
  ratio := fun _ _ => 0
  hC := fun _ => 5
  flr := fun _ => 0
  solarAbs := fun _ => true
  fMrtHum := fun _ => 1
  kEo := fun _ => 0
  kEi := fun _ => none
  story := 1
  cValue := 2
  pressure := "balanced"

/-- Radiative coefficient. -/
noncomputable def exGroundHR : Fin 1 → ℝ := fun _ => 5

/-- Outdoor temperature 0 in every record but record 1, where it is `x`. -/
noncomputable def exGroundData (x : ℝ) : Fin 48 → Record (Fin 1) (Fin 1) := fun k =>
  { thetaO := if k = 1 then x else 0
    xO := 0.004
    vLocal := fun _ => 0
    qGen := fun _ => 0
    xGen := fun _ => 0
    nHum := fun _ => 0
    acDemand := fun _ => 0
    qTrsSol := fun _ => 0
    thetaOSol := fun _ => 0 }

theorem exGround_wellFormed : WellFormed exGround exGroundHR 3600 where
  dt_pos := by norm_num
  vRoom_pos := by intro i; norm_num [exGround]
  cSh_nonneg := by intro i; norm_num [exGround]
  gSh_nonneg := by intro i; norm_num [exGround]
  cLh_nonneg := by intro i; norm_num [exGround]
  gLh_nonneg := by intro i; norm_num [exGround]
  frtSh_pos := by intro i; norm_num [exGround]
  frtLh_pos := by intro i; norm_num [exGround]
  area_pos := by intro j; norm_num [exGround]
  hC_pos := by intro j; norm_num [exGround]
  hR_pos := by intro j; norm_num [exGroundHR]
  phiA0_nonneg := by intro j; norm_num [exGround]
  phiT0_mem := by intro j; norm_num [exGround]
  kEi_mem := by intro j m coef hc; simp [exGround] at hc
  fMrtHum_nonneg := by intro j; norm_num [exGround]
  fMrtHum_sum := by
    intro i
    simp only [surfaces, Finset.sum_filter]
    simp only [exGround]
    fin_cases i
    simp
  vInt_nonneg := by intro i l; simp [exGround]
  vInt_lt := by intro i; simp [exGround]
  vVentEx_nonneg := by intro i; norm_num [exGround]
  vNtrl_nonneg := by intro i; norm_num [exGround]
  capH_nonneg := by intro i; norm_num [exGround]
  capC_nonneg := by intro i; norm_num [exGround]
  story_mem := Or.inl rfl
  pressure_mem := Or.inl rfl
  rac_q := by intro i; norm_num [exGround]
  rac_v := by intro i; norm_num [exGround]
  rac_fan := by intro i; norm_num [exGround]

theorem exGround_completes (x : ℝ) : ∃ r, coreCalc exGround exGroundHR (exGroundData x) 1 1 1 0 = .ok r := by
  apply C21_program_partial
  · norm_num; exact exGround_wellFormed
  · exact fun _ => rfl
  · exact fun _ => rfl
  · intro k i; norm_num [exGroundData]
  all_goals norm_num

/-- The flux of the single ground boundary during the ground run-up, `a` being the annual mean. -/
theorem exGround_flux {N : ℕ} {g : PreCalcGround N} {gc : List GroundCell} {ns : List ℤ} {gs : List (List GroundCell)}
    (H : GroundRun g gc ns gs) (x : GroundCell) (hx : gc = [x])
    (hw : g.walls = [⟨fun _ => 0, 0, fun m => if m = 0 then 0.05 else 0, 5, 5⟩])
    (h0 : ∀ n ∈ ns, ∀ k, pyIndex N n = .ok k → g.thetaO k = 0) :
    ∃ y, lastGround gc gs = [y] ∧ y.qSrf + 20 / 3 * g.thetaOAve = (-1 / 2) ^ ns.length * (x.qSrf + 20 / 3 * g.thetaOAve) := by
  induction H generalizing x with
  | nil gc => exact ⟨x, hx, by simp⟩
  | cons h1 _ ih =>
    rename_i gc gc' n ns gs _
    obtain ⟨k, hk, e⟩ := groundTick_ok h1
    rw [hw, hx] at e
    simp only [List.zipWith_cons_cons, List.zipWith_nil_left] at e
    obtain ⟨y, hy, hq⟩ := ih _ e (fun n hn => h0 n (List.mem_cons_of_mem _ hn))
    refine ⟨y, hy, ?_⟩
    rw [hq, List.length_cons, pow_succ]
    have hth := h0 n (by simp) k hk
    have : (groundStep ⟨fun _ => 0, 0, fun m => if m = 0 then 0.05 else 0, 5, 5⟩ (g.thetaO k) g.thetaOAve x).qSrf
        = -1 / 2 * x.qSrf - 10 * g.thetaOAve := by
      simp only [groundStep, groundThetaS, groundDshA, hth]
      simp
      norm_num
      ring
    rw [this]
    ring

/-- Surface temperature in the first column of the log: the state of the ground left by the run-up, which depends on the annual mean
outdoor temperature `x/48`, that is on record 1. -/
theorem exGround_log {x : ℝ} {r : CalcResult (Fin 1) 1 48} (H : coreCalc exGround exGroundHR (exGroundData x) 1 1 1 0 = .ok r)
    (hk : 0 < r.nMain.toNat) : (r.log ⟨0, hk⟩).thetaS 0 = 1 / 3 * ((-1 / 2) ^ 24 - 1) * (x / 48) := by
  obtain ⟨gs, c0, up, mn, T⟩ := coreCalc_ok H
  obtain ⟨ivs, hi, hs⟩ := makePreCalc_ok T.pre
  have hup : up = [] := by
    have := T.runUp.length_eq
    rw [pyRange_length] at this
    exact List.length_eq_zero_iff.mp (by simpa using this)
  have hw : (makePreCalcGround r.ss).walls = [⟨fun _ => 0, 0, fun m => if m = 0 then 0.05 else 0, 5, 5⟩] := by
    rw [hs]; rfl
  have hini : initialGround (makePreCalcGround r.ss).nGrounds = [⟨fun _ => 0, 0⟩] := by rw [hs]; rfl
  obtain ⟨y, hy, hq⟩ := exGround_flux T.ground ⟨fun _ => 0, 0⟩ hini hw (by
    intro n hn k hkn
    rw [mem_pyRange] at hn
    have e := pyIndex_neg (N := 48) (m := (-n).toNat) (by omega) (by omega)
    rw [show -(((-n).toNat : ℕ) : ℤ) = n by omega, hkn] at e
    have e' := Except.ok.inj e
    rw [hs]
    simp only [makePreCalcGround, preCalcOf, exGroundData]
    rw [if_neg]
    intro h1
    have := congrArg Fin.val e'
    rw [h1] at this
    simp at this
    omega)
  have hlen : (pyRange (-(1 * 1 * 24)) (-(0 * 1 * 24))).length = 24 := by rw [pyRange_length]; rfl
  rw [hlen] at hq
  have hmean : (makePreCalcGround r.ss).thetaOAve = x / 48 := by
    rw [hs]
    simp only [makePreCalcGround, preCalcOf, exGroundData]
    rw [Finset.sum_ite_eq' Finset.univ (1 : Fin 48) (fun _ => x)]
    simp
  rw [hmean] at hq
  -- hand-over
  obtain ⟨c', hc', hg, -⟩ := C26_hand_over r.ss.isGround (initialConditions (Fin 1) (Fin 1)) r.ground (by
    rw [T.ground_last, hy, hs]
    simp [preCalcOf, exGround])
  have ec : c' = c0 := Except.ok.inj (hc'.symm.trans T.start)
  subst ec
  have hg0 := hg 0 (by rw [hs]; rfl)
  rw [T.ground_last, hy] at hg0
  have hq0 : c'.qSrf 0 = y.qSrf := by
    have hz : (Finset.univ.filter fun l : Fin 1 => l < 0 ∧ r.ss.isGround l = true).card = 0 := by
      rw [Finset.card_eq_zero, Finset.filter_eq_empty_iff]; intro l _; simp
    rw [hz] at hg0
    simp only [List.getElem?_cons_zero, Option.some.injEq] at hg0
    rw [hg0]
  -- first main step
  have hmain := T.main
  rw [hup] at hmain
  have hcons : pyRange 0 (1 * 1 * 24) = 0 :: pyRange 1 24 := by
    rw [show (1 * 1 * 24 : ℤ) = 24 by norm_num, ← pyRange_append (show (0 : ℤ) ≤ 1 by norm_num) (show (1 : ℤ) ≤ 24 by norm_num)]
    rfl
  rw [hcons] at hmain
  generalize emn : mn = mn' at hmain
  cases hmain with
  | cons h1 h2 =>
    rename_i t ts
    have hlog := T.logged ⟨0, hk⟩ (by rw [emn]; simp)
    rw [hlog]
    simp only [emn, List.getElem_cons_zero, LogRow.ofTick]
    obtain ⟨k, hkk⟩ := runTick_index h1
    have h17 := C17_wall_equation_partial T.pre h1 hkk 0 (by norm_num [exGround, exGroundHR]) (by intro m coef hc; simp [exGround] at hc)
    obtain ⟨ivs', k', -, hs', -, e⟩ := step_eqs T.pre h1
    rw [h17, e.dshA, e.dshT]
    rw [hs']
    have hq1 : y.qSrf = ((-1 / 2) ^ 24 - 1) * (20 / 3 * (x / 48)) := by simp only [zero_add] at hq; linarith
    simp only [Tick.dshA, Tick.dshT, preCalcOf, exGround, rearTemp]
    have hq0' : (after c' []).qSrf 0 = y.qSrf := hq0
    rw [hq0', hq1]
    simp
    ring

/-- **C30** fails for houses with ground boundaries: there are a well-formed house and two weather files that differ only in record 1 (so
they agree on the run-up, records 24-47, and on record 0) whose logs differ already in step 0. -/
theorem C30_violated : ∃ (data data' : Fin 48 → Record (Fin 1) (Fin 1)) (r r' : CalcResult (Fin 1) 1 48),
    WellFormed exGround exGroundHR 3600 ∧
    coreCalc exGround exGroundHR data 1 1 1 0 = .ok r ∧ coreCalc exGround exGroundHR data' 1 1 1 0 = .ok r' ∧
    (∀ k, k ≠ 1 → data k = data' k) ∧
    ∃ (hk : 0 < r.nMain.toNat) (hk' : 0 < r'.nMain.toNat), (r.log ⟨0, hk⟩).thetaS 0 ≠ (r'.log ⟨0, hk'⟩).thetaS 0 := by
  obtain ⟨r, hr⟩ := exGround_completes 0
  obtain ⟨r', hr'⟩ := exGround_completes 48
  have h1 : 0 < r.nMain.toNat := by obtain ⟨gs, c0, up, mn, T⟩ := coreCalc_ok hr; rw [T.nMain_eq]; norm_num
  have h2 : 0 < r'.nMain.toNat := by obtain ⟨gs, c0, up, mn, T⟩ := coreCalc_ok hr'; rw [T.nMain_eq]; norm_num
  refine ⟨_, _, r, r', exGround_wellFormed, hr, hr', ?_, h1, h2, ?_⟩
  · intro k hk
    simp [exGroundData, hk]
  · rw [exGround_log hr h1, exGround_log hr' h2]
    norm_num

/-- The hypotheses of `C27_steps`, `C29_logged`, `C01_program` and `C30_causal_partial` are met by complete calculations of this house: the
two weather files below differ in record 1 (outdoor humidity) but have the same annual mean temperature. -/
example : ∃ (data data' : Fin 48 → Record (Fin 1) (Fin 1)) (r r' : CalcResult (Fin 1) 1 48),
    coreCalc exGround exGroundHR data 1 1 1 0 = .ok r ∧ coreCalc exGround exGroundHR data' 1 1 1 0 = .ok r' ∧
    (∀ k : Fin 48, (48 : ℤ) - 1 * 1 * 24 ≤ (k : ℕ) → data k = data' k) ∧ (∀ k : Fin 48, (k : ℕ) ≤ 0 → data k = data' k) ∧
    data 1 ≠ data' 1 ∧ ∑ k, (data k).thetaO = ∑ k, (data' k).thetaO := by
  obtain ⟨r, hr⟩ := exGround_completes 0
  let data' : Fin 48 → Record (Fin 1) (Fin 1) := fun k => { exGroundData 0 k with xO := if k = 1 then 0.005 else 0.004 }
  obtain ⟨r', hr'⟩ : ∃ r, coreCalc exGround exGroundHR data' 1 1 1 0 = .ok r := by
    apply C21_program_partial
    · norm_num; exact exGround_wellFormed
    · exact fun _ => rfl
    · exact fun _ => rfl
    · intro k i; norm_num [data', exGroundData]
    all_goals norm_num
  have hne : ∀ k : Fin 48, k ≠ 1 → exGroundData 0 k = data' k := by
    intro k hk; simp [data', exGroundData, hk]
  refine ⟨exGroundData 0, data', r, r', hr, hr', ?_, ?_, ?_, rfl⟩
  · intro k hk; apply hne; rintro rfl; norm_num at hk
  · intro k hk; apply hne; rintro rfl; norm_num at hk
  · intro he
    have := congrArg Record.xO he
    simp [data', exGroundData] at this
    norm_num at this

end HLC
