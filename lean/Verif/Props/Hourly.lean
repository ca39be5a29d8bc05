import Verif.Spec.Hourly
import Verif.Props.LoggedSteps
import Verif.Lemmas.ExampleHouse
import Verif.Props.Period

/-!
# C97: other numbers of steps per hour
-/

namespace HLC

set_option linter.unusedSectionVars false

open Spec

section
variable {I : Type} [Fintype I] [DecidableEq I] {m N : ℕ} {h : House I (Fin m)} {hR : Fin m → ℝ} {data : Fin N → Record I (Fin m)}
  {hourly dMain dRunUp dRunUpBuild : ℤ} {r : CalcResult I m N}

/-- **C97 (records).** With four steps per hour every row of the results was computed by a step from the record of its time. -/
theorem C97_records_partial (H : coreCalc h hR data 4 dMain dRunUp dRunUpBuild = .ok r) (k : Fin r.nMain.toNat) :
    ∃ (k' : Fin N) (c : Cond I (Fin m)) (t : TickVars I (Fin m)), runTick (k : ℕ) 900 r.ss c = .ok t ∧ r.log k = LogRow.ofTick t ∧
      pyIndex N (k : ℕ) = .ok k' ∧ timeOfRecord k' = timeOfStep 4 (k : ℕ) := by
  obtain ⟨k', c, t, h1, h2, h3, h4, h5⟩ := logged_step H k
  have e : (3600 / ((4 : ℤ) : ℝ)) = 900 := by norm_num
  rw [e] at h4
  refine ⟨k', c, t, h4, h5, h2, ?_⟩
  unfold timeOfRecord timeOfStep
  rw [h1]
  norm_num

/-- **C97 (records, violated).** With any other number of steps per hour every row but the first is computed from the record of another
time. -/
theorem C97_records_violated (H : coreCalc h hR data hourly dMain dRunUp dRunUpBuild = .ok r) (h0 : 0 < hourly) (h4 : hourly ≠ 4)
    (k : Fin r.nMain.toNat) (hk : 0 < k.1) :
    ∃ (k' : Fin N) (c : Cond I (Fin m)) (t : TickVars I (Fin m)), runTick (k : ℕ) (3600 / (hourly : ℝ)) r.ss c = .ok t ∧
      r.log k = LogRow.ofTick t ∧ pyIndex N (k : ℕ) = .ok k' ∧ timeOfRecord k' ≠ timeOfStep hourly (k : ℕ) := by
  obtain ⟨k', c, t, h1, h2, h3, h5, h6⟩ := logged_step H k
  refine ⟨k', c, t, h5, h6, h2, ?_⟩
  unfold timeOfRecord timeOfStep
  rw [h1]
  intro e
  have hk' : ((k : ℕ) : ℝ) ≠ 0 := by exact_mod_cast hk.ne'
  have hh : (hourly : ℝ) ≠ 0 := by exact_mod_cast h0.ne'
  have e2 : (900 : ℝ) = 3600 / hourly := mul_left_cancel₀ hk' (by exact_mod_cast e)
  rw [eq_div_iff hh] at e2
  have : (hourly : ℝ) = 4 := by linarith
  exact h4 (by exact_mod_cast this)

/-- **C97 (violated, more steps).** With the data of one year and more than four steps per hour no calculation of a year completes. -/
theorem C97_more_violated {data : Fin 35040 → Record I (Fin m)} (h4 : 4 < hourly) :
    ¬ ∃ r, coreCalc h hR data hourly 365 dRunUp dRunUpBuild = .ok r := by
  rintro ⟨r, H⟩
  obtain ⟨gs, c0, up, mn, T⟩ := coreCalc_ok H
  have hn : r.nMain = 365 * hourly * 24 := T.nMain_eq
  have hlt : 35040 < r.nMain.toNat := by omega
  obtain ⟨k', c, t, h1, -⟩ := logged_step H ⟨35040, hlt⟩
  have := k'.isLt
  simp at h1
  omega

end

section
variable {I J : Type} [Fintype I] [DecidableEq I] [Fintype J] [DecidableEq J] {N : ℕ}
variable {h : House I J} {hR : J → ℝ} {data : Fin N → Record I J} {ss : PreCalc I J N} {c : Cond I J}

/-- **C97 (walls).** In an hour a component of a part forgets by its time constant (what it held before counts with `exp (-3600 / τ)`)
exactly if the hour has four steps. -/
theorem C97_memory_iff {hourly : ℕ} (Hp : makePreCalc h hR (3600 / (hourly : ℝ)) data = .ok ss) {ns : List ℤ} {ts : List (TickVars I J)}
    (H : Run ss (3600 / (hourly : ℝ)) c ns ts) (hour : ts.length = hourly) (j : J) (l : Fin 12) {τ : ℝ} (hτ : 0 < τ)
    (hr : HasTimeConstant h j l τ) (hc : c.dshA j l ≠ 0) :
    (after c ts).dshA j l = Real.exp (-(3600 / τ)) * c.dshA j l
      + convolution (h.ratio j l) (h.phiA1 j l) ((starts c ts).map fun s => s.qSrf j) ↔ hourly = 4 := by
  rw [(C24_convolution Hp H j l).1, add_left_inj, mul_left_inj' hc, hr, ← Real.exp_nat_mul, Real.exp_eq_exp, hour]
  have hτ' := hτ.ne'
  constructor
  · intro e
    have e2 : (hourly : ℝ) * (900 / τ) = 4 * (900 / τ) := by linear_combination (-1) * e
    have := mul_right_cancel₀ (div_ne_zero (by norm_num) hτ') e2
    exact_mod_cast this
  · rintro rfl
    push_cast
    ring

/-- The hypotheses of `C97_memory_iff` are met by the example house with one step per hour, whose parts hold heat. -/
example : ∃ ss ts, makePreCalc exHouse0 exHR (3600 / ((1 : ℕ) : ℝ)) exData = .ok ss ∧
    Run ss (3600 / ((1 : ℕ) : ℝ)) { initialConditions (Fin 2) (Fin 4) with dshA := fun _ _ => 1 } [0] ts ∧ ts.length = 1 ∧
    0 < 900 / Real.log 2 ∧ HasTimeConstant exHouse0 0 0 (900 / Real.log 2) := by
  have hw : WellFormed exHouse0 exHR (3600 / ((1 : ℕ) : ℝ)) :=
    { exHouse0_wellFormed with
      dt_pos := by norm_num
      vInt_lt := by intro i; fin_cases i <;> norm_num [exHouse0, exHouse] }
  obtain ⟨ss, t, Hp, H⟩ := C21_step_completes_partial (c := { initialConditions (Fin 2) (Fin 4) with dshA := fun _ _ => 1 }) (n := 0)
    (data := exData) hw (fun _ => rfl) (fun _ => rfl)
    (by intro k i; fin_cases i <;> norm_num [exData]) (fun i => by simp [initialConditions, initialMode]) (by norm_num)
  refine ⟨ss, [t], Hp, .cons H (.nil _), rfl, div_pos (by norm_num) (Real.log_pos (by norm_num)), ?_⟩
  unfold HasTimeConstant
  rw [div_div_cancel₀ (by norm_num), Real.exp_neg, Real.exp_log (by norm_num)]
  norm_num [exHouse0, exHouse]

/-- The hypotheses of `C97_records_violated` are met: a day of the example house with one step per hour completes. -/
example : ∃ r, coreCalc exHouse0 exHR exDay 1 1 1 1 = .ok r ∧ r.nMain.toNat = 24 := by
  have hw : WellFormed exHouse0 exHR (3600 / ((1 : ℤ) : ℝ)) :=
    { exHouse0_wellFormed with
      dt_pos := by norm_num
      vInt_lt := by intro i; fin_cases i <;> norm_num [exHouse0, exHouse] }
  obtain ⟨r, hr⟩ := C21_program_partial (data := exDay) (dMain := 1) (dRunUp := 1) (dRunUpBuild := 1) hw (fun _ => rfl) (fun _ => rfl)
    (fun k i => by fin_cases i <;> norm_num [exDay]) (by norm_num) (by norm_num) (by norm_num) le_rfl (by norm_num) (by norm_num)
  obtain ⟨gs, c0, up, mn, T⟩ := coreCalc_ok hr
  exact ⟨r, hr, by rw [T.nMain_eq]; rfl⟩

end

end HLC
