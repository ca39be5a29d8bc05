import Verif.Props.Inexact
import Verif.Props.AirCycle

/-!
# C134: where rooms exchange air, errors of rounding grow
-/

set_option linter.unusedSectionVars false

namespace HLC
open Spec

section
variable {I J : Type} [Fintype I] [DecidableEq I] [Fintype J] [DecidableEq J] {N : ℕ} {dt : ℝ} {ss : PreCalc I J N}

/-- Exact steps are among the inexact ones. -/
theorem Spec.Run.inexact {ε ξ : ℝ} (hε : 0 ≤ ε) (hξ : 0 ≤ ξ) {c : Cond I J} {ns : List ℤ} {ts : List (TickVars I J)} (H : Run ss dt c ns ts) :
    Inexact ss dt ε ξ c ns (ts.map LogRow.ofTick) := by
  induction H with
  | nil c => exact .nil c
  | @cons c n ns t ts a _ ih =>
    refine .cons a ⟨?_, ?_, ?_, ?_, ?_⟩ ⟨?_, ?_⟩ (c' := t.next) ⟨⟨?_, ?_, ?_, ?_, ?_⟩, ⟨?_, ?_⟩, fun _ _ h => h, fun _ _ h => h⟩ ih <;> intros <;> simpa

end

/-- **C134 (violated by air between rooms).** Two rooms that exchange air in both directions, nothing going on: if the temperature of one room is off by
`ε` at the start, however small, and all steps are exact, then after a day the temperature of a room is off by more than `10 ^ 28 ε`. -/
theorem C134_air_violated : ∃ r, coreCalc exSwap (fun _ => 5) (exSwapData 0) 4 1 0 0 = .ok r ∧ r.nMain = 96 ∧ ∀ ε : ℝ, 0 < ε →
    ∃ c c' rows, updateByGround r.ss.isGround (initialConditions (Fin 2) (Fin 2)) r.ground = .ok c ∧ Rounded ε 0 c c' ∧
      Inexact r.ss (3600 / ((4 : ℤ) : ℝ)) ε 0 c' (pyRange (-(0 * 4 * 24)) (1 * 4 * 24)) rows ∧
      ∀ (hk : 95 < r.nMain.toNat) (hk' : 95 < rows.length), ∃ i, 10 ^ 28 * ε < |rows[95].thetaR i - (r.log ⟨95, hk⟩).thetaR i| := by
  obtain ⟨r, H⟩ := exSwap_completes 0
  obtain ⟨gs, c, up, mn, T⟩ := coreCalc_ok H
  refine ⟨r, H, by rw [T.nMain_eq]; norm_num, fun ε hε => ?_⟩
  have e4 : (3600 / ((4 : ℤ) : ℝ)) = 900 := by norm_num
  have hw : WellFormed exSwap (fun _ => 5) (3600 / ((4 : ℤ) : ℝ)) := by
    rw [e4]
    exact exSwap_wellFormed fun _ => by norm_num
  have R := T.runUp.append T.main
  rw [pyRange_append (by norm_num) (by norm_num)] at R
  have hl0 : ∀ i, Legal (c.mode i) := by
    intro i
    have hs := T.start
    unfold updateByGround at hs
    simp only [bind, Except.bind] at hs
    split at hs
    · cases hs
    split at hs
    · cases hs
    cases hs
    exact initial_legal (m := 2) i
  let c' : Cond (Fin 2) (Fin 2) := { c with thetaR := Function.update c.thetaR 0 (c.thetaR 0 + ε) }
  have hcc : Rounded ε 0 c c' := by
    refine ⟨⟨fun i => ?_, fun i => ?_, fun j => ?_, fun j l => ?_, fun j l => ?_⟩, ⟨fun i => ?_, fun i => ?_⟩, fun _ _ h => h, fun _ _ h => h⟩
    · fin_cases i
      · simp [c', abs_of_pos hε]
      · simpa [c'] using hε.le
    all_goals simp [c', hε.le]
  obtain ⟨ts', R', -⟩ := run_exists (ss := r.ss) (dt := 3600 / ((4 : ℤ) : ℝ)) (P := fun c => ∀ i, Legal (c.mode i)) (c := c')
    (ns := pyRange (-(0 * 4 * 24)) (1 * 4 * 24)) hl0 (by
      intro n hn c hc
      rw [mem_pyRange] at hn
      obtain ⟨ss', t, Hp', ht⟩ := C21_step_completes_partial (data := exSwapData 0) (n := n)
        hw (fun _ => rfl) (fun _ => rfl)
        (by intro k i; norm_num [exSwapData, exUpstream, exDuoData]) (fun i => legal_iff_ne.mp (hc i)) ⟨by push_cast; omega, by push_cast; omega⟩
      obtain rfl : ss' = r.ss := Except.ok.inj (Hp'.symm.trans T.pre)
      obtain ⟨k, hk⟩ := runTick_index ht
      exact ⟨t, ht, fun i => (step_mode T.pre ht hk hc i).1⟩)
  refine ⟨c, c', ts'.map LogRow.ofTick, T.start, hcc, R'.inexact hε.le le_rfl, fun hk hk' => ?_⟩
  have lu : up.length = 0 := by rw [T.runUp.length_eq, pyRange_length]; rfl
  have hm : 95 < mn.length := by rw [T.mn_length]; exact hk
  have h2 : 95 < ts'.length := by simpa using hk'
  have key : (2 : ℝ) ^ (95 + 1) * |(c'.thetaR 0 - c'.thetaR 1) - (c.thetaR 0 - c.thetaR 1)|
      ≤ |(ts'[95].thetaR 0 - ts'[95].thetaR 1) - (mn[95].thetaR 0 - mn[95].thetaR 1)| := by
    have hp := T.pre
    rw [e4] at R R' hp
    have := C110_air_violated hp R R' 95 (by rw [List.length_append]; omega) h2
    simpa only [List.length_eq_zero_iff.1 lu, List.nil_append] using this
  rw [T.logged ⟨95, hk⟩ hm]
  simp only [List.getElem_map]
  have e0 : (c'.thetaR 0 - c'.thetaR 1) - (c.thetaR 0 - c.thetaR 1) = ε := by simp [c']
  rw [e0, abs_of_pos hε] at key
  by_contra hcon
  push Not at hcon
  have a0 : |ts'[95].thetaR 0 - mn[95].thetaR 0| ≤ 10 ^ 28 * ε := hcon 0
  have a1 : |ts'[95].thetaR 1 - mn[95].thetaR 1| ≤ 10 ^ 28 * ε := hcon 1
  generalize ts'[95].thetaR 0 = x0 at *
  generalize ts'[95].thetaR 1 = x1 at *
  generalize mn[95].thetaR 0 = y0 at *
  generalize mn[95].thetaR 1 = y1 at *
  clear hcon R R' T H hcc e0 hl0
  have b : |x0 - x1 - (y0 - y1)| ≤ 2 * (10 ^ 28 * ε) := by
    rw [abs_le] at *
    constructor <;> linarith
  have : (2 : ℝ) * 10 ^ 28 * ε < 2 ^ (95 + 1) * ε := mul_lt_mul_of_pos_right (by norm_num) hε
  linarith

end HLC
