import Verif.Spec.Mode
import Mathlib.Tactic.Linarith
import Mathlib.Tactic.NormNum

/-!
# C01, C02, C03 (first part): operation mode
-/

namespace HLC

open Spec

/-- The update is defined on every legal previous mode and yields a legal mode. -/
theorem mode_step_legal (d : ℝ) (prev : OpMode) (h m l : ℝ) (hp : Legal prev) :
    ∃ m', getOperationMode d prev h m l = .ok m' ∧ Legal m' := by
  unfold getOperationMode Legal
  rcases hp with rfl | rfl | rfl | rfl <;> dsimp only <;> split_ifs <;> simp

theorem mode_step_no_demand (d : ℝ) (prev : OpMode) (h m l : ℝ) (hd : ¬ 0 < d) :
    getOperationMode d prev h m l = .ok .stopClose := by
  unfold getOperationMode
  rw [if_neg hd]

theorem mode_run_legal (inputs : List ModeInput) (m0 : OpMode) (h0 : Legal m0) :
    ∃ m, modeRun m0 inputs = .ok m ∧ Legal m := by
  induction inputs generalizing m0 with
  | nil => exact ⟨m0, rfl, h0⟩
  | cons i is ih =>
    obtain ⟨m1, h1, hl1⟩ := mode_step_legal i.acDemand m0 i.pmvHeavy i.pmvMiddle i.pmvLight h0
    obtain ⟨m, hm, hl⟩ := ih m1 hl1
    exact ⟨m, by simp [modeRun, h1, hm, bind, Except.bind], hl⟩

theorem modeRun_append (m0 : OpMode) (xs : List ModeInput) (i : ModeInput) :
    modeRun m0 (xs ++ [i]) =
      (modeRun m0 xs).bind fun m => getOperationMode i.acDemand m i.pmvHeavy i.pmvMiddle i.pmvLight := by
  induction xs generalizing m0 with
  | nil =>
    simp only [List.nil_append, modeRun, bind, Except.bind]
    cases getOperationMode i.acDemand m0 i.pmvHeavy i.pmvMiddle i.pmvLight <;> rfl
  | cons x xs ih =>
    simp only [List.cons_append, modeRun, bind, Except.bind]
    cases getOperationMode x.acDemand m0 x.pmvHeavy x.pmvMiddle x.pmvLight with
    | error e => rfl
    | ok m => exact ih m

/-- **C01.** From the initial mode, after any sequence of steps the mode update has not raised, the mode is one of the four legal
ones (never HEATING_AND_COOLING), and if the last step had no air-conditioning demand the room is STOP_CLOSE. -/
theorem C01_mode_run (history : List ModeInput) (last : ModeInput) :
    ∃ m, modeRun initialMode (history ++ [last]) = .ok m ∧ Legal m ∧ m ≠ .heatingAndCooling ∧
      (last.acDemand ≤ 0 → m = .stopClose) := by
  obtain ⟨m1, h1, hl1⟩ := mode_run_legal history initialMode (Or.inr (Or.inr (Or.inr rfl)))
  obtain ⟨m, hm, hl⟩ := mode_step_legal last.acDemand m1 last.pmvHeavy last.pmvMiddle last.pmvLight hl1
  refine ⟨m, ?_, hl, ?_, ?_⟩
  · rw [modeRun_append, h1]; exact hm
  · rcases hl with h | h | h | h <;> rw [h] <;> decide
  · intro hd
    rw [mode_step_no_demand _ _ _ _ _ (not_lt.mpr hd)] at hm
    exact (Except.ok.inj hm).symm

/-- A run that really uses the plant: cold with demand, then comfortable without demand. -/
example : modeRun initialMode [⟨1, -1, -1.5, -2⟩] = .ok .heating := by
  simp only [modeRun, initialMode, getOperationMode, bind, Except.bind]
  norm_num

/-- **C02.** With a legal previous mode, the outcome of the update is exactly the specified one. -/
theorem C02_mode_rule (d : ℝ) (prev : OpMode) (h m l : ℝ) (hp : Legal prev) :
    ∃ m', getOperationMode d prev h m l = .ok m' ∧
      (m' = .heating ↔ Heats d prev h l) ∧
      (m' = .cooling ↔ Cools d prev h l) ∧
      (m' = .stopOpen ↔ Opens d prev h m l) ∧
      (m' = .stopClose ↔ ¬ Heats d prev h l ∧ ¬ Cools d prev h l ∧ ¬ Opens d prev h m l) := by
  unfold getOperationMode Heats Cools Opens Stopped
  rcases hp with rfl | rfl | rfl | rfl <;> dsimp only <;> split_ifs <;>
    refine ⟨_, rfl, ?_, ?_, ?_, ?_⟩ <;> simp_all

/-- Heating and cooling situations (and open windows) exclude each other, so the rule of C02 is a function. -/
theorem C02_exclusive (d : ℝ) (prev : OpMode) (h m l : ℝ) :
    ¬ (Heats d prev h l ∧ Cools d prev h l) ∧ ¬ (Heats d prev h l ∧ Opens d prev h m l) ∧
      ¬ (Cools d prev h l ∧ Opens d prev h m l) := by
  unfold Heats Cools Opens Stopped
  refine ⟨?_, ?_, ?_⟩
  · rintro ⟨⟨_, a | a | a⟩, ⟨_, b | b | b⟩⟩ <;> simp_all <;> linarith
  · rintro ⟨⟨_, a | a | a⟩, ⟨_, _, _, b | b⟩⟩ <;> simp_all <;> linarith
  · rintro ⟨⟨_, a | a | a⟩, ⟨_, _, _, b | b⟩⟩ <;> simp_all <;> linarith

example : Heats 1 .stopClose (-0.7) (-3) ∧ Cools 0.3 .heating 2 0.7 ∧ Opens 1 .stopClose 0.1 0 (-1) := by
  unfold Heats Cools Opens Stopped; norm_num

/-- **C03 (modes).** A step that ends in HEATING has PMV(heavy) ≤ 0.7 and, unless the room was already heated, ≤ -0.7;
a step that ends in COOLING has PMV(light) ≥ -0.7 and, unless the room was already cooled, ≥ 0.7. Both need demand. -/
theorem C03_heats_only_when_cold (d : ℝ) (prev : OpMode) (h m l : ℝ) :
    (getOperationMode d prev h m l = .ok .heating → 0 < d ∧ h ≤ 0.7 ∧ (prev ≠ .heating → h ≤ -0.7)) ∧
    (getOperationMode d prev h m l = .ok .cooling → 0 < d ∧ -0.7 ≤ l ∧ (prev ≠ .cooling → 0.7 ≤ l)) := by
  unfold getOperationMode
  constructor <;> cases prev <;> dsimp only <;> split_ifs <;> simp_all <;> linarith

end HLC
