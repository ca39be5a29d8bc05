import Verif.Spec.DataNear
import Verif.Props.AirCycle

/-!
# C135: where rooms exchange air, errors of the gains grow
-/

namespace HLC
open Spec

/-- Row `k` of the two rooms with `q` W in one of them. -/
theorem exSwap_rows {q : ℝ} {r : CalcResult (Fin 2) 2 96} (H : coreCalc exSwap (fun _ => 5) (exSwapData q) 4 1 0 0 = .ok r) (hq : 0 ≤ q) :
    ∀ (k : ℕ) (hk : k < r.nMain.toNat), 2 ^ k / 20 * q ≤ (r.log ⟨k, hk⟩).thetaR 0 - (r.log ⟨k, hk⟩).thetaR 1 := by
  intro k
  induction k with
  | zero =>
    intro hk
    obtain ⟨c0, t, Hp, Ht, el, c1, -⟩ := first_step H (fun _ => rfl)
    rw [el hk]
    have := exSwap_step Hp Ht
    rw [c1] at this
    show (2 : ℝ) ^ 0 / 20 * q ≤ t.thetaR 0 - t.thetaR 1
    norm_num at this ⊢
    linarith
  | succ k ih =>
    intro hk
    have ih := ih (by omega)
    obtain ⟨n, t, t', -, -, Hp, Ht, e0, e1⟩ := logged_pair H k hk
    have e4 : (3600 / ((4 : ℤ) : ℝ)) = 900 := by norm_num
    rw [e4] at Hp Ht
    rw [e0] at ih
    rw [e1]
    have ih : (2 : ℝ) ^ k / 20 * q ≤ t.thetaR 0 - t.thetaR 1 := ih
    have this : 18.58 * (t'.thetaR 0 - t'.thetaR 1) = 40.2 * (t.thetaR 0 - t.thetaR 1) + q := exSwap_step Hp Ht
    show (2 : ℝ) ^ (k + 1) / 20 * q ≤ t'.thetaR 0 - t'.thetaR 1
    have h0 : (0 : ℝ) ≤ 2 ^ k / 20 * q := by positivity
    have e : (2 : ℝ) ^ (k + 1) / 20 * q = 2 * (2 ^ k / 20 * q) := by ring
    rw [e]
    linarith

/-- Without gains nothing happens. -/
theorem exSwap_still {r : CalcResult (Fin 2) 2 96} (H : coreCalc exSwap (fun _ => 5) (exSwapData 0) 4 1 0 0 = .ok r) :
    ∀ (k : ℕ) (hk : k < r.nMain.toNat), (r.log ⟨k, hk⟩).thetaR 0 - (r.log ⟨k, hk⟩).thetaR 1 = 0 := by
  intro k
  induction k with
  | zero =>
    intro hk
    obtain ⟨c0, t, Hp, Ht, el, c1, -⟩ := first_step H (fun _ => rfl)
    rw [el hk]
    have := exSwap_step Hp Ht
    rw [c1] at this
    show t.thetaR 0 - t.thetaR 1 = 0
    norm_num at this ⊢
    linarith
  | succ k ih =>
    intro hk
    have ih := ih (by omega)
    obtain ⟨n, t, t', -, -, Hp, Ht, e0, e1⟩ := logged_pair H k hk
    have e4 : (3600 / ((4 : ℤ) : ℝ)) = 900 := by norm_num
    rw [e4] at Hp Ht
    rw [e0] at ih
    rw [e1]
    have ih : t.thetaR 0 - t.thetaR 1 = 0 := ih
    have this : 18.58 * (t'.thetaR 0 - t'.thetaR 1) = 40.2 * (t.thetaR 0 - t.thetaR 1) + 0 := exSwap_step Hp Ht
    show t'.thetaR 0 - t'.thetaR 1 = 0
    linarith

/-- **C135 (violated by air between rooms).** Two rooms that exchange air in both directions: two calculations whose heat gains differ by `ε` W, however
small, and which agree in all other data give temperatures that differ by more than `10 ^ 26 ε` after a day. -/
theorem C135_air_violated (ε : ℝ) (hε : 0 < ε) : ∃ r r', coreCalc exSwap (fun _ => 5) (exSwapData 0) 4 1 0 0 = .ok r ∧
    coreCalc exSwap (fun _ => 5) (exSwapData ε) 4 1 0 0 = .ok r' ∧ (∀ k, DataNear ε (exSwapData 0 k) (exSwapData ε k)) ∧ r.nMain = 96 ∧ r'.nMain = 96 ∧
    ∀ (hk : 95 < r.nMain.toNat) (hk' : 95 < r'.nMain.toNat), ∃ i, 10 ^ 26 * ε < |(r'.log ⟨95, hk'⟩).thetaR i - (r.log ⟨95, hk⟩).thetaR i| := by
  obtain ⟨r, H⟩ := exSwap_completes 0
  obtain ⟨r', H'⟩ := exSwap_completes ε
  have hn : ∀ {q r}, coreCalc exSwap (fun _ => 5) (exSwapData q) 4 1 0 0 = .ok r → r.nMain = 96 := by
    intro q r H
    obtain ⟨gs, c0, up, mn, T⟩ := coreCalc_ok H
    rw [T.nMain_eq]; norm_num
  refine ⟨r, r', H, H', fun k => ⟨?_, fun j => ?_, fun i => ?_, fun i => ?_, rfl, rfl⟩, hn H, hn H', fun hk hk' => ?_⟩
  · simpa [exSwapData, exUpstream] using hε.le
  · simpa [exSwapData, exUpstream] using hε.le
  · fin_cases i
    · simp [exSwapData, exUpstream, abs_of_pos hε]
    · simpa [exSwapData, exUpstream] using hε.le
  · simpa [exSwapData, exUpstream] using hε.le
  have a := exSwap_rows H' hε.le 95 hk'
  have b := exSwap_still H 95 hk
  by_contra hcon
  push Not at hcon
  have a0 := hcon 0
  have a1 := hcon 1
  generalize (r'.log ⟨95, hk'⟩).thetaR 0 = x0 at *
  generalize (r'.log ⟨95, hk'⟩).thetaR 1 = x1 at *
  generalize (r.log ⟨95, hk⟩).thetaR 0 = y0 at *
  generalize (r.log ⟨95, hk⟩).thetaR 1 = y1 at *
  rw [abs_le] at a0 a1
  have c : (2 : ℝ) * 10 ^ 26 * ε < 2 ^ 95 / 20 * ε := mul_lt_mul_of_pos_right (by norm_num) hε
  linarith [a0.2, a1.1]

end HLC
