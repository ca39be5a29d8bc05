import Mathlib.RingTheory.PowerSeries.Inverse
import Mathlib.Data.Real.Basic
import Mathlib.Tactic.Linarith
import Mathlib.Tactic.FieldSimp
import Mathlib.Algebra.Order.BigOperators.Ring.Finset
import Mathlib.Tactic.Positivity

/-!
# Kaluza: the reciprocal of a log-convex sequence

If a positive sequence is log-convex, the power series inverse of it has no positive coefficient after the first. Here in the form in which it is
used: what a log-convex response still owes of its past is a nonnegative combination of its past outputs.
-/

namespace HLC
open PowerSeries Finset

/-- Positive and log-convex. -/
def LogConvex (r : ℕ → ℝ) : Prop := ∀ k, 0 < r k ∧ r (k + 1) ^ 2 ≤ r k * r (k + 2)

theorem LogConvex.ratio {r : ℕ → ℝ} (h : LogConvex r) (m n : ℕ) : r (m + 1) * r (m + n) ≤ r (m + n + 1) * r m := by
  induction n with
  | zero => exact (by ring : r (m + 1) * r (m + 0) = r (m + 0 + 1) * r m).le
  | succ n ih =>
    have h1 := (h (m + n)).2
    have p0 := (h (m + n)).1
    have p1 := (h (m + n + 1)).1
    have p2 := (h m).1
    have p3 := (h (m + 1)).1
    have e1 : r (m + 1) * r (m + n + 1) * r (m + n) ≤ r (m + n + 2) * r m * r (m + n) := by
      have a := mul_le_mul_of_nonneg_right ih p1.le
      have b := mul_le_mul_of_nonneg_right h1 p2.le
      nlinarith
    exact le_of_mul_le_mul_right e1 p0

theorem LogConvex.weights {r : ℕ → ℝ} (h : LogConvex r) : ∃ w : ℕ → ℝ, w 0 = 0 ∧ (∀ k, 0 ≤ w k) ∧
    PowerSeries.mk w * PowerSeries.mk r = PowerSeries.mk r - PowerSeries.C (r 0) := by
  set R : PowerSeries ℝ := PowerSeries.mk r with hR
  have hc : constantCoeff R ≠ 0 := by
    rw [← coeff_zero_eq_constantCoeff_apply, hR, coeff_mk]
    exact (h 0).1.ne'
  set W : PowerSeries ℝ := (R - PowerSeries.C (r 0)) * R⁻¹ with hW
  have hWR : W * R = R - PowerSeries.C (r 0) := by rw [hW, mul_assoc, PowerSeries.inv_mul_cancel _ hc, mul_one]
  have hw : PowerSeries.mk (fun k => coeff k W) = W := by ext n; simp
  have hsum : ∀ m, ∑ k ∈ range (m + 1), coeff k W * r (m - k) = if m = 0 then 0 else r m := by
    intro m
    have := congrArg (coeff m) hWR
    rw [coeff_mul, Finset.Nat.sum_antidiagonal_eq_sum_range_succ (fun a b => coeff a W * coeff b R)] at this
    simp only [hR, coeff_mk, map_sub, coeff_C] at this
    rw [this]
    split_ifs with h0
    · rw [h0]; ring
    · ring
  have h0 : coeff 0 W = 0 := by
    have := hsum 0
    simp only [zero_add, sum_range_one, if_true, Nat.sub_zero, mul_eq_zero] at this
    exact this.resolve_right (h 0).1.ne'
  refine ⟨fun k => coeff k W, h0, ?_, by rw [hw]; exact hWR⟩
  intro k
  induction k using Nat.strong_induction_on with
  | _ k ih =>
    rcases k with _ | m
    · exact h0.ge
    have e1 := hsum (m + 1)
    rw [sum_range_succ, if_neg (Nat.succ_ne_zero m), Nat.sub_self] at e1
    have pos := fun k => (h k).1
    have e2 : (∑ k ∈ range (m + 1), coeff k W * r (m + 1 - k)) * r m ≤ r (m + 1) * r m := by
      have e3 : (∑ k ∈ range (m + 1), coeff k W * r (m + 1 - k)) * r m ≤ r (m + 1) * ∑ k ∈ range (m + 1), coeff k W * r (m - k) := by
        rw [sum_mul, mul_sum]
        refine sum_le_sum fun k hk => ?_
        have hkm : k ≤ m := Nat.lt_succ_iff.1 (mem_range.1 hk)
        have q := h.ratio (m - k) k
        have i1 : m - k + 1 = m + 1 - k := by omega
        have i2 : m - k + k = m := by omega
        rw [i1, i2] at q
        have := mul_le_mul_of_nonneg_left q (ih k (by omega))
        linarith
      refine e3.trans (mul_le_mul_of_nonneg_left ?_ (pos _).le)
      rw [hsum m]
      split_ifs
      · exact (pos m).le
      · exact le_rfl
    have e4 := le_of_mul_le_mul_right e2 (pos m)
    have e5 : 0 ≤ coeff (m + 1) W * r 0 := by linarith
    exact nonneg_of_mul_nonneg_left e5 (pos 0)

/-- What is left of the past. -/
theorem LogConvex.owed {r : ℕ → ℝ} (h : LogConvex r) (q : ℕ → ℝ) (n : ℕ) (hE : ∀ k < n, 0 ≤ ∑ i ∈ range (k + 1), q i * r (k - i)) :
    0 ≤ ∑ i ∈ range n, q i * r (n - i) := by
  obtain ⟨w, w0, wn, hw⟩ := h.weights
  have e1 : PowerSeries.mk w * (PowerSeries.mk q * PowerSeries.mk r) = PowerSeries.mk q * (PowerSeries.mk r - PowerSeries.C (r 0)) := by
    rw [← hw]; ring
  have e2 := congrArg (coeff n) e1
  have e3 : coeff n (PowerSeries.mk q * (PowerSeries.mk r - PowerSeries.C (r 0))) = ∑ i ∈ range n, q i * r (n - i) := by
    rw [coeff_mul, Finset.Nat.sum_antidiagonal_eq_sum_range_succ (fun a b => coeff a (PowerSeries.mk q) * coeff b (PowerSeries.mk r - PowerSeries.C (r 0))),
      sum_range_succ]
    have : coeff (n - n) (PowerSeries.mk r - PowerSeries.C (r 0)) = 0 := by
      rw [Nat.sub_self]; simp
    rw [this, mul_zero, add_zero]
    refine sum_congr rfl fun i hi => ?_
    have := mem_range.1 hi
    rw [map_sub, coeff_C, if_neg (by omega), coeff_mk, coeff_mk, sub_zero]
  rw [← e3, ← e2, coeff_mul, Finset.Nat.sum_antidiagonal_eq_sum_range_succ (fun a b => coeff a (PowerSeries.mk w) * coeff b (PowerSeries.mk q * PowerSeries.mk r))]
  refine sum_nonneg fun k hk => ?_
  rw [coeff_mk]
  rcases Nat.eq_zero_or_pos k with rfl | hp
  · rw [w0, zero_mul]
  · refine mul_nonneg (wn k) ?_
    have := mem_range.1 hk
    rw [coeff_mul, Finset.Nat.sum_antidiagonal_eq_sum_range_succ (fun a b => coeff a (PowerSeries.mk q) * coeff b (PowerSeries.mk r))]
    simp only [coeff_mk]
    exact hE (n - k) (by omega)

/-- Responses made of fading modes of one sign are log-convex after the first step. -/
theorem modes_logConvex {L : Type} [Fintype L] {a ρ : L → ℝ} {r : ℕ → ℝ} (ha : ∀ l, 0 ≤ a l) (hρ : ∀ l, 0 ≤ ρ l)
    (hr : ∀ k, r (k + 1) = ∑ l, a l * ρ l ^ k) (hp : ∃ l, 0 < a l ∧ 0 < ρ l) (h0 : 0 < r 0) (h1 : r 1 ^ 2 ≤ r 0 * r 2) : LogConvex r := by
  have pos : ∀ k, 0 < r k := by
    intro k
    rcases k with _ | k
    · exact h0
    rw [hr]
    obtain ⟨l, l1, l2⟩ := hp
    exact sum_pos' (fun l _ => mul_nonneg (ha l) (pow_nonneg (hρ l) k)) ⟨l, mem_univ _, mul_pos l1 (pow_pos l2 k)⟩
  intro k
  refine ⟨pos k, ?_⟩
  rcases k with _ | k
  · exact h1
  rw [hr, hr, hr]
  refine sum_sq_le_sum_mul_sum_of_sq_le_mul _ (fun l _ => mul_nonneg (ha l) (pow_nonneg (hρ l) _))
    (fun l _ => mul_nonneg (ha l) (pow_nonneg (hρ l) _)) (fun l _ => le_of_eq (by ring))

end HLC
