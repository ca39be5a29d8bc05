import Verif.Model.Py
import Mathlib.LinearAlgebra.Matrix.ToLinearEquiv
import Mathlib.Algebra.Order.BigOperators.Group.Finset
import Mathlib.Data.Finset.Max
import Mathlib.Tactic.Linarith

/-!
# Minimum principle for strictly row-dominant Z-matrices, and `npInv`
-/

namespace HLC

set_option linter.unusedSectionVars false

variable {I : Type*} [Fintype I] [DecidableEq I]

/-- Off-diagonal entries are non-positive and all row sums are positive. -/
structure ZDominant (A : Matrix I I ℝ) : Prop where
  offDiag : ∀ i j, i ≠ j → A i j ≤ 0
  rowSum : ∀ i, 0 < ∑ j, A i j

/-- Minimum principle: if `A x` is non-negative in every room where `x` is negative, then `x` is nowhere negative. -/
theorem ZDominant.nonneg {A : Matrix I I ℝ} (hA : ZDominant A) {x : I → ℝ}
    (h : ∀ i, x i < 0 → 0 ≤ A.mulVec x i) : ∀ i, 0 ≤ x i := by
  by_contra hne
  push Not at hne
  obtain ⟨i0, hi0⟩ := hne
  obtain ⟨m, -, hm⟩ := Finset.exists_min_image Finset.univ x ⟨i0, Finset.mem_univ i0⟩
  have hmneg : x m < 0 := lt_of_le_of_lt (hm i0 (Finset.mem_univ _)) hi0
  have h1 := h m hmneg
  have h2 : A.mulVec x m ≤ ∑ j, A m j * x m := by
    unfold Matrix.mulVec dotProduct
    apply Finset.sum_le_sum
    intro j _
    by_cases hj : m = j
    · subst hj; exact le_rfl
    · exact mul_le_mul_of_nonpos_left (hm j (Finset.mem_univ _)) (hA.offDiag m j hj)
  rw [← Finset.sum_mul] at h2
  have h3 := mul_neg_of_pos_of_neg (hA.rowSum m) hmneg
  linarith

theorem ZDominant.det_ne_zero {A : Matrix I I ℝ} (hA : ZDominant A) : A.det ≠ 0 := by
  intro hdet
  obtain ⟨v, hv, hAv⟩ := Matrix.exists_mulVec_eq_zero_iff.mpr hdet
  apply hv
  funext i
  have h1 := hA.nonneg (x := v) (fun i _ => by rw [hAv]; exact le_rfl) i
  have h2 := hA.nonneg (x := -v) (fun i _ => by rw [Matrix.mulVec_neg, hAv]; simp) i
  simp only [Pi.neg_apply] at h2
  simp only [Pi.zero_apply]
  linarith

theorem npInv_ok {A B : Matrix I I ℝ} (h : npInv A = .ok B) : A.det ≠ 0 ∧ B = A⁻¹ := by
  unfold npInv at h
  split_ifs at h with h0
  exact ⟨h0, (Except.ok.inj h).symm⟩

theorem npInv_of_det_ne_zero {A : Matrix I I ℝ} (h : A.det ≠ 0) : npInv A = .ok A⁻¹ := by
  unfold npInv; rw [if_neg h]

theorem npInv_of_det_zero {A : Matrix I I ℝ} (h : A.det = 0) : npInv A = .error .linAlgError := by
  unfold npInv; rw [if_pos h]

/-- What `np.dot(np.linalg.inv(A), b)` satisfies when it returns. -/
theorem mulVec_npInv {A B : Matrix I I ℝ} (h : npInv A = .ok B) (b : I → ℝ) : A.mulVec (B.mulVec b) = b := by
  obtain ⟨h0, rfl⟩ := npInv_ok h
  rw [Matrix.mulVec_mulVec, Matrix.mul_nonsing_inv _ (isUnit_iff_ne_zero.mpr h0), Matrix.one_mulVec]

theorem npInv_mulVec {A B : Matrix I I ℝ} (h : npInv A = .ok B) (b : I → ℝ) : B.mulVec (A.mulVec b) = b := by
  obtain ⟨h0, rfl⟩ := npInv_ok h
  rw [Matrix.mulVec_mulVec, Matrix.nonsing_inv_mul _ (isUnit_iff_ne_zero.mpr h0), Matrix.one_mulVec]

theorem mul_npInv {A B : Matrix I I ℝ} (h : npInv A = .ok B) : A * B = 1 := by
  obtain ⟨h0, rfl⟩ := npInv_ok h
  exact Matrix.mul_nonsing_inv _ (isUnit_iff_ne_zero.mpr h0)

theorem npInv_mul {A B : Matrix I I ℝ} (h : npInv A = .ok B) : B * A = 1 := by
  obtain ⟨h0, rfl⟩ := npInv_ok h
  exact Matrix.nonsing_inv_mul _ (isUnit_iff_ne_zero.mpr h0)

/-- A non-singular system has at most one solution. -/
theorem mulVec_inj_of_det {A : Matrix I I ℝ} (h : A.det ≠ 0) {x y : I → ℝ} (hxy : A.mulVec x = A.mulVec y) : x = y := by
  have := npInv_mulVec (npInv_of_det_ne_zero h)
  rw [← this x, hxy, this y]

end HLC
