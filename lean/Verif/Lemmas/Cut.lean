import Verif.Lemmas.MMatrix
import Mathlib.LinearAlgebra.Matrix.Block
import Mathlib.Logic.Equiv.Set

/-!
# Matrices whose rows of one group have nothing outside the group
-/

namespace HLC

variable {I A J B K C : Type}

/-- The rows `a` of `M` are zero outside the columns `b`. -/
def Cut (a : A → I) (b : B → J) (M : Matrix I J ℝ) : Prop := ∀ x, ∀ j ∉ Set.range b, M (a x) j = 0

section
variable [Fintype J] [Fintype B] {a : A → I} {b : B → J} {c : C → K}

theorem Cut.mulVec {M : Matrix I J ℝ} (hM : Cut a b M) (hb : Function.Injective b) (v : J → ℝ) (x : A) :
    (M.submatrix a b).mulVec (fun y => v (b y)) x = M.mulVec v (a x) :=
  Fintype.sum_of_injective b hb _ _ (fun j hj => by show M (a x) j * _ = 0; rw [hM x j hj, zero_mul]) fun _ => rfl

theorem Cut.sub_mul {M : Matrix I J ℝ} (hM : Cut a b M) (hb : Function.Injective b) (M' : Matrix J K ℝ) :
    M.submatrix a b * M'.submatrix b c = (M * M').submatrix a c := by
  funext x z
  exact Fintype.sum_of_injective b hb _ _ (fun j hj => by show M (a x) j * _ = 0; rw [hM x j hj, zero_mul]) fun _ => rfl

theorem Cut.mul {M : Matrix I J ℝ} {M' : Matrix J K ℝ} (hM : Cut a b M) (hM' : Cut b c M') : Cut a c (M * M') := by
  intro x k hk
  rw [Matrix.mul_apply]
  refine Finset.sum_eq_zero fun j _ => ?_
  by_cases hj : j ∈ Set.range b
  · obtain ⟨y, rfl⟩ := hj
    rw [hM' y k hk, mul_zero]
  · rw [hM x j hj, zero_mul]

end

theorem Cut.add {a : A → I} {b : B → J} {M M' : Matrix I J ℝ} (h : Cut a b M) (h' : Cut a b M') : Cut a b (M + M') := by
  intro x j hj
  rw [Matrix.add_apply, h x j hj, h' x j hj, add_zero]

theorem Cut.sub {a : A → I} {b : B → J} {M M' : Matrix I J ℝ} (h : Cut a b M) (h' : Cut a b M') : Cut a b (M - M') := by
  intro x j hj
  rw [Matrix.sub_apply, h x j hj, h' x j hj, sub_zero]

theorem Cut.smul {a : A → I} {b : B → J} {M : Matrix I J ℝ} (r : ℝ) (h : Cut a b M) : Cut a b (r • M) := by
  intro x j hj
  rw [Matrix.smul_apply, h x j hj, smul_zero]

theorem cut_diagonal [DecidableEq I] (a : A → I) (v : I → ℝ) : Cut a a (Matrix.diagonal v) := by
  intro x j hj
  exact Matrix.diagonal_apply_ne _ fun h => hj ⟨x, h⟩

theorem diagonal_sub' [DecidableEq I] [DecidableEq A] {a : A → I} (ha : Function.Injective a) (v : I → ℝ) :
    Matrix.diagonal (fun x => v (a x)) = (Matrix.diagonal v).submatrix a a := by
  funext x y
  by_cases h : x = y
  · subst h; simp
  · rw [Matrix.diagonal_apply_ne _ h, Matrix.submatrix_apply, Matrix.diagonal_apply_ne _ fun e => h (ha e)]

section
variable [Fintype I] [DecidableEq I] [Fintype A] [DecidableEq A] {a : A → I} {M : Matrix I I ℝ}

theorem Cut.det_ne_zero (ha : Function.Injective a) (hM : Cut a a M) (h : M.det ≠ 0) : (M.submatrix a a).det ≠ 0 := by
  classical
  rw [Matrix.twoBlockTriangular_det' M (fun i => i ∈ Set.range a) (by
    rintro i ⟨x, rfl⟩ j hj
    exact hM x j hj)] at h
  have h1 := left_ne_zero_of_mul h
  have e : M.submatrix a a = (Matrix.toSquareBlockProp M fun i => i ∈ Set.range a).submatrix (Equiv.ofInjective a ha) (Equiv.ofInjective a ha) := rfl
  rw [e, Matrix.det_submatrix_equiv_self]
  convert h1

theorem Cut.inv (ha : Function.Injective a) (hM : Cut a a M) (h : M.det ≠ 0) : Cut a a M⁻¹ := by
  intro x l hl
  have hmul : M.mulVec (fun i => M⁻¹ i l) = fun i => (1 : Matrix I I ℝ) i l := by
    have := Matrix.mul_nonsing_inv M (isUnit_iff_ne_zero.mpr h)
    rw [← this]
    rfl
  have hz : (M.submatrix a a).mulVec (fun y => M⁻¹ (a y) l) = (M.submatrix a a).mulVec 0 := by
    funext y
    rw [hM.mulVec ha (fun i => M⁻¹ i l) y, hmul, Matrix.mulVec_zero]
    exact Matrix.one_apply_ne fun h => hl ⟨y, h⟩
  exact congrFun (mulVec_inj_of_det (hM.det_ne_zero ha h) hz) x

theorem Cut.sub_inv (ha : Function.Injective a) (hM : Cut a a M) (h : M.det ≠ 0) : (M.submatrix a a)⁻¹ = M⁻¹.submatrix a a := by
  refine Matrix.inv_eq_right_inv ?_
  rw [hM.sub_mul ha, Matrix.mul_nonsing_inv M (isUnit_iff_ne_zero.mpr h)]
  funext x y
  by_cases e : x = y
  · subst e; simp
  · rw [Matrix.submatrix_apply, Matrix.one_apply_ne e, Matrix.one_apply_ne fun h => e (ha h)]

/-- A group without outside influence has the inverse of its own. -/
theorem Cut.npInv {N : Matrix I I ℝ} (ha : Function.Injective a) (hM : Cut a a M) (h : HLC.npInv M = .ok N) :
    HLC.npInv (M.submatrix a a) = .ok (N.submatrix a a) ∧ Cut a a N := by
  obtain ⟨h0, rfl⟩ := npInv_ok h
  rw [npInv_of_det_ne_zero (hM.det_ne_zero ha h0), hM.sub_inv ha h0]
  exact ⟨rfl, hM.inv ha h0⟩

end

end HLC
