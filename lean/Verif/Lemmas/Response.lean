import Verif.Spec.Response
import Verif.Lemmas.MMatrix
import Mathlib.Algebra.Polynomial.Roots
import Mathlib.Algebra.Polynomial.BigOperators
import Mathlib.Tactic.Positivity
import Mathlib.Tactic.LinearCombination

/-!
# Lemmas on the least squares fit and the wall matrices
-/

namespace HLC

open Spec RF Polynomial

/-- Sums of `1/(x + α_j)` are independent: a Cauchy system has only the zero solution. -/
theorem cauchy_zero {n : ℕ} {alp x : Fin n → ℝ} (hpos : ∀ m, 0 < alp m) (hinj : Function.Injective alp) (hx : ∀ m, 0 < x m)
    (hxi : Function.Injective x) {a : Fin n → ℝ} (h : ∀ q, ∑ j, a j * (x q / (x q + alp j)) = 0) : a = 0 := by
  classical
  rcases Nat.eq_zero_or_pos n with h0 | h0
  · subst h0; funext j; exact j.elim0
  let P : ℝ[X] := ∑ j, C (a j) * ∏ l ∈ Finset.univ.erase j, (X + C (alp l))
  have hP : P = 0 := by
    apply Polynomial.eq_zero_of_natDegree_lt_card_of_eval_eq_zero P hxi
    · intro q
      have hne : ∀ l, x q + alp l ≠ 0 := fun l => by have := hx q; have := hpos l; positivity
      have e : P.eval (x q) = (∏ l, (x q + alp l)) / x q * ∑ j, a j * (x q / (x q + alp j)) := by
        simp only [P, eval_finsetSum, eval_mul, eval_C, eval_prod, eval_add, eval_X]
        rw [Finset.mul_sum]
        apply Finset.sum_congr rfl
        intro j _
        rw [← Finset.mul_prod_erase Finset.univ (fun l => x q + alp l) (Finset.mem_univ j)]
        have h1 := hne j
        have h2 := (hx q).ne'
        generalize ∏ l ∈ Finset.univ.erase j, (x q + alp l) = y
        field_simp
      rw [e, h q, mul_zero]
    · rw [Fintype.card_fin]
      have : P.natDegree ≤ n - 1 := by
        apply Polynomial.natDegree_sum_le_of_forall_le
        intro j _
        refine (Polynomial.natDegree_C_mul_le _ _).trans ?_
        refine (Polynomial.natDegree_prod_le _ _).trans ?_
        refine (Finset.sum_le_card_nsmul _ _ 1 ?_).trans ?_
        · intro l _; exact (Polynomial.natDegree_X_add_C _).le
        · rw [Finset.card_erase_of_mem (Finset.mem_univ j)]; simp
      omega
  funext j
  have he : P.eval (-alp j) = 0 := by rw [hP]; simp
  simp only [P, eval_finsetSum, eval_mul, eval_C, eval_prod, eval_add, eval_X] at he
  rw [Finset.sum_eq_single j] at he
  · rcases mul_eq_zero.mp he with h1 | h1
    · exact h1
    · exfalso
      rw [Finset.prod_eq_zero_iff] at h1
      obtain ⟨l, hl, hl'⟩ := h1
      have : alp l = alp j := by linarith
      exact (Finset.ne_of_mem_erase hl) (hinj this)
  · intro l _ hl
    have : (∏ q ∈ Finset.univ.erase l, (-alp j + alp q)) = 0 := by
      apply Finset.prod_eq_zero (Finset.mem_erase.mpr ⟨Ne.symm hl, Finset.mem_univ j⟩)
      ring
    rw [this, mul_zero]
  · intro h0; exact absurd (Finset.mem_univ j) h0

/-- The points contain the roots themselves. -/
theorem getLaps_odd {n : ℕ} (alp : Fin n → ℝ) (q : Fin n) : getLaps alp ⟨2 * q.val + 1, by omega⟩ = alp q := by
  unfold getLaps rootAt
  have h1 : (2 * q.val + 1) % 2 = 1 := by omega
  have h2 : (2 * q.val + 1) / 2 = q.val := by omega
  simp [h1, h2]

theorem matF_mulVec {n k : ℕ} (s : Fin k → ℝ) (alp a : Fin n → ℝ) (i : Fin k) :
    (matF s alp).mulVec a i = ∑ m, a m * (s i / (s i + alp m)) := by
  unfold matF Matrix.mulVec dotProduct
  apply Finset.sum_congr rfl
  intro m _
  show s i / (s i + alp m) * a m = _
  rw [mul_comm]

theorem matF_injective {n : ℕ} {alp : Fin n → ℝ} (hpos : ∀ m, 0 < alp m) (hinj : Function.Injective alp) {a : Fin n → ℝ}
    (h : (matF (getLaps alp) alp).mulVec a = 0) : a = 0 := by
  apply cauchy_zero hpos hinj hpos hinj
  intro q
  have := congrFun h ⟨2 * q.val + 1, by omega⟩
  rw [matF_mulVec, getLaps_odd] at this
  exact this

theorem dot_self_zero {k : ℕ} {v : Fin k → ℝ} (h : v ⬝ᵥ v = 0) : v = 0 := by
  funext i
  unfold dotProduct at h
  have := (Finset.sum_eq_zero_iff_of_nonneg (fun j _ => mul_self_nonneg (v j))).mp h i (Finset.mem_univ i)
  exact mul_self_eq_zero.mp this

/-- The normal equations are never singular. -/
theorem normal_det {n : ℕ} {alp : Fin n → ℝ} (hpos : ∀ m, 0 < alp m) (hinj : Function.Injective alp) :
    ((matF (getLaps alp) alp).transpose * matF (getLaps alp) alp).det ≠ 0 := by
  intro hdet
  obtain ⟨v, hv, hz⟩ := Matrix.exists_mulVec_eq_zero_iff.mpr hdet
  apply hv
  apply matF_injective hpos hinj
  apply dot_self_zero
  rw [← Matrix.mulVec_mulVec] at hz
  have : v ⬝ᵥ (matF (getLaps alp) alp).transpose.mulVec ((matF (getLaps alp) alp).mulVec v) = 0 := by rw [hz]; simp
  rw [Matrix.mulVec_transpose, dotProduct_comm, ← Matrix.dotProduct_mulVec] at this
  exact this

/-- The fit always succeeds and solves the normal equations. -/
theorem fit_ok {n : ℕ} {alp : Fin n → ℝ} (hpos : ∀ m, 0 < alp m) (hinj : Function.Injective alp) (g : Fin (2 * n) → ℝ) :
    ∃ a, fit (getLaps alp) alp g = .ok a := by
  unfold fit
  rw [npInv_of_det_ne_zero (normal_det hpos hinj)]
  exact ⟨_, rfl⟩

theorem fit_normal {n k : ℕ} {s : Fin k → ℝ} {alp : Fin n → ℝ} {g : Fin k → ℝ} {a : Fin n → ℝ} (H : fit s alp g = .ok a) :
    (matF s alp).transpose.mulVec ((matF s alp).mulVec a) = (matF s alp).transpose.mulVec g := by
  unfold fit at H
  simp only [bind, Except.bind] at H
  split at H
  · cases H
  rename_i inv hinv
  rw [← Except.ok.inj H, Matrix.mulVec_mulVec]
  exact mulVec_npInv hinv _

/-- The solution of the normal equations is the unique best fit. -/
theorem fit_best {n : ℕ} {alp : Fin n → ℝ} (hpos : ∀ m, 0 < alp m) (hinj : Function.Injective alp) {g : Fin (2 * n) → ℝ}
    {a : Fin n → ℝ} (H : fit (getLaps alp) alp g = .ok a) : IsBestFit (getLaps alp) alp g a := by
  intro b hb
  have hN := fit_normal H
  generalize hF : matF (getLaps alp) alp = F at hN
  have e : ∀ c, squaredError (getLaps alp) alp g c = (F.mulVec c - g) ⬝ᵥ (F.mulVec c - g) := by
    intro c
    unfold squaredError dotProduct
    apply Finset.sum_congr rfl
    intro i _
    rw [Pi.sub_apply, ← hF, matF_mulVec, pow_two]
  rw [e, e]
  have hd : F.mulVec b - g = (F.mulVec a - g) + F.mulVec (b - a) := by rw [Matrix.mulVec_sub]; abel
  have hcross : (F.mulVec a - g) ⬝ᵥ F.mulVec (b - a) = 0 := by
    rw [Matrix.dotProduct_mulVec, ← Matrix.mulVec_transpose, Matrix.mulVec_sub, hN, sub_self, zero_dotProduct]
  have hpos' : 0 < F.mulVec (b - a) ⬝ᵥ F.mulVec (b - a) := by
    have h0 : 0 ≤ F.mulVec (b - a) ⬝ᵥ F.mulVec (b - a) := Finset.sum_nonneg fun i _ => mul_self_nonneg _
    rcases h0.lt_or_eq with h | h
    · exact h
    · exfalso
      have hz := dot_self_zero h.symm
      rw [← hF] at hz
      exact hb (sub_eq_zero.mp (matF_injective hpos hinj hz))
  rw [hd, add_dotProduct, dotProduct_add, dotProduct_add, dotProduct_comm (F.mulVec (b - a)) (F.mulVec a - g), hcross]
  linarith

end HLC
