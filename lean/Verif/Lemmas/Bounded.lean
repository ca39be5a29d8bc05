import Mathlib.Algebra.Order.BigOperators.Group.Finset
import Mathlib.Algebra.BigOperators.Ring.Finset
import Mathlib.Data.Real.Basic
import Mathlib.Tactic.Linarith
import Mathlib.Tactic.Positivity
import Mathlib.Tactic.Ring
import Mathlib.Tactic.FieldSimp
import Mathlib.Tactic.LinearCombination

/-!
# Estimates up to a constant

`Bounded B F` says that `F` is at most a constant multiple of `B`; the constant does not depend on the argument.
-/

namespace HLC

/-- `F ≤ K * B` for one constant `K`. -/
def Bounded {S : Type*} (B F : S → ℝ) : Prop := ∃ K, 0 ≤ K ∧ ∀ x, F x ≤ K * B x

namespace Bounded
variable {S : Type*} {B F G u v : S → ℝ}

theorem mono (hF : Bounded B F) (h : ∀ x, G x ≤ F x) : Bounded B G := by
  obtain ⟨K, hK, H⟩ := hF
  exact ⟨K, hK, fun x => (h x).trans (H x)⟩

theorem zero : Bounded B fun _ => 0 := ⟨0, le_rfl, fun x => by simp⟩

theorem add (hF : Bounded B F) (hG : Bounded B G) : Bounded B fun x => F x + G x := by
  obtain ⟨K, hK, H⟩ := hF
  obtain ⟨L, hL, H'⟩ := hG
  exact ⟨K + L, add_nonneg hK hL, fun x => by rw [add_mul]; exact add_le_add (H x) (H' x)⟩

theorem smul {a : ℝ} (ha : 0 ≤ a) (hF : Bounded B F) : Bounded B fun x => a * F x := by
  obtain ⟨K, hK, H⟩ := hF
  exact ⟨a * K, mul_nonneg ha hK, fun x => by rw [mul_assoc]; exact mul_le_mul_of_nonneg_left (H x) ha⟩

/-- A positive factor may be dropped. -/
theorem of_smul {a : ℝ} (ha : 0 < a) (h : ∀ x, a * F x ≤ B x) : Bounded B F :=
  ⟨a⁻¹, inv_nonneg.2 ha.le, fun x => by rw [← div_eq_inv_mul, le_div_iff₀ ha, mul_comm]; exact h x⟩

theorem sum {ι : Type*} (s : Finset ι) {F : ι → S → ℝ} (h : ∀ i ∈ s, Bounded B (F i)) : Bounded B fun x => ∑ i ∈ s, F i x := by
  classical
  induction s using Finset.induction_on with
  | empty => simpa using zero
  | insert a s ha ih =>
    have h1 := (h a (Finset.mem_insert_self a s)).add (ih fun i hi => h i (Finset.mem_insert_of_mem hi))
    refine h1.mono fun x => ?_
    rw [Finset.sum_insert ha]

theorem sq_smul (a : ℝ) (hu : Bounded B fun x => u x ^ 2) : Bounded B fun x => (a * u x) ^ 2 :=
  (hu.smul (sq_nonneg a)).mono fun x => by rw [mul_pow]

theorem sq_add (hu : Bounded B fun x => u x ^ 2) (hv : Bounded B fun x => v x ^ 2) : Bounded B fun x => (u x + v x) ^ 2 :=
  ((hu.smul zero_le_two).add (hv.smul zero_le_two)).mono fun x => by nlinarith [sq_nonneg (u x - v x)]

theorem sq_sub (hu : Bounded B fun x => u x ^ 2) (hv : Bounded B fun x => v x ^ 2) : Bounded B fun x => (u x - v x) ^ 2 :=
  ((hu.smul zero_le_two).add (hv.smul zero_le_two)).mono fun x => by nlinarith [sq_nonneg (u x + v x)]

theorem sq_sum {ι : Type*} (s : Finset ι) {F : ι → S → ℝ} (h : ∀ i ∈ s, Bounded B fun x => F i x ^ 2) :
    Bounded B fun x => (∑ i ∈ s, F i x) ^ 2 := by
  classical
  induction s using Finset.induction_on with
  | empty => simpa using zero
  | insert a s ha ih =>
    have h1 := sq_add (h a (Finset.mem_insert_self a s)) (ih fun i hi => h i (Finset.mem_insert_of_mem hi))
    refine h1.mono fun x => ?_
    rw [Finset.sum_insert ha]

theorem sq_congr (hu : Bounded B fun x => u x ^ 2) (h : ∀ x, v x = u x) : Bounded B fun x => v x ^ 2 :=
  hu.mono fun x => by rw [h]

/-- A bound of a bound. -/
theorem trans {C : S → ℝ} (hF : Bounded B F) (hB : Bounded C B) : Bounded C F := by
  obtain ⟨K, hK, H⟩ := hF
  obtain ⟨L, hL, H'⟩ := hB
  exact ⟨K * L, mul_nonneg hK hL, fun x => (H x).trans (by rw [mul_assoc]; exact mul_le_mul_of_nonneg_left (H' x) hK)⟩

end Bounded

end HLC
