import Verif.Spec.Passive
import Mathlib.Algebra.Order.Chebyshev
import Mathlib.Algebra.Order.BigOperators.Ring.Finset
import Mathlib.Algebra.Order.Field.GeomSum
import Mathlib.Tactic.Linarith
import Mathlib.Tactic.Positivity
import Mathlib.Tactic.LinearCombination

/-!
# The energy that a surface can give back
-/

namespace HLC
open Spec

section
variable {p r : Fin 12 → ℝ}

theorem heldOf_split (x : Fin 12 → ℝ) (q : ℕ → ℝ) (k : ℕ) (l : Fin 12) : heldOf p r x q k l = heldOf p r 0 q k l + r l ^ k * x l := by
  induction k with
  | zero => simp [heldOf]
  | succ k ih => simp only [heldOf]; rw [ih, pow_succ]; ring

/-- The first step of a history. -/
theorem heldOf_shift (x : Fin 12 → ℝ) (q : ℕ → ℝ) (k : ℕ) :
    heldOf p r x q (k + 1) = heldOf p r (fun l => p l * q 0 + r l * x l) (fun k => q (k + 1)) k := by
  induction k with
  | zero => rfl
  | succ k ih => funext l; rw [heldOf, ih]; rfl

/-- Heat times temperature given off over a history, but for `e` times the squares of the flows. -/
noncomputable def given (p0 R e : ℝ) (p r x : Fin 12 → ℝ) (q : ℕ → ℝ) (n : ℕ) : ℝ :=
  -∑ k ∈ Finset.range n, (q k * (p0 * q k + ∑ l, heldOf p r x q k l + R * q k) - e * q k ^ 2)

theorem given_shift {p0 R e : ℝ} (x : Fin 12 → ℝ) (q : ℕ → ℝ) (n : ℕ) :
    given p0 R e p r x q (n + 1)
      = given p0 R e p r (fun l => p l * q 0 + r l * x l) (fun k => q (k + 1)) n - q 0 * (p0 * q 0 + ∑ l, x l + R * q 0) + e * q 0 ^ 2 := by
  unfold given
  rw [Finset.sum_range_succ']
  simp only [heldOf_shift]
  simp only [heldOf]
  ring

theorem free_sq {ρ : ℝ} (hr : ∀ l, 0 ≤ r l ∧ r l ≤ ρ) (x : Fin 12 → ℝ) (k : ℕ) : (∑ l, r l ^ k * x l) ^ 2 ≤ 12 * (ρ ^ 2) ^ k * ∑ l, x l ^ 2 := by
  have h1 := sq_sum_le_card_mul_sum_sq (s := Finset.univ) (f := fun l : Fin 12 => r l ^ k * x l)
  simp only [Finset.card_univ, Fintype.card_fin] at h1
  refine h1.trans ?_
  rw [mul_assoc]
  refine mul_le_mul_of_nonneg_left ?_ (by norm_num)
  rw [Finset.mul_sum]
  refine Finset.sum_le_sum fun l _ => ?_
  rw [mul_pow, ← pow_mul, mul_comm k 2, pow_mul]
  exact mul_le_mul_of_nonneg_right (pow_le_pow_left₀ (sq_nonneg _) (pow_le_pow_left₀ (hr l).1 (hr l).2 2) k) (sq_nonneg _)

theorem given_le {p0 R ε ρ : ℝ} (hε : 0 < ε) (hρ : ρ < 1) (hr : ∀ l, 0 ≤ r l ∧ r l ≤ ρ) (H : Takes p0 R ε p r) (x : Fin 12 → ℝ) (q : ℕ → ℝ) (n : ℕ) :
    given p0 R (ε / 2) p r x q n ≤ 6 / (ε * (1 - ρ ^ 2)) * ∑ l, x l ^ 2 := by
  have hρ0 : 0 ≤ ρ := (hr 0).1.trans (hr 0).2
  have hρ2 : 0 < 1 - ρ ^ 2 := by nlinarith
  have h1 := H q n
  have hx : 0 ≤ ∑ l, x l ^ 2 := Finset.sum_nonneg fun _ _ => sq_nonneg _
  have e : given p0 R (ε / 2) p r x q n = -∑ k ∈ Finset.range n, q k * (p0 * q k + ∑ l, heldOf p r 0 q k l + R * q k)
      + ε * ∑ k ∈ Finset.range n, q k ^ 2 - ∑ k ∈ Finset.range n, (q k * ∑ l, r l ^ k * x l + ε / 2 * q k ^ 2) := by
    unfold given
    rw [Finset.mul_sum, ← Finset.sum_neg_distrib, ← Finset.sum_neg_distrib, ← Finset.sum_add_distrib, ← Finset.sum_sub_distrib]
    refine Finset.sum_congr rfl fun k _ => ?_
    have : ∑ l, heldOf p r x q k l = ∑ l, heldOf p r 0 q k l + ∑ l, r l ^ k * x l := by
      rw [← Finset.sum_add_distrib]; exact Finset.sum_congr rfl fun l _ => heldOf_split x q k l
    rw [this]
    ring
  have h2 : -∑ k ∈ Finset.range n, (q k * ∑ l, r l ^ k * x l + ε / 2 * q k ^ 2) ≤ ∑ k ∈ Finset.range n, 6 / ε * (ρ ^ 2) ^ k * ∑ l, x l ^ 2 := by
    rw [← Finset.sum_neg_distrib]
    refine Finset.sum_le_sum fun k _ => ?_
    have h3 := free_sq hr x k
    generalize (∑ l, r l ^ k * x l) = u at *
    generalize (ρ ^ 2) ^ k = v at *
    generalize (∑ l, x l ^ 2) = y at *
    have h4 : 6 / ε * v * y = 12 * v * y / (2 * ε) := by rw [div_mul_eq_mul_div, div_mul_eq_mul_div, div_eq_div_iff hε.ne' (by positivity)]; ring
    rw [h4, le_div_iff₀ (by positivity)]
    nlinarith [sq_nonneg (u + ε * q k)]
  have h5 : ∑ k ∈ Finset.range n, 6 / ε * (ρ ^ 2) ^ k * ∑ l, x l ^ 2 ≤ 6 / (ε * (1 - ρ ^ 2)) * ∑ l, x l ^ 2 := by
    rw [← Finset.sum_mul]
    refine mul_le_mul_of_nonneg_right ?_ hx
    rw [← Finset.mul_sum]
    have h6 : ∑ k ∈ Finset.range n, (ρ ^ 2) ^ k ≤ 1 / (1 - ρ ^ 2) := by
      rw [le_div_iff₀ hρ2, mul_comm, mul_neg_geom_sum]
      have : 0 ≤ (ρ ^ 2) ^ n := by positivity
      linarith
    calc 6 / ε * ∑ k ∈ Finset.range n, (ρ ^ 2) ^ k ≤ 6 / ε * (1 / (1 - ρ ^ 2)) := mul_le_mul_of_nonneg_left h6 (by positivity)
      _ = 6 / (ε * (1 - ρ ^ 2)) := by rw [div_mul_div_comm, mul_one]
  rw [e]
  linarith

/-- What a surface can give back at most. -/
noncomputable def store (p0 R e : ℝ) (p r x : Fin 12 → ℝ) : ℝ := ⨆ a : (ℕ → ℝ) × ℕ, given p0 R e p r x a.1 a.2

theorem store_bdd {p0 R ε ρ : ℝ} (hε : 0 < ε) (hρ : ρ < 1) (hr : ∀ l, 0 ≤ r l ∧ r l ≤ ρ) (H : Takes p0 R ε p r) (x : Fin 12 → ℝ) :
    BddAbove (Set.range fun a : (ℕ → ℝ) × ℕ => given p0 R (ε / 2) p r x a.1 a.2) :=
  ⟨_, by rintro _ ⟨a, rfl⟩; exact given_le hε hρ hr H x a.1 a.2⟩

theorem store_le {p0 R ε ρ : ℝ} (hε : 0 < ε) (hρ : ρ < 1) (hr : ∀ l, 0 ≤ r l ∧ r l ≤ ρ) (H : Takes p0 R ε p r) (x : Fin 12 → ℝ) :
    store p0 R (ε / 2) p r x ≤ 6 / (ε * (1 - ρ ^ 2)) * ∑ l, x l ^ 2 :=
  ciSup_le fun a => given_le hε hρ hr H x a.1 a.2

theorem store_nonneg {p0 R ε ρ : ℝ} (hε : 0 < ε) (hρ : ρ < 1) (hr : ∀ l, 0 ≤ r l ∧ r l ≤ ρ) (H : Takes p0 R ε p r) (x : Fin 12 → ℝ) :
    0 ≤ store p0 R (ε / 2) p r x :=
  le_ciSup_of_le (store_bdd hε hρ hr H x) (0, 0) (by simp [given])

/-- A step cannot add more to what can be given back than the heat it brings. -/
theorem store_step {p0 R ε ρ : ℝ} (hε : 0 < ε) (hρ : ρ < 1) (hr : ∀ l, 0 ≤ r l ∧ r l ≤ ρ) (H : Takes p0 R ε p r) (x : Fin 12 → ℝ) (q : ℝ) :
    store p0 R (ε / 2) p r (fun l => p l * q + r l * x l) + ε / 2 * q ^ 2 ≤ store p0 R (ε / 2) p r x + q * (p0 * q + ∑ l, x l + R * q) := by
  have h1 : store p0 R (ε / 2) p r (fun l => p l * q + r l * x l)
      ≤ store p0 R (ε / 2) p r x + q * (p0 * q + ∑ l, x l + R * q) - ε / 2 * q ^ 2 := by
    refine ciSup_le fun a => ?_
    have h2 := le_ciSup (store_bdd hε hρ hr H x) ((fun k => Nat.casesOn k q a.1 : ℕ → ℝ), a.2 + 1)
    have e : given p0 R (ε / 2) p r x (fun k => Nat.casesOn k q a.1 : ℕ → ℝ) (a.2 + 1)
        = given p0 R (ε / 2) p r (fun l => p l * q + r l * x l) a.1 a.2 - q * (p0 * q + ∑ l, x l + R * q) + ε / 2 * q ^ 2 := by
      exact given_shift x _ a.2
    have h3 : given p0 R (ε / 2) p r x (fun k => Nat.casesOn k q a.1 : ℕ → ℝ) (a.2 + 1) ≤ store p0 R (ε / 2) p r x := h2
    rw [e] at h3
    linarith
  linarith

/-- What is given off is a square form of what is held at the start and of the flows. -/
theorem given_add {p0 R e η : ℝ} (hη : 0 < η) (x y : Fin 12 → ℝ) (q : ℕ → ℝ) (n : ℕ) :
    given p0 R e p r (fun l => x l + y l) q n
      = (1 + η) * given p0 R e p r x (fun k => 1 / (1 + η) * q k) n + (1 + 1 / η) * given p0 R e p r y (fun k => η / (1 + η) * q k) n := by
  have zero : ∀ (s : ℝ) (k : ℕ) (l : Fin 12), heldOf p r 0 (fun k => s * q k) k l = s * heldOf p r 0 q k l := by
    intro s k l
    induction k with
    | zero => simp [heldOf]
    | succ k ih => simp only [heldOf]; rw [ih]; ring
  have held : ∀ (x : Fin 12 → ℝ) (s : ℝ) (k : ℕ),
      ∑ l, heldOf p r x (fun k => s * q k) k l = s * ∑ l, heldOf p r 0 q k l + ∑ l, r l ^ k * x l := by
    intro x s k
    rw [Finset.mul_sum, ← Finset.sum_add_distrib]
    exact Finset.sum_congr rfl fun l _ => by rw [heldOf_split, zero]
  have h1 : (1 + η) * (1 / (1 + η)) = 1 := mul_one_div_cancel (by positivity)
  have h2 : (1 + 1 / η) * (η / (1 + η)) = 1 := by field_simp; ring
  have h3 : 1 / (1 + η) + η / (1 + η) = 1 := by rw [← add_div, div_self (by positivity)]
  unfold given
  rw [mul_neg, mul_neg, Finset.mul_sum, Finset.mul_sum, ← neg_add, ← Finset.sum_add_distrib]
  congr 1
  refine Finset.sum_congr rfl fun k _ => ?_
  have e1 := held (fun l => x l + y l) 1 k
  simp only [one_mul] at e1
  have e2 : ∑ l, r l ^ k * (x l + y l) = ∑ l, r l ^ k * x l + ∑ l, r l ^ k * y l := by
    rw [← Finset.sum_add_distrib]
    exact Finset.sum_congr rfl fun l _ => by ring
  rw [e1, e2, held, held]
  generalize ∑ l, heldOf p r 0 q k l = H
  generalize ∑ l, r l ^ k * x l = X
  generalize ∑ l, r l ^ k * y l = Y
  generalize 1 / (1 + η) = a at *
  generalize η / (1 + η) = b at *
  generalize 1 + 1 / η = c at *
  generalize 1 + η = d at *
  beta_reduce
  generalize q k = u
  linear_combination (-(a * (p0 * u ^ 2 + u * H + R * u ^ 2 - e * u ^ 2)) - u * X) * h1
    + (-(b * (p0 * u ^ 2 + u * H + R * u ^ 2 - e * u ^ 2)) - u * Y) * h2 - (p0 * u ^ 2 + u * H + R * u ^ 2 - e * u ^ 2) * h3

/-- What two holdings together can give back. -/
theorem store_add {p0 R ε ρ η : ℝ} (hε : 0 < ε) (hρ : ρ < 1) (hr : ∀ l, 0 ≤ r l ∧ r l ≤ ρ) (H : Takes p0 R ε p r) (hη : 0 < η) (x y : Fin 12 → ℝ) :
    store p0 R (ε / 2) p r (fun l => x l + y l) ≤ (1 + η) * store p0 R (ε / 2) p r x + (1 + 1 / η) * store p0 R (ε / 2) p r y := by
  refine ciSup_le fun a => ?_
  rw [given_add hη]
  exact add_le_add (mul_le_mul_of_nonneg_left (le_ciSup (store_bdd hε hρ hr H x) ((fun k => 1 / (1 + η) * a.1 k), a.2)) (by positivity))
    (mul_le_mul_of_nonneg_left (le_ciSup (store_bdd hε hρ hr H y) ((fun k => η / (1 + η) * a.1 k), a.2)) (by positivity))

end

end HLC
