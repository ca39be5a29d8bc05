import Verif.Spec.Passive
import Mathlib.Analysis.SpecialFunctions.Integrals.Basic
import Mathlib.MeasureTheory.Integral.DominatedConvergence
import Mathlib.Analysis.SpecificLimits.Normed
import Mathlib.Tactic.Linarith
import Mathlib.Tactic.Positivity
import Mathlib.Tactic.LinearCombination

/-!
# Parts that take up heat at every frequency
-/

namespace HLC
open Spec Complex MeasureTheory

/-- One harmonic. -/
noncomputable def wave (p : ℤ) (t : ℝ) : ℂ := Complex.exp (p * I * t)

theorem wave_add (p q : ℤ) (t : ℝ) : wave (p + q) t = wave p t * wave q t := by
  unfold wave
  rw [← Complex.exp_add]
  congr 1
  push_cast
  ring

theorem wave_norm (p : ℤ) (t : ℝ) : ‖wave p t‖ = 1 := by
  unfold wave
  have : (p * I * t : ℂ) = ((p * t : ℝ) : ℂ) * I := by push_cast; ring
  rw [this]
  exact Complex.norm_exp_ofReal_mul_I _

theorem wave_continuous (p : ℤ) : Continuous (wave p) := by unfold wave; fun_prop

theorem wave_conj (p : ℤ) (t : ℝ) : (starRingEnd ℂ) (wave p t) = wave (-p) t := by
  unfold wave
  rw [← Complex.exp_conj]
  congr 1
  simp

theorem wave_pow (n : ℕ) (t : ℝ) : wave 1 t ^ n = wave n t := by
  unfold wave
  rw [← Complex.exp_nat_mul]
  congr 1
  push_cast
  ring

/-- The mean of a harmonic over a period. -/
theorem wave_integral (p : ℤ) : ∫ t in (0 : ℝ)..2 * Real.pi, wave p t = if p = 0 then 2 * (Real.pi : ℂ) else 0 := by
  split_ifs with h
  · subst h
    simp [wave]
  · have hc : (p : ℂ) * I ≠ 0 := mul_ne_zero (by exact_mod_cast h) I_ne_zero
    unfold wave
    rw [integral_exp_mul_complex hc]
    have : Complex.exp ((p : ℂ) * I * ((2 * Real.pi : ℝ) : ℂ)) = 1 := by
      rw [Complex.exp_eq_one_iff]
      exact ⟨p, by push_cast; ring⟩
    rw [this]
    simp

theorem mode_ne {r : ℝ} (hr : 0 ≤ r ∧ r < 1) (t : ℝ) : (1 : ℂ) - r * wave 1 t ≠ 0 := by
  intro h
  have h1 : (r : ℂ) * wave 1 t = 1 := by linear_combination -h
  have := congrArg norm h1
  rw [norm_mul, wave_norm, mul_one, norm_one, Complex.norm_real, Real.norm_eq_abs, abs_of_nonneg hr.1] at this
  linarith [hr.2]

theorem mode_continuous {r : ℝ} (hr : 0 ≤ r ∧ r < 1) : Continuous fun t => wave 1 t / (1 - r * wave 1 t) :=
  (wave_continuous 1).div (continuous_const.sub (continuous_const.mul (wave_continuous 1))) (mode_ne hr)

theorem mode_sum {r : ℝ} (hr : 0 ≤ r ∧ r < 1) (p : ℤ) (t : ℝ) :
    HasSum (fun n : ℕ => (r : ℂ) ^ n * wave (n + 1 + p) t) (wave p t * (wave 1 t / (1 - r * wave 1 t))) := by
  have h1 : ‖(r : ℂ) * wave 1 t‖ < 1 := by
    rw [norm_mul, wave_norm, mul_one, Complex.norm_real, Real.norm_eq_abs, abs_of_nonneg hr.1]
    exact hr.2
  have h2 := (hasSum_geometric_of_norm_lt_one h1).mul_left (wave p t * wave 1 t)
  have e1 : (fun n : ℕ => (r : ℂ) ^ n * wave (n + 1 + p) t) = fun n => wave p t * wave 1 t * (r * wave 1 t) ^ n := by
    funext n
    rw [mul_pow, wave_pow, wave_add, wave_add]
    ring
  have e2 : wave p t * (wave 1 t / (1 - r * wave 1 t)) = wave p t * wave 1 t * (1 - r * wave 1 t)⁻¹ := by
    rw [div_eq_mul_inv, mul_assoc]
  rw [e1, e2]
  exact h2

theorem mode_integral {r : ℝ} (hr : 0 ≤ r ∧ r < 1) (j k : ℕ) :
    ∫ t in (0 : ℝ)..2 * Real.pi, wave (j - k) t * (wave 1 t / (1 - r * wave 1 t)) = if j < k then 2 * Real.pi * (r : ℂ) ^ (k - 1 - j) else 0 := by
  have h1 := intervalIntegral.hasSum_integral_of_dominated_convergence (μ := volume) (a := 0) (b := 2 * Real.pi)
    (F := fun (n : ℕ) t => (r : ℂ) ^ n * wave (n + 1 + (j - k)) t) (f := fun t => wave (j - k) t * (wave 1 t / (1 - r * wave 1 t)))
    (fun n _ => r ^ n) (fun n => (continuous_const.mul (wave_continuous _)).aestronglyMeasurable)
    (fun n => Filter.Eventually.of_forall fun t _ => by
      rw [norm_mul, wave_norm, mul_one, norm_pow, Complex.norm_real, Real.norm_eq_abs, abs_of_nonneg hr.1])
    (Filter.Eventually.of_forall fun t _ => summable_geometric_of_lt_one hr.1 hr.2)
    intervalIntegrable_const
    (Filter.Eventually.of_forall fun t _ => mode_sum hr (j - k) t)
  simp only [intervalIntegral.integral_const_mul, wave_integral] at h1
  refine h1.unique ?_
  split_ifs with hjk
  · have h2 := hasSum_single (f := fun n : ℕ => (r : ℂ) ^ n * if (n : ℤ) + 1 + (j - k) = 0 then 2 * (Real.pi : ℂ) else 0) (k - 1 - j) (by
      intro n hn
      rw [if_neg (by omega), mul_zero])
    rw [if_pos (by omega)] at h2
    rw [mul_comm (2 * (Real.pi : ℂ)) ((r : ℂ) ^ (k - 1 - j))]
    exact h2
  · have : (fun n : ℕ => (r : ℂ) ^ n * if (n : ℤ) + 1 + (j - k) = 0 then 2 * (Real.pi : ℂ) else 0) = fun _ => 0 := by
      funext n
      rw [if_neg (by omega), mul_zero]
    rw [this]
    exact hasSum_zero

theorem heldOf_eq (p r : Fin 12 → ℝ) (q : ℕ → ℝ) (k : ℕ) (l : Fin 12) :
    heldOf p r 0 q k l = ∑ j ∈ Finset.range k, p l * r l ^ (k - 1 - j) * q j := by
  induction k with
  | zero => simp [heldOf]
  | succ k ih =>
    show p l * q k + r l * heldOf p r 0 q k l = _
    rw [ih, Finset.sum_range_succ, Finset.mul_sum]
    have h1 : ∀ j ∈ Finset.range k, r l * (p l * r l ^ (k - 1 - j) * q j) = p l * r l ^ (k + 1 - 1 - j) * q j := by
      intro j hj
      have : k + 1 - 1 - j = (k - 1 - j) + 1 := by have := Finset.mem_range.1 hj; omega
      rw [this, pow_succ]
      ring
    rw [Finset.sum_congr rfl h1]
    simp
    ring

section
variable {p0 R ε : ℝ} {p r : Fin 12 → ℝ}

/-- The flows as a sum of harmonics. -/
noncomputable def spectrum (q : ℕ → ℝ) (n : ℕ) (t : ℝ) : ℂ := ∑ k ∈ Finset.range n, (q k : ℂ) * wave k t

theorem spectrum_continuous (q : ℕ → ℝ) (n : ℕ) : Continuous (spectrum q n) :=
  continuous_finsetSum _ fun _ _ => continuous_const.mul (wave_continuous _)

theorem spectrum_sq (q : ℕ → ℝ) (n : ℕ) (t : ℝ) :
    (normSq (spectrum q n t) : ℂ) = ∑ k ∈ Finset.range n, ∑ j ∈ Finset.range n, ((q k * q j : ℝ) : ℂ) * wave (j - k) t := by
  rw [normSq_eq_conj_mul_self]
  unfold spectrum
  rw [map_sum, Finset.sum_mul_sum]
  refine Finset.sum_congr rfl fun k _ => Finset.sum_congr rfl fun j _ => ?_
  rw [map_mul, conj_ofReal, wave_conj, show ((j : ℤ) - k) = -k + j by ring, wave_add]
  push_cast
  ring

theorem spectrum_mean (q : ℕ → ℝ) (n : ℕ) :
    ∫ t in (0 : ℝ)..2 * Real.pi, (normSq (spectrum q n t) : ℂ) = ((2 * Real.pi * ∑ k ∈ Finset.range n, q k ^ 2 : ℝ) : ℂ) := by
  simp only [spectrum_sq]
  have hc : ∀ j k : ℕ, Continuous fun t => ((q k * q j : ℝ) : ℂ) * wave (j - k) t := fun j k => continuous_const.mul (wave_continuous _)
  rw [intervalIntegral.integral_finsetSum fun k _ => (continuous_finsetSum _ fun j _ => hc j k).intervalIntegrable _ _, ofReal_mul, ofReal_sum,
    Finset.mul_sum]
  refine Finset.sum_congr rfl fun k hk => ?_
  rw [intervalIntegral.integral_finsetSum fun j _ => (hc j k).intervalIntegrable _ _]
  simp only [intervalIntegral.integral_const_mul, wave_integral]
  rw [Finset.sum_eq_single k]
  · simp; ring
  · intro j _ hjk
    rw [if_neg (by omega), mul_zero]
  · intro h; exact absurd hk h

theorem mode_mean {r : ℝ} (hr : 0 ≤ r ∧ r < 1) (q : ℕ → ℝ) (n : ℕ) :
    ∫ t in (0 : ℝ)..2 * Real.pi, (normSq (spectrum q n t) : ℂ) * (wave 1 t / (1 - r * wave 1 t))
      = ((2 * Real.pi * ∑ k ∈ Finset.range n, q k * ∑ j ∈ Finset.range k, r ^ (k - 1 - j) * q j : ℝ) : ℂ) := by
  have e : ∀ t, (normSq (spectrum q n t) : ℂ) * (wave 1 t / (1 - r * wave 1 t))
      = ∑ k ∈ Finset.range n, ∑ j ∈ Finset.range n, ((q k * q j : ℝ) : ℂ) * (wave (j - k) t * (wave 1 t / (1 - r * wave 1 t))) := by
    intro t
    rw [spectrum_sq, Finset.sum_mul]
    refine Finset.sum_congr rfl fun k _ => ?_
    rw [Finset.sum_mul]
    exact Finset.sum_congr rfl fun j _ => by ring
  simp only [e]
  have hc : ∀ j k : ℕ, Continuous fun t => ((q k * q j : ℝ) : ℂ) * (wave (j - k) t * (wave 1 t / (1 - r * wave 1 t))) := fun j k =>
    continuous_const.mul ((wave_continuous _).mul (mode_continuous hr))
  rw [intervalIntegral.integral_finsetSum fun k _ => (continuous_finsetSum _ fun j _ => hc j k).intervalIntegrable _ _, ofReal_mul, ofReal_sum,
    Finset.mul_sum]
  refine Finset.sum_congr rfl fun k hk => ?_
  rw [intervalIntegral.integral_finsetSum fun j _ => (hc j k).intervalIntegrable _ _]
  simp only [intervalIntegral.integral_const_mul, mode_integral hr]
  have h1 : Finset.range k = (Finset.range n).filter fun j => j < k := by
    ext j
    have := Finset.mem_range.1 hk
    simp
    omega
  rw [h1, Finset.sum_filter, Finset.mul_sum, ofReal_sum, Finset.mul_sum]
  refine Finset.sum_congr rfl fun j _ => ?_
  split_ifs
  · push_cast; ring
  · simp

/-- **Parseval.** A surface that takes up heat at every frequency takes up heat from every history. -/
theorem takes_of_answer (hr : ∀ l, 0 ≤ r l ∧ r l < 1) (H : ∀ z : ℂ, ‖z‖ = 1 → ε ≤ (answer p0 R p r z).re) : Takes p0 R ε p r := by
  intro q n
  have hc : ∀ l, Continuous fun t => (p l : ℂ) * wave 1 t / (1 - r l * wave 1 t) := fun l => by
    have h1 : Continuous fun t => (p l : ℂ) * (wave 1 t / (1 - r l * wave 1 t)) := continuous_const.mul (mode_continuous (hr l))
    exact h1.congr fun t => by ring
  have hs : Continuous fun t => (normSq (spectrum q n t) : ℂ) := continuous_ofReal.comp (continuous_normSq.comp (spectrum_continuous q n))
  have ha : Continuous fun t => answer p0 R p r (wave 1 t) := by
    unfold answer
    exact continuous_const.add (continuous_finsetSum _ fun l _ => hc l)
  -- the work in terms of frequencies
  have hI : ∫ t in (0 : ℝ)..2 * Real.pi, (normSq (spectrum q n t) : ℂ) * answer p0 R p r (wave 1 t)
      = ((2 * Real.pi * ∑ k ∈ Finset.range n, q k * (p0 * q k + ∑ l, heldOf p r 0 q k l + R * q k) : ℝ) : ℂ) := by
    have e : ∀ t, (normSq (spectrum q n t) : ℂ) * answer p0 R p r (wave 1 t)
        = ((p0 + R : ℝ) : ℂ) * (normSq (spectrum q n t) : ℂ)
          + ∑ l, (p l : ℂ) * ((normSq (spectrum q n t) : ℂ) * (wave 1 t / (1 - r l * wave 1 t))) := by
      intro t
      unfold answer
      rw [mul_add, Finset.mul_sum]
      push_cast
      congr 1
      · ring
      · exact Finset.sum_congr rfl fun l _ => by ring
    simp only [e]
    have hm : ∀ l, Continuous fun t => (p l : ℂ) * ((normSq (spectrum q n t) : ℂ) * (wave 1 t / (1 - r l * wave 1 t))) := fun l =>
      continuous_const.mul (hs.mul (mode_continuous (hr l)))
    have hk : Continuous fun t => ((p0 + R : ℝ) : ℂ) * (normSq (spectrum q n t) : ℂ) := continuous_const.mul hs
    rw [intervalIntegral.integral_add (hk.intervalIntegrable _ _)
      ((continuous_finsetSum _ fun l _ => hm l).intervalIntegrable _ _), intervalIntegral.integral_const_mul, spectrum_mean,
      intervalIntegral.integral_finsetSum fun l _ => (hm l).intervalIntegrable _ _]
    simp only [intervalIntegral.integral_const_mul, mode_mean (hr _)]
    have e2 : ∑ k ∈ Finset.range n, q k * (p0 * q k + ∑ l, heldOf p r 0 q k l + R * q k)
        = (p0 + R) * ∑ k ∈ Finset.range n, q k ^ 2
          + ∑ l, p l * ∑ k ∈ Finset.range n, q k * ∑ j ∈ Finset.range k, r l ^ (k - 1 - j) * q j := by
      simp only [Finset.mul_sum]
      rw [Finset.sum_comm, ← Finset.sum_add_distrib]
      refine Finset.sum_congr rfl fun k _ => ?_
      rw [← sub_eq_zero]
      have : ∑ l, heldOf p r 0 q k l = ∑ l, ∑ j ∈ Finset.range k, p l * r l ^ (k - 1 - j) * q j :=
        Finset.sum_congr rfl fun l _ => heldOf_eq p r q k l
      rw [this]
      have h3 : q k * ∑ l, ∑ j ∈ Finset.range k, p l * r l ^ (k - 1 - j) * q j
          = ∑ l, ∑ j ∈ Finset.range k, p l * (q k * (r l ^ (k - 1 - j) * q j)) := by
        simp only [Finset.mul_sum]
        exact Finset.sum_congr rfl fun l _ => Finset.sum_congr rfl fun j _ => by ring
      linear_combination h3
    rw [e2]
    push_cast
    rw [mul_add]
    refine congrArg₂ (· + ·) (by ring) ?_
    rw [Finset.mul_sum]
    exact Finset.sum_congr rfl fun l _ => by ring
  -- real parts
  have hre : ∫ t in (0 : ℝ)..2 * Real.pi, normSq (spectrum q n t) * (answer p0 R p r (wave 1 t)).re
      = 2 * Real.pi * ∑ k ∈ Finset.range n, q k * (p0 * q k + ∑ l, heldOf p r 0 q k l + R * q k) := by
    have h1 := congrArg Complex.re hI
    rw [ofReal_re] at h1
    rw [← h1]
    have hk : Continuous fun t => (normSq (spectrum q n t) : ℂ) * answer p0 R p r (wave 1 t) := hs.mul ha
    have h2 := (Complex.reCLM).intervalIntegral_comp_comm (hk.intervalIntegrable (μ := volume) 0 (2 * Real.pi))
    simp only [Complex.reCLM_apply] at h2
    rw [← h2]
    refine intervalIntegral.integral_congr fun t _ => ?_
    simp
  have hsq : ∫ t in (0 : ℝ)..2 * Real.pi, normSq (spectrum q n t) = 2 * Real.pi * ∑ k ∈ Finset.range n, q k ^ 2 := by
    have h1 := spectrum_mean q n
    rw [intervalIntegral.integral_ofReal] at h1
    exact_mod_cast h1
  have hs' : Continuous fun t => normSq (spectrum q n t) := continuous_normSq.comp (spectrum_continuous q n)
  have hmono : ∫ t in (0 : ℝ)..2 * Real.pi, ε * normSq (spectrum q n t)
      ≤ ∫ t in (0 : ℝ)..2 * Real.pi, normSq (spectrum q n t) * (answer p0 R p r (wave 1 t)).re := by
    refine intervalIntegral.integral_mono (by positivity) ((continuous_const.mul hs').intervalIntegrable _ _)
      ((hs'.mul (continuous_re.comp ha)).intervalIntegrable _ _) fun t => ?_
    have := mul_le_mul_of_nonneg_left (H (wave 1 t) (wave_norm 1 t)) (normSq_nonneg (spectrum q n t))
    linarith
  rw [intervalIntegral.integral_const_mul, hsq, hre] at hmono
  have hpi := Real.pi_pos
  nlinarith

/-- The worst that a mode can take back. -/
theorem worst_le {p r : ℝ} (hr : 0 ≤ r ∧ r < 1) {z : ℂ} (hz : ‖z‖ = 1) : -worst p r ≤ ((p : ℂ) * z / (1 - r * z)).re := by
  have h1 : z.re ^ 2 + z.im ^ 2 = 1 := by
    have := Complex.sq_norm z
    rw [hz, normSq_apply] at this
    linarith
  have hu : -1 ≤ z.re ∧ z.re ≤ 1 := abs_le.1 (by rw [← hz]; exact abs_re_le_norm z)
  have hD : normSq (1 - r * z) = 1 - 2 * r * z.re + r ^ 2 := by
    rw [normSq_apply]
    simp
    linear_combination r ^ 2 * h1
  have hDpos : 0 < 1 - 2 * r * z.re + r ^ 2 := by nlinarith
  have hre : ((p : ℂ) * z / (1 - r * z)).re = p * ((z.re - r) / (1 - 2 * r * z.re + r ^ 2)) := by
    rw [div_re, hD]
    simp
    rw [← add_div, mul_div_assoc']
    congr 1
    linear_combination -p * r * h1
  rw [hre]
  generalize z.re = u at *
  unfold worst
  split_ifs with hp
  · have h2 : -(1 / (1 + r)) ≤ (u - r) / (1 - 2 * r * u + r ^ 2) := by
      rw [neg_le_iff_add_nonneg, div_add_div _ _ hDpos.ne' (by linarith)]
      refine div_nonneg ?_ (mul_pos hDpos (by linarith)).le
      nlinarith [mul_nonneg (by linarith [hu.1] : 0 ≤ 1 + u) (by linarith [hr.2] : 0 ≤ 1 - r)]
    have := mul_le_mul_of_nonneg_left h2 hp
    rw [mul_neg, mul_one_div] at this
    exact this
  · push Not at hp
    have h2 : (u - r) / (1 - 2 * r * u + r ^ 2) ≤ 1 / (1 - r) := by
      rw [div_le_div_iff₀ hDpos (by linarith [hr.2])]
      nlinarith [mul_nonneg (by linarith [hu.2] : 0 ≤ 1 - u) (by linarith [hr.1] : 0 ≤ 1 + r)]
    have := mul_le_mul_of_nonpos_left h2 hp.le
    rw [mul_one_div] at this
    rw [neg_div, neg_neg]
    exact this

/-- Signs instead of frequencies. -/
theorem takes_of_worst (hr : ∀ l, 0 ≤ r l ∧ r l < 1) (H : ε + ∑ l, worst (p l) (r l) ≤ p0 + R) : Takes p0 R ε p r := by
  refine takes_of_answer hr fun z hz => ?_
  have e : (answer p0 R p r z).re = p0 + R + ∑ l, ((p l : ℂ) * z / (1 - r l * z)).re := by
    unfold answer
    simp
  rw [e]
  have := Finset.sum_le_sum fun l (_ : l ∈ Finset.univ) => worst_le (p := p l) (hr l) hz
  rw [Finset.sum_neg_distrib] at this
  linarith

end

end HLC
