import Verif.Spec.Passive
import Verif.Lemmas.Frequency
import Verif.Props.Response

/-!
# C110: which parts never give back more heat than they took up
-/

namespace HLC.RF
open HLC HLC.Spec

/-- `tanh x ≤ x`, as it appears in the response factors. -/
theorem exp_mean {y : ℝ} (hy : 0 < y) : (1 - Real.exp (-y)) * 2 ≤ y * (1 + Real.exp (-y)) := by
  have h1 := sinh_le_mul_cosh (half_pos hy).le
  rw [Real.sinh_eq, Real.cosh_eq] at h1
  have e1 : Real.exp (-y) = Real.exp (-(y / 2)) * Real.exp (-(y / 2)) := by rw [← Real.exp_add]; congr 1; ring
  have e2 : Real.exp (y / 2) * Real.exp (-(y / 2)) = 1 := by rw [← Real.exp_add]; simp
  have hp := Real.exp_pos (-(y / 2))
  have h2 := mul_le_mul_of_nonneg_right h1 hp.le
  rw [e1]
  generalize Real.exp (y / 2) = u at *
  generalize Real.exp (-(y / 2)) = v at *
  nlinarith

/-- **C110 (parts).** A part is passive behind a film of resistance `R` if at every frequency the real part of its answer is at least `ε > 0`. -/
theorem C110_frequency_parts {rf : ResponseFactor} {R ε : ℝ} (hr : ∀ l, 0 ≤ rf.row.getD l 0 ∧ rf.row.getD l 0 < 1) (hε : 0 < ε)
    (H : ∀ z : ℂ, ‖z‖ = 1 → ε ≤ (answer rf.rfa0 R (fun l => rf.rfa1.getD l 0) (fun l => rf.row.getD l 0) z).re) : PassiveFactors R rf :=
  ⟨hr, ε, hε, takes_of_answer (fun l => hr l) H⟩

/-- **C110 (parts).** A part is passive behind a film of resistance `R` if its answer within a step outweighs what its modes can take back at worst. -/
theorem C110_sign_parts {rf : ResponseFactor} {R : ℝ} (hr : ∀ l, 0 ≤ rf.row.getD l 0 ∧ rf.row.getD l 0 < 1)
    (H : ∑ l : Fin 12, worst (rf.rfa1.getD l 0) (rf.row.getD l 0) < rf.rfa0 + R) : PassiveFactors R rf :=
  ⟨hr, rf.rfa0 + R - ∑ l : Fin 12, worst (rf.rfa1.getD l 0) (rf.row.getD l 0), by linarith, takes_of_worst (fun l => hr l) (by linarith)⟩

theorem tri_worst {n : ℕ} {alp : Fin n → ℝ} (hpos : ∀ m, 0 < alp m) (a0 : ℝ) (a : Fin n → ℝ) :
    ∑ m, worst (triExp alp a m) (triRow alp m) + (a0 + ∑ m, min (a m) 0) ≤ triFirst alp a0 a := by
  unfold triFirst
  have h : ∀ m, worst (triExp alp a m) (triRow alp m) + min (a m) 0 ≤ (1 - Real.exp (-(alp m * 900))) / (alp m * 900) * a m := by
    intro m
    unfold triExp triRow
    have hy : 0 < alp m * 900 := by have := hpos m; linarith
    have h1 := exp_mean hy
    have h2 := Real.exp_pos (-(alp m * 900))
    have h4 : Real.exp (-(alp m * 900)) < 1 := (row_mem hpos m).2
    generalize Real.exp (-(alp m * 900)) = r at *
    generalize alp m * 900 = y at *
    have hr : 0 < 1 + r := by linarith
    have hr' : 0 < 1 - r := by linarith
    have hf : 0 < 1 / y * (1 - r) ^ 2 := by positivity
    unfold worst
    by_cases ha : a m ≤ 0
    · rw [if_pos (mul_nonneg (by linarith) hf.le), min_eq_left ha]
      have e : (1 - r) / y * a m - (-a m * (1 / y * (1 - r) ^ 2) / (1 + r) + a m) = -a m * ((y * (1 + r) - (1 - r) * 2) / (y * (1 + r))) := by
        field_simp
        ring
      have h3 : 0 ≤ -a m * ((y * (1 + r) - (1 - r) * 2) / (y * (1 + r))) :=
        mul_nonneg (by linarith) (div_nonneg (by linarith) (mul_pos hy hr).le)
      linarith
    · push Not at ha
      rw [if_neg (by have := mul_pos ha hf; linarith), min_eq_right ha.le]
      apply le_of_eq
      field_simp
      ring
  have := Finset.sum_le_sum fun m (_ : m ∈ Finset.univ) => h m
  rw [Finset.sum_add_distrib] at this
  linarith

theorem tri_passive {n : ℕ} (hn : n ≤ 12) {alp : Fin n → ℝ} (hpos : ∀ m, 0 < alp m) {R a0 : ℝ} {a : Fin n → ℝ} (hW : WarmsUp R a0 a) (x : ℝ)
    (zs : List ℝ) : PassiveFactors R ⟨x, triFirst alp a0 a, zs, pad12 (triExp alp a), pad12 (triRow alp), n⟩ := by
  refine C110_sign_parts (fun l => ?_) ?_
  · show 0 ≤ (pad12 (triRow alp)).getD l 0 ∧ (pad12 (triRow alp)).getD l 0 < 1
    rw [getD_pad12 hn]
    split_ifs with h
    · exact ⟨(row_mem hpos _).1.le, (row_mem hpos _).2⟩
    · exact ⟨le_rfl, zero_lt_one⟩
  · have e : ∀ l ∈ Finset.range 12, worst ((pad12 (triExp alp a)).getD l 0) ((pad12 (triRow alp)).getD l 0)
        = if h : l < n then worst (triExp alp a ⟨l, h⟩) (triRow alp ⟨l, h⟩) else 0 := by
      intro l _
      rw [getD_pad12 hn, getD_pad12 hn]
      split_ifs <;> simp [worst]
    show ∑ l : Fin 12, worst ((pad12 (triExp alp a)).getD l 0) ((pad12 (triRow alp)).getD l 0) < triFirst alp a0 a + R
    rw [Fin.sum_univ_eq_sum_range fun l => worst ((pad12 (triExp alp a)).getD l 0) ((pad12 (triRow alp)).getD l 0), Finset.sum_congr rfl e,
      sum_pad hn fun m => worst (triExp alp a m) (triRow alp m)]
    have := tri_worst hpos a0 a
    unfold WarmsUp at hW
    linarith

/-- Response factors and the fit they come from: passive behind any film for which the fitted response warms up. -/
def PassiveIfWarms {n : ℕ} (alp : Fin n → ℝ) (ls : List Layer) (rf : ResponseFactor) : Prop :=
  ∃ aa : Fin n → ℝ,
    IsBestFit (getLaps alp) alp (fun i => wallMat (getLaps alp i) ls 0 1 / wallMat (getLaps alp i) ls 1 1 - (ls.map Layer.r).sum) aa ∧
    ∀ R, WarmsUp R (ls.map Layer.r).sum aa → PassiveFactors R rf

/-- **C110 (parts).** The response factors that the program derives from layers are passive behind a film of resistance `R` whenever the fitted step
response of the surface temperature to a heat flow, without its falling terms, would start above `-R`. -/
theorem C110_layered_parts {ls : List Layer} {rf : ResponseFactor} :
    (calcResponseFactor true ls = .ok rf → PassiveIfWarms alphaGround ls rf) ∧
    (calcResponseFactor false ls = .ok rf → PassiveIfWarms alphaWall ls rf) := by
  constructor
  · intro H
    obtain ⟨aa, at', ha, ht, -, rfl⟩ := responseOf_ok (show responseOf alphaGround ls = .ok rf by simpa [calcResponseFactor] using H)
    exact ⟨aa, fit_best alphaGround_pos alphaGround_strictMono.injective ha, fun R hW => tri_passive (by norm_num) alphaGround_pos hW _ _⟩
  · intro H
    obtain ⟨aa, at', ha, ht, -, rfl⟩ := responseOf_ok (show responseOf alphaWall ls = .ok rf by simpa [calcResponseFactor] using H)
    exact ⟨aa, fit_best alphaWall_pos alphaWall_strictMono.injective ha, fun R hW => tri_passive (by norm_num) alphaWall_pos hW _ _⟩

/-- **C110 (parts).** Windows, doors and other parts given by a U value are passive behind any film that makes up for the inner film counted in it. -/
theorem C110_steady_parts {u rI R : ℝ} {rf : ResponseFactor} {f : Factory} (H : (Factory.steady u rI).get = .ok (rf, f)) (hu : rI < 1 / u + R) :
    PassiveFactors R rf := by
  simp only [Factory.get] at H
  split_ifs at H with h0
  cases H
  have z : ∀ l, (List.replicate 12 (0 : ℝ)).getD l 0 = 0 := by
    intro l
    rw [List.getD_eq_getElem?_getD, List.getElem?_replicate]
    split_ifs <;> rfl
  refine C110_sign_parts (fun l => ?_) ?_
  · show 0 ≤ (List.replicate 12 (0 : ℝ)).getD l 0 ∧ (List.replicate 12 (0 : ℝ)).getD l 0 < 1
    rw [z]; norm_num
  · show ∑ l : Fin 12, worst ((List.replicate 12 (0 : ℝ)).getD l 0) ((List.replicate 12 (0 : ℝ)).getD l 0) < 1 / (1 / (1 / u - rI)) + R
    simp only [z, one_div_one_div]
    simp [worst]
    have : u⁻¹ = 1 / u := (one_div u).symm
    linarith

/-- A wall of a resistance without heat capacity warms up: the fitted response is constant. -/
example (r : ℝ) (hr : 0 ≤ r) : WarmsUp 0.11 r (fun _ : Fin 8 => 0) := by simp [WarmsUp]; linarith

/-- So does a gypsum partition (rounded coefficients of its fit, which has terms of both signs) behind a film of 0.11 m2K/W. -/
example : WarmsUp 0.11 0.2864 (![0.001956, -0.009077, 0.02583, -0.08398, -0.2263, 0.04049, -0.03439, 0.006593] : Fin 8 → ℝ) := by
  unfold WarmsUp
  simp [Fin.sum_univ_succ]
  norm_num [min_def]

end HLC.RF
