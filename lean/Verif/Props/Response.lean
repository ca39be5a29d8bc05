import Verif.Lemmas.Response
import Mathlib.Analysis.SpecialFunctions.Integrals.Basic
import Mathlib.Analysis.SpecialFunctions.Trigonometric.DerivHyp
import Mathlib.Analysis.SpecificLimits.Basic
import Mathlib.Topology.Instances.Matrix
import Mathlib.Analysis.Calculus.Deriv.Slope

/-!
# C39-C41, C67, C68: response factors
-/

namespace HLC

open Spec RF Filter Topology

/-! ## The fixed roots -/

theorem alphaWall_pos : ∀ m, 0 < alphaWall m := by intro m; fin_cases m <;> norm_num [alphaWall]
theorem alphaGround_pos : ∀ m, 0 < alphaGround m := by intro m; fin_cases m <;> norm_num [alphaGround]

theorem alphaWall_strictMono : StrictMono alphaWall := by
  rw [Fin.strictMono_iff_lt_succ]
  intro i; fin_cases i <;> simp [alphaWall] <;> norm_num

theorem alphaGround_strictMono : StrictMono alphaGround := by
  rw [Fin.strictMono_iff_lt_succ]
  intro i; fin_cases i <;> simp [alphaGround] <;> norm_num

/-! ## C39: steady state -/

theorem getD_pad12 {n : ℕ} (hn : n ≤ 12) (f : Fin n → ℝ) (m : ℕ) : (pad12 f).getD m 0 = if h : m < n then f ⟨m, h⟩ else 0 := by
  unfold pad12
  rw [List.getD_eq_getElem?_getD, List.getElem?_ofFn]
  by_cases h : m < 12
  · simp [h]
  · have : ¬ m < n := by omega
    simp [h, this]

theorem sum_pad {n : ℕ} (hn : n ≤ 12) (f : Fin n → ℝ) : ∑ m ∈ Finset.range 12, (if h : m < n then f ⟨m, h⟩ else 0) = ∑ m, f m := by
  have h1 : ∑ m ∈ Finset.range 12, (if h : m < n then f ⟨m, h⟩ else 0) = ∑ m ∈ Finset.range n, (if h : m < n then f ⟨m, h⟩ else 0) := by
    symm
    apply Finset.sum_subset
    · intro m hm; simp only [Finset.mem_range] at *; omega
    · intro m _ hm
      have : ¬ m < n := by simpa using hm
      simp [this]
  rw [h1, Finset.sum_range]
  apply Finset.sum_congr rfl
  intro m _
  simp

/-- Gain of one series: first term plus the sums of the geometric tails. -/
theorem gain_tri {n : ℕ} {alp : Fin n → ℝ} (hpos : ∀ m, 0 < alp m) (a0 : ℝ) (a : Fin n → ℝ) :
    triFirst alp a0 a + ∑ m, triExp alp a m / (1 - triRow alp m) = a0 := by
  unfold triFirst triExp triRow
  rw [add_assoc, ← Finset.sum_add_distrib]
  have : ∀ m, (1 - Real.exp (-(alp m * 900))) / (alp m * 900) * a m
      + -a m * (1 / (alp m * 900) * (1 - Real.exp (-(alp m * 900))) ^ 2) / (1 - Real.exp (-(alp m * 900))) = 0 := by
    intro m
    have h1 : 1 - Real.exp (-(alp m * 900)) ≠ 0 := by
      have : Real.exp (-(alp m * 900)) < 1 := by
        rw [Real.exp_lt_one_iff]; have := hpos m; linarith
      linarith
    have h2 := (hpos m).ne'
    field_simp
    ring
  simp only [this, Finset.sum_const_zero, add_zero]

theorem row_mem {n : ℕ} {alp : Fin n → ℝ} (hpos : ∀ m, 0 < alp m) (m : Fin n) : 0 < triRow alp m ∧ triRow alp m < 1 := by
  unfold triRow
  refine ⟨Real.exp_pos _, ?_⟩
  rw [Real.exp_lt_one_iff]; have := hpos m; linarith

theorem responseOf_ok {n : ℕ} {alp : Fin n → ℝ} {ls : List Layer} {rf : ResponseFactor} (H : responseOf alp ls = .ok rf) :
    ∃ aa at', fit (getLaps alp) alp (fun i => gA ls (getLaps alp i)) = .ok aa ∧
      fit (getLaps alp) alp (fun i => gT ls (getLaps alp i)) = .ok at' ∧ ls ≠ [] ∧
      rf = { rft0 := triFirst alp 1 at', rfa0 := triFirst alp (totalR ls) aa, rft1 := pad12 (triExp alp at'),
             rfa1 := pad12 (triExp alp aa), row := pad12 (triRow alp), nRoot := n } := by
  unfold responseOf at H
  split at H
  · cases H
  rename_i hne
  simp only [Bind.bind, Except.bind] at H
  split at H
  · cases H
  rename_i aa ha
  split at H
  · cases H
  rename_i at' ht
  exact ⟨aa, at', ha, ht, by simpa using hne, (Except.ok.inj H).symm⟩

/-- The memory under a constant input converges to the geometric sum. -/
theorem memory_tendsto {phi1 row : List ℝ} {x : ℝ} {init : ℕ → ℝ} {m : ℕ} (h0 : 0 ≤ row.getD m 0) (h1 : row.getD m 0 < 1) :
    Tendsto (fun n => memory phi1 row (fun _ => x) init n m) atTop (𝓝 (phi1.getD m 0 * x / (1 - row.getD m 0))) := by
  have hne : (1 : ℝ) - row.getD m 0 ≠ 0 := by linarith
  have e : ∀ n, memory phi1 row (fun _ => x) init n m
      = phi1.getD m 0 * x / (1 - row.getD m 0) + (row.getD m 0) ^ n * (init m - phi1.getD m 0 * x / (1 - row.getD m 0)) := by
    intro n
    induction n with
    | zero => simp [memory]
    | succ n ih =>
      simp only [memory]
      rw [ih, pow_succ]
      generalize phi1.getD m 0 = p at *
      generalize row.getD m 0 = r at *
      have : p * x = p * x / (1 - r) * (1 - r) := (div_mul_cancel₀ _ hne).symm
      generalize p * x / (1 - r) = y at *
      rw [this]; ring
  simp only [e]
  have := (tendsto_pow_atTop_nhds_zero_of_lt_one h0 h1).mul_const (init m - phi1.getD m 0 * x / (1 - row.getD m 0))
  have := this.const_add (phi1.getD m 0 * x / (1 - row.getD m 0))
  simpa using this

/-- Output of a padded series under a constant input. -/
theorem output_tendsto {n : ℕ} (hn : n ≤ 12) {alp : Fin n → ℝ} (hpos : ∀ m, 0 < alp m) (a0 : ℝ) (a : Fin n → ℝ) (x : ℝ) (init : ℕ → ℝ) :
    Tendsto (output (triFirst alp a0 a) (pad12 (triExp alp a)) (pad12 (triRow alp)) (fun _ => x) init) atTop (𝓝 (a0 * x)) := by
  have hm : ∀ m, Tendsto (fun k => memory (pad12 (triExp alp a)) (pad12 (triRow alp)) (fun _ => x) init k m) atTop
      (𝓝 ((pad12 (triExp alp a)).getD m 0 * x / (1 - (pad12 (triRow alp)).getD m 0))) := by
    intro m
    apply memory_tendsto
    · rw [getD_pad12 hn]; split
      · exact (row_mem hpos _).1.le
      · exact le_rfl
    · rw [getD_pad12 hn]; split
      · exact (row_mem hpos _).2
      · norm_num
  have hs := (tendsto_finsetSum (Finset.range 12) (fun m _ => hm m)).const_add (triFirst alp a0 a * x)
  have e : triFirst alp a0 a * x + ∑ m ∈ Finset.range 12, (pad12 (triExp alp a)).getD m 0 * x / (1 - (pad12 (triRow alp)).getD m 0)
      = a0 * x := by
    have e2 : ∀ m ∈ Finset.range 12, (pad12 (triExp alp a)).getD m 0 * x / (1 - (pad12 (triRow alp)).getD m 0)
        = (if h : m < n then triExp alp a ⟨m, h⟩ / (1 - triRow alp ⟨m, h⟩) else 0) * x := by
      intro m _
      rw [getD_pad12 hn, getD_pad12 hn]
      split
      · ring
      · simp
    rw [Finset.sum_congr rfl e2, ← Finset.sum_mul, sum_pad hn (fun m => triExp alp a m / (1 - triRow alp m)), ← add_mul,
      gain_tri hpos]
  rw [e] at hs
  exact hs

theorem calc_cases {g : Bool} {ls : List Layer} {rf : ResponseFactor} (H : calcResponseFactor g ls = .ok rf) :
    (g = true ∧ responseOf alphaGround ls = .ok rf) ∨ (g = false ∧ responseOf alphaWall ls = .ok rf) := by
  cases g
  · right; exact ⟨rfl, by simpa [calcResponseFactor] using H⟩
  · left; exact ⟨rfl, by simpa [calcResponseFactor] using H⟩

/-- **C39 (steady state).** For every list of layers, whatever coefficients the fit finds: a constant heat flow `q` into the surface raises
its temperature in the limit by the total resistance times `q`, and a constant temperature `q` on the rear side is transmitted in the
limit with factor one, from any initial memory. -/
theorem C39_steady_state {g : Bool} {ls : List Layer} {rf : ResponseFactor} (H : calcResponseFactor g ls = .ok rf) (q : ℝ) (init : ℕ → ℝ) :
    Tendsto (output rf.rfa0 rf.rfa1 rf.row (fun _ => q) init) atTop (𝓝 ((ls.map Layer.r).sum * q)) ∧
    Tendsto (output rf.rft0 rf.rft1 rf.row (fun _ => q) init) atTop (𝓝 q) := by
  rcases calc_cases H with ⟨-, H⟩ | ⟨-, H⟩ <;> obtain ⟨aa, at', -, -, -, rfl⟩ := responseOf_ok H
  · refine ⟨output_tendsto (by norm_num) alphaGround_pos _ _ q init, ?_⟩
    have := output_tendsto (by norm_num) alphaGround_pos 1 at' q init
    rwa [one_mul] at this
  · refine ⟨output_tendsto (by norm_num) alphaWall_pos _ _ q init, ?_⟩
    have := output_tendsto (by norm_num) alphaWall_pos 1 at' q init
    rwa [one_mul] at this

/-- A constant input with the memory at its steady value stays there. -/
theorem output_fixed {n : ℕ} (hn : n ≤ 12) {alp : Fin n → ℝ} (hpos : ∀ m, 0 < alp m) (a0 : ℝ) (a : Fin n → ℝ) :
    triFirst alp a0 a + ∑ m ∈ Finset.range 12, (pad12 (triExp alp a)).getD m 0 / (1 - (pad12 (triRow alp)).getD m 0) = a0 := by
  have e2 : ∀ m ∈ Finset.range 12, (pad12 (triExp alp a)).getD m 0 / (1 - (pad12 (triRow alp)).getD m 0)
      = (if h : m < n then triExp alp a ⟨m, h⟩ / (1 - triRow alp ⟨m, h⟩) else 0) := by
    intro m _
    rw [getD_pad12 hn, getD_pad12 hn]
    split
    · rfl
    · simp
  rw [Finset.sum_congr rfl e2, sum_pad hn (fun m => triExp alp a m / (1 - triRow alp m)), gain_tri hpos]

/-- **C39 (gain).** The first term plus the sums of the geometric tails is the total resistance for absorption and one for transmission;
all common ratios are in `[0, 1)`. -/
theorem C39_gain {g : Bool} {ls : List Layer} {rf : ResponseFactor} (H : calcResponseFactor g ls = .ok rf) :
    rf.rfa0 + ∑ m ∈ Finset.range 12, rf.rfa1.getD m 0 / (1 - rf.row.getD m 0) = (ls.map Layer.r).sum ∧
    rf.rft0 + ∑ m ∈ Finset.range 12, rf.rft1.getD m 0 / (1 - rf.row.getD m 0) = 1 ∧
    (∀ m, 0 ≤ rf.row.getD m 0 ∧ rf.row.getD m 0 < 1) := by
  have hrow : ∀ {n : ℕ} (_ : n ≤ 12) {alp : Fin n → ℝ} (_ : ∀ m, 0 < alp m) (m : ℕ),
      0 ≤ (pad12 (triRow alp)).getD m 0 ∧ (pad12 (triRow alp)).getD m 0 < 1 := by
    intro n hn alp hpos m
    rw [getD_pad12 hn]
    split
    · exact ⟨(row_mem hpos _).1.le, (row_mem hpos _).2⟩
    · norm_num
  rcases calc_cases H with ⟨-, H⟩ | ⟨-, H⟩ <;> obtain ⟨aa, at', -, -, -, rfl⟩ := responseOf_ok H
  · exact ⟨output_fixed (by norm_num) alphaGround_pos _ _, output_fixed (by norm_num) alphaGround_pos _ _,
      hrow (by norm_num) alphaGround_pos⟩
  · exact ⟨output_fixed (by norm_num) alphaWall_pos _ _, output_fixed (by norm_num) alphaWall_pos _ _,
      hrow (by norm_num) alphaWall_pos⟩

/-- **C39 (windows and doors).** The steady factory gives the resistance from the inner surface to the outside, `1/U - r_i`, without memory. -/
theorem C39_steady_factory {u rI : ℝ} {rf : ResponseFactor} {f : Factory} (H : (Factory.steady u rI).get = .ok (rf, f)) (x : ℕ → ℝ) (n : ℕ) :
    output rf.rfa0 rf.rfa1 rf.row x (fun _ => 0) n = (1 / u - rI) * x n ∧ output rf.rft0 rf.rft1 rf.row x (fun _ => 0) n = x n := by
  simp only [Factory.get] at H
  split at H
  · cases H
  rw [← (Prod.mk.inj (Except.ok.inj H)).1]
  have hz : ∀ m, (List.replicate 12 (0 : ℝ)).getD m 0 = 0 := by
    intro m
    rw [List.getD_eq_getElem?_getD, List.getElem?_replicate]
    split <;> rfl
  have hm : ∀ k m, memory (List.replicate 12 0) (List.replicate 12 0) x (fun _ => 0) k m = 0 := by
    intro k m
    cases k with
    | zero => rfl
    | succ k => simp only [memory]; rw [hz]; ring
  simp only [output, hm, Finset.sum_const_zero, add_zero, one_div_one_div, one_mul, and_self]

/-! ## C67: the series is the sampled response to triangular pulses -/

theorem memory_pulse (phi1 row : List ℝ) (m j : ℕ) :
    memory phi1 row (fun n => if n = 0 then 1 else 0) (fun _ => 0) (j + 1) m = phi1.getD m 0 * row.getD m 0 ^ j := by
  induction j with
  | zero => simp [memory]
  | succ j ih => rw [memory, ih, pow_succ]; simp; ring

theorem rampResponse_step {n : ℕ} {alp : Fin n → ℝ} (hpos : ∀ m, 0 < alp m) (a0 : ℝ) (a : Fin n → ℝ) (t : ℝ) :
    rampResponse (stepResponse alp a0 a) t = a0 * t + ∑ m, a m * ((1 - Real.exp (-(alp m * t))) / alp m) := by
  unfold rampResponse
  have hd : ∀ x ∈ Set.uIcc 0 t, HasDerivAt (fun t => a0 * t + ∑ m, a m * ((1 - Real.exp (-(alp m * t))) / alp m)) (stepResponse alp a0 a x) x := by
    intro x _
    unfold stepResponse
    have h1 : HasDerivAt (fun t : ℝ => a0 * t) a0 x := by simpa using (hasDerivAt_id x).const_mul a0
    have h2 : HasDerivAt (fun t : ℝ => ∑ m, a m * ((1 - Real.exp (-(alp m * t))) / alp m)) (∑ m, a m * Real.exp (-alp m * x)) x := by
      apply HasDerivAt.fun_sum
      intro m _
      have h3 : HasDerivAt (fun t : ℝ => -(alp m * t)) (-alp m) x := by
        have := ((hasDerivAt_id x).const_mul (alp m)).fun_neg
        simpa using this
      have h4 := ((h3.exp.const_sub 1).div_const (alp m)).const_mul (a m)
      have e : a m * (-(Real.exp (-(alp m * x)) * -alp m) / alp m) = a m * Real.exp (-alp m * x) := by
        have := (hpos m).ne'
        rw [neg_mul]
        field_simp
      rw [e] at h4
      exact h4
    exact h1.add h2
  rw [intervalIntegral.integral_eq_sub_of_hasDerivAt hd]
  · simp
  · apply Continuous.intervalIntegrable
    unfold stepResponse
    fun_prop

theorem pulse_tri {n : ℕ} (hn : n ≤ 12) {alp : Fin n → ℝ} (hpos : ∀ m, 0 < alp m) (a0 : ℝ) (a : Fin n → ℝ) (j : ℕ) :
    pulseResponse (triFirst alp a0 a) (pad12 (triExp alp a)) (pad12 (triRow alp)) j = triangleResponse (stepResponse alp a0 a) 900 j := by
  unfold pulseResponse triangleResponse
  cases j with
  | zero =>
    simp only [output, memory, Finset.sum_const_zero, add_zero, if_true, mul_one]
    rw [rampResponse_step hpos]
    unfold triFirst
    rw [add_div, mul_div_assoc, div_self (by norm_num), mul_one, Finset.sum_div]
    congr 1
    apply Finset.sum_congr rfl
    intro m _
    have := (hpos m).ne'
    field_simp
  | succ j =>
    simp only [output, memory_pulse, Nat.succ_ne_zero, if_false, mul_zero, zero_add, rampResponse_step hpos]
    have e : ∀ m ∈ Finset.range 12, (pad12 (triExp alp a)).getD m 0 * (pad12 (triRow alp)).getD m 0 ^ j
        = (if h : m < n then triExp alp a ⟨m, h⟩ * triRow alp ⟨m, h⟩ ^ j else 0) := by
      intro m _
      rw [getD_pad12 hn, getD_pad12 hn]
      split
      · rfl
      · simp
    rw [Finset.sum_congr rfl e, sum_pad hn (fun m => triExp alp a m * triRow alp m ^ j)]
    have key : ∀ m, triExp alp a m * triRow alp m ^ j * 900 = a m * ((1 - Real.exp (-(alp m * (((j + 1 : ℕ) + 1) * 900)))) / alp m)
        - 2 * (a m * ((1 - Real.exp (-(alp m * ((j + 1 : ℕ) * 900)))) / alp m))
        + a m * ((1 - Real.exp (-(alp m * (((j + 1 : ℕ) - 1) * 900)))) / alp m) := by
      intro m
      have h0 := (hpos m).ne'
      have e0 : Real.exp (-(alp m * (((j + 1 : ℕ) - 1) * 900))) = Real.exp (-(alp m * 900)) ^ j := by
        rw [← Real.exp_nat_mul]; congr 1; push_cast; ring
      have e1 : Real.exp (-(alp m * ((j + 1 : ℕ) * 900))) = Real.exp (-(alp m * 900)) ^ j * Real.exp (-(alp m * 900)) := by
        rw [← pow_succ, ← Real.exp_nat_mul]; congr 1; push_cast; ring
      have e2 : Real.exp (-(alp m * (((j + 1 : ℕ) + 1) * 900))) = Real.exp (-(alp m * 900)) ^ j * Real.exp (-(alp m * 900)) ^ 2 := by
        rw [← pow_add, ← Real.exp_nat_mul]; congr 1; push_cast; ring
      rw [e0, e1, e2]
      unfold triExp triRow
      generalize Real.exp (-(alp m * 900)) = x
      field_simp
      ring
    rw [eq_div_iff (by norm_num), Finset.sum_mul, Finset.sum_congr rfl (fun m _ => key m), Finset.sum_add_distrib, Finset.sum_sub_distrib,
      ← Finset.mul_sum]
    push_cast
    ring

/-- **C67, the long series.** `get_RFTRI` also lists the response factors one by one; this list is the same response, from its second entry on as in
the first. -/
theorem C67_long_series {n : ℕ} (hn : n ≤ 12) {alp : Fin n → ℝ} (hpos : ∀ m, 0 < alp m) (a0 : ℝ) (a : Fin n → ℝ) (j : ℕ) :
    triFirst alp a0 a = triangleResponse (stepResponse alp a0 a) 900 0 ∧
    triTerm alp a (j + 1) = triangleResponse (stepResponse alp a0 a) 900 (j + 1) := by
  rw [← pulse_tri hn hpos a0 a 0, ← pulse_tri hn hpos a0 a (j + 1)]
  constructor
  · simp [pulseResponse, output, memory]
  · unfold pulseResponse
    simp only [output, memory_pulse, Nat.succ_ne_zero, if_false, mul_zero, zero_add]
    have e : ∀ m ∈ Finset.range 12, (pad12 (triExp alp a)).getD m 0 * (pad12 (triRow alp)).getD m 0 ^ j
        = (if h : m < n then triExp alp a ⟨m, h⟩ * triRow alp ⟨m, h⟩ ^ j else 0) := by
      intro m _
      rw [getD_pad12 hn, getD_pad12 hn]
      split
      · rfl
      · simp
    rw [Finset.sum_congr rfl e, sum_pad hn (fun m => triExp alp a m * triRow alp m ^ j)]
    unfold triTerm
    rw [Finset.mul_sum]
    refine Finset.sum_congr rfl fun m _ => ?_
    unfold triExp triRow
    rw [← Real.exp_nat_mul]
    have : (j : ℝ) * -(alp m * 900) = -(((j + 1 : ℕ) : ℝ) - 1) * (alp m * 900) := by push_cast; ring
    rw [this]
    ring

/-- The roots of walls meet the hypotheses. -/
example (j : ℕ) : triTerm alphaWall (fun _ => -0.125) (j + 1) = triangleResponse (stepResponse alphaWall 1 fun _ => -0.125) 900 (j + 1) :=
  (C67_long_series (by norm_num) alphaWall_pos 1 _ j).2

/-- **C67, C68.** What `calc_response_factor` returns for a wall: the coefficients are the unique least squares approximation of the
wall's transfer functions at the Laplace parameters by the fixed roots, and the returned series (first terms, exponential terms and
ratios) is exactly the response, at multiples of 900 s, of that approximation to a triangular pulse. -/
def SampledResponse {n : ℕ} (alp : Fin n → ℝ) (ls : List Layer) (rf : ResponseFactor) : Prop :=
  ∃ at' aa : Fin n → ℝ,
    IsBestFit (getLaps alp) alp (fun i => 1 / wallMat (getLaps alp i) ls 1 1 - 1) at' ∧
    IsBestFit (getLaps alp) alp (fun i => wallMat (getLaps alp i) ls 0 1 / wallMat (getLaps alp i) ls 1 1 - (ls.map Layer.r).sum) aa ∧
    ∀ j, pulseResponse rf.rft0 rf.rft1 rf.row j = triangleResponse (stepResponse alp 1 at') 900 j ∧
      pulseResponse rf.rfa0 rf.rfa1 rf.row j = triangleResponse (stepResponse alp (ls.map Layer.r).sum aa) 900 j

theorem C67_sampled_response {ls : List Layer} {rf : ResponseFactor} :
    (calcResponseFactor true ls = .ok rf → SampledResponse alphaGround ls rf) ∧
    (calcResponseFactor false ls = .ok rf → SampledResponse alphaWall ls rf) := by
  constructor
  · intro H
    obtain ⟨aa, at', ha, ht, -, rfl⟩ := responseOf_ok (show responseOf alphaGround ls = .ok rf by simpa [calcResponseFactor] using H)
    exact ⟨at', aa, fit_best alphaGround_pos alphaGround_strictMono.injective ht,
      fit_best alphaGround_pos alphaGround_strictMono.injective ha,
      fun j => ⟨pulse_tri (by norm_num) alphaGround_pos _ _ j, pulse_tri (by norm_num) alphaGround_pos _ _ j⟩⟩
  · intro H
    obtain ⟨aa, at', ha, ht, -, rfl⟩ := responseOf_ok (show responseOf alphaWall ls = .ok rf by simpa [calcResponseFactor] using H)
    exact ⟨at', aa, fit_best alphaWall_pos alphaWall_strictMono.injective ht,
      fit_best alphaWall_pos alphaWall_strictMono.injective ha,
      fun j => ⟨pulse_tri (by norm_num) alphaWall_pos _ _ j, pulse_tri (by norm_num) alphaWall_pos _ _ j⟩⟩

/-- **C68.** The fit never fails: the response factors of every non-empty list of layers are computed, an empty one raises NameError. -/
theorem C68_total (g : Bool) (ls : List Layer) :
    (ls ≠ [] → ∃ rf, calcResponseFactor g ls = .ok rf) ∧ (calcResponseFactor g [] = .error .nameError) := by
  have key : ∀ {n : ℕ} {alp : Fin n → ℝ}, (∀ m, 0 < alp m) → Function.Injective alp → ls ≠ [] → ∃ rf, responseOf alp ls = .ok rf := by
    intro n alp hp hi hne
    obtain ⟨aa, ha⟩ := fit_ok hp hi (fun i => gA ls (getLaps alp i))
    obtain ⟨at', ht⟩ := fit_ok hp hi (fun i => gT ls (getLaps alp i))
    unfold responseOf
    rw [if_neg (by simpa using hne)]
    simp only [Bind.bind, Except.bind, ha, ht]
    exact ⟨_, rfl⟩
  constructor
  · intro hne
    cases g
    · simpa [calcResponseFactor] using key alphaWall_pos alphaWall_strictMono.injective hne
    · simpa [calcResponseFactor] using key alphaGround_pos alphaGround_strictMono.injective hne
  · cases g <;> simp [calcResponseFactor, responseOf]

theorem getLaps_even {n : ℕ} {alp : Fin n → ℝ} (hp : ∀ m, 0 < alp m) (q : ℕ) (h : q + 1 < n) :
    0 < getLaps alp ⟨2 * (q + 1), by omega⟩ ∧ getLaps alp ⟨2 * (q + 1), by omega⟩ ^ 2 = alp ⟨q, by omega⟩ * alp ⟨q + 1, h⟩ := by
  have h0 := hp ⟨q, by omega⟩
  have h1 := hp ⟨q + 1, h⟩
  have e : getLaps alp ⟨2 * (q + 1), by omega⟩ = alp ⟨q + 1, h⟩ / Real.sqrt (alp ⟨q + 1, h⟩ / alp ⟨q, by omega⟩) := by
    unfold getLaps rootAt
    have d1 : 2 * (q + 1) / 2 = q + 1 := by omega
    have d2 : q < n := by omega
    simp [d1, d2, h]
  have hs : 0 < Real.sqrt (alp ⟨q + 1, h⟩ / alp ⟨q, by omega⟩) := Real.sqrt_pos.2 (div_pos h1 h0)
  rw [e]
  refine ⟨div_pos h1 hs, ?_⟩
  rw [div_pow, Real.sq_sqrt (div_pos h1 h0).le, div_div_eq_mul_div, div_eq_iff h1.ne']
  ring

theorem getLaps_zero {n : ℕ} {alp : Fin n → ℝ} (hp : ∀ m, 0 < alp m) (h : 1 < n) :
    0 < getLaps alp ⟨0, by omega⟩ ∧ getLaps alp ⟨0, by omega⟩ ^ 2 * alp ⟨1, h⟩ = alp ⟨0, by omega⟩ ^ 3 := by
  have h0 := hp ⟨0, by omega⟩
  have h1 := hp ⟨1, h⟩
  have e : getLaps alp ⟨0, by omega⟩ = alp ⟨0, by omega⟩ / Real.sqrt (alp ⟨1, h⟩ / alp ⟨0, by omega⟩) := by
    unfold getLaps rootAt
    have d2 : 0 < n := by omega
    simp [d2, h]
  have hs : 0 < Real.sqrt (alp ⟨1, h⟩ / alp ⟨0, by omega⟩) := Real.sqrt_pos.2 (div_pos h1 h0)
  rw [e]
  refine ⟨div_pos h0 hs, ?_⟩
  rw [div_pow, Real.sq_sqrt (div_pos h1 h0).le, div_div_eq_mul_div, div_mul_cancel₀ _ h1.ne']
  ring

theorem getLaps_strictMono {n : ℕ} {alp : Fin n → ℝ} (hp : ∀ m, 0 < alp m) (hm : StrictMono alp) (hn : 1 < n) : StrictMono (getLaps alp) := by
  have key : ∀ k (h : k + 1 < 2 * n), getLaps alp ⟨k, by omega⟩ < getLaps alp ⟨k + 1, h⟩ := by
    intro k h
    rcases Nat.even_or_odd' k with ⟨q, rfl | rfl⟩
    · rw [getLaps_odd alp ⟨q, by omega⟩]
      rcases q with _ | q
      · obtain ⟨a, b⟩ := getLaps_zero hp hn
        have h0 := hp ⟨0, by omega⟩
        have h1 : alp ⟨0, by omega⟩ < alp ⟨1, hn⟩ := hm (Fin.mk_lt_mk.2 (by omega))
        refine lt_of_pow_lt_pow_left₀ 2 h0.le ?_
        show getLaps alp ⟨0, by omega⟩ ^ 2 < _
        have : getLaps alp ⟨0, by omega⟩ ^ 2 * alp ⟨1, hn⟩ < alp ⟨0, by omega⟩ ^ 2 * alp ⟨1, hn⟩ := by
          rw [b]
          nlinarith [pow_pos h0 2]
        exact lt_of_mul_lt_mul_right this (h0.trans h1).le
      · obtain ⟨a, b⟩ := getLaps_even hp q (by omega)
        have h0 := hp ⟨q, by omega⟩
        have h1 : alp ⟨q, by omega⟩ < alp ⟨q + 1, by omega⟩ := hm (Fin.mk_lt_mk.2 (by omega))
        refine lt_of_pow_lt_pow_left₀ 2 (h0.trans h1).le ?_
        rw [b]
        nlinarith
    · obtain ⟨a, b⟩ := getLaps_even hp q (by omega)
      have h0 := hp ⟨q, by omega⟩
      have h1 : alp ⟨q, by omega⟩ < alp ⟨q + 1, by omega⟩ := hm (Fin.mk_lt_mk.2 (by omega))
      rw [getLaps_odd alp ⟨q, by omega⟩]
      refine lt_of_pow_lt_pow_left₀ 2 a.le ?_
      show _ < getLaps alp ⟨2 * (q + 1), by omega⟩ ^ 2
      rw [b]
      nlinarith
  obtain ⟨N, rfl⟩ : ∃ N, n = N + 1 := ⟨n - 1, by omega⟩
  intro x y hxy
  obtain ⟨d, hd⟩ := Nat.exists_eq_add_of_lt (Fin.lt_def.1 hxy)
  have main : ∀ d (h : x.1 + d + 1 < 2 * (N + 1)), getLaps alp x < getLaps alp ⟨x.1 + d + 1, h⟩ := by
    intro d
    induction d with
    | zero => exact fun h => key x.1 h
    | succ d ih => exact fun h => (ih (by omega)).trans (key (x.1 + d + 1) h)
  have := main d (hd ▸ y.2)
  rwa [show (⟨x.1 + d + 1, hd ▸ y.2⟩ : Fin (2 * (N + 1))) = y from Fin.ext hd.symm] at this

/-- The points of the fit for given roots: strictly increasing and positive, so that no point counts twice; the roots themselves, the geometric
means of neighbouring roots, and one point as far below the first root as the mean of the first two is above it. -/
structure FitPoints {n : ℕ} (alp : Fin (n + 2) → ℝ) (s : Fin (2 * (n + 2)) → ℝ) : Prop where
  increasing : StrictMono s
  pos : ∀ k, 0 < s k
  roots : ∀ q : Fin (n + 2), s ⟨2 * q + 1, by omega⟩ = alp q
  means : ∀ q : Fin (n + 1), s ⟨2 * (q + 1), by omega⟩ ^ 2 = alp q.castSucc * alp q.succ
  first : s 0 * s 2 = alp 0 ^ 2

/-- **C68, the points** of both fits. -/
theorem C68_points : FitPoints alphaWall (getLaps alphaWall) ∧ FitPoints alphaGround (getLaps alphaGround) := by
  have key : ∀ {n : ℕ} {alp : Fin (n + 2) → ℝ}, (∀ m, 0 < alp m) → StrictMono alp → FitPoints alp (getLaps alp) := by
    intro n alp hp hm
    have hi := getLaps_strictMono hp hm (by omega)
    obtain ⟨z0, z1⟩ := getLaps_zero hp (show 1 < n + 2 by omega)
    obtain ⟨e0, e1⟩ := getLaps_even hp 0 (show 0 + 1 < n + 2 by omega)
    have h0 := hp ⟨0, by omega⟩
    have h1 := hp ⟨1, by omega⟩
    refine ⟨hi, fun k => z0.trans_le (hi.monotone (Fin.zero_le k)), getLaps_odd alp, fun q => (getLaps_even hp q (by omega)).2, ?_⟩
    refine (pow_left_inj₀ (mul_pos z0 e0).le (sq_nonneg (alp 0)) (two_ne_zero)).1 ?_
    refine mul_right_cancel₀ h1.ne' ?_
    have e2 : (getLaps alp ⟨0, by omega⟩ * getLaps alp ⟨2 * (0 + 1), by omega⟩) ^ 2 * alp ⟨1, by omega⟩
        = getLaps alp ⟨0, by omega⟩ ^ 2 * alp ⟨1, by omega⟩ * getLaps alp ⟨2 * (0 + 1), by omega⟩ ^ 2 := by ring
    rw [e2, z1, e1]
    show alp 0 ^ 3 * (alp 0 * alp 1) = (alp 0 ^ 2) ^ 2 * alp 1
    ring
  exact ⟨key alphaWall_pos alphaWall_strictMono, key alphaGround_pos alphaGround_strictMono⟩

/-! ## C40: wall matrices -/

theorem wallMat_prod (s : ℝ) (ls : List Layer) : wallMat s ls = (ls.map (layerMat s)).prod := by
  cases ls with
  | nil => rfl
  | cons l ls =>
    simp only [wallMat, List.map_cons, List.prod_cons]
    have : ∀ (ls : List Layer) (M : Matrix (Fin 2) (Fin 2) ℝ), ls.foldl (fun m l => m * layerMat s l) M = M * (ls.map (layerMat s)).prod := by
      intro ls
      induction ls with
      | nil => intro M; simp
      | cons l ls ih => intro M; simp only [List.foldl_cons, List.map_cons, List.prod_cons]; rw [ih, mul_assoc]
    exact this ls _

theorem sqrt_layer_pos {l : Layer} {s : ℝ} (hr : 0 < l.r) (hc : 0 ≤ l.c) (hm : ¬ |l.c| < 0.001) (hs : 0 < s) :
    0 < Real.sqrt (l.r * l.c * s) := by
  have : 0 < l.c := by
    rcases hc.lt_or_eq with h | h
    · exact h
    · exfalso; apply hm; rw [← h]; norm_num
  exact Real.sqrt_pos.mpr (by positivity)

theorem layerMat_det {l : Layer} {s : ℝ} (hr : 0 < l.r) (hc : 0 ≤ l.c) (hs : 0 < s) : (layerMat s l).det = 1 := by
  unfold layerMat
  split
  · rw [Matrix.det_fin_two_of]; ring
  · rename_i hm
    have ht := sqrt_layer_pos hr hc hm hs
    simp only []
    rw [Matrix.det_fin_two_of]
    generalize Real.sqrt (l.r * l.c * s) = t at *
    have h1 : l.r / t * Real.sinh t * (t / l.r * Real.sinh t) = Real.sinh t ^ 2 := by
      have := hr.ne'; have := ht.ne'
      field_simp
    rw [h1]
    have := Real.cosh_sq t
    linarith

/-- **C40 (reciprocity).** The transfer matrix of a layered wall has determinant one at every positive Laplace parameter. -/
theorem C40_reciprocal {ls : List Layer} (hw : PhysicalWall ls) {s : ℝ} (hs : 0 < s) : (wallMat s ls).det = 1 := by
  rw [wallMat_prod]
  have : ∀ ls : List Layer, (∀ l ∈ ls, 0 < l.r ∧ 0 ≤ l.c) → ((ls.map (layerMat s)).prod).det = 1 := by
    intro ls
    induction ls with
    | nil => intro _; simp
    | cons l ls ih =>
      intro h
      rw [List.map_cons, List.prod_cons, Matrix.det_mul, ih (fun l hl => h l (List.mem_cons_of_mem _ hl)),
        layerMat_det (h l (List.mem_cons_self)).1 (h l (List.mem_cons_self)).2 hs, mul_one]
  exact this ls hw.2

/-- **C40 (composition).** The matrix of a wall made of two walls is the product of their matrices, indoor side first. -/
theorem C40_composition (s : ℝ) (ls ms : List Layer) : wallMat s (ls ++ ms) = wallMat s ls * wallMat s ms := by
  rw [wallMat_prod, wallMat_prod, wallMat_prod, List.map_append, List.prod_append]

theorem sinh_le_mul_cosh {t : ℝ} (ht : 0 ≤ t) : Real.sinh t ≤ t * Real.cosh t := by
  have hmono : MonotoneOn (fun t => t * Real.cosh t - Real.sinh t) (Set.Ici 0) := by
    have hd : ∀ x, HasDerivAt (fun t => t * Real.cosh t - Real.sinh t) (x * Real.sinh x) x := by
      intro x
      have h := ((hasDerivAt_id x).mul (Real.hasDerivAt_cosh x)).sub (Real.hasDerivAt_sinh x)
      have e : 1 * Real.cosh x + id x * Real.sinh x - Real.cosh x = x * Real.sinh x := by simp
      rw [e] at h
      exact h
    apply monotoneOn_of_deriv_nonneg (convex_Ici 0)
    · exact fun x _ => (hd x).continuousAt.continuousWithinAt
    · exact fun x _ => (hd x).differentiableAt.differentiableWithinAt
    · intro x hx
      rw [interior_Ici] at hx
      rw [(hd x).deriv]
      exact mul_nonneg (le_of_lt hx) (Real.sinh_nonneg_iff.mpr (le_of_lt hx))
  have := hmono (Set.mem_Ici.mpr le_rfl) (Set.mem_Ici.mpr ht) ht
  simp at this
  linarith

/-- Entries of a physical layer: `A = D ≥ 1`, `B ≥ 0`, `C ≥ 0` and `B ≤ R A`. -/
theorem layerMat_entries {l : Layer} {s : ℝ} (hr : 0 < l.r) (hc : 0 ≤ l.c) (hs : 0 < s) :
    1 ≤ layerMat s l 0 0 ∧ layerMat s l 1 1 = layerMat s l 0 0 ∧ 0 ≤ layerMat s l 0 1 ∧ 0 ≤ layerMat s l 1 0 ∧
    layerMat s l 0 1 ≤ l.r * layerMat s l 0 0 := by
  unfold layerMat
  split
  · simp [hr.le]
  · rename_i hm
    have ht := sqrt_layer_pos hr hc hm hs
    simp only [Matrix.of_apply, Matrix.cons_val', Matrix.cons_val_zero, Matrix.cons_val_one, Matrix.cons_val_fin_one]
    generalize Real.sqrt (l.r * l.c * s) = t at *
    have hsh : 0 ≤ Real.sinh t := Real.sinh_nonneg_iff.mpr ht.le
    refine ⟨Real.one_le_cosh t, trivial, by positivity, by positivity, ?_⟩
    have := sinh_le_mul_cosh ht.le
    rw [div_mul_eq_mul_div, div_le_iff₀ ht]
    nlinarith

/-- Entries of a physical wall, as long as the indoor side is built up from the outdoor side. -/
theorem wallMat_entries {s : ℝ} (hs : 0 < s) : ∀ ls : List Layer, (∀ l ∈ ls, 0 < l.r ∧ 0 ≤ l.c) →
    1 ≤ wallMat s ls 1 1 ∧ 0 ≤ wallMat s ls 0 1 ∧ wallMat s ls 0 1 ≤ (ls.map Layer.r).sum * wallMat s ls 1 1 := by
  intro ls
  simp only [wallMat_prod]
  induction ls with
  | nil => intro _; simp
  | cons l ls ih =>
    intro h
    obtain ⟨i1, i2, i3⟩ := ih fun l hl => h l (List.mem_cons_of_mem _ hl)
    obtain ⟨hr, hc⟩ := h l List.mem_cons_self
    obtain ⟨e1, e2, e3, e4, e5⟩ := layerMat_entries hr hc hs
    have hR : 0 ≤ (ls.map Layer.r).sum := List.sum_nonneg fun r hr => by
      obtain ⟨l', hl', rfl⟩ := List.mem_map.mp hr
      exact (h l' (List.mem_cons_of_mem _ hl')).1.le
    rw [List.map_cons, List.prod_cons, List.map_cons, List.sum_cons, Matrix.mul_apply, Matrix.mul_apply, Fin.sum_univ_two, Fin.sum_univ_two, e2]
    generalize (ls.map (layerMat s)).prod = M at *
    generalize (ls.map Layer.r).sum = R at *
    generalize layerMat s l 0 0 = A at *
    generalize layerMat s l 0 1 = B at *
    generalize layerMat s l 1 0 = C at *
    refine ⟨by nlinarith [mul_nonneg e4 i2], by positivity, ?_⟩
    have h1 : A * M 0 1 ≤ A * (R * M 1 1) := mul_le_mul_of_nonneg_left i3 (by linarith)
    have h2 : B * M 1 1 ≤ l.r * A * M 1 1 := mul_le_mul_of_nonneg_right e5 (by linarith)
    have h3 : 0 ≤ (l.r + R) * (C * M 0 1) := by positivity
    nlinarith

/-- **C40 (bounds).** At every positive Laplace parameter the transmission of a physical wall is in `(0, 1]` and its absorption response is
between 0 and the total resistance. -/
theorem C40_bounds {ls : List Layer} (hw : PhysicalWall ls) {s : ℝ} (hs : 0 < s) :
    0 < 1 / wallMat s ls 1 1 ∧ 1 / wallMat s ls 1 1 ≤ 1 ∧ 0 ≤ wallMat s ls 0 1 / wallMat s ls 1 1 ∧
    wallMat s ls 0 1 / wallMat s ls 1 1 ≤ (ls.map Layer.r).sum := by
  obtain ⟨h1, h2, h3⟩ := wallMat_entries hs ls hw.2
  have hp : 0 < wallMat s ls 1 1 := by linarith
  exact ⟨by positivity, by rw [div_le_one hp]; exact h1, by positivity, by rw [div_le_iff₀ hp]; exact h3⟩

theorem sinh_div_tendsto : Tendsto (fun t : ℝ => Real.sinh t / t) (𝓝[≠] 0) (𝓝 1) := by
  have := (Real.hasDerivAt_sinh 0).tendsto_slope_zero
  simp only [zero_add, Real.sinh_zero, sub_zero, Real.cosh_zero, smul_eq_mul] at this
  refine this.congr fun t => ?_
  rw [inv_mul_eq_div]

theorem layerMat_tendsto {l : Layer} (hr : 0 < l.r) (hc : 0 ≤ l.c) :
    Tendsto (fun s => layerMat s l) (𝓝[>] 0) (𝓝 !![1, l.r; 0, 1]) := by
  unfold layerMat
  by_cases hm : |l.c| < 0.001
  · simp only [if_pos hm]; exact tendsto_const_nhds
  · simp only [if_neg hm]
    have ht0 : Tendsto (fun s : ℝ => Real.sqrt (l.r * l.c * s)) (𝓝[>] 0) (𝓝[≠] 0) := by
      rw [tendsto_nhdsWithin_iff]
      constructor
      · have : Tendsto (fun s : ℝ => Real.sqrt (l.r * l.c * s)) (𝓝 0) (𝓝 (Real.sqrt (l.r * l.c * 0))) :=
          (Real.continuous_sqrt.comp (continuous_const.mul continuous_id)).tendsto 0
        rw [mul_zero, Real.sqrt_zero] at this
        exact this.mono_left nhdsWithin_le_nhds
      · filter_upwards [self_mem_nhdsWithin] with s hs
        exact (sqrt_layer_pos hr hc hm hs).ne'
    have ht : Tendsto (fun s : ℝ => Real.sqrt (l.r * l.c * s)) (𝓝[>] 0) (𝓝 0) := ht0.mono_right nhdsWithin_le_nhds
    have hcosh : Tendsto (fun s : ℝ => Real.cosh (Real.sqrt (l.r * l.c * s))) (𝓝[>] 0) (𝓝 1) := by
      have := (Real.continuous_cosh.tendsto 0).comp ht
      rwa [Real.cosh_zero] at this
    have hsinh : Tendsto (fun s : ℝ => Real.sinh (Real.sqrt (l.r * l.c * s))) (𝓝[>] 0) (𝓝 0) := by
      have := (Real.continuous_sinh.tendsto 0).comp ht
      rwa [Real.sinh_zero] at this
    have hb : Tendsto (fun s : ℝ => l.r / Real.sqrt (l.r * l.c * s) * Real.sinh (Real.sqrt (l.r * l.c * s))) (𝓝[>] 0) (𝓝 l.r) := by
      have := (sinh_div_tendsto.comp ht0).const_mul l.r
      rw [mul_one] at this
      refine this.congr fun s => ?_
      simp only [Function.comp]
      ring
    have hcc : Tendsto (fun s : ℝ => Real.sqrt (l.r * l.c * s) / l.r * Real.sinh (Real.sqrt (l.r * l.c * s))) (𝓝[>] 0) (𝓝 0) := by
      have := (ht.div_const l.r).mul hsinh
      simpa using this
    refine tendsto_pi_nhds.mpr fun i => tendsto_pi_nhds.mpr fun j => ?_
    fin_cases i <;> fin_cases j
    · exact hcosh
    · exact hb
    · exact hcc
    · exact hcosh

/-- **C40 (limit).** As the Laplace parameter tends to 0 (steady state) the matrix of a wall tends to that of its total resistance; so the
transmission tends to one, the absorption response tends to the total resistance, and the two functions that are fitted vanish. -/
theorem C40_limit {ls : List Layer} (hw : PhysicalWall ls) :
    Tendsto (fun s => wallMat s ls) (𝓝[>] 0) (𝓝 !![1, (ls.map Layer.r).sum; 0, 1]) ∧
    Tendsto (gA ls) (𝓝[>] 0) (𝓝 0) ∧ Tendsto (gT ls) (𝓝[>] 0) (𝓝 0) := by
  have h1 : Tendsto (fun s => wallMat s ls) (𝓝[>] 0) (𝓝 !![1, (ls.map Layer.r).sum; 0, 1]) := by
    simp only [wallMat_prod]
    have : ∀ ls : List Layer, (∀ l ∈ ls, 0 < l.r ∧ 0 ≤ l.c) →
        Tendsto (fun s => (ls.map (layerMat s)).prod) (𝓝[>] 0) (𝓝 !![1, (ls.map Layer.r).sum; 0, 1]) := by
      intro ls
      induction ls with
      | nil =>
        intro _
        simp only [List.map_nil, List.prod_nil, List.sum_nil]
        have : (1 : Matrix (Fin 2) (Fin 2) ℝ) = !![1, 0; 0, 1] := by
          ext i j; fin_cases i <;> fin_cases j <;> simp
        rw [this]; exact tendsto_const_nhds
      | cons l ls ih =>
        intro h
        have hl := layerMat_tendsto (h l List.mem_cons_self).1 (h l List.mem_cons_self).2
        have := hl.mul (ih fun l hl => h l (List.mem_cons_of_mem _ hl))
        simp only [List.map_cons, List.prod_cons, List.sum_cons]
        have e : !![1, l.r; 0, 1] * !![1, (ls.map Layer.r).sum; 0, 1] = !![1, l.r + (ls.map Layer.r).sum; 0, 1] := by
          ext i j; fin_cases i <;> fin_cases j <;> simp [Matrix.mul_apply, Fin.sum_univ_two, add_comm]
        rw [e] at this
        exact this
    exact this ls hw.2
  have h01 : Tendsto (fun s => wallMat s ls 0 1) (𝓝[>] 0) (𝓝 (ls.map Layer.r).sum) :=
    tendsto_pi_nhds.mp (tendsto_pi_nhds.mp h1 0) 1
  have h11 : Tendsto (fun s => wallMat s ls 1 1) (𝓝[>] 0) (𝓝 1) := tendsto_pi_nhds.mp (tendsto_pi_nhds.mp h1 1) 1
  refine ⟨h1, ?_, ?_⟩
  · have := (h01.div h11 one_ne_zero).sub_const (totalR ls)
    rw [div_one, show (ls.map Layer.r).sum = totalR ls from rfl, sub_self] at this
    exact this
  · have := ((tendsto_const_nhds (x := (1 : ℝ))).div h11 one_ne_zero).sub_const 1
    rw [div_one, sub_self] at this
    exact this

/-! ## C41: factories -/

theorem mkLayers_append {cs rs : List ℝ} (hl : cs.length = rs.length) (c r : ℝ) :
    mkLayers (cs ++ [c]) (rs ++ [r]) = mkLayers cs rs ++ [⟨r, c * 1000⟩] := by
  unfold mkLayers
  rw [List.zipWith_append hl.symm]; rfl

theorem mkLayers_r {cs rs : List ℝ} (hl : cs.length = rs.length) : (mkLayers cs rs).map Layer.r = rs := by
  induction rs generalizing cs with
  | nil => simp [mkLayers]
  | cons r rs ih =>
    cases cs with
    | nil => simp at hl
    | cons c cs =>
      have := ih (cs := cs) (by simpa using hl)
      simp only [mkLayers, List.zipWith_cons_cons, List.map_cons] at *
      rw [this]

/-- **C41 (width).** Every response factor computed by the program (not read from the input) has exactly 12 terms, of which those beyond
the number of roots are zero. -/
theorem C41_width {f f' : Factory} {rf : ResponseFactor} (H : f.get = .ok (rf, f')) (hf : ∀ r, f ≠ .direct r) :
    rf.rft1.length = 12 ∧ rf.rfa1.length = 12 ∧ rf.row.length = 12 ∧
    ∀ m, rf.nRoot ≤ m → rf.rft1.getD m 0 = 0 ∧ rf.rfa1.getD m 0 = 0 ∧ rf.row.getD m 0 = 0 := by
  have key : ∀ {g : Bool} {ls : List Layer}, calcResponseFactor g ls = .ok rf → rf.rft1.length = 12 ∧ rf.rfa1.length = 12 ∧ rf.row.length = 12 ∧
      ∀ m, rf.nRoot ≤ m → rf.rft1.getD m 0 = 0 ∧ rf.rfa1.getD m 0 = 0 ∧ rf.row.getD m 0 = 0 := by
    intro g ls H
    rcases calc_cases H with ⟨-, H⟩ | ⟨-, H⟩ <;> obtain ⟨aa, at', -, -, -, rfl⟩ := responseOf_ok H
    all_goals
      refine ⟨by simp [pad12], by simp [pad12], by simp [pad12], ?_⟩
      intro m hm
      simp only at hm
      rw [getD_pad12 (by norm_num), getD_pad12 (by norm_num), getD_pad12 (by norm_num)]
      simp [not_lt.mpr hm]
  cases f with
  | direct r => exact absurd rfl (hf r)
  | envelope cs rs rO =>
    simp only [Factory.get, Bind.bind, Except.bind] at H
    split at H
    · cases H
    rename_i r hr
    rw [(Prod.mk.inj (Except.ok.inj H)).1] at hr
    exact key hr
  | ground cs rs =>
    simp only [Factory.get, Bind.bind, Except.bind] at H
    split at H
    · cases H
    rename_i r hr
    rw [(Prod.mk.inj (Except.ok.inj H)).1] at hr
    exact key hr
  | steady u rI =>
    simp only [Factory.get] at H
    split at H
    · cases H
    rw [← (Prod.mk.inj (Except.ok.inj H)).1]
    refine ⟨rfl, rfl, rfl, ?_⟩
    intro m _
    have : (List.replicate 12 (0 : ℝ)).getD m 0 = 0 := by
      rw [List.getD_eq_getElem?_getD, List.getElem?_replicate]
      split <;> rfl
    exact ⟨this, this, this⟩

/-- **C41 (width, violated).** Response factors given in the input are passed on with whatever number of terms they have. -/
theorem C41_width_violated : ∃ (b : BSpec) (f f' : Factory) (rf : ResponseFactor), create b = .ok f ∧ f.get = .ok (rf, f') ∧
    rf.rft1.length ≠ 12 :=
  ⟨⟨"response_factor", "internal", 0.1, 0.2, [0.3, 0.4], [0.1, 0.1], [0.9, 0.5], [], 0, 0, 0⟩, _, _, _, rfl, rfl, by decide⟩

/-- **C41 (repeatable, partial).** Calling a factory of given or steady response factors again gives the same result. Missing: the factories
that compute response factors from layers, for which it fails (`C41_repeat_violated`). -/
theorem C41_repeat_partial {f f' : Factory} {rf : ResponseFactor} (H : f.get = .ok (rf, f'))
    (hf : (∃ r, f = .direct r) ∨ ∃ u rI, f = .steady u rI) : f'.get = .ok (rf, f') := by
  rcases hf with ⟨r, rfl⟩ | ⟨u, rI, rfl⟩
  · have := Prod.mk.inj (Except.ok.inj H)
    rw [← this.1, ← this.2]; rfl
  · have e : f' = .steady u rI := by
      have H' := H
      simp only [Factory.get] at H'
      split at H'
      · cases H'
      exact (Prod.mk.inj (Except.ok.inj H')).2.symm
    rw [e] at H ⊢
    exact H

/-- **C41 (repeatable, violated).** For every envelope part (with a non-zero outside surface resistance) and for every ground part, the second
call on the same object succeeds but its steady absorption response is that of a wall with one more outside layer: the results of
the two calls differ. -/
theorem C41_repeat_violated (f : Factory)
    (hf : (∃ cs rs rO, f = .envelope cs rs rO ∧ cs.length = rs.length ∧ rO ≠ 0) ∨ ∃ cs rs, f = .ground cs rs ∧ cs.length = rs.length) :
    ∃ rf f' rf' f'', f.get = .ok (rf, f') ∧ f'.get = .ok (rf', f'') ∧ rf ≠ rf' := by
  have key : ∀ (g : Bool) (cs rs : List ℝ) (c r : ℝ), cs.length = rs.length → r ≠ 0 → ∃ rf rf',
      calcResponseFactor g (mkLayers (cs ++ [c]) (rs ++ [r])) = .ok rf ∧
      calcResponseFactor g (mkLayers (cs ++ [c] ++ [c]) (rs ++ [r] ++ [r])) = .ok rf' ∧ rf ≠ rf' := by
    intro g cs rs c r hl hr
    have hl1 : (cs ++ [c]).length = (rs ++ [r]).length := by simp [hl]
    have hl2 : (cs ++ [c] ++ [c]).length = (rs ++ [r] ++ [r]).length := by simp [hl]
    obtain ⟨rf, h1⟩ := (C68_total g (mkLayers (cs ++ [c]) (rs ++ [r]))).1 (by rw [mkLayers_append hl]; simp)
    obtain ⟨rf', h2⟩ := (C68_total g (mkLayers (cs ++ [c] ++ [c]) (rs ++ [r] ++ [r]))).1 (by rw [mkLayers_append hl1]; simp)
    refine ⟨rf, rf', h1, h2, ?_⟩
    intro e
    have g1 := (C39_gain h1).1
    have g2 := (C39_gain h2).1
    rw [← e, g1, mkLayers_r hl1, mkLayers_r hl2] at g2
    simp only [List.sum_append, List.sum_singleton] at g2
    apply hr; linarith
  rcases hf with ⟨cs, rs, rO, rfl, hl, hr⟩ | ⟨cs, rs, rfl, hl⟩
  · obtain ⟨rf, rf', h1, h2, hne⟩ := key false cs rs 0 rO hl hr
    refine ⟨rf, .envelope (cs ++ [0]) (rs ++ [rO]) rO, rf', .envelope (cs ++ [0] ++ [0]) (rs ++ [rO] ++ [rO]) rO, ?_, ?_, hne⟩
    · simp only [Factory.get, h1, Bind.bind, Except.bind]
    · simp only [Factory.get, h2, Bind.bind, Except.bind]
  · obtain ⟨rf, rf', h1, h2, hne⟩ := key true cs rs (3300 * 3) (3 / 1) hl (by norm_num)
    refine ⟨rf, .ground (cs ++ [3300 * 3]) (rs ++ [3 / 1]), rf',
      .ground (cs ++ [3300 * 3] ++ [3300 * 3]) (rs ++ [3 / 1] ++ [3 / 1]), ?_, ?_, hne⟩
    · simp only [Factory.get, h1, Bind.bind, Except.bind]
    · simp only [Factory.get, h2, Bind.bind, Except.bind]

/-- **C41 (selection).** A specification with another method than `response_factor` and an unknown boundary type raises KeyError; every
other specification gives a factory; for parts with layers that factory always succeeds. -/
theorem C41_create (b : BSpec) :
    (create b = .error .keyError ↔ b.method ≠ "response_factor" ∧ b.boundaryType ∉ ["external_general_part", "internal", "ground",
      "external_transparent_part", "external_opaque_part"]) ∧
    (b.method ≠ "response_factor" → b.boundaryType ∈ ["external_general_part", "internal", "ground"] →
      ∃ f rf f', create b = .ok f ∧ f.get = .ok (rf, f') ∧
        rf.rfa0 + ∑ m ∈ Finset.range 12, rf.rfa1.getD m 0 / (1 - rf.row.getD m 0) =
          (b.layers.map Prod.snd).sum + (if b.boundaryType = "ground" then 3 else b.rO)) := by
  have hlen : (b.layers.map Prod.fst).length = (b.layers.map Prod.snd).length := by simp
  constructor
  · unfold create
    constructor
    · intro H
      split at H
      · cases H
      split at H
      · cases H
      split at H
      · cases H
      split at H
      · cases H
      rename_i h1 h2 h3 h4
      refine ⟨h1, ?_⟩
      simp only [List.mem_cons, List.not_mem_nil, or_false]
      tauto
    · rintro ⟨h1, h2⟩
      simp only [List.mem_cons, List.not_mem_nil, or_false] at h2
      rw [if_neg h1, if_neg (by tauto), if_neg (by tauto), if_neg (by tauto)]
  · intro hm hb
    have key : ∀ (g : Bool) (c r : ℝ), ∃ rf, calcResponseFactor g (mkLayers (b.layers.map Prod.fst ++ [c]) (b.layers.map Prod.snd ++ [r])) = .ok rf ∧
        rf.rfa0 + ∑ m ∈ Finset.range 12, rf.rfa1.getD m 0 / (1 - rf.row.getD m 0) = (b.layers.map Prod.snd).sum + r := by
      intro g c r
      obtain ⟨rf, h1⟩ := (C68_total g _).1 (show mkLayers (b.layers.map Prod.fst ++ [c]) (b.layers.map Prod.snd ++ [r]) ≠ [] by
        rw [mkLayers_append hlen]; simp)
      refine ⟨rf, h1, ?_⟩
      rw [(C39_gain h1).1, mkLayers_r (by simp)]
      simp
    simp only [List.mem_cons, List.not_mem_nil, or_false] at hb
    rcases hb with hb | hb | hb
    · obtain ⟨rf, h1, h2⟩ := key false 0 b.rO
      refine ⟨.envelope (b.layers.map Prod.fst) (b.layers.map Prod.snd) b.rO, rf,
        .envelope (b.layers.map Prod.fst ++ [0]) (b.layers.map Prod.snd ++ [b.rO]) b.rO, ?_, ?_, ?_⟩
      · unfold create; rw [if_neg hm, if_pos (Or.inl hb)]
      · simp only [Factory.get, h1, Bind.bind, Except.bind]
      · rw [h2, if_neg (by rw [hb]; decide)]
    · obtain ⟨rf, h1, h2⟩ := key false 0 b.rO
      refine ⟨.envelope (b.layers.map Prod.fst) (b.layers.map Prod.snd) b.rO, rf,
        .envelope (b.layers.map Prod.fst ++ [0]) (b.layers.map Prod.snd ++ [b.rO]) b.rO, ?_, ?_, ?_⟩
      · unfold create; rw [if_neg hm, if_pos (Or.inr hb)]
      · simp only [Factory.get, h1, Bind.bind, Except.bind]
      · rw [h2, if_neg (by rw [hb]; decide)]
    · obtain ⟨rf, h1, h2⟩ := key true (3300 * 3) (3 / 1)
      refine ⟨.ground (b.layers.map Prod.fst) (b.layers.map Prod.snd), rf,
        .ground (b.layers.map Prod.fst ++ [3300 * 3]) (b.layers.map Prod.snd ++ [3 / 1]), ?_, ?_, ?_⟩
      · unfold create; rw [if_neg hm, if_neg (by rw [hb]; decide), if_pos hb]
      · simp only [Factory.get, h1, Bind.bind, Except.bind]
      · rw [h2, if_pos hb]; norm_num

/-- A wall of 12 cm concrete and 5 cm insulation with its outside surface resistance is a physical wall, and its response factors are computed. -/
example : PhysicalWall [⟨0.075, 230000⟩, ⟨1.2, 1500⟩, ⟨0.04, 0⟩] ∧
    ∃ rf, calcResponseFactor false [⟨0.075, 230000⟩, ⟨1.2, 1500⟩, ⟨0.04, 0⟩] = .ok rf :=
  ⟨⟨by simp, by intro l hl; fin_cases hl <;> norm_num⟩, (C68_total _ _).1 (by simp)⟩

end HLC
