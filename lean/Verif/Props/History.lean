import Verif.Spec.History
import Verif.Props.Range
import Mathlib.Algebra.Polynomial.BigOperators
import Mathlib.Algebra.Polynomial.Eval.Degree

/-!
# C87: the surface temperature is the superposition of the responses to the history
-/

namespace HLC

set_option linter.unusedSectionVars false

open Spec Finset

theorem remembered_succ (φ r : Fin 12 → ℝ) (x : ℕ → ℝ) (n : ℕ) :
    remembered φ r x (n + 1) = (∑ k ∈ range n, ∑ l, r l * (φ l * r l ^ (n - 1 - k) * x k)) + ∑ l, φ l * x n := by
  unfold remembered
  rw [sum_range_succ]
  congr 1
  · apply sum_congr rfl
    intro k hk
    apply sum_congr rfl
    intro l _
    have : n + 1 - 1 - k = (n - 1 - k) + 1 := by have := mem_range.1 hk; omega
    rw [this, pow_succ]
    ring
  · simp

/-- Solution of the recursion of the convolution terms. -/
theorem recursion (φ r : Fin 12 → ℝ) (x : ℕ → ℝ) (D : ℕ → Fin 12 → ℝ) {M : ℕ}
    (hD : ∀ n l, n + 1 < M → D (n + 1) l = r l * D n l + φ l * x n) {n : ℕ} (hn : n < M) :
    ∑ l, D n l = remembered φ r x n + ∑ l, D 0 l * r l ^ n := by
  have key : ∀ n, n < M → ∀ l, D n l = (∑ k ∈ range n, φ l * r l ^ (n - 1 - k) * x k) + D 0 l * r l ^ n := by
    intro n
    induction n with
    | zero => intro _ l; simp
    | succ n ih =>
      intro h1 l
      rw [hD n l h1, ih (by omega) l, sum_range_succ, mul_add, mul_sum]
      have e : ∀ k ∈ range n, r l * (φ l * r l ^ (n - 1 - k) * x k) = φ l * r l ^ (n + 1 - 1 - k) * x k := by
        intro k hk
        have : n + 1 - 1 - k = (n - 1 - k) + 1 := by have := mem_range.1 hk; omega
        rw [this, pow_succ]
        ring
      rw [sum_congr rfl e, pow_succ]
      simp
      ring
  unfold remembered
  rw [sum_comm, ← sum_add_distrib]
  exact sum_congr rfl fun l _ => key n hn l

theorem remembered_add (φ r : Fin 12 → ℝ) (x y : ℕ → ℝ) (n : ℕ) :
    remembered φ r (fun k => x k + y k) n = remembered φ r x n + remembered φ r y n := by
  unfold remembered
  rw [← sum_add_distrib]
  refine sum_congr rfl fun k _ => ?_
  rw [← sum_add_distrib]
  exact sum_congr rfl fun l _ => by ring

/-- A sum of twelve geometric sequences that starts with twelve zeros is zero. -/
theorem geometric_zero (R r : Fin 12 → ℝ) (h0 : ∀ n < 12, ∑ l, R l * r l ^ n = 0) (n : ℕ) : ∑ l, R l * r l ^ n = 0 := by
  classical
  set p : Polynomial ℝ := ∏ l, (Polynomial.X - Polynomial.C (r l)) with hp
  have hm : p.Monic := Polynomial.monic_prod_of_monic _ _ fun l _ => Polynomial.monic_X_sub_C _
  have hdeg : p.natDegree = 12 := by
    rw [hp, Polynomial.natDegree_prod_of_monic _ _ fun l _ => Polynomial.monic_X_sub_C _]
    simp
  have hroot : ∀ l, p.eval (r l) = 0 := by
    intro l
    rw [hp, Polynomial.eval_prod]
    exact prod_eq_zero (mem_univ l) (by simp)
  have hrec : ∀ n, ∑ l, R l * r l ^ (n + 12) = -∑ i ∈ range 12, p.coeff i * ∑ l, R l * r l ^ (n + i) := by
    intro n
    have h1 : ∑ i ∈ range 13, p.coeff i * ∑ l, R l * r l ^ (n + i) = 0 := by
      have : ∀ i ∈ range 13, p.coeff i * ∑ l, R l * r l ^ (n + i) = ∑ l, R l * r l ^ n * (p.coeff i * r l ^ i) := by
        intro i _
        rw [mul_sum]
        exact sum_congr rfl fun l _ => by rw [pow_add]; ring
      rw [sum_congr rfl this, sum_comm]
      apply sum_eq_zero
      intro l _
      rw [← mul_sum]
      have h2 := hroot l
      rw [Polynomial.eval_eq_sum_range, hdeg] at h2
      rw [h2, mul_zero]
    rw [sum_range_succ] at h1
    have hc : p.coeff 12 = 1 := by rw [← hdeg]; exact hm
    rw [hc, one_mul] at h1
    linarith
  induction n using Nat.strong_induction_on with
  | _ n ih =>
    by_cases hn : n < 12
    · exact h0 n hn
    · obtain ⟨q, rfl⟩ : ∃ q, n = q + 12 := ⟨n - 12, by omega⟩
      rw [hrec q]
      rw [sum_eq_zero, neg_zero]
      intro i hi
      rw [ih (q + i) (by have := mem_range.1 hi; omega), mul_zero]

section
variable {I : Type} [Fintype I] [DecidableEq I] {m N : ℕ} {h : House I (Fin m)} {hR : Fin m → ℝ} {data : Fin N → Record I (Fin m)}
    {hourly dMain dRunUp dRunUpBuild : ℤ} {r : CalcResult I m N} {row : ℕ → LogRow I (Fin m)} {d : ℕ → Record I (Fin m)}

/-- **C87 (as coded).** For every part (whose partner, if any, has the same coefficients and area): until the end of the log the surface
temperature is the superposition of the responses to flux and rear temperature, plus the response to the *changes* of the outdoor temperature
behind it, as if every past outdoor temperature had occurred one step earlier. -/
theorem C87_as_coded (hw : WellFormed h hR (3600 / (hourly : ℝ))) (H : coreCalc h hR data hourly dMain dRunUp dRunUpBuild = .ok r)
    (hrow : Continues row r.log) (hd : Continues d data) (j : Fin m)
    (hm : ∀ l coef, h.kEi j = some (l, coef) → h.hC l = h.hC j ∧ hR l = hR j ∧ h.area l = h.area j) :
    ∃ R : Fin 12 → ℝ, ∀ n < r.nMain.toNat, (row n).thetaS j
      = h.phiA0 j * (row n).qiall j + remembered (h.phiA1 j) (h.ratio j) (fun k => (row k).qiall j) n
        + h.phiT0 j * behind h row d j n + remembered (h.phiT1 j) (h.ratio j) (behind h row d j) n
        + h.kEo j * remembered (h.phiT1 j) (h.ratio j) (fun k => (d (k + 1)).thetaOSol j - (d k).thetaOSol j) n
        + ∑ l, R l * h.ratio j l ^ n := by
  obtain ⟨gs, c0, up, mn, T⟩ := coreCalc_ok H
  have hlen := T.mn_length
  have hl := T.main.length_eq
  have hh : h.hC j + hR j ≠ 0 := (add_pos (hw.hC_pos j) (hw.hR_pos j)).ne'
  -- the rows
  have hr : ∀ n (hn : n < mn.length), row n = LogRow.ofTick mn[n] := fun n hn =>
    (hrow ⟨n, by omega⟩).trans (T.logged ⟨n, by omega⟩ hn)
  have hstep : ∀ n (hn : n < mn.length), ∃ (c : Cond I (Fin m)) (k : Fin N), runTick (n : ℕ) (3600 / (hourly : ℝ)) r.ss c = .ok mn[n] ∧
      pyIndex N (n : ℕ) = .ok k ∧ d n = data k ∧ (∀ p (hp : p < mn.length), n = p + 1 → c = mn[p].next) := by
    intro n hn
    obtain ⟨k', c', t', e1, e2, -, -, -⟩ := logged_step H ⟨n, by omega⟩
    have hdk : d n = data k' := by rw [← hd k', e1]
    rcases n with _ | p
    · obtain ⟨c, hc⟩ := run_at T.main 0 (by omega) hn
      rw [pyRange_getElem, zero_add] at hc
      exact ⟨c, k', hc, e2, hdk, fun p _ h0 => by omega⟩
    · have hc := run_pair T.main p (by omega) hn
      rw [pyRange_getElem, zero_add] at hc
      refine ⟨mn[p].next, k', hc, e2, hdk, fun q hq h0 => ?_⟩
      have : q = p := by omega
      subst this
      rfl
  -- convolution terms
  let A : ℕ → Fin 12 → ℝ := fun n l => if hn : n < mn.length then mn[n].dshA j l else 0
  let B : ℕ → Fin 12 → ℝ := fun n l => if hn : n < mn.length then mn[n].dshT j l else 0
  have hA : ∀ n l, n + 1 < mn.length → A (n + 1) l = h.ratio j l * A n l + h.phiA1 j l * (row n).qiall j := by
    intro n l hn
    obtain ⟨c, k, hc, hk, -, hp⟩ := hstep (n + 1) hn
    obtain ⟨ivs, k', -, hs, hk', e⟩ := step_eqs T.pre hc
    have hc' := hp n (by omega) rfl
    subst hc'
    simp only [A, dif_pos hn, dif_pos (show n < mn.length by omega)]
    rw [e.dshA, hs, hr n (by omega)]
    simp only [Tick.dshA, preCalcOf, TickVars.next, LogRow.ofTick]
    ring
  have hB : ∀ n l, n + 1 < mn.length → B (n + 1) l = h.ratio j l * B n l
      + h.phiT1 j l * (behind h row d j n + h.kEo j * ((d (n + 1)).thetaOSol j - (d n).thetaOSol j)) := by
    intro n l hn
    obtain ⟨c, k, hc, hk, hdk, hp⟩ := hstep (n + 1) hn
    obtain ⟨ivs, k', -, hs, hk', e⟩ := step_eqs T.pre hc
    have : k' = k := Except.ok.inj (hk'.symm.trans hk)
    subst this
    have hc' := hp n (by omega) rfl
    subst hc'
    simp only [B, dif_pos hn, dif_pos (show n < mn.length by omega)]
    have hrear : mn[n + 1].thetaRear j = behind h row d j n + h.kEo j * ((d (n + 1)).thetaOSol j - (d n).thetaOSol j) := by
      rw [e.thetaRear, hs, hdk]
      simp only [Tick.thetaRear, preCalcOf, House.thetaDstrb, kEi_mulVec, behind, rearTemp, hr n (by omega), LogRow.ofTick, TickVars.next]
      cases h.kEi j <;> ring
    rw [e.dshT]
    simp only [Tick.dshT]
    rw [hrear, hs]
    simp only [preCalcOf, TickVars.next]
    ring
  refine ⟨fun l => A 0 l + B 0 l, fun n hn => ?_⟩
  have hn' : n < mn.length := by omega
  obtain ⟨c, k, hc, hk, hdk, -⟩ := hstep n hn'
  have h17 := C17_wall_equation_partial T.pre hc hk j hh hm
  have eA := recursion _ _ _ A hA hn'
  have eB := recursion _ _ _ B hB hn'
  rw [remembered_add] at eB
  have hmul : remembered (h.phiT1 j) (h.ratio j) (fun k => h.kEo j * ((d (k + 1)).thetaOSol j - (d k).thetaOSol j)) n
      = h.kEo j * remembered (h.phiT1 j) (h.ratio j) (fun k => (d (k + 1)).thetaOSol j - (d k).thetaOSol j) n := by
    unfold remembered
    rw [mul_sum]
    refine sum_congr rfl fun k _ => ?_
    rw [mul_sum]
    exact sum_congr rfl fun l _ => by ring
  rw [hmul] at eB
  have hsum : ∑ l, (mn[n].dshT j l + mn[n].dshA j l) = ∑ l, B n l + ∑ l, A n l := by
    rw [← sum_add_distrib]
    simp only [A, B, dif_pos hn']
  rw [hsum, eA, eB] at h17
  have e1 : (row n).thetaS j = mn[n].thetaS j := by rw [hr n hn']; rfl
  have e2 : (row n).qiall j = mn[n].qSrf j := by rw [hr n hn']; rfl
  have e3 : behind h row d j n = rearTemp h (data k).thetaOSol mn[n].thetaEi j := by unfold behind; rw [hdk, hr n hn']; rfl
  rw [e1, e2, h17, ← e3]
  simp only [add_mul, sum_add_distrib]
  ring

/-- **C87 (partial).** The surface temperature of every part that is not exposed to outdoors, or behind which the outdoor temperature is
constant, is the superposition of the responses to the present and past flux and rear temperature, until the end of the log.
Missing: parts with changing outdoor temperature, where it fails (`C87_violated`), and parts whose partner has other coefficients
(`C17_equation_as_coded`). -/
theorem C87_superposition_partial (hw : WellFormed h hR (3600 / (hourly : ℝ)))
    (H : coreCalc h hR data hourly dMain dRunUp dRunUpBuild = .ok r) (hrow : Continues row r.log) (hd : Continues d data) (j : Fin m)
    (hm : ∀ l coef, h.kEi j = some (l, coef) → h.hC l = h.hC j ∧ hR l = hR j ∧ h.area l = h.area j)
    (hout : h.kEo j = 0 ∨ ∃ θ, ∀ k, (data k).thetaOSol j = θ) : ∃ R, Superposes h row d j r.nMain.toNat R := by
  obtain ⟨R, hR'⟩ := C87_as_coded hw H hrow hd j hm
  refine ⟨R, fun n hn => ?_⟩
  rw [hR' n hn]
  have : h.kEo j * remembered (h.phiT1 j) (h.ratio j) (fun k => (d (k + 1)).thetaOSol j - (d k).thetaOSol j) n = 0 := by
    rcases hout with h0 | ⟨θ, hθ⟩
    · rw [h0, zero_mul]
    · have hN : ∀ k, k ≤ n → (d k).thetaOSol j = θ := by
        intro k hk
        obtain ⟨k', c', t', e1, e2, -, -, -⟩ := logged_step H ⟨k, by omega⟩
        have : d k = data k' := by rw [← hd k', e1]
        rw [this, hθ]
      have : remembered (h.phiT1 j) (h.ratio j) (fun k => (d (k + 1)).thetaOSol j - (d k).thetaOSol j) n = 0 := by
        unfold remembered
        apply sum_eq_zero
        intro k hk
        have := mem_range.1 hk
        apply sum_eq_zero
        intro l _
        beta_reduce
        rw [hN (k + 1) (by omega), hN k (by omega), sub_self, mul_zero]
      rw [this, mul_zero]
  rw [this, add_zero]

/-- **C87 (violated).** For every part exposed to outdoors that remembers the temperature behind it: if that temperature is constant for the
first thirteen rows and then changes, no rest of the time before the first row makes the surface temperature the superposition of the
responses, since the change is taken into account one step too early. -/
theorem C87_violated (hw : WellFormed h hR (3600 / (hourly : ℝ))) (H : coreCalc h hR data hourly dMain dRunUp dRunUpBuild = .ok r)
    (hrow : Continues row r.log) (hd : Continues d data) (j : Fin m)
    (hm : ∀ l coef, h.kEi j = some (l, coef) → h.hC l = h.hC j ∧ hR l = hR j ∧ h.area l = h.area j)
    (hk : h.kEo j ≠ 0) (hφ : ∑ l, h.phiT1 j l ≠ 0) (hM : 14 ≤ r.nMain.toNat)
    (hconst : ∀ k < 12, (d (k + 1)).thetaOSol j = (d k).thetaOSol j) (hjump : (d 13).thetaOSol j ≠ (d 12).thetaOSol j) :
    ¬ ∃ R, Superposes h row d j r.nMain.toNat R := by
  rintro ⟨R, hS⟩
  obtain ⟨R', hC⟩ := C87_as_coded hw H hrow hd j hm
  have e : ∀ n < r.nMain.toNat, ∑ l, (R l - R' l) * h.ratio j l ^ n
      = h.kEo j * remembered (h.phiT1 j) (h.ratio j) (fun k => (d (k + 1)).thetaOSol j - (d k).thetaOSol j) n := by
    intro n hn
    have h1 := hS n hn
    have h2 := hC n hn
    simp only [sub_mul, sum_sub_distrib]
    linarith
  have h0 : ∀ n < 12, ∑ l, (R l - R' l) * h.ratio j l ^ n = 0 := by
    intro n hn
    rw [e n (by omega)]
    have : remembered (h.phiT1 j) (h.ratio j) (fun k => (d (k + 1)).thetaOSol j - (d k).thetaOSol j) n = 0 := by
      unfold remembered
      apply sum_eq_zero
      intro k hk
      have := mem_range.1 hk
      apply sum_eq_zero
      intro l _
      beta_reduce
      rw [hconst k (by omega), sub_self, mul_zero]
    rw [this, mul_zero]
  have h13 := geometric_zero _ _ h0 13
  rw [e 13 (by omega)] at h13
  have hrem : remembered (h.phiT1 j) (h.ratio j) (fun k => (d (k + 1)).thetaOSol j - (d k).thetaOSol j) 13
      = (∑ l, h.phiT1 j l) * ((d 13).thetaOSol j - (d 12).thetaOSol j) := by
    rw [remembered_succ, sum_eq_zero, zero_add, sum_mul]
    intro k hk
    have := mem_range.1 hk
    apply sum_eq_zero
    intro l _
    rw [hconst k (by omega), sub_self, mul_zero, mul_zero]
  rw [hrem] at h13
  rcases mul_eq_zero.1 h13 with h' | h'
  · exact hk h'
  · rcases mul_eq_zero.1 h' with h'' | h''
    · exact hφ h''
    · exact hjump (sub_eq_zero.1 h'')

end

/-! ## Concrete case -/

/-- A day on which the outdoor side warms up after thirteen quarter hours. -/
noncomputable def exJump : Fin 96 → Record (Fin 2) (Fin 4) := fun k =>
  { exDay k with thetaOSol := fun _ => if (k : ℕ) < 13 then 5 else 8 }

/-- The hypotheses of `C87_superposition_partial` (part 1, between the rooms) and `C87_violated` (part 3, to outdoors) are met by a day of the
example house. -/
example : ∃ r row d, coreCalc exHouse exHR exJump 4 1 1 1 = .ok r ∧ r.nMain.toNat = 96 ∧
    WellFormed exHouse exHR (3600 / ((4 : ℤ) : ℝ)) ∧ Continues row r.log ∧ Continues d exJump ∧
    (∀ j, j ≠ 0 → ∀ l coef, exHouse.kEi j = some (l, coef) →
      exHouse.hC l = exHouse.hC j ∧ exHR l = exHR j ∧ exHouse.area l = exHouse.area j) ∧
    exHouse.kEo 1 = 0 ∧ exHouse.kEo 3 ≠ 0 ∧ ∑ l, exHouse.phiT1 3 l ≠ 0 ∧
    (∀ k < 12, (d (k + 1)).thetaOSol 3 = (d k).thetaOSol 3) ∧ (d 13).thetaOSol 3 ≠ (d 12).thetaOSol 3 := by
  have e4 : (3600 / ((4 : ℤ) : ℝ)) = 900 := by norm_num
  have hw : WellFormed exHouse exHR (3600 / ((4 : ℤ) : ℝ)) := by rw [e4]; exact exHouse_wellFormed
  obtain ⟨r, hr⟩ := C21_program_partial (data := exJump) (dMain := 1) (dRunUp := 1) (dRunUpBuild := 1) hw (fun _ => rfl) (fun _ => rfl)
    (fun k i => by fin_cases i <;> norm_num [exJump, exDay]) (by norm_num) (by norm_num) (by norm_num) le_rfl (by norm_num) (by norm_num)
  obtain ⟨gs, c0, up, mn, T⟩ := coreCalc_ok hr
  refine ⟨r, fun k => if hk : k < r.nMain.toNat then r.log ⟨k, hk⟩ else LogRow.empty _ _,
    fun k => if hk : k < 96 then exJump ⟨k, hk⟩ else exJump 0, hr, by rw [T.nMain_eq]; rfl, hw, fun k => dif_pos k.isLt,
    fun k => dif_pos k.isLt, ?_, ?_, ?_, ?_, ?_, ?_⟩
  · intro j hj l coef
    fin_cases j
    · exact absurd rfl hj
    · simp [exHouse]; rintro rfl -; simp [exHR]
    · simp [exHouse]; rintro rfl -; simp [exHR]
    · simp [exHouse]
  · simp [exHouse]
  · simp [exHouse]
  · simp [exHouse]; norm_num
  · intro k hk
    beta_reduce
    rw [dif_pos (by omega), dif_pos (by omega)]
    simp only [exJump]
    rw [if_pos (by omega), if_pos (by omega)]
  · norm_num [exJump]

end HLC
