import Verif.Spec.Load
import Verif.Lemmas.MMatrix
import Mathlib.Tactic.Ring

/-!
# Helper lemmas about `getLoadAndTemp` / `calcNextTempAndLoad`
-/

namespace HLC

set_option linter.unusedSectionVars false

variable {I : Type*} [Fintype I] [DecidableEq I]

open Spec

@[simp] theorem ind_true : ind true = 1 := rfl
@[simp] theorem ind_false : ind false = 0 := rfl

/-- The equations solved by `get_load_and_temp`. -/
theorem getLoadAndTemp_eq {kt kc kr : Matrix I I ℝ} {k : I → ℝ} {nt : I → Bool} {ts : I → ℝ} {c : I → Bool} {lcs : I → ℝ}
    {r : I → Bool} {lrs : I → ℝ} {res : LoadTemp I}
    (h : getLoadAndTemp kt kc kr k nt ts c lcs r lrs = .ok res) :
    kt.mulVec res.theta = kc.mulVec res.lc + kr.mulVec res.lr + k := by
  unfold getLoadAndTemp at h
  simp only [bind, Except.bind] at h
  cases hinv : npInv (loadX1 kt kc kr nt c r) with
  | error e => rw [hinv] at h; cases h
  | ok B =>
    rw [hinv] at h
    simp only [Except.ok.injEq] at h
    subst h
    have hv := mulVec_npInv hinv (loadX2 kt kc kr k (resetWhere nt ts) (resetWhere c lcs) (resetWhere r lrs))
    generalize B.mulVec _ = v at hv ⊢
    funext i
    have hvi := congrFun hv i
    unfold loadX1 loadX2 at hvi
    simp only [Matrix.mulVec, dotProduct, Matrix.of_apply, Pi.add_apply] at hvi ⊢
    have e : ∀ (m : I → Bool) (s : I → ℝ) (K : Matrix I I ℝ),
        ∑ j, K i j * (v j * ind (m j) + resetWhere m s j * (1 - ind (m j))) =
          ∑ j, K i j * ind (m j) * v j + ∑ j, K i j * resetWhere m s j := by
      intro m s K
      rw [← Finset.sum_add_distrib]
      apply Finset.sum_congr rfl
      intro j _
      cases hm : m j <;> simp [resetWhere, hm]
    have e1 : ∑ j, (kt i j * ind (nt j) - kc i j * ind (c j) - kr i j * ind (r j)) * v j =
        ∑ j, kt i j * ind (nt j) * v j - ∑ j, kc i j * ind (c j) * v j - ∑ j, kr i j * ind (r j) * v j := by
      rw [← Finset.sum_sub_distrib, ← Finset.sum_sub_distrib]
      apply Finset.sum_congr rfl
      intro j _
      ring
    rw [e1] at hvi
    rw [e nt ts kt, e c lcs kc, e r lrs kr]
    linarith

/-- Fixed entries keep their prescribed value. -/
theorem getLoadAndTemp_fixed {kt kc kr : Matrix I I ℝ} {k : I → ℝ} {nt : I → Bool} {ts : I → ℝ} {c : I → Bool}
    {lcs : I → ℝ} {r : I → Bool} {lrs : I → ℝ} {res : LoadTemp I}
    (h : getLoadAndTemp kt kc kr k nt ts c lcs r lrs = .ok res) (i : I) :
    (nt i = false → res.theta i = ts i) ∧ (c i = false → res.lc i = lcs i) ∧ (r i = false → res.lr i = lrs i) := by
  unfold getLoadAndTemp at h
  simp only [bind, Except.bind] at h
  cases hinv : npInv (loadX1 kt kc kr nt c r) with
  | error e => rw [hinv] at h; cases h
  | ok B =>
    rw [hinv] at h
    simp only [Except.ok.injEq] at h
    subst h
    refine ⟨?_, ?_, ?_⟩ <;> intro hm <;> simp [resetWhere, hm]

/-- Decomposition of a successful load calculation into its two passes. -/
theorem calc_passes {a : LoadInput I} {res : LoadTemp I} (h : calcNextTempAndLoad a = .ok res) :
    ∃ nat p1, a.brm.det ≠ 0 ∧ IsNatural a nat ∧
      getLoadAndTemp a.brm 1 a.brl a.brc (a.nt nat) (a.thetaSet nat) (a.c0 nat) (fun _ => 0) (a.r0 nat) (fun _ => 0)
        = .ok p1 ∧
      getLoadAndTemp a.brm 1 a.brl a.brc (a.nt nat) (resetWhere (a.nt nat) (a.thetaSet nat)) (a.c1 nat p1.lr)
        (resetWhere (a.c0 nat) fun _ => 0) (a.r1 nat p1.lr)
        (a.lrSet1 (resetWhere (a.r0 nat) fun _ => 0) p1.lr) = .ok res := by
  unfold calcNextTempAndLoad naturalTemp at h
  simp only [bind, Except.bind] at h
  cases hinv : npInv a.brm with
  | error e => rw [hinv] at h; cases h
  | ok B =>
    rw [hinv] at h
    simp only [] at h
    cases hp : getLoadAndTemp a.brm 1 a.brl a.brc (a.nt (B.mulVec a.brc)) (a.thetaSet (B.mulVec a.brc))
        (a.c0 (B.mulVec a.brc)) (fun _ => 0) (a.r0 (B.mulVec a.brc)) (fun _ => 0) with
    | error e => rw [hp] at h; cases h
    | ok p1 =>
      rw [hp] at h
      exact ⟨B.mulVec a.brc, p1, (npInv_ok hinv).1, mulVec_npInv hinv _, hp, h⟩

theorem natural_unique {a : LoadInput I} (hdet : a.brm.det ≠ 0) {n1 n2 : I → ℝ} (h1 : IsNatural a n1)
    (h2 : IsNatural a n2) : n1 = n2 := mulVec_inj_of_det hdet (h1.trans h2.symm)

/-- The same decomposition with a natural temperature given by the caller. -/
theorem calc_passes' {a : LoadInput I} {res : LoadTemp I} (h : calcNextTempAndLoad a = .ok res) {nat : I → ℝ}
    (hn : IsNatural a nat) :
    ∃ p1, a.brm.det ≠ 0 ∧
      getLoadAndTemp a.brm 1 a.brl a.brc (a.nt nat) (a.thetaSet nat) (a.c0 nat) (fun _ => 0) (a.r0 nat) (fun _ => 0)
        = .ok p1 ∧
      getLoadAndTemp a.brm 1 a.brl a.brc (a.nt nat) (resetWhere (a.nt nat) (a.thetaSet nat)) (a.c1 nat p1.lr)
        (resetWhere (a.c0 nat) fun _ => 0) (a.r1 nat p1.lr)
        (a.lrSet1 (resetWhere (a.r0 nat) fun _ => 0) p1.lr) = .ok res := by
  obtain ⟨n, p1, hd, hn', h1, h2⟩ := calc_passes h
  rw [natural_unique hd hn' hn] at h1 h2
  exact ⟨p1, hd, h1, h2⟩

theorem isHeating_iff {a : LoadInput I} {nat : I → ℝ} {i : I} : a.isHeating nat i = true ↔ Heated a nat i := by
  unfold LoadInput.isHeating Heated; simp

theorem isCooling_iff {a : LoadInput I} {nat : I → ℝ} {i : I} : a.isCooling nat i = true ↔ Cooled a nat i := by
  unfold LoadInput.isCooling Cooled; simp

theorem not_heated_of_cooled {a : LoadInput I} {nat : I → ℝ} {i : I} (h : Cooled a nat i) : ¬ Heated a nat i := by
  intro h'; have := h.1.symm.trans h'.1; cases this

theorem isHeating_false {a : LoadInput I} {nat : I → ℝ} {i : I} (h : ¬ Heated a nat i) : a.isHeating nat i = false := by
  rw [← Bool.not_eq_true]; exact fun h' => h (isHeating_iff.mp h')

theorem isCooling_false {a : LoadInput I} {nat : I → ℝ} {i : I} (h : ¬ Cooled a nat i) : a.isCooling nat i = false := by
  rw [← Bool.not_eq_true]; exact fun h' => h (isCooling_iff.mp h')

theorem r0_iff {a : LoadInput I} {nat : I → ℝ} {i : I} : a.r0 nat i = true ↔ RadiantActive a nat i := by
  unfold LoadInput.r0 RadiantActive
  rw [← isHeating_iff, ← isCooling_iff]
  cases a.isCooling nat i <;> cases a.isHeating nat i <;> cases a.isRadCooling i <;> cases a.isRadHeating i <;> simp

/-- In pass 1 the radiative load vanishes where radiation is not the unknown. -/
theorem pass1_lr_zero {a : LoadInput I} {nat : I → ℝ} {p1 : LoadTemp I}
    (h1 : getLoadAndTemp a.brm 1 a.brl a.brc (a.nt nat) (a.thetaSet nat) (a.c0 nat) (fun _ => 0) (a.r0 nat)
      (fun _ => 0) = .ok p1) {i : I} (hr : ¬ RadiantActive a nat i) : p1.lr i = 0 := by
  have : a.r0 nat i = false := by rw [← Bool.not_eq_true]; exact fun h' => hr (r0_iff.mp h')
  exact (getLoadAndTemp_fixed h1 i).2.2 this

/-- With non-negative capacities only rooms with active radiation are limited. -/
theorem not_limited {a : LoadInput I} (hcap : CapsNonneg a) {lr : I → ℝ} {i : I} (h0 : lr i = 0) :
    a.overLr lr i = false ∧ a.underLr lr i = false := by
  unfold LoadInput.overLr LoadInput.underLr
  have := hcap i
  simp only [h0, decide_eq_false_iff_not, not_lt, gt_iff_lt]
  constructor <;> linarith [this.1, this.2]

end HLC

namespace HLC

variable {I : Type*} [Fintype I] [DecidableEq I]

open Spec

/-- To run `get_load_and_temp` on a concrete case it suffices to exhibit the solution of its linear system. -/
theorem getLoadAndTemp_of_solution {kt kc kr : Matrix I I ℝ} {k : I → ℝ} {nt : I → Bool} {ts : I → ℝ} {c : I → Bool}
    {lcs : I → ℝ} {r : I → Bool} {lrs : I → ℝ} (v : I → ℝ) (hdet : (loadX1 kt kc kr nt c r).det ≠ 0)
    (hv : (loadX1 kt kc kr nt c r).mulVec v = loadX2 kt kc kr k (resetWhere nt ts) (resetWhere c lcs) (resetWhere r lrs)) :
    getLoadAndTemp kt kc kr k nt ts c lcs r lrs = .ok {
      theta := fun i => if nt i then v i else ts i
      lc := fun i => if c i then v i else lcs i
      lr := fun i => if r i then v i else lrs i } := by
  unfold getLoadAndTemp
  simp only [bind, Except.bind]
  rw [npInv_of_det_ne_zero hdet]
  simp only []
  rw [← hv, npInv_mulVec (npInv_of_det_ne_zero hdet)]
  congr 2 <;> funext i <;> simp only [resetWhere] <;> split_ifs <;> simp_all

theorem calc_of_passes {a : LoadInput I} {nat : I → ℝ} {p1 res : LoadTemp I} (hdet : a.brm.det ≠ 0) (hn : IsNatural a nat)
    (h1 : getLoadAndTemp a.brm 1 a.brl a.brc (a.nt nat) (a.thetaSet nat) (a.c0 nat) (fun _ => 0) (a.r0 nat) (fun _ => 0)
        = .ok p1)
    (h2 : getLoadAndTemp a.brm 1 a.brl a.brc (a.nt nat) (resetWhere (a.nt nat) (a.thetaSet nat)) (a.c1 nat p1.lr)
        (resetWhere (a.c0 nat) fun _ => 0) (a.r1 nat p1.lr)
        (a.lrSet1 (resetWhere (a.r0 nat) fun _ => 0) p1.lr) = .ok res) :
    calcNextTempAndLoad a = .ok res := by
  unfold calcNextTempAndLoad naturalTemp
  simp only [bind, Except.bind]
  rw [npInv_of_det_ne_zero hdet]
  simp only []
  have : (a.brm)⁻¹.mulVec a.brc = nat := by
    rw [← (show a.brm.mulVec nat = a.brc from hn)]
    exact npInv_mulVec (npInv_of_det_ne_zero hdet) nat
  rw [this, h1]
  exact h2

end HLC
