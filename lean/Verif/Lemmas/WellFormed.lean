import Verif.Spec.WellFormed
import Verif.Lemmas.Step
import Mathlib.LinearAlgebra.Matrix.Gershgorin
import Mathlib.Tactic.Positivity
import Mathlib.Tactic.NormNum

/-!
# Sign and dominance of the matrices of a well-formed house
-/

namespace HLC

set_option linter.unusedSectionVars false

variable {I J : Type} [Fintype I] [DecidableEq I] [Fintype J] [DecidableEq J] {N : ℕ}

open Spec

variable {h : House I J} {hR : J → ℝ} {dt : ℝ} {data : Fin N → Record I J} {ivs : Matrix J J ℝ} {k : Fin N}
  {c : Cond I J} {t : TickVars I J}

theorem p_nonneg (h : House I J) (i : I) (j : J) : 0 ≤ h.p i j := by
  simp only [House.p, Matrix.of_apply]; split_ifs <;> norm_num

theorem roomMrt_const (hw : WellFormed h hR dt) (x : ℝ) (j : J) : roomMrt h hR (h.room j) (fun _ => x) = x := by
  unfold roomMrt
  rw [← Finset.sum_mul]
  have : 0 < ∑ l ∈ surfaces h (h.room j), h.area l * hR l :=
    Finset.sum_pos (fun l _ => mul_pos (hw.area_pos l) (hw.hR_pos l)) ⟨j, by simp [surfaces]⟩
  field_simp

theorem roomMrt_nonneg (hw : WellFormed h hR dt) {x : J → ℝ} (hx : ∀ j, 0 ≤ x j) (i : I) : 0 ≤ roomMrt h hR i x := by
  unfold roomMrt
  apply div_nonneg
  · exact Finset.sum_nonneg fun l _ => mul_nonneg (mul_nonneg (hw.area_pos l).le (hw.hR_pos l).le) (hx l)
  · exact Finset.sum_nonneg fun l _ => mul_nonneg (hw.area_pos l).le (hw.hR_pos l).le

theorem fMrt_nonneg (hw : WellFormed h hR dt) (i : I) (j : J) : 0 ≤ h.fMrt hR i j := by
  simp only [House.fMrt, Matrix.of_apply]
  have : ∀ l, 0 ≤ h.p i l * (h.area l * hR l) := fun l =>
    mul_nonneg (p_nonneg h i l) (mul_nonneg (hw.area_pos l).le (hw.hR_pos l).le)
  exact div_nonneg (this j) (Finset.sum_nonneg fun l _ => this l)

theorem kEi_nonneg (hw : WellFormed h hR dt) (j m : J) : 0 ≤ h.kEiMat j m := by
  simp only [House.kEiMat, Matrix.of_apply]
  cases hk : h.kEi j with
  | none => exact le_rfl
  | some a =>
    simp only []
    split_ifs
    · exact (hw.kEi_mem j a.1 a.2 hk).1
    · exact le_rfl

/-- Weight of the partner of boundary `j` (zero without partner). -/
theorem kEi_ones (hw : WellFormed h hR dt) (x : ℝ) (j : J) :
    ∃ w, 0 ≤ w ∧ w ≤ 1 ∧ h.kEiMat.mulVec (fun _ => x) j = w * x := by
  rw [kEi_mulVec]
  cases hk : h.kEi j with
  | none => exact ⟨0, le_rfl, zero_le_one, by simp⟩
  | some a => exact ⟨a.2, (hw.kEi_mem j a.1 a.2 hk).1, (hw.kEi_mem j a.1 a.2 hk).2, rfl⟩

theorem kEi_const_weight (h : House I J) (j : J) : ∃ w : ℝ, ∀ x : ℝ, h.kEiMat.mulVec (fun _ => x) j = w * x := by
  simp only [kEi_mulVec]
  cases h.kEi j with
  | none => exact ⟨0, fun x => by simp⟩
  | some a => exact ⟨a.2, fun x => rfl⟩

theorem mul_nonneg_entries {A B C : Type} [Fintype B] {M : Matrix A B ℝ} {M' : Matrix B C ℝ} (h1 : ∀ a b, 0 ≤ M a b)
    (h2 : ∀ b c, 0 ≤ M' b c) (a : A) (c : C) : 0 ≤ (M * M') a c := by
  rw [Matrix.mul_apply]; exact Finset.sum_nonneg fun b _ => mul_nonneg (h1 a b) (h2 b c)

theorem row_sum_eq {A B : Type} [Fintype B] (M : Matrix A B ℝ) (a : A) : ∑ b, M a b = M.mulVec (fun _ => 1) a := by
  simp [Matrix.mulVec, dotProduct]

/-- AX is a strictly row-dominant Z-matrix. -/
theorem ax_zdominant (hw : WellFormed h hR dt) : ZDominant (h.ax hR) := by
  have hI_pos : ∀ j, 0 < h.hC j + hR j := fun j => add_pos (hw.hC_pos j) (hw.hR_pos j)
  constructor
  · intro j l hjl
    simp only [House.ax, Matrix.of_apply, House.hI, if_neg hjl]
    have n1 : 0 ≤ (h.p.transpose * h.fMrt hR) j l * hR j * h.phiA0 j :=
      mul_nonneg (mul_nonneg (mul_nonneg_entries (fun a b => p_nonneg h b a) (fMrt_nonneg hw) j l) (hw.hR_pos j).le)
        (hw.phiA0_nonneg j)
    have n2 : 0 ≤ (h.kEiMat * (h.p.transpose * h.fMrt hR)) j l * hR j * h.phiT0 j / (h.hC j + hR j) :=
      div_nonneg (mul_nonneg (mul_nonneg (mul_nonneg_entries (kEi_nonneg hw)
        (mul_nonneg_entries (fun a b => p_nonneg h b a) (fMrt_nonneg hw)) j l) (hw.hR_pos j).le) (hw.phiT0_mem j).1)
        (hI_pos j).le
    linarith
  · intro j
    rw [row_sum_eq, ax_mulVec]
    simp only [roomMrt_const hw]
    obtain ⟨w, hw0, hw1, hw2⟩ := kEi_ones hw 1 j
    rw [hw2]
    have h1 : hR j * h.phiT0 j / (h.hC j + hR j) * (w * 1) < 1 := by
      rw [div_mul_eq_mul_div, div_lt_one (hI_pos j)]
      have ht := hw.phiT0_mem j
      have : h.phiT0 j * w ≤ 1 := by nlinarith [ht.1, ht.2]
      nlinarith [hw.hR_pos j, hw.hC_pos j]
    have h2 := mul_nonneg (hw.phiA0_nonneg j) (hw.hC_pos j).le
    nlinarith [h1, h2]

theorem ax_inv (hw : WellFormed h hR dt) : npInv (h.ax hR) = .ok (h.ax hR)⁻¹ :=
  npInv_of_det_ne_zero (ax_zdominant hw).det_ne_zero

/-- Solutions of AX x = b with b ≥ 0 are non-negative. -/
theorem ivs_nonneg (hw : WellFormed h hR dt) (hi : npInv (h.ax hR) = .ok ivs) {b : J → ℝ} (hb : ∀ j, 0 ≤ b j) (j : J) :
    0 ≤ ivs.mulVec b j := by
  apply (ax_zdominant hw).nonneg
  intro j _
  rw [mulVec_npInv hi]
  exact hb j

theorem fia_nonneg (hw : WellFormed h hR dt) (j : J) (i : I) : 0 ≤ h.fia hR j i := by
  simp only [House.fia, Matrix.of_apply, House.hI]
  have hI_pos : 0 < h.hC j + hR j := add_pos (hw.hC_pos j) (hw.hR_pos j)
  have n1 : 0 ≤ h.phiA0 j * h.hC j * h.p.transpose j i :=
    mul_nonneg (mul_nonneg (hw.phiA0_nonneg j) (hw.hC_pos j).le) (p_nonneg h i j)
  have n2 : 0 ≤ (h.kEiMat * h.p.transpose) j i * h.phiT0 j * h.hC j / (h.hC j + hR j) :=
    div_nonneg (mul_nonneg (mul_nonneg (mul_nonneg_entries (kEi_nonneg hw) (fun a b => p_nonneg h b a) j i)
      (hw.phiT0_mem j).1) (hw.hC_pos j).le) hI_pos.le
  linarith

/-- Radiant heat reaches the surfaces with non-negative weights. -/
structure RadiantWellFormed (h : House I J) : Prop where
  beta_mem : ∀ i, 0 ≤ h.beta i ∧ h.beta i ≤ 1
  flr_nonneg : ∀ j, 0 ≤ h.flr j

theorem flb_nonneg (hw : WellFormed h hR dt) (hr : RadiantWellFormed h) (j : J) (i : I) : 0 ≤ h.flb hR j i := by
  have hf : ∀ j i, 0 ≤ h.flrBeta j i := fun j i => by
    simp only [House.flrBeta, House.flrMat, Matrix.of_apply]
    exact mul_nonneg (mul_nonneg (p_nonneg h i j) (hr.flr_nonneg j)) (sub_nonneg.mpr (hr.beta_mem i).2)
  simp only [House.flb, Matrix.of_apply, House.hI]
  have hI_pos : 0 < h.hC j + hR j := add_pos (hw.hC_pos j) (hw.hR_pos j)
  have n1 : 0 ≤ h.flrBeta j i * h.phiA0 j / h.area j :=
    div_nonneg (mul_nonneg (hf j i) (hw.phiA0_nonneg j)) (hw.area_pos j).le
  have n2 : 0 ≤ (h.kEiMat * h.flrBeta) j i * h.phiT0 j / (h.hC j + hR j) / h.area j :=
    div_nonneg (div_nonneg (mul_nonneg (mul_nonneg_entries (kEi_nonneg hw) hf j i) (hw.phiT0_mem j).1) hI_pos.le)
      (hw.area_pos j).le
  linarith

theorem mul_apply_eq_mulVec {A B C : Type} [Fintype B] (M : Matrix A B ℝ) (M' : Matrix B C ℝ) (a : A) (c : C) :
    (M * M') a c = M.mulVec (fun b => M' b c) a := by
  rw [Matrix.mul_apply]; rfl

theorem wsr_nonneg (hw : WellFormed h hR dt) (hi : npInv (h.ax hR) = .ok ivs) (j : J) (i : I) :
    0 ≤ (ivs * h.fia hR) j i := by
  rw [mul_apply_eq_mulVec]
  exact ivs_nonneg hw hi (fun j => fia_nonneg hw j i) j

theorem wsb_nonneg (hw : WellFormed h hR dt) (hr : RadiantWellFormed h) (hi : npInv (h.ax hR) = .ok ivs) (j : J) (i : I) :
    0 ≤ (ivs * h.flb hR) j i := by
  rw [mul_apply_eq_mulVec]
  exact ivs_nonneg hw hi (fun j => flb_nonneg hw hr j i) j

/-- A positive right-hand side at `j` gives a positive solution at `j`. -/
theorem ivs_pos (hw : WellFormed h hR dt) (hi : npInv (h.ax hR) = .ok ivs) {b : J → ℝ} (hb : ∀ j, 0 ≤ b j) {j : J}
    (hj : 0 < b j) : 0 < ivs.mulVec b j := by
  set x := ivs.mulVec b with hx
  have hx0 : ∀ j, 0 ≤ x j := fun j => ivs_nonneg hw hi hb j
  have hAx : (h.ax hR).mulVec x = b := mulVec_npInv hi b
  have h1 := congrFun hAx j
  simp only [Matrix.mulVec, dotProduct] at h1
  rw [← Finset.sum_erase_add _ _ (Finset.mem_univ j)] at h1
  have h2 : ∑ l ∈ Finset.univ.erase j, h.ax hR j l * x l ≤ 0 :=
    Finset.sum_nonpos fun l hl => mul_nonpos_of_nonpos_of_nonneg
      ((ax_zdominant hw).offDiag j l (Ne.symm (Finset.ne_of_mem_erase hl))) (hx0 l)
  by_contra hc
  have h3 : x j = 0 := le_antisymm (not_lt.mp hc) (hx0 j)
  rw [h3, mul_zero] at h1
  linarith

/-- Rows of WSR sum to at most one. -/
theorem wsr_row (hw : WellFormed h hR dt) (hi : npInv (h.ax hR) = .ok ivs) (j : J) : ∑ i, (ivs * h.fia hR) j i ≤ 1 := by
  rw [row_sum_eq]
  set s := (ivs * h.fia hR).mulVec (fun _ => 1) with hs
  have hAs : (h.ax hR).mulVec s = (h.fia hR).mulVec (fun _ => 1) := by
    rw [hs, ← Matrix.mulVec_mulVec, mulVec_npInv hi]
  have key : ∀ j, 0 ≤ (fun j => 1 - s j) j := by
    apply (ax_zdominant hw).nonneg
    intro j _
    have e : (fun j => 1 - s j) = (fun _ => (1 : ℝ)) - s := rfl
    rw [e, Matrix.mulVec_sub, Pi.sub_apply, hAs, ax_mulVec, fia_mulVec]
    simp only [roomMrt_const hw]
    obtain ⟨w, hw0, hw1, hw2⟩ := kEi_ones hw 1 j
    rw [hw2]
    have hI_pos : 0 < h.hC j + hR j := add_pos (hw.hC_pos j) (hw.hR_pos j)
    have ht := hw.phiT0_mem j
    have e2 : hR j * h.phiT0 j / (h.hC j + hR j) * (w * 1) + h.phiT0 j * h.hC j / (h.hC j + hR j) * (w * 1)
        = h.phiT0 j * w := by field_simp; ring
    have : h.phiT0 j * w ≤ 1 := by nlinarith [ht.1, ht.2]
    linarith
  have := key j
  simp only [] at this
  linarith

/-- F_mrt,hum · WSR is non-negative with row sums at most one. -/
theorem fwsr_nonneg (hw : WellFormed h hR dt) (hi : npInv (h.ax hR) = .ok ivs) (i l : I) :
    0 ≤ (h.fMrtHumMat * (ivs * h.fia hR)) i l := by
  refine mul_nonneg_entries (fun a b => ?_) (wsr_nonneg hw hi) i l
  simp only [House.fMrtHumMat, Matrix.of_apply]
  exact mul_nonneg (p_nonneg h a b) (hw.fMrtHum_nonneg b)

theorem fwsr_row (hw : WellFormed h hR dt) (hi : npInv (h.ax hR) = .ok ivs) (i : I) :
    ∑ l, (h.fMrtHumMat * (ivs * h.fia hR)) i l ≤ 1 := by
  rw [row_sum_eq, ← Matrix.mulVec_mulVec, fMrtHum_mulVec]
  refine le_trans (Finset.sum_le_sum fun j _ => ?_) (hw.fMrtHum_sum i)
  have := wsr_row hw hi j
  rw [row_sum_eq] at this
  nlinarith [hw.fMrtHum_nonneg j]

theorem hHumR_pos : 0 < hHumR := by unfold hHumR; positivity

theorem hHumR_lt_hHumC : hHumR < hHumC := by unfold hHumR hHumC; norm_num

/-- Row `i` of a matrix is strictly diagonally dominant with positive diagonal. -/
def RowDom (A : Matrix I I ℝ) (i : I) : Prop := ∑ l ∈ Finset.univ.erase i, |A i l| < A i i

theorem det_ne_zero_of_rowDom {A : Matrix I I ℝ} (hA : ∀ i, RowDom A i) : A.det ≠ 0 :=
  det_ne_zero_of_sum_row_lt_diag fun i => lt_of_lt_of_le (hA i) (le_abs_self _)

theorem RowDom.diag_pos {A : Matrix I I ℝ} {i : I} (hA : RowDom A i) : 0 < A i i :=
  lt_of_le_of_lt (Finset.sum_nonneg fun _ _ => abs_nonneg _) hA

theorem rowDom_of {A : Matrix I I ℝ} {i : I} {b : I → ℝ} (hb : ∀ l, l ≠ i → |A i l| ≤ b l)
    (hd : ∑ l ∈ Finset.univ.erase i, b l < A i i) : RowDom A i := by
  unfold RowDom
  exact lt_of_le_of_lt (Finset.sum_le_sum fun l hl => hb l (Finset.ne_of_mem_erase hl)) hd

theorem otMat_rowDom (hw : WellFormed h hR dt) (hi : npInv (h.ax hR) = .ok ivs) {ot : I → OtTarget}
    (hot : ∀ i, (ot i).hHumC = hHumC ∧ (ot i).hHumR = hHumR) (i : I) :
    RowDom (Tick.otMat (preCalcOf h hR dt data ivs) ot) i := by
  have hkr : 0 < Tick.kr ot i := by
    unfold Tick.kr; rw [(hot i).1, (hot i).2]
    have := hHumR_pos
    have h4 : (0 : ℝ) < hHumC := by unfold hHumC; norm_num
    positivity
  have hkc : Tick.kr ot i < Tick.kc ot i := by
    unfold Tick.kr Tick.kc; rw [(hot i).1, (hot i).2]
    have := hHumR_pos
    have h4 : (0 : ℝ) < hHumC := by unfold hHumC; norm_num
    exact div_lt_div_of_pos_right hHumR_lt_hHumC (by positivity)
  set G := h.fMrtHumMat * (ivs * h.fia hR) with hG
  have ent : ∀ l, Tick.otMat (preCalcOf h hR dt data ivs) ot i l
      = (if i = l then Tick.kc ot i else 0) + Tick.kr ot i * G i l := by
    intro l
    simp only [Tick.otMat, Matrix.add_apply, Matrix.of_apply, Matrix.diagonal_apply, preCalcOf, hG]
  have hG0 := fwsr_nonneg hw hi i
  have hG1 := fwsr_row hw hi i
  apply rowDom_of (b := fun l => Tick.kr ot i * G i l)
  · intro l hl
    rw [ent, if_neg (Ne.symm hl), zero_add, abs_of_nonneg (mul_nonneg hkr.le (hG0 l))]
  · rw [ent, if_pos rfl, ← Finset.mul_sum]
    have hsplit : ∑ l ∈ Finset.univ.erase i, G i l ≤ 1 := by
      have := Finset.sum_erase_add Finset.univ (fun l => G i l) (Finset.mem_univ i)
      have h0 := hG0 i
      rw [← hG] at h0 hG1
      linarith
    have h0 := hG0 i
    rw [← hG] at h0
    nlinarith [mul_nonneg hkr.le h0, mul_le_mul_of_nonneg_left hsplit hkr.le]

theorem brmNonVent_apply (h : House I J) (dt : ℝ) (W : Matrix J I ℝ) (i l : I) :
    h.brmNonVent dt W i l = (if i = l then h.cRm i / dt + h.cSh i * h.gSh i / (h.cSh i + h.gSh i * dt)
        + ∑ j ∈ surfaces h i, h.area j * h.hC j else 0) - ∑ j ∈ surfaces h i, h.area j * h.hC j * W j l := by
  simp only [House.brmNonVent, Matrix.add_apply, Matrix.diagonal_apply, Matrix.mul_apply, Matrix.of_apply, sum_p]
  have e : ∑ j ∈ surfaces h i, (h.p.transpose j l - W j l) * h.area j * h.hC j
      = (if i = l then ∑ j ∈ surfaces h i, h.area j * h.hC j else 0) - ∑ j ∈ surfaces h i, h.area j * h.hC j * W j l := by
    by_cases hil : i = l
    · rw [if_pos hil, ← Finset.sum_sub_distrib]
      apply Finset.sum_congr rfl
      intro j hj
      have hroom : h.room j = i := by simpa [surfaces] using hj
      have : h.p.transpose j l = 1 := by simp [House.p, hroom, hil]
      rw [this]; ring
    · rw [if_neg hil, zero_sub, ← Finset.sum_neg_distrib]
      apply Finset.sum_congr rfl
      intro j hj
      have hroom : h.room j = i := by simpa [surfaces] using hj
      have : h.p.transpose j l = 0 := by simp [House.p, hroom, hil]
      rw [this]; ring
  rw [e]
  split_ifs <;> ring

theorem brm_apply (h : House I J) (hR : J → ℝ) (dt : ℝ) (data : Fin N → Record I J) (ivs : Matrix J J ℝ) (vOut : I → ℝ)
    (i l : I) : Tick.brm (preCalcOf h hR dt data ivs) vOut i l
      = (if i = l then h.cRm i / dt + h.cSh i * h.gSh i / (h.cSh i + h.gSh i * dt)
        + (∑ j ∈ surfaces h i, h.area j * h.hC j) + cAir * rhoAir * vOut i else 0)
        - (∑ j ∈ surfaces h i, h.area j * h.hC j * (ivs * h.fia hR) j l) + cAir * rhoAir * h.vInt i l := by
  have e0 : Tick.brm (preCalcOf h hR dt data ivs) vOut i l
      = h.brmNonVent dt (ivs * h.fia hR) i l + cAir * rhoAir * ((if i = l then vOut i else 0) + h.vInt i l) := by
    simp only [Tick.brm, Matrix.add_apply, Matrix.smul_apply, Matrix.diagonal_apply, smul_eq_mul, preCalcOf]
  rw [e0, brmNonVent_apply]
  split_ifs <;> ring

theorem brm_rowDom (hw : WellFormed h hR dt) (hi : npInv (h.ax hR) = .ok ivs) {vOut : I → ℝ} (hv : ∀ i, 0 ≤ vOut i) (i : I) :
    RowDom (Tick.brm (preCalcOf h hR dt data ivs) vOut) i := by
  set W := ivs * h.fia hR with hW
  have hW0 : ∀ j l, 0 ≤ W j l := wsr_nonneg hw hi
  have hW1 : ∀ j, ∑ l, W j l ≤ 1 := wsr_row hw hi
  have hcap : 0 < cAir * rhoAir := by unfold cAir rhoAir; norm_num
  have ent := brm_apply h hR dt data ivs vOut i
  rw [← hW] at ent
  have hA : ∀ l, 0 ≤ ∑ j ∈ surfaces h i, h.area j * h.hC j * W j l := fun l =>
    Finset.sum_nonneg fun j _ => mul_nonneg (mul_nonneg (hw.area_pos j).le (hw.hC_pos j).le) (hW0 j l)
  apply rowDom_of (b := fun l => (∑ j ∈ surfaces h i, h.area j * h.hC j * W j l) + cAir * rhoAir * h.vInt i l)
  · intro l hl
    rw [ent, if_neg (Ne.symm hl), zero_sub]
    have h2 := mul_nonneg hcap.le (hw.vInt_nonneg i l)
    have h1 := hA l
    rw [abs_le]; constructor <;> linarith
  · rw [ent, if_pos rfl, Finset.sum_add_distrib]
    -- surface part
    have hs : ∑ l ∈ Finset.univ.erase i, ∑ j ∈ surfaces h i, h.area j * h.hC j * W j l
        + ∑ j ∈ surfaces h i, h.area j * h.hC j * W j i ≤ ∑ j ∈ surfaces h i, h.area j * h.hC j := by
      rw [Finset.sum_erase_add _ _ (Finset.mem_univ i), Finset.sum_comm]
      apply Finset.sum_le_sum
      intro j _
      rw [← Finset.mul_sum]
      have := mul_pos (hw.area_pos j) (hw.hC_pos j)
      nlinarith [hW1 j]
    -- air part
    have hv1 : ∑ l ∈ Finset.univ.erase i, cAir * rhoAir * h.vInt i l + cAir * rhoAir * h.vInt i i
        = cAir * rhoAir * ∑ l, h.vInt i l := by
      rw [Finset.sum_erase_add _ (fun l => cAir * rhoAir * h.vInt i l) (Finset.mem_univ i), Finset.mul_sum]
    have hv2 : cAir * rhoAir * ∑ l, h.vInt i l < h.cRm i / dt := by
      rw [lt_div_iff₀ hw.dt_pos]
      have := hw.vInt_lt i
      unfold House.cRm
      nlinarith
    have hf : 0 ≤ h.cSh i * h.gSh i / (h.cSh i + h.gSh i * dt) :=
      div_nonneg (mul_nonneg (hw.cSh_nonneg i) (hw.gSh_nonneg i))
        (add_nonneg (hw.cSh_nonneg i) (mul_nonneg (hw.gSh_nonneg i) hw.dt_pos.le))
    have h3 := mul_nonneg hcap.le (hw.vInt_nonneg i i)
    have h4 := mul_nonneg hcap.le (hv i)
    linarith

/-- The cooling coil coefficient is non-negative. -/
theorem rac_brmx_nonneg (hw : WellFormed h hR dt) (lc θ x : ℝ) (i : I) : 0 ≤ (getDehumidCoeff lc θ (h.rac i) x).brmx := by
  unfold getDehumidCoeff
  simp only []
  have hrho : (0 : ℝ) < rhoAir := by unfold rhoAir; norm_num
  have hb : (0 : ℝ) < 1 - bypass := by unfold bypass; norm_num
  split_ifs with h1 h2 h3
  · exact le_rfl
  · have hq := hw.rac_q i
    have hvv := hw.rac_v i
    have hf := hw.rac_fan i
    have h2' : 0.001 < -lc := by simpa using h1
    have : 0 ≤ getVac (h.rac i) (-lc) := by
      unfold getVac
      have hd : 0 < (h.rac i).qMax - (h.rac i).qMin := by linarith
      have e : (h.rac i).vMin + ((h.rac i).vMax - (h.rac i).vMin) / ((h.rac i).qMax - (h.rac i).qMin) * (-lc - (h.rac i).qMin)
          = (((h.rac i).vMin * (h.rac i).qMax - (h.rac i).vMax * (h.rac i).qMin)
            + ((h.rac i).vMax - (h.rac i).vMin) * (-lc)) / ((h.rac i).qMax - (h.rac i).qMin) := by
        field_simp; ring
      rw [e]
      apply div_nonneg _ (by norm_num)
      apply div_nonneg _ hd.le
      have := mul_nonneg (sub_nonneg.mpr hvv) (show (0 : ℝ) ≤ -lc by linarith)
      linarith
    positivity
  · exact le_rfl
  · simp

theorem latent_nonneg (hw : WellFormed h hR dt) (i : I) : 0 ≤ h.cLh i * h.gLh i / (h.cLh i + dt * h.gLh i) :=
  div_nonneg (mul_nonneg (hw.cLh_nonneg i) (hw.gLh_nonneg i))
    (add_nonneg (hw.cLh_nonneg i) (mul_nonneg hw.dt_pos.le (hw.gLh_nonneg i)))

/-- Humidity matrices are strictly row-dominant Z-matrices. -/
theorem brmx_zdominant (hw : WellFormed h hR dt) {vOut : I → ℝ} (hv : ∀ i, 0 ≤ vOut i) {r : I → ℝ} (hr : ∀ i, 0 ≤ r i) :
    ZDominant (Tick.brmxNonDh (preCalcOf h hR dt data ivs) dt vOut + Matrix.diagonal r) := by
  have hrho : (0 : ℝ) < rhoAir := by unfold rhoAir; norm_num
  constructor
  · intro i l hil
    simp only [Tick.brmxNonDh, preCalcOf, Matrix.add_apply, Matrix.smul_apply, Matrix.sub_apply, Matrix.diagonal_apply,
      if_neg hil, smul_eq_mul]
    have := mul_nonneg hrho.le (hw.vInt_nonneg i l)
    linarith
  · intro i
    rw [row_sum_eq]
    simp only [Tick.brmxNonDh, preCalcOf, Matrix.add_mulVec, Matrix.smul_mulVec, Matrix.sub_mulVec, Pi.add_apply, Pi.smul_apply,
      Pi.sub_apply, Matrix.mulVec_diagonal, smul_eq_mul, mul_one]
    have e : h.vInt.mulVec (fun _ => 1) i = ∑ l, h.vInt i l := (row_sum_eq _ _).symm
    rw [e]
    have h1 : ∑ l, h.vInt i l < h.vRoom i / dt := by rw [lt_div_iff₀ hw.dt_pos]; exact hw.vInt_lt i
    have h2 := latent_nonneg hw i
    have h3 := hv i
    have h4 := hr i
    have : 0 < rhoAir * (h.vRoom i / dt + vOut i - ∑ l, h.vInt i l) := mul_pos hrho (by linarith)
    linarith

theorem infiltration_ok [Nonempty I] (hw : WellFormed h hR dt) (θ : I → ℝ) (θo : ℝ) :
    ∃ v, getInfiltration h.cValue h.vRoom h.story h.pressure θ θo = .ok v := by
  have hs : ∑ i, h.vRoom i ≠ 0 := ne_of_gt (Finset.sum_pos (fun i _ => hw.vRoom_pos i) Finset.univ_nonempty)
  unfold getInfiltration volumeAverage
  rw [if_neg hs]
  rcases hw.story_mem with h1 | h1 <;> rcases hw.pressure_mem with h2 | h2 | h2 <;>
    · simp only [bind, Except.bind, infiltrationA, infiltrationB, h1, h2]
      simp

theorem infiltration_nonneg {cv : ℝ} {v : I → ℝ} {s : ℤ} {pr : String} {θ : I → ℝ} {θo : ℝ} {r : I → ℝ}
    (H : getInfiltration cv v s pr θ θo = .ok r) (i : I) (hv : 0 ≤ v i) : 0 ≤ r i := by
  unfold getInfiltration at H
  simp only [bind, Except.bind] at H
  split at H
  · cases H
  split at H
  · cases H
  split at H
  · cases H
  rw [← Except.ok.inj H]
  positivity

end HLC
