import Verif.Lemmas.Tick
import Verif.Spec.Balance
import Mathlib.Tactic.Ring
import Mathlib.Algebra.BigOperators.Field
import Mathlib.Tactic.FieldSimp
import Mathlib.Tactic.LinearCombination

/-!
# Sums with the room/boundary incidence matrix
-/

namespace HLC

set_option linter.unusedSectionVars false

variable {I J : Type} [Fintype I] [DecidableEq I] [Fintype J] [DecidableEq J] {N : ℕ}

open Spec

theorem p_mulVec (h : House I J) (f : J → ℝ) (i : I) : h.p.mulVec f i = ∑ j ∈ surfaces h i, f j := by
  simp only [Matrix.mulVec, dotProduct, House.p, Matrix.of_apply, surfaces, Finset.sum_filter, ite_mul, one_mul, zero_mul]

theorem pT_mulVec (h : House I J) (f : I → ℝ) (j : J) : h.p.transpose.mulVec f j = f (h.room j) := by
  simp [Matrix.mulVec, dotProduct, House.p, Matrix.transpose]

theorem sum_p (h : House I J) (f : J → ℝ) (i : I) : ∑ j, h.p i j * f j = ∑ j ∈ surfaces h i, f j := by
  simp only [House.p, Matrix.of_apply, surfaces, Finset.sum_filter, ite_mul, one_mul, zero_mul]

theorem sum_pT (h : House I J) (f : I → ℝ) (j : J) : ∑ i, h.p i j * f i = f (h.room j) := by
  simp [House.p]

theorem fMrt_mulVec (h : House I J) (hR θs : J → ℝ) (i : I) : (h.fMrt hR).mulVec θs i = roomMrt h hR i θs := by
  unfold roomMrt
  simp only [Matrix.mulVec, dotProduct, House.fMrt, Matrix.of_apply]
  rw [← sum_p, ← sum_p, Finset.sum_div]
  apply Finset.sum_congr rfl
  intro j _
  ring

theorem pT_fMrt_mulVec (h : House I J) (hR θs : J → ℝ) (j : J) :
    (h.p.transpose * h.fMrt hR).mulVec θs j = roomMrt h hR (h.room j) θs := by
  rw [← Matrix.mulVec_mulVec, pT_mulVec, fMrt_mulVec]

theorem kEi_mulVec (h : House I J) (f : J → ℝ) (j : J) :
    h.kEiMat.mulVec f j = match h.kEi j with | none => 0 | some (m, coef) => coef * f m := by
  simp only [Matrix.mulVec, dotProduct, House.kEiMat, Matrix.of_apply]
  cases h.kEi j with
  | none => simp
  | some a => simp

theorem flr_mulVec (h : House I J) (f : I → ℝ) (j : J) : h.flrMat.mulVec f j = h.flr j * f (h.room j) := by
  simp only [Matrix.mulVec, dotProduct, House.flrMat, Matrix.of_apply]
  have : ∀ i, h.p i j * h.flr j * f i = h.p i j * (h.flr j * f i) := fun i => by ring
  simp only [this]
  rw [sum_pT h (fun i => h.flr j * f i)]

theorem fMrtHum_mulVec (h : House I J) (f : J → ℝ) (i : I) :
    h.fMrtHumMat.mulVec f i = ∑ j ∈ surfaces h i, h.fMrtHum j * f j := by
  simp only [Matrix.mulVec, dotProduct, House.fMrtHumMat, Matrix.of_apply, mul_assoc]
  rw [sum_p]

/-- Row-scaled matrix times vector. -/
theorem rowScale_mulVec {A B : Type} [Fintype B] (g : A → ℝ) (M : Matrix A B ℝ) (v : B → ℝ) (a : A) :
    (Matrix.of fun a b => g a * M a b).mulVec v a = g a * M.mulVec v a := by
  simp only [Matrix.mulVec, dotProduct, Matrix.of_apply, Finset.mul_sum, mul_assoc]

/-- Left side of the surface equations, row by row. -/
theorem ax_mulVec (h : House I J) (hR θs : J → ℝ) (j : J) :
    (h.ax hR).mulVec θs j = (1 + h.phiA0 j * (h.hC j + hR j)) * θs j
      - hR j * h.phiA0 j * roomMrt h hR (h.room j) θs
      - hR j * h.phiT0 j / (h.hC j + hR j) * h.kEiMat.mulVec (fun m => roomMrt h hR (h.room m) θs) j := by
  have e1 : (h.p.transpose * h.fMrt hR).mulVec θs j = roomMrt h hR (h.room j) θs := pT_fMrt_mulVec h hR θs j
  have e2 : (h.kEiMat * (h.p.transpose * h.fMrt hR)).mulVec θs j
      = h.kEiMat.mulVec (fun m => roomMrt h hR (h.room m) θs) j := by
    rw [← Matrix.mulVec_mulVec]; congr 1; funext m; exact pT_fMrt_mulVec h hR θs m
  rw [← e1, ← e2]
  simp only [Matrix.mulVec, dotProduct, House.ax, Matrix.of_apply, House.hI]
  rw [Finset.mul_sum, Finset.mul_sum, ← Finset.sum_erase_add _ _ (Finset.mem_univ j)]
  rw [← Finset.sum_erase_add _ _ (Finset.mem_univ j), ← Finset.sum_erase_add Finset.univ
    (fun i => hR j * h.phiT0 j / (h.hC j + hR j) * ((h.kEiMat * (h.p.transpose * h.fMrt hR)) j i * θs i)) (Finset.mem_univ j)]
  have : ∀ k ∈ Finset.univ.erase j, ((if j = k then 1 + h.phiA0 j * (h.hC j + hR j) else 0)
      - (h.p.transpose * h.fMrt hR) j k * hR j * h.phiA0 j
      - (h.kEiMat * (h.p.transpose * h.fMrt hR)) j k * hR j * h.phiT0 j / (h.hC j + hR j)) * θs k
      = - (hR j * h.phiA0 j * ((h.p.transpose * h.fMrt hR) j k * θs k))
        - hR j * h.phiT0 j / (h.hC j + hR j) * ((h.kEiMat * (h.p.transpose * h.fMrt hR)) j k * θs k) := by
    intro k hk
    rw [if_neg (Ne.symm (Finset.ne_of_mem_erase hk))]
    ring
  rw [Finset.sum_congr rfl this, Finset.sum_sub_distrib, Finset.sum_neg_distrib]
  simp only [if_true]
  ring

theorem fia_mulVec (h : House I J) (hR : J → ℝ) (θr : I → ℝ) (j : J) :
    (h.fia hR).mulVec θr j = h.phiA0 j * h.hC j * θr (h.room j)
      + h.phiT0 j * h.hC j / (h.hC j + hR j) * h.kEiMat.mulVec (fun m => θr (h.room m)) j := by
  have e1 := pT_mulVec h θr j
  have e2 : (h.kEiMat * h.p.transpose).mulVec θr j = h.kEiMat.mulVec (fun m => θr (h.room m)) j := by
    rw [← Matrix.mulVec_mulVec]; congr 1; funext m; exact pT_mulVec h θr m
  rw [← e1, ← e2]
  simp only [Matrix.mulVec, dotProduct, House.fia, Matrix.of_apply, House.hI]
  rw [Finset.mul_sum, Finset.mul_sum, ← Finset.sum_add_distrib]
  apply Finset.sum_congr rfl
  intro i _
  ring

theorem flrBeta_mulVec (h : House I J) (lr : I → ℝ) (j : J) :
    h.flrBeta.mulVec lr j = h.flr j * ((1 - h.beta (h.room j)) * lr (h.room j)) := by
  have : h.flrBeta.mulVec lr j = h.flrMat.mulVec (fun i => (1 - h.beta i) * lr i) j := by
    simp only [Matrix.mulVec, dotProduct, House.flrBeta, Matrix.of_apply]
    apply Finset.sum_congr rfl; intro i _; ring
  rw [this, flr_mulVec]

theorem flb_mulVec (h : House I J) (hR : J → ℝ) (lr : I → ℝ) (j : J) :
    (h.flb hR).mulVec lr j = h.phiA0 j / h.area j * (h.flr j * ((1 - h.beta (h.room j)) * lr (h.room j)))
      + h.phiT0 j / (h.hC j + hR j) / h.area j *
          h.kEiMat.mulVec (fun m => h.flr m * ((1 - h.beta (h.room m)) * lr (h.room m))) j := by
  have e1 := flrBeta_mulVec h lr j
  have e2 : (h.kEiMat * h.flrBeta).mulVec lr j
      = h.kEiMat.mulVec (fun m => h.flr m * ((1 - h.beta (h.room m)) * lr (h.room m))) j := by
    rw [← Matrix.mulVec_mulVec]; congr 1; funext m; exact flrBeta_mulVec h lr m
  rw [← e1, ← e2]
  simp only [Matrix.mulVec, dotProduct, House.flb, Matrix.of_apply, House.hI]
  rw [Finset.mul_sum, Finset.mul_sum, ← Finset.sum_add_distrib]
  apply Finset.sum_congr rfl
  intro i _
  ring

/-- Surface temperatures of a completed step solve AX θs = FIA θr + CRX + FLB lr + CVL. -/
theorem surface_system {h : House I J} {hR : J → ℝ} {dt : ℝ} {data : Fin N → Record I J} {ivs : Matrix J J ℝ} {k : Fin N}
    {c : Cond I J} {t : TickVars I J} (hi : npInv (h.ax hR) = .ok ivs)
    (e : TickEqs (preCalcOf h hR dt data ivs) dt k c t) :
    (h.ax hR).mulVec t.thetaS = fun j => (h.fia hR).mulVec t.thetaR j + h.crx hR (data k) j + (h.flb hR).mulVec t.lr j
      + Tick.cvl t.dshA t.dshT j := by
  have hs : t.thetaS = ivs.mulVec (fun j => (h.fia hR).mulVec t.thetaR j + h.crx hR (data k) j + (h.flb hR).mulVec t.lr j
      + Tick.cvl t.dshA t.dshT j) := by
    rw [e.thetaS]
    funext j
    have hw : t.wsv = ivs.mulVec (Tick.cvl t.dshA t.dshT) := e.wsv
    simp only [Tick.thetaS, preCalcOf]
    rw [hw, ← Matrix.mulVec_mulVec, ← Matrix.mulVec_mulVec]
    have : (fun j => (h.fia hR).mulVec t.thetaR j + h.crx hR (data k) j + (h.flb hR).mulVec t.lr j
      + Tick.cvl t.dshA t.dshT j) = (h.fia hR).mulVec t.thetaR + h.crx hR (data k) + (h.flb hR).mulVec t.lr
      + Tick.cvl t.dshA t.dshT := rfl
    rw [this, Matrix.mulVec_add, Matrix.mulVec_add, Matrix.mulVec_add]
    rfl
  rw [hs]
  exact mulVec_npInv hi _

end HLC
