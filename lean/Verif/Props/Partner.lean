import Verif.Lemmas.ExampleHouse
import Verif.Props.Balance

/-!
# C17 fails for partitions whose two sides have different coefficients
-/

namespace HLC

set_option linter.unusedSectionVars false

open Spec

section
variable {I J : Type} [Fintype I] [DecidableEq I] [Fintype J] [DecidableEq J] {N : ℕ}
variable {h : House I J} {hR : J → ℝ} {dt : ℝ} {data : Fin N → Record I J} {ss : PreCalc I J N} {n : ℤ} {c : Cond I J} {t : TickVars I J}
  {k : Fin N}

/-- The equivalent temperature of a boundary that absorbs no radiant heating. -/
theorem thetaEi_plain (Hp : makePreCalc h hR dt data = .ok ss) (H : runTick n dt ss c = .ok t) (hk : pyIndex N n = .ok k) (m : J)
    (hf : h.flr m = 0) :
    t.thetaEi m = (h.hC m * t.thetaR (h.room m) + hR m * roomMrt h hR (h.room m) t.thetaS + h.qSol (data k) m) / (h.hC m + hR m) := by
  obtain ⟨ivs, k', -, hs, hk', e⟩ := step_eqs Hp H
  have : k' = k := Except.ok.inj (hk'.symm.trans hk)
  subst this
  subst hs
  rw [e.thetaEi]
  simp only [Tick.thetaEi, preCalcOf]
  rw [pT_mulVec, pT_fMrt_mulVec, flr_mulVec, hf]
  simp

/-- **C17 (when it holds).** A partition whose two sides divide heat differently between convection and radiation, without sun and
radiant heating on the far side: the wall equation holds in a step exactly if in the neighbouring room the air is as warm as the
surfaces. -/
theorem C17_plain_iff (Hp : makePreCalc h hR dt data = .ok ss) (H : runTick n dt ss c = .ok t) (hk : pyIndex N n = .ok k) (j : J)
    (hj : h.hC j + hR j ≠ 0) (m : J) (coef : ℝ) (hK : h.kEi j = some (m, coef)) (hm : h.hC m + hR m ≠ 0) (hT : h.phiT0 j ≠ 0)
    (hc : coef ≠ 0) (hf : h.flr m = 0) (hs : h.qSol (data k) m = 0) (hr : h.hC m * hR j ≠ h.hC j * hR m) :
    t.thetaS j = h.phiA0 j * t.qSrf j + h.phiT0 j * rearTemp h (data k).thetaOSol t.thetaEi j + ∑ m, (t.dshT j m + t.dshA j m) ↔
      t.thetaR (h.room m) = roomMrt h hR (h.room m) t.thetaS := by
  rw [C17_residual Hp H hk j hj m coef hK, thetaEi_plain Hp H hk m hf, hf, hs]
  have hp : h.phiT0 j * coef ≠ 0 := mul_ne_zero hT hc
  rw [mul_eq_zero, or_iff_right hp, sub_eq_zero, div_eq_div_iff hm hj]
  constructor
  · intro e
    have : (h.hC m * hR j - h.hC j * hR m) * (t.thetaR (h.room m) - roomMrt h hR (h.room m) t.thetaS) = 0 := by
      linear_combination e
    exact sub_eq_zero.1 ((mul_eq_zero.1 this).resolve_left (sub_ne_zero.2 hr))
  · intro e
    rw [e]
    ring

/-- **C17 (violated, sun).** If sun falls on the far side of a partition and the coefficients of the two sides are proportional but not
equal, the wall equation of the near side fails in every step that is computed. -/
theorem C17_sun_violated (Hp : makePreCalc h hR dt data = .ok ss) (H : runTick n dt ss c = .ok t) (hk : pyIndex N n = .ok k) (j : J)
    (hj : 0 < h.hC j + hR j) (m : J) (coef : ℝ) (hK : h.kEi j = some (m, coef)) (hm : 0 < h.hC m + hR m) (hT : h.phiT0 j ≠ 0)
    (hc : coef ≠ 0) (hf : h.flr m = 0) (hs : h.qSol (data k) m ≠ 0) (hr : h.hC m * hR j = h.hC j * hR m)
    (hd : h.hC m + hR m ≠ h.hC j + hR j) :
    t.thetaS j ≠ h.phiA0 j * t.qSrf j + h.phiT0 j * rearTemp h (data k).thetaOSol t.thetaEi j + ∑ m, (t.dshT j m + t.dshA j m) := by
  rw [ne_eq, C17_residual Hp H hk j hj.ne' m coef hK, thetaEi_plain Hp H hk m hf, hf]
  have hp : h.phiT0 j * coef ≠ 0 := mul_ne_zero hT hc
  rw [mul_eq_zero, or_iff_right hp, sub_eq_zero, div_eq_div_iff hm.ne' hj.ne']
  intro e
  have : h.qSol (data k) m * ((h.hC j + hR j) - (h.hC m + hR m)) = 0 := by
    linear_combination e - (t.thetaR (h.room m) - roomMrt h hR (h.room m) t.thetaS) * hr
  rcases mul_eq_zero.1 this with e1 | e1
  · exact hs e1
  · exact hd (sub_eq_zero.1 e1).symm

end

/-- The example house with coefficients of the partition that differ by a tenth between its sides. -/
noncomputable def exUneven : House (Fin 2) (Fin 4) := { exHouse with hC := ![2.5, 2.5, 2.25, 5] }

/-- Radiative coefficients. -/
noncomputable def exUnevenHR : Fin 4 → ℝ := ![5.1, 5, 4.5, 5.2]

theorem exUneven_wellFormed : WellFormed exUneven exUnevenHR 900 :=
  { exHouse_wellFormed with
    hC_pos := by intro j; fin_cases j <;> norm_num [exUneven]
    hR_pos := by intro j; fin_cases j <;> norm_num [exUnevenHR] }

/-- Sun falls on the far side of the partition. -/
theorem exUneven_sun (k : Fin 3) : exUneven.qSol (exData k) 2 ≠ 0 := by
  simp [House.qSol, House.aSrfAbs, House.p, House.rSolFnt, ind, exUneven, exHouse, exData, Fin.sum_univ_two, Fin.sum_univ_four]
  norm_num

/-- **C17 (violated).** There is a well-formed house for which every step from every state without the combined mode completes, and in
every such step the surface temperature of the partition is not that of the wall equation. -/
theorem C17_violated : WellFormed exUneven exUnevenHR 900 ∧
    ∀ (n : ℤ) (c : Cond (Fin 2) (Fin 4)), -3 ≤ n → n < 3 → (∀ i, c.mode i ≠ .heatingAndCooling) →
      ∃ ss t k, makePreCalc exUneven exUnevenHR 900 exData = .ok ss ∧ runTick n 900 ss c = .ok t ∧ pyIndex 3 n = .ok k ∧
        t.thetaS 1 ≠ exUneven.phiA0 1 * t.qSrf 1 + exUneven.phiT0 1 * rearTemp exUneven (exData k).thetaOSol t.thetaEi 1
          + ∑ m, (t.dshT 1 m + t.dshA 1 m) := by
  refine ⟨exUneven_wellFormed, fun n c h1 h2 hm => ?_⟩
  obtain ⟨ss, t, Hp, H⟩ := C21_step_completes_partial exUneven_wellFormed (data := exData) (fun _ => rfl) (fun _ => rfl)
    (by intro k i; fin_cases i <;> norm_num [exData]) hm ⟨h1, h2⟩
  obtain ⟨ivs, k, -, -, hk, -⟩ := step_eqs Hp H
  refine ⟨ss, t, k, Hp, H, hk, ?_⟩
  exact C17_sun_violated Hp H hk 1 (by norm_num [exUneven, exUnevenHR]) 2 1 (by simp [exUneven, exHouse])
    (by simp [exUneven, exUnevenHR]; norm_num) (by norm_num [exUneven, exHouse]) one_ne_zero (by simp [exUneven, exHouse]) (exUneven_sun k)
    (by simp [exUneven, exUnevenHR]; norm_num) (by simp [exUneven, exUnevenHR]; norm_num)

end HLC
