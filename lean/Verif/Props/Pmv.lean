import Verif.Spec.Comfort
import Verif.Props.Psychro
import Mathlib.Topology.Order.IntermediateValue
import Mathlib.Analysis.SpecialFunctions.Pow.Continuity

/-!
# C55, C69: PMV and PPD of ISO 7730; saturation pressure with its derivative (C54)
-/

namespace HLC

open Spec Iso

/-- **C55.** PPD lies in [5, 100), is 5 exactly at PMV 0, does not depend on the sign of PMV and strictly increases with |PMV|. -/
theorem C55_ppd (p q : ℝ) : 5 ≤ ppd p ∧ ppd p < 100 ∧ (ppd p = 5 ↔ p = 0) ∧ ppd (-p) = ppd p ∧ (|p| < |q| → ppd p < ppd q) := by
  have hmono : ∀ p q : ℝ, |p| < |q| → ppd p < ppd q := by
    intro p q hpq
    unfold ppd
    have h2 : p ^ 2 < q ^ 2 := sq_lt_sq.mpr hpq
    have h4 : p ^ 4 < q ^ 4 := by
      have : (p ^ 2) ^ 2 < (q ^ 2) ^ 2 := by nlinarith [sq_nonneg p, sq_nonneg q]
      nlinarith
    have := Real.exp_lt_exp.mpr (show -0.03353 * q ^ 4 - 0.2179 * q ^ 2 < -0.03353 * p ^ 4 - 0.2179 * p ^ 2 by linarith)
    linarith
  have h0 : ppd 0 = 5 := by unfold ppd; norm_num
  have hpos : ∀ p : ℝ, p ≠ 0 → 5 < ppd p := by
    intro p hp
    have := hmono 0 p (by simpa using hp)
    rwa [h0] at this
  refine ⟨?_, ?_, ⟨?_, ?_⟩, ?_, hmono p q⟩
  · by_cases hp : p = 0
    · rw [hp, h0]
    · exact (hpos p hp).le
  · unfold ppd
    have := Real.exp_pos (-0.03353 * p ^ 4 - 0.2179 * p ^ 2)
    linarith
  · intro h
    by_contra hp
    exact absurd h (hpos p hp).ne'
  · rintro rfl; exact h0
  · unfold ppd
    rw [show (-p) ^ 4 = p ^ 4 by ring, show (-p) ^ 2 = p ^ 2 by ring]

/-- **C54 (with derivative).** For both phases the function returns the saturation pressure used elsewhere in the program and its true
derivative; other phases raise KeyError. -/
theorem C54_derivative {t : ℝ} (ht : 0 < t) :
    (∃ p d, sonntag "water" t = .ok (p, d) ∧ HasDerivAt (fun t => Real.exp (pvsExpWater t)) d t ∧ p = Real.exp (pvsExpWater t)
      ∧ (273.15 ≤ t → p = getPvs (t - 273.15))) ∧
    (∃ p d, sonntag "ice" t = .ok (p, d) ∧ HasDerivAt (fun t => Real.exp (pvsExpIce t)) d t ∧ p = Real.exp (pvsExpIce t)
      ∧ (t < 273.15 → p = getPvs (t - 273.15))) ∧
    ∀ s, s ≠ "water" → s ≠ "ice" → sonntag s t = .error .keyError := by
  refine ⟨⟨_, _, if_pos rfl, ?_, rfl, ?_⟩, ⟨Real.exp (pvsExpIce t),
    Real.exp (pvsExpIce t) * (-(-6024.5282) / t ^ 2 + 0.010613863 + 2 * -0.000013198825 * t + -0.49382577 / t), ?_, ?_, rfl, ?_⟩, ?_⟩
  · have := (pvsExpWater_deriv ht).exp
    convert this using 1
    unfold pvsExpWater
    rw [neg_neg, div_eq_mul_inv (2.433502 : ℝ)]
    ring
  · intro h
    unfold getPvs
    simp only []
    rw [if_pos (by linarith), sub_add_cancel]
    rfl
  · unfold sonntag
    rw [if_neg (by decide), if_pos rfl]
    rfl
  · have := (pvsExpIce_deriv ht).exp
    convert this using 1
    rw [neg_neg, div_eq_mul_inv (-0.49382577 : ℝ)]
    ring
  · intro h
    unfold getPvs
    simp only []
    rw [if_neg (by linarith), sub_add_cancel]
  · intro s h1 h2
    unfold sonntag
    rw [if_neg h1, if_neg h2]

/-! ## C69 -/

/-- Convective loss as a function of the temperature difference. -/
theorem convective_strictMono {k : ℝ} (hk : 0 ≤ k) : StrictMono fun x : ℝ => max k (2.38 * |x| ^ (0.25 : ℝ)) * x := by
  have hpos : ∀ x : ℝ, x ≠ 0 → 0 < max k (2.38 * |x| ^ (0.25 : ℝ)) := by
    intro x hx
    have : 0 < |x| ^ (0.25 : ℝ) := Real.rpow_pos_of_pos (abs_pos.mpr hx) _
    exact lt_max_of_lt_right (by positivity)
  have hnn : ∀ x : ℝ, 0 ≤ max k (2.38 * |x| ^ (0.25 : ℝ)) := fun x => le_max_of_le_left hk
  have main : ∀ x y : ℝ, 0 ≤ x → x < y → max k (2.38 * |x| ^ (0.25 : ℝ)) * x < max k (2.38 * |y| ^ (0.25 : ℝ)) * y := by
    intro x y hx hxy
    have h1 : max k (2.38 * |x| ^ (0.25 : ℝ)) ≤ max k (2.38 * |y| ^ (0.25 : ℝ)) := by
      apply max_le_max le_rfl
      apply mul_le_mul_of_nonneg_left _ (by norm_num)
      apply Real.rpow_le_rpow (abs_nonneg _) _ (by norm_num)
      rw [abs_of_nonneg hx, abs_of_nonneg (by linarith)]
      exact hxy.le
    calc _ ≤ max k (2.38 * |y| ^ (0.25 : ℝ)) * x := mul_le_mul_of_nonneg_right h1 hx
      _ < _ := mul_lt_mul_of_pos_left hxy (hpos y (by linarith : 0 < y).ne')
  intro x y hxy
  simp only []
  rcases le_or_gt 0 x with hx | hx
  · exact main x y hx hxy
  · rcases le_or_gt y 0 with hy | hy
    · have := main (-y) (-x) (by linarith) (by linarith)
      rw [abs_neg, abs_neg] at this
      linarith
    · have h1 := mul_neg_of_pos_of_neg (hpos x hx.ne) hx
      have h2 := mul_pos (hpos y hy.ne') hy
      linarith

theorem areaFactor_pos {icl : ℝ} (h : 0 ≤ icl) : 0 < areaFactor icl := by
  unfold areaFactor; split <;> positivity

theorem pow4_mono {a b : ℝ} (ha : 0 ≤ a) (hab : a ≤ b) : a ^ 4 ≤ b ^ 4 := by gcongr
theorem pow4_strict {a b : ℝ} (ha : 0 ≤ a) (hab : a < b) : a ^ 4 < b ^ 4 := by gcongr

theorem velocity_nonneg (v : ℝ) : 0 ≤ 12.1 * Real.sqrt v := by positivity

/-- The dry loss rises with the clothing temperature. -/
theorem dryLoss_mono {c : Climate} (hc : 0 ≤ c.clothing) {t t' : ℝ} (ht : -273 ≤ t) (h : t ≤ t') : dryLoss c t ≤ dryLoss c t' := by
  unfold dryLoss
  apply mul_le_mul_of_nonneg_left _ (areaFactor_pos hc).le
  have h1 := pow4_mono (show (0 : ℝ) ≤ t + 273 by linarith) (show t + 273 ≤ t' + 273 by linarith)
  have h2 := (convective_strictMono (velocity_nonneg c.velocity)).monotone (show t - c.air ≤ t' - c.air by linarith)
  linarith

/-- The dry loss falls with air and radiant temperature, strictly if one of them rises. -/
theorem dryLoss_anti {c c' : Climate} (hc : 0 ≤ c.clothing) (e1 : c'.clothing = c.clothing) (e2 : c'.velocity = c.velocity)
    (ha : c.air ≤ c'.air) (hr0 : -273 < c.radiant) (hr : c.radiant ≤ c'.radiant) (t : ℝ) :
    dryLoss c' t ≤ dryLoss c t ∧ (c.air < c'.air ∨ c.radiant < c'.radiant → dryLoss c' t < dryLoss c t) := by
  unfold dryLoss
  rw [e1, e2]
  have hA := areaFactor_pos hc
  have hφ := convective_strictMono (velocity_nonneg c.velocity)
  have h1 := pow4_mono (show (0 : ℝ) ≤ c.radiant + 273 by linarith) (show c.radiant + 273 ≤ c'.radiant + 273 by linarith)
  have h2 := hφ.monotone (show t - c'.air ≤ t - c.air by linarith)
  constructor
  · apply mul_le_mul_of_nonneg_left _ hA.le
    linarith
  · intro h
    apply mul_lt_mul_of_pos_left _ hA
    rcases h with h | h
    · have h3 := hφ (show t - c'.air < t - c.air by linarith)
      simp only [] at h3
      linarith
    · have h3 := pow4_strict (show (0 : ℝ) ≤ c.radiant + 273 by linarith) (show c.radiant + 273 < c'.radiant + 273 by linarith)
      linarith

/-- **C69 (clothing temperature).** In every possible situation there is exactly one clothing surface temperature above absolute zero. -/
theorem C69_clothing_unique {c : Climate} (hp : Possible c) : ∃! t, IsClothingTemp c t := by
  set s := 35.7 - 0.028 * (c.metabolic - c.work) with hs
  have hcont : Continuous fun t => c.clothing * dryLoss c t + t := by
    unfold dryLoss
    have : Continuous fun t : ℝ => |t - c.air| ^ (0.25 : ℝ) :=
      (continuous_id.sub continuous_const).abs.rpow_const fun _ => Or.inr (by norm_num)
    fun_prop
  have hA := areaFactor_pos hp.clothing
  have hφ := convective_strictMono (velocity_nonneg c.velocity)
  have hlow : c.clothing * dryLoss c (-273) + -273 ≤ s := by
    have h1 : dryLoss c (-273) ≤ 0 := by
      unfold dryLoss
      apply mul_nonpos_of_nonneg_of_nonpos hA.le
      have h2 := hφ.monotone (show -273 - c.air ≤ 0 by linarith [hp.air])
      rw [mul_zero] at h2
      have h3 : (0 : ℝ) ≤ (c.radiant + 273) ^ 4 := by positivity
      norm_num at h2 ⊢
      linarith
    have := mul_nonpos_of_nonneg_of_nonpos hp.clothing h1
    linarith [hp.skin]
  set B := max s (max c.air c.radiant) with hB
  have hB1 : s ≤ B := le_max_left _ _
  have hB2 : c.air ≤ B := (le_max_left _ _).trans (le_max_right _ _)
  have hB3 : c.radiant ≤ B := (le_max_right _ _).trans (le_max_right _ _)
  have hhigh : s ≤ c.clothing * dryLoss c B + B := by
    have h1 : 0 ≤ dryLoss c B := by
      unfold dryLoss
      apply mul_nonneg hA.le
      have h2 := hφ.monotone (show 0 ≤ B - c.air by linarith)
      rw [mul_zero] at h2
      have h3 := pow4_mono (show (0 : ℝ) ≤ c.radiant + 273 by linarith [hp.radiant]) (show c.radiant + 273 ≤ B + 273 by linarith)
      linarith
    have := mul_nonneg hp.clothing h1
    linarith
  obtain ⟨t, ht, hts⟩ := intermediate_value_Icc (show (-273 : ℝ) ≤ B by linarith [hp.air]) hcont.continuousOn ⟨hlow, hhigh⟩
  simp only [] at hts
  refine ⟨t, ⟨ht.1, by linarith⟩, ?_⟩
  rintro t' ⟨h1, h2⟩
  rcases lt_trichotomy t' t with h | h | h
  · have := mul_le_mul_of_nonneg_left (dryLoss_mono hp.clothing h1 h.le) hp.clothing
    linarith
  · exact h
  · have := mul_le_mul_of_nonneg_left (dryLoss_mono hp.clothing ht.1 h.le) hp.clothing
    linarith

/-- **C69 (monotone).** Between two situations with the same person and air velocity, PMV is not lower in the one that is not colder (air,
radiation) and not drier, and strictly higher if one of the three is strictly higher. -/
theorem C69_monotone {c c' : Climate} {t t' : ℝ} (hp : Possible c) (ht : IsClothingTemp c t) (ht' : IsClothingTemp c' t')
    (e0 : c'.metabolic = c.metabolic) (ew : c'.work = c.work) (e1 : c'.clothing = c.clothing) (e2 : c'.velocity = c.velocity)
    (ha : c.air ≤ c'.air) (hr : c.radiant ≤ c'.radiant) (hv : c.vapour ≤ c'.vapour) :
    voteAt c t ≤ voteAt c' t' ∧ (c.air < c'.air ∨ c.radiant < c'.radiant ∨ c.vapour < c'.vapour → voteAt c t < voteAt c' t') := by
  have hK : 0 < 0.303 * Real.exp (-0.036 * c.metabolic) + 0.028 := by positivity
  have h1 := ht.2
  have h2 := ht'.2
  rw [e0, ew, e1] at h2
  have hanti := dryLoss_anti hp.clothing e1 e2 ha hp.radiant hr t
  have hc' : 0 ≤ c'.clothing := by rw [e1]; exact hp.clothing
  have hle : dryLoss c' t' ≤ dryLoss c t := by
    by_contra hcon
    push Not at hcon
    have := mul_le_mul_of_nonneg_left hcon.le hp.clothing
    have h3 := dryLoss_mono hc' ht'.1 (show t' ≤ t by linarith)
    linarith [hanti.1]
  have hlt : c.air < c'.air ∨ c.radiant < c'.radiant → dryLoss c' t' < dryLoss c t := by
    intro h
    by_contra hcon
    push Not at hcon
    have := mul_le_mul_of_nonneg_left hcon hp.clothing
    have h3 := dryLoss_mono hc' ht'.1 (show t' ≤ t by linarith)
    linarith [hanti.2 h]
  unfold voteAt bodyLoad
  rw [e0, ew]
  have hbr := mul_le_mul_of_nonneg_left hv (mul_nonneg (show (0 : ℝ) ≤ 1.7e-5 by norm_num) hp.metabolic)
  have hba := mul_le_mul_of_nonneg_left ha (mul_nonneg (show (0 : ℝ) ≤ 0.0014 by norm_num) hp.metabolic)
  constructor
  · apply mul_le_mul_of_nonneg_left _ hK.le
    linarith
  · intro h
    apply mul_lt_mul_of_pos_left _ hK
    rcases h with h | h | h
    · linarith [hlt (Or.inl h)]
    · linarith [hlt (Or.inr h)]
    · linarith

theorem fCl_eq (icl : ℝ) : fCl icl = areaFactor icl := by unfold fCl areaFactor; norm_num

/-- The situation described by the arguments of `get_pmv_ppd`. -/
noncomputable def climateOf (met peff ta tr clo var rh : ℝ) : Climate where
  metabolic := 58.15 * met
  work := 58.15 * peff
  clothing := 0.155 * clo
  air := ta
  radiant := tr
  velocity := var
  vapour := rh / 100 * Real.exp (pvsExpWater (ta + 273.15))

/-- **C69 (what is computed).** If the root finder returns a root above absolute zero, the function returns the PMV of the clothing
temperature of the situation described by its arguments, and the PPD of that PMV. -/
theorem C69_returned {newton : (ℝ → ℝ) → ℝ → ℝ} (met peff ta tr clo var rh : ℝ)
    (hN : FindsRoots newton)
    (hp : Possible (climateOf met peff ta tr clo var rh)) :
    ∃ t pmv, IsClothingTemp (climateOf met peff ta tr clo var rh) t ∧ pmv = voteAt (climateOf met peff ta tr clo var rh) t ∧
      pmvPpd newton met peff ta tr clo var rh = .ok (pmv, ppd pmv) := by
  set c := climateOf met peff ta tr clo var rh with hc
  have hf : ∀ t, tclEq (fCl (clo * 0.155)) (clo * 0.155) ta t var tr (met * 58.15) (peff * 58.15) - t
      = 35.7 - 0.028 * (c.metabolic - c.work) - t - c.clothing * dryLoss c t := by
    intro t
    simp only [hc, climateOf, tclEq, skin, radLoss, convLoss, hC, dryLoss, fCl_eq, mul_comm clo]
    generalize areaFactor (0.155 * clo) = A
    generalize max (12.1 * Real.sqrt var) (2.38 * |t - ta| ^ (0.25 : ℝ)) = M
    norm_num
    ring
  obtain ⟨t0, ⟨hm0, h0⟩, -⟩ := C69_clothing_unique hp
  have hr := hN.root (fun t => tclEq (fCl (clo * 0.155)) (clo * 0.155) ta t var tr (met * 58.15) (peff * 58.15) - t)
    ⟨t0, hm0, by rw [hf]; linarith⟩
  have hq := hN.physical (fun t => tclEq (fCl (clo * 0.155)) (clo * 0.155) ta t var tr (met * 58.15) (peff * 58.15) - t)
    ⟨t0, hm0, by rw [hf]; linarith⟩
  set t := newton (fun t => tclEq (fCl (clo * 0.155)) (clo * 0.155) ta t var tr (met * 58.15) (peff * 58.15) - t) 0.001 with ht
  rw [hf] at hr
  refine ⟨t, voteAt c t, ⟨hq, by linarith⟩, rfl, ?_⟩
  have e : pmvOf (fCl (clo * 0.155)) (hC ta t var) (met * 58.15) (rh / 100 * Real.exp (pvsExpWater (ta + 273.15))) ta t tr (peff * 58.15)
      = voteAt c t := by
    simp only [hc, climateOf, pmvOf, voteAt, bodyLoad, skinLatent, breathLatent, breathSensible, sweating, radLoss, convLoss, hC,
      dryLoss, fCl_eq, mul_comm clo, mul_comm met, mul_comm peff]
    generalize areaFactor (0.155 * clo) = A
    generalize max (12.1 * Real.sqrt var) (2.38 * |t - ta| ^ (0.25 : ℝ)) = M
    generalize max (0.42 * (58.15 * met - 58.15 * peff - 58.15)) 0 = S
    generalize Real.exp (-0.036 * (58.15 * met)) = E
    generalize Real.exp (pvsExpWater (ta + 273.15)) = P
    rw [show (3.05 * 10 ^ (-3 : ℤ) : ℝ) = 3.05e-3 by norm_num, show (1.7 * 10 ^ (-5 : ℤ) : ℝ) = 1.7e-5 by norm_num,
      show (3.96 * 10 ^ (-8 : ℤ) : ℝ) = 3.96e-8 by norm_num]
    ring
  unfold pmvPpd getPa
  simp only [Bind.bind, Except.bind, sonntag, if_pos]
  rw [← ht]
  simp only [pvsExpWater] at e
  rw [e]

/-- **C69 (program).** PMV as computed does not fall when air temperature, radiant temperature or relative humidity rise. -/
theorem C69_program {newton : (ℝ → ℝ) → ℝ → ℝ} {met peff ta tr clo var rh ta' tr' rh' : ℝ} {r r' : ℝ × ℝ}
    (hN : FindsRoots newton)
    (hp : Possible (climateOf met peff ta tr clo var rh)) (hrh : 0 ≤ rh)
    (h1 : ta ≤ ta') (h2 : tr ≤ tr') (h3 : rh ≤ rh')
    (H : pmvPpd newton met peff ta tr clo var rh = .ok r) (H' : pmvPpd newton met peff ta' tr' clo var rh' = .ok r') :
    r.1 ≤ r'.1 := by
  have hp' : Possible (climateOf met peff ta' tr' clo var rh') :=
    ⟨hp.metabolic, hp.clothing, by have := hp.air; simp only [climateOf] at *; linarith,
      by have := hp.radiant; simp only [climateOf] at *; linarith, hp.skin⟩
  obtain ⟨t, v, ht, hv, e⟩ := C69_returned met peff ta tr clo var rh hN hp
  obtain ⟨t', v', ht', hv', e'⟩ := C69_returned met peff ta' tr' clo var rh' hN hp'
  rw [H] at e; rw [H'] at e'
  rw [Except.ok.inj e, Except.ok.inj e', hv, hv']
  refine (C69_monotone hp ht ht' rfl rfl rfl rfl h1 h2 ?_).1
  simp only [climateOf]
  have ha := hp.air
  simp only [climateOf] at ha
  have hexp : Real.exp (pvsExpWater (ta + 273.15)) ≤ Real.exp (pvsExpWater (ta' + 273.15)) :=
    Real.exp_le_exp.mpr (pvsExpWater_strictMono.monotoneOn (Set.mem_Ioi.mpr (by linarith)) (Set.mem_Ioi.mpr (by linarith)) (by linarith))
  have : 0 < Real.exp (pvsExpWater (ta + 273.15)) := Real.exp_pos _
  apply mul_le_mul (by linarith) hexp this.le (by linarith)

/-- Sedentary summer situation; a root finder with the two properties exists. -/
example : Possible (climateOf 1.1 0 27 27 0.5 0.1 60) :=
  ⟨by norm_num [climateOf], by norm_num [climateOf], by norm_num [climateOf], by norm_num [climateOf], by norm_num [climateOf]⟩

theorem exists_findsRoots : ∃ newton : (ℝ → ℝ) → ℝ → ℝ, FindsRoots newton := by
  classical
  refine ⟨fun f _ => if h : ∃ x, -273 ≤ x ∧ f x = 0 then h.choose else 0, ?_, ?_⟩
  · intro f hf
    rw [dif_pos hf]; exact hf.choose_spec.2
  · intro f hf
    rw [dif_pos hf]; exact hf.choose_spec.1

end HLC
