import Verif.Model.Convergence
import Verif.Spec.Occupant
import Verif.Spec.Mode
import Verif.Props.Pmv
import Verif.Props.Comfort
import Verif.Props.Mode

/-!
# C88: comfort with a computed clothing temperature
-/

set_option linter.unusedSectionVars false

namespace HLC

open HLC.Spec

theorem hHumRAt_pos {t mrt : ℝ} (ht : -273 ≤ t) (hm : -273 < mrt) : 0 < hHumRAt t mrt := by
  have h1 : 0 ≤ t + 273 := by linarith
  have h2 : 0 < mrt + 273 := by linarith
  unfold hHumRAt
  simp only []
  positivity

theorem hHumCAt_nonneg (r t v : ℝ) : 0 ≤ hHumCAt r t v := le_max_of_le_left (by positivity)

/-- The coefficients are the slopes of the two losses. -/
theorem losses (c : Climate) (t : ℝ) :
    dryLoss c t = areaFactor c.clothing * (hHumRAt t c.radiant * (t - c.radiant) + hHumCAt c.air t c.velocity * (t - c.air)) := by
  unfold dryLoss hHumRAt hHumCAt
  generalize max (12.1 * Real.sqrt c.velocity) (2.38 * |t - c.air| ^ (0.25 : ℝ)) = M
  rw [show (3.96 * 10 ^ (-8 : ℤ) : ℝ) = 3.96e-8 by norm_num]
  ring

theorem getFcl_eq (icl : ℝ) : getFcl icl = areaFactor icl := by unfold getFcl areaFactor; norm_num

/-- The fixed points of the inner function are the clothing temperatures of the standard. -/
theorem fixed_point {r mrt clo v p t : ℝ} (hclo : 0 ≤ clo) (hm : -273 < mrt) (ht : -273 ≤ t) :
    clothingStep mrt r clo v t - t = 0 ↔ IsClothingTemp (atRest clo r mrt v p) t := by
  have hR := hHumRAt_pos ht hm
  have hC := hHumCAt_nonneg r t v
  have hA := areaFactor_pos (show 0 ≤ 0.155 * clo by positivity)
  unfold IsClothingTemp
  rw [losses]
  simp only [clothingStep, getThetaCl, getFcl_eq, getIcl, atRest, getM, mul_comm clo]
  generalize hHumRAt t mrt = R at *
  generalize hHumCAt r t v = C at *
  generalize areaFactor (0.155 * clo) = A at *
  have hh : 0 < R + C := by linarith
  have hD : 0 < 1 + 0.155 * clo * A * (R + C) := by positivity
  set o := (R * mrt + C * r) / (R + C) with ho
  have ho' : o * (R + C) = R * mrt + C * r := div_mul_cancel₀ _ hh.ne'
  constructor
  · intro h
    refine ⟨ht, ?_⟩
    have h1 : (35.7 - 0.028 * 58.15 - o) / (1 + 0.155 * clo * A * (R + C)) = t - o := by linarith
    rw [div_eq_iff hD.ne'] at h1
    linear_combination (-1) * h1 + 0.155 * clo * A * ho'
  · rintro ⟨-, h⟩
    have h1 : (35.7 - 0.028 * 58.15 - o) / (1 + 0.155 * clo * A * (R + C)) = t - o := by
      rw [div_eq_iff hD.ne']
      linear_combination (-1) * h + 0.155 * clo * A * ho'
    rw [h1]; ring

theorem possible_atRest {r mrt clo : ℝ} (v p : ℝ) (hclo : 0 ≤ clo) (hr : -273 < r) (hm : -273 < mrt) : Possible (atRest clo r mrt v p) :=
  ⟨by norm_num [atRest], by simp only [atRest]; positivity, hr, hm, by norm_num [atRest]⟩

/-- **C88 (coefficients).** With the method `convergence` the coefficients are those of the one clothing temperature at which the heat
conducted by the clothing is the heat it loses: the convective one that of the standard, the radiative one the slope of the exchange between
the clothing and the surroundings. -/
theorem C88_coefficients {newton : (ℝ → ℝ) → ℝ → ℝ} (hN : FindsRoots newton) {r mrt clo : ℝ} (v p : ℝ) (hclo : 0 ≤ clo) (hr : -273 < r)
    (hm : -273 < mrt) :
    ∃ t hC hR, IsClothingTemp (atRest clo r mrt v p) t ∧ (∀ t', IsClothingTemp (atRest clo r mrt v p) t' → t' = t) ∧
      getHHumBy newton "convergence" mrt r clo v = .ok (hC, hR) ∧
      hC = max (12.1 * Real.sqrt v) (2.38 * |t - r| ^ (0.25 : ℝ)) ∧
      hR * (t - mrt) = 3.96e-8 * ((t + 273) ^ 4 - (mrt + 273) ^ 4) ∧ 0 ≤ hC ∧ 0 < hR := by
  obtain ⟨t0, h0, hu⟩ := C69_clothing_unique (possible_atRest v p hclo hr hm)
  have hex : ∃ x, -273 ≤ x ∧ clothingStep mrt r clo v x - x = 0 := ⟨t0, h0.1, (fixed_point hclo hm h0.1).mpr h0⟩
  have h1 := hN.root (fun t => clothingStep mrt r clo v t - t) hex
  have h2 := hN.physical (fun t => clothingStep mrt r clo v t - t) hex
  have h3 := (fixed_point (p := p) hclo hm h2).mp h1
  have h4 := hu _ h3
  refine ⟨t0, hHumCAt r t0 v, hHumRAt t0 mrt, h0, hu, ?_, rfl, ?_, hHumCAt_nonneg _ _ _, hHumRAt_pos h0.1 hm⟩
  · simp only [getHHumBy, if_true, h4]
  · unfold hHumRAt
    simp only []
    rw [show (3.96 * 10 ^ (-8 : ℤ) : ℝ) = 3.96e-8 by norm_num]
    ring

/-- The program's formula for PMV, at the clothing temperature, is that of the standard. -/
theorem pmv_eq_vote {r mrt clo v p t : ℝ} (hclo : 0 ≤ clo) (hm : -273 < mrt) (ht : IsClothingTemp (atRest clo r mrt v p) t) :
    getPmv r clo p (hHumRAt t mrt + hHumCAt r t v) ((hHumRAt t mrt * mrt + hHumCAt r t v * r) / (hHumRAt t mrt + hHumCAt r t v))
      = voteAt (atRest clo r mrt v p) t := by
  have hR := hHumRAt_pos ht.1 hm
  have hC := hHumCAt_nonneg r t v
  have hA := areaFactor_pos (show 0 ≤ 0.155 * clo by positivity)
  have h := ht.2
  unfold getPmv voteAt bodyLoad
  rw [losses] at h ⊢
  simp only [getFcl_eq, getIcl, atRest, getM, mul_comm clo] at h ⊢
  generalize hHumRAt t mrt = R at *
  generalize hHumCAt r t v = C at *
  generalize areaFactor (0.155 * clo) = A at *
  have hh : 0 < R + C := by linarith
  have hD : 0 < 1 + 0.155 * clo * A * (R + C) := by positivity
  set o := (R * mrt + C * r) / (R + C) with ho
  have ho' : o * (R + C) = R * mrt + C * r := div_mul_cancel₀ _ hh.ne'
  have key : A * (R + C) * (35.7 - 0.028 * 58.15 - o) / (1 + 0.155 * clo * A * (R + C)) = A * (R * (t - mrt) + C * (t - r)) := by
    rw [div_eq_iff hD.ne']
    linear_combination (-(A * (R + C))) * h - A * ho'
  rw [key, show (3.05 * 10 ^ (-3 : ℤ) : ℝ) = 3.05e-3 by norm_num, show (1.7 * 10 ^ (-5 : ℤ) : ℝ) = 1.7e-5 by norm_num]
  simp only [sub_zero]

/-- **C88 (PMV).** With the method `convergence` the PMV of a room is the PMV of ISO 7730 for a person at rest in its climate. -/
theorem C88_pmv {newton : (ℝ → ℝ) → ℝ → ℝ} (hN : FindsRoots newton) {r mrt clo : ℝ} (v p : ℝ) (hclo : 0 ≤ clo) (hr : -273 < r)
    (hm : -273 < mrt) : ∃ x, getHHumAndPmvBy newton "convergence" p r mrt clo v = .ok x ∧ IsVote (atRest clo r mrt v p) x := by
  obtain ⟨t0, h0, hu⟩ := C69_clothing_unique (possible_atRest v p hclo hr hm)
  have hex : ∃ x, -273 ≤ x ∧ clothingStep mrt r clo v x - x = 0 := ⟨t0, h0.1, (fixed_point hclo hm h0.1).mpr h0⟩
  have h1 := hN.root (fun t => clothingStep mrt r clo v t - t) hex
  have h2 := hN.physical (fun t => clothingStep mrt r clo v t - t) hex
  have h4 := hu _ ((fixed_point (p := p) hclo hm h2).mp h1)
  refine ⟨voteAt (atRest clo r mrt v p) t0, ?_, t0, h0, rfl⟩
  simp only [getHHumAndPmvBy, getHHumBy, if_true, h4, Bind.bind, Except.bind]
  rw [pmv_eq_vote hclo hm h0]

/-- A situation has one vote. -/
theorem vote_unique {c : Climate} (hp : Possible c) {x y : ℝ} (hx : IsVote c x) (hy : IsVote c y) : x = y := by
  obtain ⟨t, ht, rfl⟩ := hx
  obtain ⟨t', ht', rfl⟩ := hy
  obtain ⟨t0, -, hu⟩ := C69_clothing_unique hp
  rw [hu t ht, hu t' ht']

/-- **C88 (agreement).** The two implementations of PMV in the package agree: for one met and no work, and a relative humidity that gives
the room's vapour pressure, `get_pmv_ppd` returns the PMV of the room, whichever root finders they use. -/
theorem C88_agree {newton newton' : (ℝ → ℝ) → ℝ → ℝ} (hN : FindsRoots newton) (hN' : FindsRoots newton') {r mrt clo rh : ℝ} (v p : ℝ)
    (hclo : 0 ≤ clo) (hr : -273 < r) (hm : -273 < mrt) (hp : Iso.getPa rh r = .ok p) :
    ∃ x y, getHHumAndPmvBy newton "convergence" p r mrt clo v = .ok x ∧ Iso.pmvPpd newton' 1 0 r mrt clo v rh = .ok (x, y) := by
  obtain ⟨x, e, hx⟩ := C88_pmv hN v p hclo hr hm
  have hc : climateOf 1 0 r mrt clo v rh = atRest clo r mrt v p := by
    have : rh / 100 * Real.exp (pvsExpWater (r + 273.15)) = p := by
      simp only [Iso.getPa, Iso.sonntag, if_true, Bind.bind, Except.bind, Except.ok.injEq] at hp
      rw [← hp, pvsExpWater]
    simp [climateOf, atRest, this]
  have hq := possible_atRest v p hclo hr hm
  obtain ⟨t, pmv, ht, hv, e'⟩ := C69_returned 1 0 r mrt clo v rh hN' (by rw [hc]; exact hq)
  rw [hc] at ht hv
  refine ⟨x, Iso.ppd x, e, ?_⟩
  rw [e', vote_unique hq hx ⟨t, ht, hv⟩]

/-- **C88 (warmer).** The PMV of the method `convergence` rises strictly with the air temperature, with the radiant temperature and with the
vapour pressure of the room. -/
theorem C88_warmer {newton : (ℝ → ℝ) → ℝ → ℝ} (hN : FindsRoots newton) {r mrt clo p r' mrt' p' x x' : ℝ} (v : ℝ) (hclo : 0 ≤ clo)
    (hr : -273 < r) (hm : -273 < mrt) (h1 : r ≤ r') (h2 : mrt ≤ mrt') (h3 : p ≤ p')
    (H : getHHumAndPmvBy newton "convergence" p r mrt clo v = .ok x) (H' : getHHumAndPmvBy newton "convergence" p' r' mrt' clo v = .ok x') :
    x ≤ x' ∧ (r < r' ∨ mrt < mrt' ∨ p < p' → x < x') := by
  obtain ⟨y, e, t, ht, rfl⟩ := C88_pmv hN v p hclo hr hm
  obtain ⟨y', e', t', ht', rfl⟩ := C88_pmv hN v p' hclo (show -273 < r' by linarith) (show -273 < mrt' by linarith)
  rw [H] at e; rw [H'] at e'
  rw [Except.ok.inj e, Except.ok.inj e']
  exact C69_monotone (possible_atRest v p hclo hr hm) ht ht' rfl rfl rfl rfl h1 h2 h3

/-! ### Clothing -/

/-- A lower bound of the slope of the dry loss per clothed area above -100 °C. -/
theorem slope {c c' : Climate} (ea : c'.air = c.air) (er : c'.radiant = c.radiant) (ev : c'.velocity = c.velocity)
    {L L' t t' : ℝ} (hL : dryLoss c t = areaFactor c.clothing * L) (hL' : dryLoss c' t' = areaFactor c'.clothing * L')
    (hA : areaFactor c.clothing ≠ 0) (hA' : areaFactor c'.clothing ≠ 0) (ht : -100 ≤ t') (h : t' ≤ t) : 0.82 * (t - t') ≤ L - L' := by
  unfold dryLoss at hL hL'
  have e1 := mul_left_cancel₀ hA hL
  have e2 := mul_left_cancel₀ hA' hL'
  rw [← e1, ← e2, ea, er, ev]
  have h2 := (convective_strictMono (velocity_nonneg c.velocity)).monotone (show t' - c.air ≤ t - c.air by linarith)
  have h3 : 4 * (173 : ℝ) ^ 3 * (t - t') ≤ (t + 273) ^ 4 - (t' + 273) ^ 4 := by
    have e : (t + 273) ^ 4 - (t' + 273) ^ 4
        = ((t + 273) ^ 3 + (t + 273) ^ 2 * (t' + 273) + (t + 273) * (t' + 273) ^ 2 + (t' + 273) ^ 3) * (t - t') := by ring
    rw [e]
    apply mul_le_mul_of_nonneg_right _ (by linarith)
    have a : (173 : ℝ) ≤ t + 273 := by linarith
    have b : (173 : ℝ) ≤ t' + 273 := by linarith
    have a3 : (173 : ℝ) ^ 3 ≤ (t + 273) ^ 3 := by gcongr
    have b3 : (173 : ℝ) ^ 3 ≤ (t' + 273) ^ 3 := by gcongr
    have ab : (173 : ℝ) ^ 2 * 173 ≤ (t + 273) ^ 2 * (t' + 273) := by gcongr
    have ba : (173 : ℝ) * 173 ^ 2 ≤ (t + 273) * (t' + 273) ^ 2 := by gcongr
    linarith
  have h4 := mul_le_mul_of_nonneg_left h3 (show (0 : ℝ) ≤ 3.96e-8 by norm_num)
  have h5 : 0.82 * (t - t') ≤ 3.96e-8 * (4 * (173 : ℝ) ^ 3 * (t - t')) := by
    have : (0.82 : ℝ) ≤ 3.96e-8 * (4 * 173 ^ 3) := by norm_num
    nlinarith
  linarith

/-- More clothing loses less heat where the thinner clothing (`c`) loses heat, as long as the area factors do not differ too much. -/
theorem clothing_loss {c c' : Climate} (hp : Possible c) (ea : c'.air = c.air) (er : c'.radiant = c.radiant) (ev : c'.velocity = c.velocity)
    (em : c'.metabolic = c.metabolic) (ew : c'.work = c.work) (hI : c.clothing < c'.clothing) (hair : -100 ≤ c.air) (hrad : -100 ≤ c.radiant)
    (hF : areaFactor c'.clothing * (1 - 0.82 * areaFactor c.clothing * (c'.clothing - c.clothing)) ≤ areaFactor c.clothing)
    {t t' : ℝ} (ht : IsClothingTemp c t) (ht' : IsClothingTemp c' t') (hpos : 0 < dryLoss c' t') : dryLoss c' t' ≤ dryLoss c t := by
  have hA := areaFactor_pos hp.clothing
  have hI' : 0 ≤ c'.clothing := by linarith [hp.clothing]
  have hA' := areaFactor_pos hI'
  have b1 := ht.2
  have b2 := ht'.2
  rw [em, ew] at b2
  -- the losses per clothed area
  obtain ⟨L, hL⟩ : ∃ L, dryLoss c t = areaFactor c.clothing * L := ⟨dryLoss c t / areaFactor c.clothing, by rw [mul_div_cancel₀ _ hA.ne']⟩
  obtain ⟨L', hL'⟩ : ∃ L, dryLoss c' t' = areaFactor c'.clothing * L :=
    ⟨dryLoss c' t' / areaFactor c'.clothing, by rw [mul_div_cancel₀ _ hA'.ne']⟩
  have hLpos : 0 < L' := by
    rw [hL'] at hpos; exact (pos_iff_pos_of_mul_pos hpos).mp hA'
  -- the clothing is not colder than -100 °C
  have hcold : -100 ≤ t' := by
    by_contra hc
    push Not at hc
    have e1 : L' = 3.96e-8 * ((t' + 273) ^ 4 - (c.radiant + 273) ^ 4)
        + max (12.1 * Real.sqrt c.velocity) (2.38 * |t' - c.air| ^ (0.25 : ℝ)) * (t' - c.air) := by
      have : dryLoss c' t' = areaFactor c'.clothing * L' := hL'
      unfold dryLoss at this
      rw [← mul_left_cancel₀ hA'.ne' this, ea, er, ev]
    have h1 := (convective_strictMono (velocity_nonneg c.velocity)).monotone (show t' - c.air ≤ 0 by linarith)
    simp only [mul_zero] at h1
    have h2 := pow4_mono (show (0 : ℝ) ≤ t' + 273 by linarith [ht'.1]) (show t' + 273 ≤ c.radiant + 273 by linarith)
    linarith
  by_contra hcon
  push Not at hcon
  rcases le_or_gt 0 L with hL0 | hL0
  · have hD0 : 0 ≤ dryLoss c t := by rw [hL]; positivity
    have hord : (c'.clothing - c.clothing) * dryLoss c t ≤ t - t' := by
      have := mul_le_mul_of_nonneg_left hcon.le hI'
      linarith
    have hord0 : 0 ≤ (c'.clothing - c.clothing) * dryLoss c t := mul_nonneg (by linarith) hD0
    have hs := slope ea er ev hL hL' hA.ne' hA'.ne' hcold (by linarith)
    rw [hL] at hord hcon
    rw [hL'] at hcon
    have h1 : L' ≤ L * (1 - 0.82 * areaFactor c.clothing * (c'.clothing - c.clothing)) := by nlinarith
    have h2 := mul_le_mul_of_nonneg_left h1 hA'.le
    have h3 := mul_le_mul_of_nonneg_left hF hL0
    nlinarith
  · have hD0 : dryLoss c t < 0 := by rw [hL]; exact mul_neg_of_pos_of_neg hA hL0
    have h1 := mul_nonpos_of_nonneg_of_nonpos hp.clothing hD0.le
    have h2 := mul_nonneg hI' hpos.le
    have hs := slope ea er ev hL hL' hA.ne' hA'.ne' hcold (by linarith)
    linarith

theorem fcl_atRest : areaFactor (0.155 * 0.3) = 1.059985 ∧ areaFactor (0.155 * 0.7) = 1.1199825 ∧ areaFactor (0.155 * 1.1) = 1.1599725 := by
  unfold areaFactor; norm_num

/-- Without heat loss through the clothing a person at rest is warm. -/
theorem warm_of_no_loss {clo r mrt v p t : ℝ} (hp : 0 ≤ p) (hr : -273 ≤ r) (h : dryLoss (atRest clo r mrt v p) t ≤ 0) :
    0 < voteAt (atRest clo r mrt v p) t := by
  have hmax : max (0.42 * ((58.15 : ℝ) - 0 - 58.15)) 0 = 0 := by norm_num
  unfold voteAt bodyLoad
  simp only [atRest] at h ⊢
  rw [hmax]
  apply mul_pos (by positivity)
  norm_num at h ⊢
  nlinarith

/-- Neighbouring clothings of the program: the loss of the heavier one is not larger. -/
theorem loss_ordered {r mrt v p : ℝ} (hr : -100 ≤ r) (hm : -100 ≤ mrt) {a b t t' : ℝ}
    (hab : (a = 0.3 ∧ b = 0.7) ∨ (a = 0.7 ∧ b = 1.1)) (ht : IsClothingTemp (atRest a r mrt v p) t)
    (ht' : IsClothingTemp (atRest b r mrt v p) t') (hpos : 0 < dryLoss (atRest b r mrt v p) t') :
    dryLoss (atRest b r mrt v p) t' ≤ dryLoss (atRest a r mrt v p) t := by
  have ha : 0 ≤ a ∧ a < b := by rcases hab with ⟨rfl, rfl⟩ | ⟨rfl, rfl⟩ <;> norm_num
  refine clothing_loss (c := atRest a r mrt v p) (c' := atRest b r mrt v p)
    (possible_atRest v p ha.1 (by linarith) (by linarith)) rfl rfl rfl rfl rfl (by simp only [atRest]; linarith [ha.2]) hr hm
    ?_ ht ht' hpos
  obtain ⟨f1, f2, f3⟩ := fcl_atRest
  simp only [atRest]
  rcases hab with ⟨rfl, rfl⟩ | ⟨rfl, rfl⟩
  · rw [f1, f2]; norm_num
  · rw [f2, f3]; norm_num

theorem vote_le {a b r mrt v p t t' : ℝ} (h : dryLoss (atRest b r mrt v p) t' ≤ dryLoss (atRest a r mrt v p) t) :
    voteAt (atRest a r mrt v p) t ≤ voteAt (atRest b r mrt v p) t' := by
  unfold voteAt bodyLoad
  simp only [atRest] at h ⊢
  apply mul_le_mul_of_nonneg_left _ (by positivity)
  linarith

/-- In surroundings not warmer than the skin the clothing does not gain heat. -/
theorem loss_nonneg {clo r mrt v p t : ℝ} (hclo : 0 ≤ clo) (hm : -273 < mrt) (hr' : r ≤ 34.0718) (hm' : mrt ≤ 34.0718)
    (ht : IsClothingTemp (atRest clo r mrt v p) t) : 0 ≤ dryLoss (atRest clo r mrt v p) t := by
  by_contra hc
  push Not at hc
  have hA := areaFactor_pos (show 0 ≤ 0.155 * clo by positivity)
  have h1 := mul_nonpos_of_nonneg_of_nonpos (show 0 ≤ (atRest clo r mrt v p).clothing by simp only [atRest]; positivity) hc.le
  have h2 := ht.2
  have h3 : 34.0718 ≤ t := by
    have : (atRest clo r mrt v p).metabolic - (atRest clo r mrt v p).work = 58.15 := by simp [atRest]
    rw [this] at h2
    norm_num at h2 ⊢
    linarith
  have h4 := (convective_strictMono (velocity_nonneg v)).monotone (show 0 ≤ t - r by linarith)
  simp only [mul_zero] at h4
  have h5 := pow4_mono (show (0 : ℝ) ≤ mrt + 273 by linarith) (show mrt + 273 ≤ t + 273 by linarith)
  have : 0 ≤ dryLoss (atRest clo r mrt v p) t := by
    unfold dryLoss
    simp only [atRest]
    apply mul_nonneg hA.le
    linarith
  linarith

/-- **C88 (clothing).** In a room between -100 °C and skin temperature more clothing is never cooler: PMV(light) ≤ PMV(middle) ≤ PMV(heavy). -/
theorem C88_clothing {newton : (ℝ → ℝ) → ℝ → ℝ} (hN : FindsRoots newton) {r mrt v p l m h : ℝ} (hr : -100 ≤ r) (hm : -100 ≤ mrt)
    (hr' : r ≤ 34.0718) (hm' : mrt ≤ 34.0718)
    (Hl : getHHumAndPmvBy newton "convergence" p r mrt 0.3 v = .ok l) (Hm : getHHumAndPmvBy newton "convergence" p r mrt 0.7 v = .ok m)
    (Hh : getHHumAndPmvBy newton "convergence" p r mrt 1.1 v = .ok h) : l ≤ m ∧ m ≤ h := by
  obtain ⟨l', e1, t1, ht1, rfl⟩ := C88_pmv hN (clo := 0.3) v p (by norm_num) (show -273 < r by linarith) (show -273 < mrt by linarith)
  obtain ⟨m', e2, t2, ht2, rfl⟩ := C88_pmv hN (clo := 0.7) v p (by norm_num) (show -273 < r by linarith) (show -273 < mrt by linarith)
  obtain ⟨h', e3, t3, ht3, rfl⟩ := C88_pmv hN (clo := 1.1) v p (by norm_num) (show -273 < r by linarith) (show -273 < mrt by linarith)
  rw [Hl] at e1; rw [Hm] at e2; rw [Hh] at e3
  rw [Except.ok.inj e1, Except.ok.inj e2, Except.ok.inj e3]
  have hm0 : -273 < mrt := by linarith
  have n1 := loss_nonneg (by norm_num) hm0 hr' hm' ht1
  have n2 := loss_nonneg (by norm_num) hm0 hr' hm' ht2
  have n3 := loss_nonneg (by norm_num) hm0 hr' hm' ht3
  constructor
  · apply vote_le
    rcases n2.eq_or_lt with e | e
    · rw [← e]; exact n1
    · exact loss_ordered hr hm (Or.inl ⟨rfl, rfl⟩) ht1 ht2 e
  · apply vote_le
    rcases n3.eq_or_lt with e | e
    · rw [← e]; exact n2
    · exact loss_ordered hr hm (Or.inr ⟨rfl, rfl⟩) ht2 ht3 e

/-- **C88 (no conflict).** In no room above -100 °C is a person in light clothing warm (PMV ≥ 0.7) and a person in heavy clothing cold
(PMV ≤ -0.7). -/
theorem C88_no_conflict {newton : (ℝ → ℝ) → ℝ → ℝ} (hN : FindsRoots newton) {r mrt v p l h : ℝ} (hp : 0 ≤ p) (hr : -100 ≤ r) (hm : -100 ≤ mrt)
    (Hl : getHHumAndPmvBy newton "convergence" p r mrt 0.3 v = .ok l)
    (Hh : getHHumAndPmvBy newton "convergence" p r mrt 1.1 v = .ok h) : ¬ (0.7 ≤ l ∧ h ≤ -0.7) := by
  rintro ⟨hl, hh⟩
  obtain ⟨l', e1, t1, ht1, rfl⟩ := C88_pmv hN (clo := 0.3) v p (by norm_num) (show -273 < r by linarith) (show -273 < mrt by linarith)
  obtain ⟨m', -, t2, ht2, -⟩ := C88_pmv hN (clo := 0.7) v p (by norm_num) (show -273 < r by linarith) (show -273 < mrt by linarith)
  obtain ⟨h', e3, t3, ht3, rfl⟩ := C88_pmv hN (clo := 1.1) v p (by norm_num) (show -273 < r by linarith) (show -273 < mrt by linarith)
  rw [Hl] at e1; rw [Hh] at e3
  rw [Except.ok.inj e1] at hl
  rw [Except.ok.inj e3] at hh
  rcases le_or_gt (dryLoss (atRest 1.1 r mrt v p) t3) 0 with hd | hd
  · have := warm_of_no_loss hp (by linarith) hd
    linarith
  · have h1 := loss_ordered hr hm (Or.inr ⟨rfl, rfl⟩) ht2 ht3 hd
    have h2 := loss_ordered hr hm (Or.inl ⟨rfl, rfl⟩) ht1 ht2 (by linarith)
    have h3 := vote_le (h1.trans h2)
    linarith

/-! ### The whole function -/

/-- **C88 (target).** With the method `convergence` a call with a legal previous mode returns: the mode is that of the rule for the three
PMVs of ISO 7730 at the air velocity of the previous mode; the clothing and the air velocity are those of the mode; the coefficients are
positive; and in a heated or cooled room the PMV at air = operative = target temperature, with these coefficients, is the target PMV. -/
theorem C88_target {newton : (ℝ → ℝ) → ℝ → ℝ} (hN : FindsRoots newton) {xR r mrt d : ℝ} {prev : OpMode} {radH radC : Bool}
    (hr : -273 < r) (hm : -273 < mrt) (hprev : Legal prev) :
    ∃ z heavy middle light,
      IsVote (atRest 1.1 r mrt (getVHum prev radH radC) (getPvR xR)) heavy ∧
      IsVote (atRest 0.7 r mrt (getVHum prev radH radC) (getPvR xR)) middle ∧
      IsVote (atRest 0.3 r mrt (getVHum prev radH radC) (getPvR xR)) light ∧
      getOtTargetWithPmv newton "convergence" xR prev radH radC r mrt d = .ok z ∧
      (z.mode = .heating ↔ Heats d prev heavy light) ∧ (z.mode = .cooling ↔ Cools d prev heavy light) ∧
      (z.mode = .stopOpen ↔ Opens d prev heavy middle light) ∧ Legal z.mode ∧
      0 ≤ z.hHumC ∧ 0 < z.hHumR ∧
      (z.mode = .heating → z.clo = 1.1 ∧ z.vHum = (if radH then 0 else 0.2) ∧ z.pmvTarget = -0.5) ∧
      (z.mode = .cooling → z.clo = 0.3 ∧ z.vHum = (if radC then 0 else 0.2) ∧ z.pmvTarget = 0.5) ∧
      (z.mode = .stopOpen → z.clo = 0.7 ∧ z.vHum = 0.1 ∧ z.pmvTarget = 0 ∧ z.thetaOtTarget = 0) ∧
      (z.mode = .stopClose → z.clo = 0.7 ∧ z.vHum = 0 ∧ z.pmvTarget = 0 ∧ z.thetaOtTarget = 0) ∧
      (z.mode = .heating ∨ z.mode = .cooling →
        getPmv z.thetaOtTarget z.clo (getPvR xR) (z.hHumC + z.hHumR) z.thetaOtTarget = z.pmvTarget) := by
  obtain ⟨h, e1, h1⟩ := C88_pmv hN (clo := 1.1) (getVHum prev radH radC) (getPvR xR) (by norm_num) hr hm
  obtain ⟨m, e2, h2⟩ := C88_pmv hN (clo := 0.7) (getVHum prev radH radC) (getPvR xR) (by norm_num) hr hm
  obtain ⟨l, e3, h3⟩ := C88_pmv hN (clo := 0.3) (getVHum prev radH radC) (getPvR xR) (by norm_num) hr hm
  obtain ⟨m', e4, r1, r2, r3, -⟩ := C02_mode_rule d prev h m l hprev
  obtain ⟨m'', e4', hleg⟩ := mode_step_legal d prev h m l hprev
  rw [e4] at e4'
  obtain rfl := Except.ok.inj e4'
  have hclo : 0 ≤ getClo m' := by
    rcases hleg with rfl | rfl | rfl | rfl <;> norm_num [getClo, cloHeavy, cloLight, cloMiddle]
  obtain ⟨t, hC, hR, -, -, e5, -, -, hC0, hR0⟩ := C88_coefficients hN (getVHum m' radH radC) (getPvR xR) hclo hr hm
  refine ⟨⟨hC, hR, m', getThetaOtTargetOfMode (getPvR xR) (hC + hR) m', getPmvTarget m', getVHum m' radH radC, getClo m'⟩,
    h, m, l, h1, h2, h3, ?_, r1, r2, r3, hleg, hC0, hR0, ?_, ?_, ?_, ?_, ?_⟩
  · simp only [getOtTargetWithPmv, cloHeavy, cloMiddle, cloLight, e1, e2, e3, e4, e5, Bind.bind, Except.bind]
  · rintro rfl; exact ⟨rfl, rfl, rfl⟩
  · rintro rfl; exact ⟨rfl, rfl, rfl⟩
  · rintro rfl; exact ⟨rfl, rfl, rfl, rfl⟩
  · rintro rfl; exact ⟨rfl, rfl, rfl, rfl⟩
  · rintro (rfl | rfl)
    · exact pmv_target_exact _ _ _ _ hclo (by linarith)
    · exact pmv_target_exact _ _ _ _ hclo (by linarith)

/-- **C88 (constant).** The method `constant` is what the calculation uses: with it the function returns the mode, the coefficients and, as
lower target of a heated and upper target of a cooled room, the target of `get_ot_target_and_h_hum`. -/
theorem C88_constant (newton : (ℝ → ℝ) → ℝ → ℝ) (xR r mrt d : ℝ) (prev : OpMode) (radH radC : Bool) :
    getOtTargetAndHHum r mrt xR prev d = (getOtTargetWithPmv newton "constant" xR prev radH radC r mrt d).map fun z =>
      {
        hHumC := z.hHumC
        hHumR := z.hHumR
        mode := z.mode
        thetaLower := if z.mode = .heating then z.thetaOtTarget else 0
        thetaUpper := if z.mode = .cooling then z.thetaOtTarget else 0 } := by
  have e : ∀ clo v, getHHumAndPmvBy newton "constant" (getPvR xR) r mrt clo v = .ok (getHHumAndPmv (getPvR xR) r mrt clo) := by
    intro clo v
    simp only [getHHumAndPmvBy, getHHumBy, if_neg (show ¬ "constant" = "convergence" by decide), if_true, Bind.bind, Except.bind]
    rfl
  simp only [getOtTargetAndHHum, getOtTargetWithPmv, e, Bind.bind, Except.bind]
  cases getOperationMode d prev (getHHumAndPmv (getPvR xR) r mrt cloHeavy) (getHHumAndPmv (getPvR xR) r mrt cloMiddle)
    (getHHumAndPmv (getPvR xR) r mrt cloLight) with
  | error x => rfl
  | ok m =>
    simp only [getHHumBy, if_neg (show ¬ "constant" = "convergence" by decide), if_true, Except.map]
    rfl

/-- **C88 (other methods).** Any other method is rejected. -/
theorem C88_other (newton : (ℝ → ℝ) → ℝ → ℝ) {method : String} (h1 : method ≠ "convergence") (h2 : method ≠ "constant")
    (xR r mrt d : ℝ) (prev : OpMode) (radH radC : Bool) :
    getOtTargetWithPmv newton method xR prev radH radC r mrt d = .error .exception := by
  simp only [getOtTargetWithPmv, getHHumAndPmvBy, getHHumBy, if_neg h1, if_neg h2, Bind.bind, Except.bind]

/-- A root finder as required exists; with it a summer room at 30 °C with windows closed gets a result. -/
example : ∃ newton z, FindsRoots newton ∧ getOtTargetWithPmv newton "convergence" 0.015 .stopClose false false 30 31 1 = .ok z := by
  obtain ⟨newton, hN⟩ := exists_findsRoots
  obtain ⟨z, -, -, -, -, -, -, e, -⟩ := C88_target hN (xR := 0.015) (r := 30) (mrt := 31) (d := 1) (prev := .stopClose) (radH := false)
    (radC := false) (by norm_num) (by norm_num) (Or.inr (Or.inr (Or.inr rfl)))
  exact ⟨newton, z, hN, e⟩

end HLC
