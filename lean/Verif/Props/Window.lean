import Verif.Props.Solar

/-!
# C47, C48: shading, transmission and glazing characteristics
-/

namespace HLC.Init
open HLC.Spec HLC.Weather MeasureTheory

/-! ## C48 -/

theorem tau_nonneg {c : ℝ} (h0 : 0 ≤ c) (h1 : c ≤ 1) :
    0 ≤ 2.552 * c + 1.364 * c ^ 2 - 11.388 * c ^ 3 + 13.617 * c ^ 4 - 5.146 * c ^ 5 := by
  have b : 0 ≤ 1 - c := by linarith
  have k0 : 0 ≤ c * (1 - c) ^ 4 := by positivity
  have k1 : 0 ≤ c ^ 2 * (1 - c) ^ 3 := by positivity
  have k2 : 0 ≤ c ^ 3 * (1 - c) ^ 2 := by positivity
  have k3 : 0 ≤ c ^ 4 * (1 - c) := by positivity
  have k4 : 0 ≤ c ^ 5 := by positivity
  nlinarith

theorem bern5 {P : ℝ → ℝ} {a b c : ℝ} (ha : a ≤ c) (hb : c ≤ b)
    (h : ∀ u v : ℝ, u = c - a → v = b - c → 0 ≤ u → 0 ≤ v → 0 ≤ u * v ^ 4 → 0 ≤ u ^ 2 * v ^ 3 → 0 ≤ u ^ 3 * v ^ 2 → 0 ≤ u ^ 4 * v →
      0 ≤ u ^ 5 → 0 ≤ v ^ 5 → 0 ≤ P c) : 0 ≤ P c := by
  have u0 : 0 ≤ c - a := by linarith
  have v0 : 0 ≤ b - c := by linarith
  exact h _ _ rfl rfl u0 v0 (by positivity) (by positivity) (by positivity) (by positivity) (by positivity) (by positivity)

theorem tau_le {c : ℝ} (h0 : 0 ≤ c) (h1 : c ≤ 1) :
    2.552 * c + 1.364 * c ^ 2 - 11.388 * c ^ 3 + 13.617 * c ^ 4 - 5.146 * c ^ 5 ≤ 1.002 := by
  rw [← sub_nonneg]
  have step : ∀ a b : ℝ, a ≤ c → c ≤ b → (a = 0 ∧ b = 1 / 2 ∨ a = 1 / 2 ∧ b = 3 / 4 ∨ a = 3 / 4 ∧ b = 7 / 8 ∨ a = 7 / 8 ∧ b = 15 / 16
      ∨ a = 15 / 16 ∧ b = 31 / 32 ∨ a = 31 / 32 ∧ b = 1) →
      0 ≤ 1.002 - (2.552 * c + 1.364 * c ^ 2 - 11.388 * c ^ 3 + 13.617 * c ^ 4 - 5.146 * c ^ 5) := by
    intro a b ha hb hab
    refine bern5 (P := fun c => 1.002 - (2.552 * c + 1.364 * c ^ 2 - 11.388 * c ^ 3 + 13.617 * c ^ 4 - 5.146 * c ^ 5)) ha hb ?_
    intro u v hu hv _ _ k1 k2 k3 k4 k5 k0
    subst hu hv
    rcases hab with ⟨rfl, rfl⟩ | ⟨rfl, rfl⟩ | ⟨rfl, rfl⟩ | ⟨rfl, rfl⟩ | ⟨rfl, rfl⟩ | ⟨rfl, rfl⟩ <;> nlinarith
  rcases le_total c (1 / 2) with h | h
  · exact step 0 (1 / 2) h0 h (by norm_num)
  rcases le_total c (3 / 4) with h' | h'
  · exact step (1 / 2) (3 / 4) h h' (by norm_num)
  rcases le_total c (7 / 8) with h2 | h2
  · exact step (3 / 4) (7 / 8) h' h2 (by norm_num)
  rcases le_total c (15 / 16) with h3 | h3
  · exact step (7 / 8) (15 / 16) h2 h3 (by norm_num)
  rcases le_total c (31 / 32) with h4 | h4
  · exact step (15 / 16) (31 / 32) h3 h4 (by norm_num)
  · exact step (31 / 32) 1 h4 h1 (by norm_num)

theorem rho_nonneg {c : ℝ} (h0 : 0 ≤ c) (h1 : c ≤ 1) :
    0 ≤ 1 - 5.189 * c + 12.392 * c ^ 2 - 16.593 * c ^ 3 + 11.851 * c ^ 4 - 3.461 * c ^ 5 := by
  have step : ∀ a b : ℝ, a ≤ c → c ≤ b → (a = 0 ∧ b = 1 / 2 ∨ a = 1 / 2 ∧ b = 3 / 4 ∨ a = 3 / 4 ∧ b = 7 / 8 ∨ a = 7 / 8 ∧ b = 1) →
      0 ≤ 1 - 5.189 * c + 12.392 * c ^ 2 - 16.593 * c ^ 3 + 11.851 * c ^ 4 - 3.461 * c ^ 5 := by
    intro a b ha hb hab
    refine bern5 (P := fun c => 1 - 5.189 * c + 12.392 * c ^ 2 - 16.593 * c ^ 3 + 11.851 * c ^ 4 - 3.461 * c ^ 5) ha hb ?_
    intro u v hu hv _ _ k1 k2 k3 k4 k5 k0
    subst hu hv
    rcases hab with ⟨rfl, rfl⟩ | ⟨rfl, rfl⟩ | ⟨rfl, rfl⟩ | ⟨rfl, rfl⟩ <;> nlinarith
  rcases le_total c (1 / 2) with h | h
  · exact step 0 (1 / 2) h0 h (by norm_num)
  rcases le_total c (3 / 4) with h' | h'
  · exact step (1 / 2) (3 / 4) h h' (by norm_num)
  rcases le_total c (7 / 8) with h2 | h2
  · exact step (3 / 4) (7 / 8) h' h2 (by norm_num)
  · exact step (7 / 8) 1 h2 h1 (by norm_num)

theorem rho_le {c : ℝ} (h0 : 0 ≤ c) (h1 : c ≤ 1) :
    1 - 5.189 * c + 12.392 * c ^ 2 - 16.593 * c ^ 3 + 11.851 * c ^ 4 - 3.461 * c ^ 5 ≤ 1 - c * (1 - c) := by
  have b : 0 ≤ 1 - c := by linarith
  have k0 : 0 ≤ c * (1 - c) ^ 4 := by positivity
  have k1 : 0 ≤ c ^ 2 * (1 - c) ^ 3 := by positivity
  have k2 : 0 ≤ c ^ 3 * (1 - c) ^ 2 := by positivity
  have k3 : 0 ≤ c ^ 4 * (1 - c) := by positivity
  have k4 : 0 ≤ c ^ 5 := by positivity
  nlinarith

theorem tau_le_rho {c : ℝ} (h0 : 0 ≤ c) (h1 : c ≤ 1) :
    2.552 * c + 1.364 * c ^ 2 - 11.388 * c ^ 3 + 13.617 * c ^ 4 - 5.146 * c ^ 5
      ≤ 1.004 * (1 - (1 - 5.189 * c + 12.392 * c ^ 2 - 16.593 * c ^ 3 + 11.851 * c ^ 4 - 3.461 * c ^ 5)) := by
  rw [← sub_nonneg]
  have step : ∀ a b : ℝ, a ≤ c → c ≤ b → (a = 0 ∧ b = 1 / 2 ∨ a = 1 / 2 ∧ b = 3 / 4 ∨ a = 3 / 4 ∧ b = 7 / 8 ∨ a = 7 / 8 ∧ b = 15 / 16
      ∨ a = 15 / 16 ∧ b = 31 / 32 ∨ a = 31 / 32 ∧ b = 1) →
      0 ≤ 1.004 * (1 - (1 - 5.189 * c + 12.392 * c ^ 2 - 16.593 * c ^ 3 + 11.851 * c ^ 4 - 3.461 * c ^ 5))
        - (2.552 * c + 1.364 * c ^ 2 - 11.388 * c ^ 3 + 13.617 * c ^ 4 - 5.146 * c ^ 5) := by
    intro a b ha hb hab
    refine bern5 (P := fun c => 1.004 * (1 - (1 - 5.189 * c + 12.392 * c ^ 2 - 16.593 * c ^ 3 + 11.851 * c ^ 4 - 3.461 * c ^ 5))
        - (2.552 * c + 1.364 * c ^ 2 - 11.388 * c ^ 3 + 13.617 * c ^ 4 - 5.146 * c ^ 5)) ha hb ?_
    intro u v hu hv _ _ k1 k2 k3 k4 k5 k0
    subst hu hv
    rcases hab with ⟨rfl, rfl⟩ | ⟨rfl, rfl⟩ | ⟨rfl, rfl⟩ | ⟨rfl, rfl⟩ | ⟨rfl, rfl⟩ | ⟨rfl, rfl⟩ <;> nlinarith
  rcases le_total c (1 / 2) with h | h
  · exact step 0 (1 / 2) h0 h (by norm_num)
  rcases le_total c (3 / 4) with h' | h'
  · exact step (1 / 2) (3 / 4) h h' (by norm_num)
  rcases le_total c (7 / 8) with h2 | h2
  · exact step (3 / 4) (7 / 8) h' h2 (by norm_num)
  rcases le_total c (15 / 16) with h3 | h3
  · exact step (7 / 8) (15 / 16) h2 h3 (by norm_num)
  rcases le_total c (31 / 32) with h4 | h4
  · exact step (15 / 16) (31 / 32) h3 h4 (by norm_num)
  · exact step (31 / 32) 1 h4 h1 (by norm_num)

/-- **C48 (range), weaker than claimed.** For every angle of incidence up to 90° the reflectance curve of a single pane lies in [0, 1],
the transmittance curves are non-negative and exceed 1 by at most 0.002 (single) and 0.007 (double). The claim that they stay below 1 is
false, see `C48_violated`. -/
theorem C48_range_partial (theta : ℝ) (h0 : 0 ≤ Real.cos theta) :
    0 ≤ tauSingle theta ∧ tauSingle theta ≤ 1.002 ∧ 0 ≤ rhoSingle theta ∧ rhoSingle theta ≤ 1 ∧
    0 ≤ tauDouble theta ∧ tauDouble theta ≤ 1.007 := by
  have h1 := Real.cos_le_one theta
  have t0 : 0 ≤ tauSingle theta := tau_nonneg h0 h1
  have t1 : tauSingle theta ≤ 1.002 := tau_le h0 h1
  have r0 : 0 ≤ rhoSingle theta := rho_nonneg h0 h1
  have r1 : rhoSingle theta ≤ 1 := by
    have : rhoSingle theta ≤ 1 - Real.cos theta * (1 - Real.cos theta) := rho_le h0 h1
    nlinarith
  have tr : tauSingle theta ≤ 1.004 * (1 - rhoSingle theta) := tau_le_rho h0 h1
  have den : 0 ≤ 1 - rhoSingle theta ^ 2 := by nlinarith
  refine ⟨t0, t1, r0, r1, div_nonneg (sq_nonneg _) den, ?_⟩
  unfold tauDouble
  rcases den.eq_or_lt with hz | hp
  · rw [← hz, div_zero]; norm_num
  · rw [div_le_iff₀ hp]
    have e1 : tauSingle theta ^ 2 ≤ 1.002 * (1.004 * (1 - rhoSingle theta)) := by nlinarith
    have e2 : 1 - rhoSingle theta ≤ 1 - rhoSingle theta ^ 2 := by nlinarith
    nlinarith

/-- **C48 (end points).** At normal incidence the transmittance curve is 0.999 (1 to three decimals) and the reflectance curve 0; at
grazing incidence they are 0 and 1; double glazing follows with 0.998001 and 0. -/
theorem C48_end_points :
    tauSingle 0 = 0.999 ∧ rhoSingle 0 = 0 ∧ tauDouble 0 = 0.998001 ∧
    tauSingle (Real.pi / 2) = 0 ∧ rhoSingle (Real.pi / 2) = 1 ∧ tauDouble (Real.pi / 2) = 0 := by
  simp only [tauDouble, tauSingle, rhoSingle, Real.cos_zero, Real.cos_pi_div_two]
  norm_num

/-- **C48 (violation).** The single-pane transmittance curve exceeds 1 at an incidence cosine of 0.96. -/
theorem C48_violated : ∃ theta, 0 ≤ Real.cos theta ∧ 1 < tauSingle theta := by
  refine ⟨Real.arccos 0.96, ?_, ?_⟩
  · rw [Real.cos_arccos (by norm_num) (by norm_num)]; norm_num
  · simp only [tauSingle, Real.cos_arccos (show (-1 : ℝ) ≤ 0.96 by norm_num) (show (0.96 : ℝ) ≤ 1 by norm_num)]
    norm_num

/-- **C48 (selection).** Only the glazing types "single" and "multiple" are accepted; they use the curves above and the diffuse
transmittances 0.900 and 0.832. -/
theorem C48_selection (theta : ℝ) (g : String) :
    tauD theta "single" = .ok (tauSingle theta) ∧ tauD theta "multiple" = .ok (tauDouble theta) ∧
    cD "single" = .ok 0.900 ∧ cD "multiple" = .ok 0.832 ∧
    (g ≠ "single" → g ≠ "multiple" → tauD theta g = .error .valueError ∧ cD g = .error .valueError) := by
  refine ⟨rfl, rfl, rfl, rfl, fun h1 h2 => ?_⟩
  simp [tauD, cD, h1, h2]

/-! ## C47: shading -/

/-- **C47 (shaded part of a window).** For an overhang above a window facing the sun, the returned fraction times the window height is
the length (Lebesgue measure) of the set of window points from which the sun is hidden by the overhang. -/
theorem C47_overhang (wAlpha depth dH dE h a : ℝ) (hH : 0 < dH) (h0 : 0 < h) (h1 : h < Real.pi / 2) (hf : 0 < Real.cos (a - wAlpha)) :
    volume (shaded depth dE (Real.cos h * Real.cos (a - wAlpha)) (Real.sin h) ∩ Set.Icc 0 dH)
      = ENNReal.ofReal (shadeDirect wAlpha depth dH dE h a * dH) := by
  have hc : 0 < Real.cos h := Real.cos_pos_of_mem_Ioo ⟨by linarith, h1⟩
  set L := depth * (Real.tan h / Real.cos (a - wAlpha)) - dE with hL
  have hset : shaded depth dE (Real.cos h * Real.cos (a - wAlpha)) (Real.sin h) ∩ Set.Icc 0 dH = Set.Icc 0 (min L dH) := by
    ext y
    simp only [shaded, Set.mem_inter_iff, Set.mem_ofPred_eq, Set.mem_Icc, le_min_iff]
    have : (dE + y) * (Real.cos h * Real.cos (a - wAlpha)) ≤ depth * Real.sin h ↔ y ≤ L := by
      rw [hL, Real.tan_eq_sin_div_cos, div_div, ← mul_div_assoc, le_sub_iff_add_le, add_comm y, le_div_iff₀ (by positivity)]
    rw [this]
    tauto
  rw [hset, Real.volume_Icc, sub_zero]
  have hval : shadeDirect wAlpha depth dH dE h a = min (max (L / dH) 0) 1 := by
    unfold shadeDirect
    simp only [h0, if_true, if_neg (not_le.2 h0)]
    rw [hL]
  rw [hval]
  have e : min (max (L / dH) 0) 1 * dH = max (min L dH) 0 := by
    rcases le_total L 0 with hl | hl
    · have : L / dH ≤ 0 := div_nonpos_of_nonpos_of_nonneg hl hH.le
      rw [max_eq_right this, min_eq_left zero_le_one, zero_mul, max_eq_right (min_le_of_left_le hl)]
    · have hq : 0 ≤ L / dH := by positivity
      rw [max_eq_left hq]
      rcases le_total L dH with hd | hd
      · rw [min_eq_left ((div_le_one hH).2 hd), min_eq_left hd, div_mul_cancel₀ _ hH.ne', max_eq_left hl]
      · rw [min_eq_right ((one_le_div hH).2 hd), min_eq_right hd, one_mul, max_eq_left hH.le]
  rw [e, ENNReal.ofReal_max, ENNReal.ofReal_zero, max_eq_left (zero_le (a := ENNReal.ofReal (min L dH)))]

/-- **C47 (shading fractions).** The direct fraction lies in [0, 1] and vanishes while the sun is down; the sky fraction of an overhang
of non-negative size lies in [0, 1/2], vanishes without overhang and does not decrease with its depth. -/
theorem C47_fractions (wAlpha depth depth' dH dE h a : ℝ) (hH : 0 < dH) (hE : 0 ≤ dE) (hd : 0 ≤ depth) (hdd : depth ≤ depth') :
    0 ≤ shadeDirect wAlpha depth dH dE h a ∧ shadeDirect wAlpha depth dH dE h a ≤ 1 ∧
    (h ≤ 0 → shadeDirect wAlpha depth dH dE h a = 0) ∧
    0 ≤ shadeSky depth dH dE ∧ shadeSky depth dH dE ≤ 1 / 2 ∧ shadeSky 0 dH dE = 0 ∧ shadeSky depth dH dE ≤ shadeSky depth' dH dE := by
  have hroots : ∀ z : ℝ, 0 ≤ z → Real.sqrt (dE ^ 2 + z ^ 2) ≤ Real.sqrt ((dE + dH) ^ 2 + z ^ 2) ∧
      Real.sqrt ((dE + dH) ^ 2 + z ^ 2) ≤ Real.sqrt (dE ^ 2 + z ^ 2) + dH := by
    intro z hz
    constructor
    · apply Real.sqrt_le_sqrt; nlinarith
    · rw [Real.sqrt_le_left (by positivity)]
      have h1 := Real.sq_sqrt (show 0 ≤ dE ^ 2 + z ^ 2 by positivity)
      have h2 : dE ≤ Real.sqrt (dE ^ 2 + z ^ 2) := Real.le_sqrt_of_sq_le (by nlinarith)
      nlinarith
  refine ⟨?_, ?_, ?_, ?_, ?_, ?_, ?_⟩
  · unfold shadeDirect
    by_cases hp : 0 < h
    · simp only [hp, if_true, if_neg (not_le.2 hp)]
      exact le_min (le_max_right _ _) zero_le_one
    · simp [hp]
  · unfold shadeDirect
    by_cases hp : 0 < h
    · simp only [hp, if_true, if_neg (not_le.2 hp)]
      exact min_le_right _ _
    · simp [hp]
  · intro hneg
    unfold shadeDirect
    simp [not_lt.2 hneg]
  · unfold shadeSky
    simp only
    apply div_nonneg _ (by positivity)
    linarith [(hroots depth hd).2]
  · unfold shadeSky
    simp only
    rw [div_le_iff₀ (by positivity)]
    linarith [(hroots depth hd).1]
  · unfold shadeSky
    simp only
    rw [show dE ^ 2 + (0 : ℝ) ^ 2 = dE ^ 2 by ring, show (dE + dH) ^ 2 + (0 : ℝ) ^ 2 = (dE + dH) ^ 2 by ring, Real.sqrt_sq hE,
      Real.sqrt_sq (by positivity)]
    rw [show dE + dH + dE - (dE + (dE + dH)) = 0 by ring, zero_div]
  · unfold shadeSky
    simp only
    apply div_le_div_of_nonneg_right _ (by positivity)
    have key : ∀ z : ℝ, 0 ≤ z → Real.sqrt ((dE + dH) ^ 2 + z ^ 2) - Real.sqrt (dE ^ 2 + z ^ 2)
        = dH * (2 * dE + dH) / (Real.sqrt ((dE + dH) ^ 2 + z ^ 2) + Real.sqrt (dE ^ 2 + z ^ 2)) := by
      intro z hz
      have p1 : 0 < Real.sqrt ((dE + dH) ^ 2 + z ^ 2) := Real.sqrt_pos.2 (by positivity)
      have p2 := Real.sqrt_nonneg (dE ^ 2 + z ^ 2)
      rw [eq_div_iff (by positivity)]
      have h1 := Real.sq_sqrt (show 0 ≤ dE ^ 2 + z ^ 2 by positivity)
      have h2 := Real.sq_sqrt (show 0 ≤ (dE + dH) ^ 2 + z ^ 2 by positivity)
      nlinarith
    have k1 := key depth hd
    have k2 := key depth' (hd.trans hdd)
    have sq : depth ^ 2 ≤ depth' ^ 2 := by nlinarith
    have m1 : Real.sqrt ((dE + dH) ^ 2 + depth ^ 2) ≤ Real.sqrt ((dE + dH) ^ 2 + depth' ^ 2) := Real.sqrt_le_sqrt (by linarith)
    have m2 : Real.sqrt (dE ^ 2 + depth ^ 2) ≤ Real.sqrt (dE ^ 2 + depth' ^ 2) := Real.sqrt_le_sqrt (by linarith)
    have p1 : 0 < Real.sqrt ((dE + dH) ^ 2 + depth ^ 2) := Real.sqrt_pos.2 (by positivity)
    have p2 := Real.sqrt_nonneg (dE ^ 2 + depth ^ 2)
    have : dH * (2 * dE + dH) / (Real.sqrt ((dE + dH) ^ 2 + depth' ^ 2) + Real.sqrt (dE ^ 2 + depth' ^ 2))
        ≤ dH * (2 * dE + dH) / (Real.sqrt ((dE + dH) ^ 2 + depth ^ 2) + Real.sqrt (dE ^ 2 + depth ^ 2)) := by
      apply div_le_div_of_nonneg_left (by positivity) (by positivity) (by linarith)
    linarith

/-- An overhang of sensible dimensions, or none. -/
def Shading.Valid : Shading → Prop
  | .simple _ depth dH dE => 0 ≤ depth ∧ 0 < dH ∧ 0 ≤ dE
  | .detail _ => False
  | .none => True

theorem Shading.values {p : Shading} (hp : p.Valid) (h a : ℝ) :
    ∃ fd fs, p.direct h a = .ok fd ∧ p.sky = .ok fs ∧ 0 ≤ fd ∧ fd ≤ 1 ∧ 0 ≤ fs ∧ fs ≤ 1 := by
  cases p with
  | simple w d hh e =>
    obtain ⟨h1, h2, h3⟩ := hp
    obtain ⟨a1, a2, -, a4, a5, -, -⟩ := C47_fractions w d d hh e h a h2 h3 h1 le_rfl
    exact ⟨_, _, rfl, if_neg h2.ne', a1, a2, a4, by linarith⟩
  | detail w => exact hp.elim
  | none => exact ⟨1, 0, rfl, rfl, zero_le_one, le_rfl, le_rfl, zero_le_one⟩

/-- **C47 (transmission).** For non-negative weather and a valid shading, the transmitted solar radiation of a window is non-negative
and at most 1.007 times solar heat gain coefficient times area times the incident radiation. -/
theorem C47_transmitted (alpha beta area : ℝ) (p : Shading) (hp : p.Valid) (g : String) (hg : g = "single" ∨ g = "multiple")
    (eta : ℝ) (he : 0 ≤ eta) (ha : 0 ≤ area) (s : Step) (hd : 0 ≤ s.iDn) (hs : 0 ≤ s.iSky) (hh : s.hSun ≤ Real.pi / 2) :
    ∃ q, transmitted alpha beta area p g eta s = .ok q ∧ 0 ≤ q ∧
      q ≤ 1.007 * (eta * area * ((irradiance s alpha beta).direct + (irradiance s alpha beta).sky + (irradiance s alpha beta).reflected)) := by
  obtain ⟨fd, fs, e1, e2, d0, d1, s0, s1⟩ := Shading.values hp s.hSun s.aSun
  obtain ⟨-, -, -, i0, i1, i2, -, -⟩ := C45_irradiance s alpha beta hd hs hh
  have hc := (C45_incidence s.hSun s.aSun alpha beta).2.1
  obtain ⟨t0, t1, -, -, t2, t3⟩ := C48_range_partial _ hc
  have hT : ∃ tau cd, tauD (incidence s.hSun s.aSun alpha beta) g = .ok tau ∧ cD g = .ok cd ∧ 0 ≤ tau ∧ tau ≤ 1.007 ∧ 0 ≤ cd ∧ cd ≤ 1 := by
    rcases hg with rfl | rfl
    · exact ⟨_, _, rfl, rfl, t0, by linarith, by norm_num, by norm_num⟩
    · exact ⟨_, _, rfl, rfl, t2, t3, by norm_num, by norm_num⟩
  obtain ⟨tau, cd, e3, e4, u0, u1, c0, c1⟩ := hT
  refine ⟨_, by unfold transmitted; simp only [e1, e2, e3, e4, bind, Except.bind]; rfl, ?_, ?_⟩
  · have a1 : 0 ≤ 1 - fd := by linarith
    have a2 : 0 ≤ 1 - fs := by linarith
    rw [sub_zero]
    positivity
  · have b1 : (1 - fd) * tau ≤ 1.007 := by nlinarith
    have b2 : (1 - fs) * cd ≤ 1.007 := by nlinarith
    have b3 : cd ≤ 1.007 := by linarith
    have m1 := mul_le_mul_of_nonneg_right b1 i0
    have m2 := mul_le_mul_of_nonneg_right b2 i1
    have m3 := mul_le_mul_of_nonneg_right b3 i2
    have m := mul_le_mul_of_nonneg_left (add_le_add (add_le_add m1 m2) m3) (mul_nonneg he ha)
    calc _ = eta * area * ((1 - fd) * tau * (irradiance s alpha beta).direct + (1 - fs) * cd * (irradiance s alpha beta).sky
          + cd * (irradiance s alpha beta).reflected) := by ring
      _ ≤ _ := m
      _ = _ := by ring

/-- **C47 (formula with an overhang).** -/
theorem C47_formula (alpha beta area eta depth dH dE : ℝ) (hH : dH ≠ 0) (s : Step) :
    transmitted alpha beta area (.simple alpha depth dH dE) "single" eta s = .ok (
      eta * area * ((1 - shadeDirect alpha depth dH dE s.hSun s.aSun) * tauSingle (incidence s.hSun s.aSun alpha beta)
          * (irradiance s alpha beta).direct
        + (1 - shadeSky depth dH dE) * 0.900 * (irradiance s alpha beta).sky + 0.900 * (irradiance s alpha beta).reflected)) := by
  unfold transmitted
  simp only [Shading.direct, Shading.sky, tauD, cD, bind, Except.bind, if_true, if_neg hH]
  congr 1
  ring

/-- **C47 (violation).** "A window without sunshade transmits direct sun" is false: its direct shading fraction is 1, so for every sun
position and every direct normal irradiance no direct radiation is transmitted, although direct radiation falls on the pane. -/
theorem C47_violated :
    (∀ (alpha beta area eta : ℝ) (s : Step), ∃ q, transmitted alpha beta area .none "single" eta s = .ok q ∧
      q = eta * area * 0.900 * ((irradiance s alpha beta).sky + (irradiance s alpha beta).reflected)) ∧
    ∃ s : Step, 0 < (irradiance s 0 (Real.pi / 2)).direct * tauSingle (incidence s.hSun s.aSun 0 (Real.pi / 2)) := by
  constructor
  · intro alpha beta area eta s
    refine ⟨_, by unfold transmitted; simp only [Shading.direct, Shading.sky, tauD, cD, bind, Except.bind, if_true]; rfl, by ring⟩
  · refine ⟨⟨0, 800, 0, 0, 0, 0⟩, ?_⟩
    have hc : Real.cos (incidence 0 0 0 (Real.pi / 2)) = 1 := by
      rw [(C45_incidence _ _ _ _).1]
      simp [dot, normal, ofAngles]
    have hd : (irradiance ⟨0, 800, 0, 0, 0, 0⟩ 0 (Real.pi / 2)).direct = 800 * Real.cos (incidence 0 0 0 (Real.pi / 2)) := rfl
    rw [hd]
    simp only [tauSingle, hc]
    norm_num

/-- A shaded south window in summer meets the hypotheses of the theorems. -/
example : (Shading.simple 0 0.9 1.2 0.3).Valid ∧ (∃ q, transmitted 0 (Real.pi / 2) 2 (.simple 0 0.9 1.2 0.3) "multiple" 0.5
    ⟨30, 700, 120, 60, Real.pi / 3, 0.1⟩ = .ok q ∧ 0 ≤ q) := by
  have hv : (Shading.simple 0 0.9 1.2 0.3).Valid := ⟨by norm_num, by norm_num, by norm_num⟩
  obtain ⟨q, h, h0, -⟩ := C47_transmitted 0 (Real.pi / 2) 2 _ hv "multiple" (.inr rfl) 0.5 (by norm_num) (by norm_num)
    ⟨30, 700, 120, 60, Real.pi / 3, 0.1⟩ (by norm_num) (by norm_num) (by simp only; linarith [Real.pi_pos])
  exact ⟨hv, q, h, h0⟩

/-- **C47 (selection).** A shading object is made only for a sun-struck external part with an existing sunshade; the detailed input
method is accepted but computing with it raises `NotImplementedError`; other input methods are refused. -/
theorem C47_selection (b : BoundaryDict) (ssp : ShadingDict) (hb : b.shading = some ssp) :
    (isExternal b.boundaryType = true → b.isSunStruck = some true → ssp.existence = true → ∀ d ab, b.direction = some d →
      angles d = .ok ab →
        (∀ z dh de, ssp.inputMethod = some "simple" → ssp.depth = some z → ssp.dH = some dh → ssp.dE = some de →
          Shading.create b = .ok (.simple ab.1 z dh de)) ∧
        (∀ x, ssp.inputMethod = some "detail" → ssp.detail = some x → Shading.create b = .ok (.detail ab.1) ∧
          ∀ h a, (Shading.detail ab.1).direct h a = .error .notImplemented ∧ (Shading.detail ab.1).sky = .error .notImplemented) ∧
        (∀ m, ssp.inputMethod = some m → m ≠ "simple" → m ≠ "detail" → Shading.create b = .error .valueError)) ∧
    (isExternal b.boundaryType = true → b.isSunStruck = some true → ssp.existence = false → Shading.create b = .ok .none) ∧
    (isExternal b.boundaryType = true → b.isSunStruck = some false → Shading.create b = .ok .none) ∧
    (b.boundaryType = "internal" ∨ b.boundaryType = "ground" → Shading.create b = .ok .none) := by
  refine ⟨fun h1 h2 h3 d ab h4 h5 => ⟨?_, ?_, ?_⟩, ?_, ?_, ?_⟩
  · intro z dh de m1 m2 m3 m4
    simp [Shading.create, hb, key, shadingSunStruck, h1, h2, h3, h4, h5, m1, m2, m3, m4, bind, Except.bind]
  · intro x m1 m2
    refine ⟨?_, fun h a => ⟨rfl, rfl⟩⟩
    simp [Shading.create, hb, key, shadingSunStruck, h1, h2, h3, h4, h5, m1, m2, bind, Except.bind]
  · intro m m1 m2 m3
    simp [Shading.create, hb, key, shadingSunStruck, h1, h2, h3, h4, h5, m1, m2, m3, bind, Except.bind]
  · intro h1 h2 h3
    simp [Shading.create, hb, key, shadingSunStruck, h1, h2, h3, bind, Except.bind]
  · intro h1 h2
    simp [Shading.create, hb, key, shadingSunStruck, h1, h2, bind, Except.bind]
  · intro h
    rcases h with h | h <;>
    simp [Shading.create, hb, key, shadingSunStruck, isExternal, h, bind, Except.bind]

end HLC.Init
