import Verif.Spec.Solar
import Mathlib.Analysis.Real.Pi.Bounds
import Mathlib.Analysis.SpecialFunctions.Trigonometric.Inverse
import Mathlib.Algebra.Order.BigOperators.Group.List
import Mathlib.Tactic.Linarith
import Mathlib.Tactic.Ring
import Mathlib.Tactic.NormNum
import Mathlib.Tactic.Positivity

/-!
# C45, C46: irradiance of inclined surfaces and equivalent outdoor temperature
-/

namespace HLC.Init
open HLC.Spec HLC.Weather

/-! ## C45 -/

theorem normal_unit (α β : ℝ) : dot (normal α β) (normal α β) = 1 := by
  simp only [dot, normal]
  linear_combination (Real.sin β ^ 2) * Real.sin_sq_add_cos_sq α + Real.sin_sq_add_cos_sq β

theorem ofAngles_unit (h a : ℝ) : dot (ofAngles h a) (ofAngles h a) = 1 := by
  simp only [dot, ofAngles]
  linear_combination (Real.cos h ^ 2) * Real.sin_sq_add_cos_sq a + Real.sin_sq_add_cos_sq h

theorem dot_le_one {u v : ℝ × ℝ × ℝ} (hu : dot u u = 1) (hv : dot v v = 1) : dot u v ≤ 1 := by
  simp only [dot] at *
  nlinarith [sq_nonneg (u.1 - v.1), sq_nonneg (u.2.1 - v.2.1), sq_nonneg (u.2.2 - v.2.2)]

theorem cosIncidence_eq (h a α β : ℝ) : cosIncidence h a α β = max (dot (normal α β) (ofAngles h a)) 0 := by
  unfold cosIncidence dot normal ofAngles
  congr 1
  split
  · rename_i hc
    simp only [hc]; ring
  · simp only; ring

theorem cosIncidence_range (h a α β : ℝ) : 0 ≤ cosIncidence h a α β ∧ cosIncidence h a α β ≤ 1 := by
  rw [cosIncidence_eq]
  exact ⟨le_max_right _ _, max_le (dot_le_one (normal_unit α β) (ofAngles_unit h a)) zero_le_one⟩

/-- **C45 (incidence).** The cosine of the returned angle of incidence is the scalar product of the outward normal and the direction to
the sun, replaced by 0 when the sun is behind the surface; it lies in [0, 1] and the angle in [0°, 90°]. -/
theorem C45_incidence (h a α β : ℝ) :
    Real.cos (incidence h a α β) = max (dot (normal α β) (ofAngles h a)) 0 ∧
    0 ≤ Real.cos (incidence h a α β) ∧ Real.cos (incidence h a α β) ≤ 1 ∧
    0 ≤ incidence h a α β ∧ incidence h a α β ≤ Real.pi / 2 := by
  obtain ⟨h0, h1⟩ := cosIncidence_range h a α β
  have hc : Real.cos (incidence h a α β) = cosIncidence h a α β := Real.cos_arccos (by linarith) h1
  rw [hc]
  exact ⟨cosIncidence_eq h a α β, h0, h1, Real.arccos_nonneg _, Real.arccos_le_pi_div_two.2 h0⟩

/-- **C45 (directions).** The ten named directions have the stated normals, and any other name is refused. -/
theorem C45_directions (direction : String) :
    (∀ ab, angles direction = .ok ab → namedNormal direction = some (normal ab.1 ab.2)) ∧
    (namedNormal direction = none → angles direction = .error .keyError) ∧
    (namedNormal direction ≠ none → ∃ ab, angles direction = .ok ab) := by
  have r0 : radians 0 = 0 := by unfold radians; ring
  have r90 : radians 90 = Real.pi / 2 := by unfold radians; ring
  have r45 : radians 45 = Real.pi / 4 := by unfold radians; ring
  have r180 : radians 180 = Real.pi := by unfold radians; ring
  have r135 : radians 135 = Real.pi - Real.pi / 4 := by unfold radians; ring
  have m135 : radians (-135) = -(Real.pi - Real.pi / 4) := by unfold radians; ring
  have m90 : radians (-90) = -(Real.pi / 2) := by unfold radians; ring
  have m45 : radians (-45) = -(Real.pi / 4) := by unfold radians; ring
  by_cases hm : direction ∈ ["s", "sw", "w", "nw", "n", "ne", "e", "se", "top", "bottom"]
  · simp only [List.mem_cons, List.not_mem_nil, or_false] at hm
    rcases hm with rfl | rfl | rfl | rfl | rfl | rfl | rfl | rfl | rfl | rfl <;>
      (refine ⟨fun ab H => ?_, fun H => ?_, fun _ => ⟨_, rfl⟩⟩
       · simp [angles] at H
         subst H
         simp [namedNormal, normal, r0, r90, r45, r180, r135, m135, m90, m45]
       · simp [namedNormal] at H)
  · simp only [List.mem_cons, List.not_mem_nil, or_false, not_or] at hm
    obtain ⟨h1, h2, h3, h4, h5, h6, h7, h8, h9, h10⟩ := hm
    have ha : angles direction = .error .keyError := by
      simp [angles, h1, h2, h3, h4, h5, h6, h7, h8, h9, h10]
    have hn : namedNormal direction = none := by
      simp [namedNormal, h1, h2, h3, h4, h5, h6, h7, h8, h9, h10]
    refine ⟨fun ab H => ?_, fun _ => ha, fun H => absurd hn H⟩
    rw [ha] at H
    cases H

/-- **C45 (irradiance).** For non-negative weather, the direct irradiance is the direct normal irradiance times the cosine of incidence;
sky and ground see the surface with the view factors (1 + cos β) / 2 and (1 - cos β) / 2, which add to one; the ground reflects one tenth
of the global horizontal irradiance; all three parts are non-negative and the direct part is at most the direct normal irradiance. -/
theorem C45_irradiance (s : Step) (α β : ℝ) (hd : 0 ≤ s.iDn) (hs : 0 ≤ s.iSky) (hh : s.hSun ≤ Real.pi / 2) :
    (irradiance s α β).direct = s.iDn * max (dot (normal α β) (ofAngles s.hSun s.aSun)) 0 ∧
    (irradiance s α β).sky = (1 + Real.cos β) / 2 * s.iSky ∧
    (irradiance s α β).reflected = (1 - Real.cos β) / 2 * (0.1 * (s.iDn * max (Real.sin (max s.hSun 0)) 0 + s.iSky)) ∧
    0 ≤ (irradiance s α β).direct ∧ 0 ≤ (irradiance s α β).sky ∧ 0 ≤ (irradiance s α β).reflected ∧
    (irradiance s α β).direct ≤ s.iDn ∧ (irradiance s α β).sky ≤ s.iSky := by
  obtain ⟨e, h0, h1, -, -⟩ := C45_incidence s.hSun s.aSun α β
  have ed : (irradiance s α β).direct = s.iDn * Real.cos (incidence s.hSun s.aSun α β) := rfl
  have es : (irradiance s α β).sky = (1 + Real.cos β) / 2 * s.iSky := rfl
  have hb1 := Real.neg_one_le_cos β
  have hb2 := Real.cos_le_one β
  have hpi := Real.pi_pos
  have hsin : (if s.hSun > 0 then Real.sin s.hSun else 0) = max (Real.sin (max s.hSun 0)) 0 := by
    split
    · rename_i hp
      rw [max_eq_left hp.le, max_eq_left (Real.sin_nonneg_of_nonneg_of_le_pi (le_of_lt hp) (by linarith))]
    · rename_i hp
      rw [max_eq_right (not_lt.1 hp), Real.sin_zero, max_self]
  have er : (irradiance s α β).reflected = (1 - Real.cos β) / 2 * (0.1 * (s.iDn * max (Real.sin (max s.hSun 0)) 0 + s.iSky)) := by
    have : (irradiance s α β).reflected =
      (1 - (1 + Real.cos β) / 2) * 0.1 * ((if s.hSun > 0 then Real.sin s.hSun else 0) * s.iDn + s.iSky) := rfl
    rw [this, hsin]
    ring
  have hm : 0 ≤ max (Real.sin (max s.hSun 0)) 0 := le_max_right _ _
  refine ⟨by rw [ed, e], es, er, by rw [ed]; positivity, ?_, ?_, by rw [ed]; nlinarith, by rw [es]; nlinarith⟩
  · rw [es]; exact mul_nonneg (by linarith) hs
  · rw [er]; exact mul_nonneg (by linarith) (by positivity)

/-- **C45 (no direct sun).** A surface facing away from the sun gets no direct irradiance, and a horizontal roof gets none while the sun
is below the horizon. -/
theorem C45_no_direct (s : Step) (α β : ℝ) :
    (dot (normal α β) (ofAngles s.hSun s.aSun) ≤ 0 → (irradiance s α β).direct = 0) ∧
    (Real.sin s.hSun ≤ 0 → (irradiance s α 0).direct = 0) := by
  have key : ∀ α β, dot (normal α β) (ofAngles s.hSun s.aSun) ≤ 0 → (irradiance s α β).direct = 0 := by
    intro α β h
    have ed : (irradiance s α β).direct = s.iDn * Real.cos (incidence s.hSun s.aSun α β) := rfl
    rw [ed, (C45_incidence s.hSun s.aSun α β).1, max_eq_right h, mul_zero]
  refine ⟨key α β, fun h => key α 0 ?_⟩
  simpa [dot, normal, ofAngles] using h

/-- **C45 (violation).** The cosine of incidence is not zero whenever the sun is down: a vertical wall facing the azimuth of the sun is
struck by a sun 10° below the horizon, so direct irradiance on it is positive for positive direct normal irradiance. -/
theorem C45_violated :
    ∃ s : Step, 0 < s.iDn ∧ s.hSun < 0 ∧ 0 < (irradiance s 0 (Real.pi / 2)).direct := by
  refine ⟨⟨0, 100, 0, 0, -(Real.pi / 18), 0⟩, by norm_num, by simp only; linarith [Real.pi_pos], ?_⟩
  have ed : (irradiance ⟨0, 100, 0, 0, -(Real.pi / 18), 0⟩ 0 (Real.pi / 2)).direct
      = 100 * Real.cos (incidence (-(Real.pi / 18)) 0 0 (Real.pi / 2)) := rfl
  rw [ed, (C45_incidence _ _ _ _).1]
  have : dot (normal 0 (Real.pi / 2)) (ofAngles (-(Real.pi / 18)) 0) = Real.cos (Real.pi / 18) := by
    simp [dot, normal, ofAngles]
  rw [this]
  have : 0 < Real.cos (Real.pi / 18) := Real.cos_pos_of_mem_Ioo ⟨by linarith [Real.pi_pos], by linarith [Real.pi_pos]⟩
  rw [max_eq_left this.le]
  positivity

/-! ## C46 -/

/-- **C46 (solar-irradiated opaque part).** The equivalent temperature is the outdoor temperature plus outside resistance times absorbed
solar radiation minus night radiation; with no radiation it is the outdoor temperature; it increases with absorptance, and with any
irradiance component. -/
theorem C46_opaque (direction : String) (aS epsR rSurf : ℝ) (w : List Step) (l : List ℝ)
    (H : (EqvTemp.wall direction aS epsR rSurf).series w = .ok l) :
    ∃ ab, angles direction = .ok ab ∧ l = w.map fun s => s.thetaO +
      (aS * ((irradiance s ab.1 ab.2).direct + (irradiance s ab.1 ab.2).sky + (irradiance s ab.1 ab.2).reflected)
        - epsR * ((1 + Real.cos ab.2) / 2 * s.rN)) * rSurf := by
  simp only [EqvTemp.series, bind, Except.bind] at H
  split at H
  · cases H
  · rename_i ab hab
    cases H
    exact ⟨ab, hab, rfl⟩

/-- **C46 (no radiation).** Without solar irradiance and night radiation every external kind of boundary has the outdoor temperature. -/
theorem C46_no_radiation (e : EqvTemp) (he : e ≠ .internal) (hg : e ≠ .ground) (w : List Step) (l : List ℝ)
    (hw : ∀ s ∈ w, s.iDn = 0 ∧ s.iSky = 0 ∧ s.rN = 0) (H : e.series w = .ok l) : l = w.map Step.thetaO := by
  cases e with
  | internal => exact absurd rfl he
  | ground => exact absurd rfl hg
  | notSunStruck => exact (Except.ok.inj H).symm
  | wall direction aS epsR rSurf =>
    obtain ⟨ab, -, rfl⟩ := C46_opaque _ _ _ _ _ _ H
    apply List.map_congr_left
    intro s hs
    obtain ⟨h1, h2, h3⟩ := hw s hs
    simp [irradiance, iDirect, iReflected, iHrz, h1, h2, h3]
  | window direction epsR rSurf =>
    simp only [EqvTemp.series, bind, Except.bind] at H
    split at H
    · cases H
    · cases H
      apply List.map_congr_left
      intro s hs
      simp [nightRadiation, (hw s hs).2.2]

/-- **C46 (monotonicity).** More direct normal or sky radiation, a higher absorptance, or less night radiation never lowers the
equivalent temperature of an opaque part. -/
theorem C46_monotone (direction : String) (aS aS' epsR rSurf : ℝ) (s s' : Step) (l l' : List ℝ)
    (hr : 0 ≤ rSurf) (ha : 0 ≤ aS) (haa : aS ≤ aS') (he : 0 ≤ epsR) (hd : 0 ≤ s.iDn) (hs : 0 ≤ s.iSky)
    (hd' : s.iDn ≤ s'.iDn) (hs' : s.iSky ≤ s'.iSky) (hn : s'.rN ≤ s.rN) (ht : s.thetaO ≤ s'.thetaO)
    (hh : s'.hSun = s.hSun) (haz : s'.aSun = s.aSun) (hlim : s.hSun ≤ Real.pi / 2)
    (H : (EqvTemp.wall direction aS epsR rSurf).series [s] = .ok l)
    (H' : (EqvTemp.wall direction aS' epsR rSurf).series [s'] = .ok l') : ∃ x x', l = [x] ∧ l' = [x'] ∧ x ≤ x' := by
  obtain ⟨ab, hab, rfl⟩ := C46_opaque _ _ _ _ _ _ H
  obtain ⟨ab', hab', rfl⟩ := C46_opaque _ _ _ _ _ _ H'
  have : ab' = ab := Except.ok.inj (hab'.symm.trans hab)
  subst this
  refine ⟨_, _, rfl, rfl, ?_⟩
  obtain ⟨d1, k1, r1, p1, p2, p3, -, -⟩ := C45_irradiance s ab'.1 ab'.2 hd hs hlim
  obtain ⟨d2, k2, r2, -, -, -, -, -⟩ := C45_irradiance s' ab'.1 ab'.2 (by linarith) (by linarith) (by rw [hh]; exact hlim)
  rw [hh, haz] at d2
  rw [hh] at r2
  have hb1 := Real.neg_one_le_cos ab'.2
  have hb2 := Real.cos_le_one ab'.2
  have m0 : 0 ≤ max (dot (normal ab'.1 ab'.2) (ofAngles s.hSun s.aSun)) 0 := le_max_right _ _
  have n0 : 0 ≤ max (Real.sin (max s.hSun 0)) 0 := le_max_right _ _
  have q1 : (irradiance s ab'.1 ab'.2).direct ≤ (irradiance s' ab'.1 ab'.2).direct := by
    rw [d1, d2]; exact mul_le_mul_of_nonneg_right hd' m0
  have q2 : (irradiance s ab'.1 ab'.2).sky ≤ (irradiance s' ab'.1 ab'.2).sky := by
    rw [k1, k2]; exact mul_le_mul_of_nonneg_left hs' (by linarith)
  have q3 : (irradiance s ab'.1 ab'.2).reflected ≤ (irradiance s' ab'.1 ab'.2).reflected := by
    rw [r1, r2]
    have := mul_le_mul_of_nonneg_right hd' n0
    exact mul_le_mul_of_nonneg_left (by linarith) (by linarith)
  have q4 : (1 + Real.cos ab'.2) / 2 * s'.rN ≤ (1 + Real.cos ab'.2) / 2 * s.rN := mul_le_mul_of_nonneg_left hn (by linarith)
  have hsum : 0 ≤ (irradiance s ab'.1 ab'.2).direct + (irradiance s ab'.1 ab'.2).sky + (irradiance s ab'.1 ab'.2).reflected := by
    linarith
  have hA : (irradiance s ab'.1 ab'.2).direct + (irradiance s ab'.1 ab'.2).sky + (irradiance s ab'.1 ab'.2).reflected
      ≤ (irradiance s' ab'.1 ab'.2).direct + (irradiance s' ab'.1 ab'.2).sky + (irradiance s' ab'.1 ab'.2).reflected := by
    linarith
  have h1 := mul_le_mul haa hA hsum (ha.trans haa)
  have h2 := mul_le_mul_of_nonneg_left q4 he
  have h3 := mul_le_mul_of_nonneg_right (sub_le_sub h1 h2) hr
  linarith

/-- **C46 (kinds of boundary).** Internal boundaries get the fixed value 0, windows the outdoor temperature minus night radiation only,
parts out of the sun the outdoor temperature, and ground the mean outdoor temperature, over a year of 15-minute steps. -/
theorem C46_kinds (direction : String) (epsR rSurf : ℝ) (w : List Step) :
    EqvTemp.internal.series w = .ok (List.replicate 35040 0) ∧
    (∀ l, (EqvTemp.window direction epsR rSurf).series w = .ok l → ∃ ab, angles direction = .ok ab ∧
      l = w.map fun s => s.thetaO - epsR * ((1 + Real.cos ab.2) / 2 * s.rN) * rSurf) ∧
    EqvTemp.notSunStruck.series w = .ok (w.map Step.thetaO) ∧
    EqvTemp.ground.series w = .ok (List.replicate 35040 ((w.map Step.thetaO).sum / w.length)) := by
  refine ⟨rfl, ?_, rfl, rfl⟩
  intro l H
  simp only [EqvTemp.series, bind, Except.bind] at H
  split at H
  · cases H
  · rename_i ab hab
    cases H
    exact ⟨ab, hab, rfl⟩

/-- **C46 (selection).** Which formula a boundary of the input file gets. -/
theorem C46_selection (b : BoundaryDict) :
    (b.boundaryType = "internal" → EqvTemp.create b = .ok .internal) ∧
    (b.boundaryType = "ground" → EqvTemp.create b = .ok .ground) ∧
    (isExternal b.boundaryType = true → b.isSunStruck = some false → EqvTemp.create b = .ok .notSunStruck) ∧
    (∀ d aS e r, b.boundaryType = "external_general_part" ∨ b.boundaryType = "external_opaque_part" →
      b.isSunStruck = some true → b.direction = some d → b.absorption = some aS → b.emissivity = some e → b.rOut = some r →
      EqvTemp.create b = .ok (.wall d aS e r)) ∧
    (∀ d e r, b.boundaryType = "external_transparent_part" → b.isSunStruck = some true → b.direction = some d →
      b.emissivity = some e → b.rOut = some r → EqvTemp.create b = .ok (.window d e r)) ∧
    (isExternal b.boundaryType = false → b.boundaryType ≠ "internal" → b.boundaryType ≠ "ground" →
      EqvTemp.create b = .error .keyError) := by
  refine ⟨?_, ?_, ?_, ?_, ?_, ?_⟩
  · intro h; simp [EqvTemp.create, h]
  · intro h; simp [EqvTemp.create, h]
  · intro h hs
    simp only [isExternal, Bool.or_eq_true, decide_eq_true_eq] at h
    rcases h with (h | h) | h <;> simp [EqvTemp.create, h, hs, key, bind, Except.bind]
  · intro d aS e r h h1 h2 h3 h4 h5
    rcases h with h | h <;> simp [EqvTemp.create, h, h1, h2, h3, h4, h5, key, bind, Except.bind]
  · intro d e r h h1 h2 h4 h5
    simp [EqvTemp.create, h, h1, h2, h4, h5, key, bind, Except.bind]
  · intro h hi hg
    simp only [isExternal, Bool.or_eq_false_iff, decide_eq_false_iff_not] at h
    simp [EqvTemp.create, hi, hg, h]

/-- A south wall at noon: hypotheses of the theorems above are met and the equivalent temperature exceeds the outdoor temperature. -/
example : ∃ l x, (EqvTemp.wall "s" 0.8 0.9 0.04).series [⟨5, 600, 100, 50, Real.pi / 6, 0⟩] = .ok l ∧ l = [x] ∧ 5 < x := by
  refine ⟨_, _, rfl, rfl, ?_⟩
  have r90 : radians 90 = Real.pi / 2 := by unfold radians; ring
  have r0 : radians 0 = 0 := by unfold radians; ring
  obtain ⟨d1, k1, r1, -, -, p3, -, -⟩ := C45_irradiance ⟨5, 600, 100, 50, Real.pi / 6, 0⟩ (radians 0) (radians 90) (by norm_num)
    (by norm_num) (by simp only; linarith [Real.pi_pos])
  have : dot (normal (radians 0) (radians 90)) (ofAngles (Real.pi / 6) 0) = Real.sqrt 3 / 2 := by
    simp [dot, normal, ofAngles, r90, r0]
  have h3 : 1 ≤ Real.sqrt 3 := by rw [Real.one_le_sqrt]; norm_num
  simp only [this] at d1
  rw [max_eq_left (by positivity)] at d1
  simp only [nightRadiation, fSky, r90, Real.cos_pi_div_two] at *
  rw [d1, k1]
  nlinarith

end HLC.Init
