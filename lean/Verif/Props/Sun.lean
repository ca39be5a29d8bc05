import Verif.Spec.Weather
import Mathlib.Analysis.Real.Pi.Bounds
import Mathlib.Analysis.SpecialFunctions.Trigonometric.Bounds
import Mathlib.Analysis.SpecialFunctions.Trigonometric.ArctanDeriv
import Mathlib.Tactic.Linarith
import Mathlib.Tactic.FieldSimp
import Mathlib.Tactic.Ring
import Mathlib.Tactic.NormNum
import Mathlib.Tactic.IntervalCases

/-!
# C44: solar position
-/

namespace HLC.Weather
open HLC.Spec

theorem radians_lt {x y : ℝ} (h : x < y) : radians x < radians y := by
  unfold radians; have := Real.pi_pos; gcongr

theorem radians_le {x y : ℝ} (h : x ≤ y) : radians x ≤ radians y := by
  unfold radians; have := Real.pi_pos; gcongr

theorem radians_90 : radians 90 = Real.pi / 2 := by unfold radians; ring

theorem radians_neg (x : ℝ) : radians (-x) = -radians x := by unfold radians; ring

/-- The sun vector is a unit vector. -/
theorem sunVector_unit (φ δ ω : ℝ) :
    (sunVector φ δ ω).1 ^ 2 + (sunVector φ δ ω).2.1 ^ 2 + (sunVector φ δ ω).2.2 ^ 2 = 1 := by
  simp only [sunVector]
  have h1 := Real.sin_sq_add_cos_sq φ
  have h2 := Real.sin_sq_add_cos_sq δ
  have h3 := Real.sin_sq_add_cos_sq ω
  linear_combination (Real.cos δ ^ 2 * Real.cos ω ^ 2 + Real.sin δ ^ 2) * h1 + h2 + Real.cos δ ^ 2 * h3

/-- **C44 (altitude).** The altitude formula never leaves the domain of the arc sine: for every latitude, declination and hour angle the
sine of the returned altitude is the vertical component of the sun vector, and the altitude lies in [-90°, 90°]. -/
theorem C44_altitude (φ ω δ : ℝ) :
    |Real.sin φ * Real.sin δ + Real.cos φ * Real.cos δ * Real.cos ω| ≤ 1 ∧
    Real.sin (altitude φ ω δ) = (sunVector φ δ ω).2.2 ∧
    -(Real.pi / 2) ≤ altitude φ ω δ ∧ altitude φ ω δ ≤ Real.pi / 2 := by
  have hz : Real.sin φ * Real.sin δ + Real.cos φ * Real.cos δ * Real.cos ω = (sunVector φ δ ω).2.2 := by
    simp only [sunVector]; ring
  have hu := sunVector_unit φ δ ω
  have habs : |(sunVector φ δ ω).2.2| ≤ 1 := by
    rw [← sq_le_one_iff_abs_le_one]
    nlinarith [sq_nonneg (sunVector φ δ ω).1, sq_nonneg (sunVector φ δ ω).2.1]
  unfold altitude
  rw [hz]
  exact ⟨habs, Real.sin_arcsin (abs_le.1 habs).1 (abs_le.1 habs).2, Real.neg_pi_div_two_le_arcsin _, Real.arcsin_le_pi_div_two _⟩

/-- **C44 (declination).** For every date the declination lies within the obliquity 23.4393°, and its sine is minus the sine of the
obliquity times the cosine of the angle passed since the winter solstice. -/
theorem C44_declination (e v : ℝ) :
    |declination e v| ≤ radians 23.4393 ∧ Real.sin (declination e v) = -Real.sin (radians 23.4393) * Real.cos (v + e) := by
  have h0 : 0 ≤ radians 23.4393 := by unfold radians; positivity
  have h9 : radians 23.4393 ≤ Real.pi / 2 := by rw [← radians_90]; exact radians_le (by norm_num)
  have hs0 : 0 ≤ Real.sin (radians 23.4393) := Real.sin_nonneg_of_nonneg_of_le_pi h0 (by linarith [Real.pi_pos])
  have hs1 := Real.sin_le_one (radians 23.4393)
  have hc := Real.abs_cos_le_one (v + e)
  have hc1 := (abs_le.1 hc).1
  have hc2 := (abs_le.1 hc).2
  unfold declination
  rw [radians_neg, Real.sin_neg]
  have e1 : Real.cos (v + e) * -Real.sin (radians 23.4393) = -Real.sin (radians 23.4393) * Real.cos (v + e) := by ring
  rw [e1]
  refine ⟨?_, Real.sin_arcsin (by nlinarith) (by nlinarith)⟩
  rw [abs_le]
  constructor
  · rw [show -radians 23.4393 = Real.arcsin (-Real.sin (radians 23.4393)) by
      rw [Real.arcsin_neg, Real.arcsin_sin (by linarith) h9]]
    exact Real.monotone_arcsin (by nlinarith)
  · conv_rhs => rw [← Real.arcsin_sin (by linarith) h9]
    exact Real.monotone_arcsin (by nlinarith)

/-- At latitudes between the tropic and the pole the sun is neither in the zenith nor in the nadir. -/
theorem altitude_strict {φ δ : ℝ} (ω : ℝ) (h1 : radians 23.4393 < φ) (h2 : φ < Real.pi / 2) (hd : |δ| ≤ radians 23.4393) :
    -(Real.pi / 2) < altitude φ ω δ ∧ altitude φ ω δ < Real.pi / 2 := by
  have hd' := abs_le.1 hd
  have h0 : 0 ≤ radians 23.4393 := by unfold radians; positivity
  have hδ : 0 ≤ Real.cos δ := Real.cos_nonneg_of_neg_pi_div_two_le_of_le (by linarith) (by linarith)
  have hφ : 0 ≤ Real.cos φ := Real.cos_nonneg_of_neg_pi_div_two_le_of_le (by linarith) (by linarith)
  have hp : Real.cos (φ - δ) < 1 := by
    have := Real.strictAntiOn_cos (a := 0) (b := φ - δ) ⟨le_refl _, Real.pi_pos.le⟩ ⟨by linarith, by linarith⟩ (by linarith)
    simpa using this
  have hm : Real.cos (φ + δ) < 1 := by
    have := Real.strictAntiOn_cos (a := 0) (b := φ + δ) ⟨le_refl _, Real.pi_pos.le⟩ ⟨by linarith, by linarith⟩ (by linarith)
    simpa using this
  rw [Real.cos_sub] at hp
  rw [Real.cos_add] at hm
  have hcc := mul_nonneg hφ hδ
  unfold altitude
  constructor
  · rw [Real.neg_pi_div_two_lt_arcsin]
    nlinarith [mul_nonneg hcc (by linarith [Real.neg_one_le_cos ω] : (0 : ℝ) ≤ 1 + Real.cos ω)]
  · rw [Real.arcsin_lt_pi_div_two]
    nlinarith [mul_nonneg hcc (by linarith [Real.cos_le_one ω] : (0 : ℝ) ≤ 1 - Real.cos ω)]

theorem arctan2_spec {s c : ℝ} (h : s ^ 2 + c ^ 2 = 1) : Real.sin (arctan2 s c) = s ∧ Real.cos (arctan2 s c) = c := by
  have hn : ‖(⟨c, s⟩ : ℂ)‖ = 1 := by
    rw [Complex.norm_eq_sqrt_sq_add_sq, show c ^ 2 + s ^ 2 = 1 by linarith, Real.sqrt_one]
  have h0 : (⟨c, s⟩ : ℂ) ≠ 0 := by
    intro hz; rw [hz] at hn; simp at hn
  unfold arctan2
  rw [Complex.sin_arg, Complex.cos_arg h0, hn]
  simp

/-- **C44 (azimuth).** Away from zenith and nadir and from the poles, the sine and cosine formulas of the azimuth are consistent (their
squares add to one), and the returned altitude and azimuth are exactly the direction of the sun vector. -/
theorem C44_azimuth (φ ω δ : ℝ) (hφ : Real.cos φ ≠ 0) (h1 : -(Real.pi / 2) < altitude φ ω δ) (h2 : altitude φ ω δ < Real.pi / 2) :
    (Real.cos δ * Real.sin ω / Real.cos (altitude φ ω δ)) ^ 2 +
      ((Real.sin (altitude φ ω δ) * Real.sin φ - Real.sin δ) / (Real.cos (altitude φ ω δ) * Real.cos φ)) ^ 2 = 1 ∧
    ∃ a, azimuth ω φ δ (altitude φ ω δ) = some a ∧ -Real.pi < a ∧ a ≤ Real.pi ∧
      ofAngles (altitude φ ω δ) a = sunVector φ δ ω := by
  obtain ⟨-, hs, -, -⟩ := C44_altitude φ ω δ
  set h := altitude φ ω δ with hh
  have hc : 0 < Real.cos h := Real.cos_pos_of_mem_Ioo ⟨h1, h2⟩
  have hu := sunVector_unit φ δ ω
  have hsouth : Real.sin h * Real.sin φ - Real.sin δ = (sunVector φ δ ω).2.1 * Real.cos φ := by
    rw [hs]
    simp only [sunVector]
    linear_combination (Real.sin δ) * (Real.sin_sq_add_cos_sq φ)
  have hcos : (Real.sin h * Real.sin φ - Real.sin δ) / (Real.cos h * Real.cos φ) = (sunVector φ δ ω).2.1 / Real.cos h := by
    rw [hsouth, mul_div_mul_right _ _ hφ]
  have hwest : Real.cos δ * Real.sin ω = (sunVector φ δ ω).1 := rfl
  have hsum : (Real.cos δ * Real.sin ω / Real.cos h) ^ 2 + ((Real.sin h * Real.sin φ - Real.sin δ) / (Real.cos h * Real.cos φ)) ^ 2
      = 1 := by
    rw [hcos, hwest, div_pow, div_pow, ← add_div, div_eq_one_iff_eq (by positivity)]
    have := Real.sin_sq_add_cos_sq h
    rw [hs] at this
    linarith
  refine ⟨hsum, _, if_pos h2.ne, Complex.neg_pi_lt_arg _, Complex.arg_le_pi _, ?_⟩
  obtain ⟨e1, e2⟩ := arctan2_spec hsum
  unfold ofAngles
  rw [e1, e2, hcos, hwest, hs]
  refine Prod.ext ?_ (Prod.ext ?_ rfl)
  · exact mul_div_cancel₀ _ hc.ne'
  · exact mul_div_cancel₀ _ hc.ne'

/-- **C44 (hour angle).** For fixed date and place the hour angle advances by 15° per hour, a place 1° further east is 1° ahead, the
declination depends on the date only, and the equation of time is below 4.6° (18.4 minutes). -/
theorem C44_hour_angle (l l' d t t' : ℝ) :
    (sunAngles l d t').2 - (sunAngles l d t).2 = radians (15 * (t' - t)) ∧
    (sunAngles l' d t).2 - (sunAngles l d t).2 = l' - l ∧
    (sunAngles l' d t').1 = (sunAngles l d t).1 ∧
    |(sunAngles l d t).2 - (radians (15 * (t - 12)) + (l - radians 135))| ≤ radians 4.6 := by
  refine ⟨?_, ?_, rfl, ?_⟩
  · simp only [sunAngles, hourAngle, radians]; ring
  · simp only [sunAngles, hourAngle]; ring
  · simp only [sunAngles, hourAngle, meridian]
    rw [show radians ((t - 12) * 15) = radians (15 * (t - 12)) by unfold radians; ring]
    generalize solstice (meanAnomaly d (perihelion yearDiff)) yearDiff = e
    generalize meanAnomaly d (perihelion yearDiff) = m
    rw [add_sub_cancel_left]
    unfold equationOfTime
    have hv : |m - trueAnomaly m| ≤ radians 1.934 := by
      unfold trueAnomaly
      rw [show m - (m + radians (1.914 * Real.sin m + 0.02 * Real.sin (2 * m)))
        = radians (-(1.914 * Real.sin m + 0.02 * Real.sin (2 * m))) by unfold radians; ring]
      have a1 := Real.sin_le_one m
      have a2 := Real.neg_one_le_sin m
      have a3 := Real.sin_le_one (2 * m)
      have a4 := Real.neg_one_le_sin (2 * m)
      rw [abs_le, ← radians_neg]
      exact ⟨radians_le (by linarith), radians_le (by linarith)⟩
    set w := 2 * (trueAnomaly m + e) with hw
    have s1 := Real.sin_le_one w
    have s2 := Real.neg_one_le_sin w
    have c1 := Real.cos_le_one w
    have hx : |0.043 * Real.sin w / (1 - 0.043 * Real.cos w)| ≤ 0.045 := by
      rw [abs_le]
      have hpos : 0 < 1 - 0.043 * Real.cos w := by linarith
      constructor
      · rw [le_div_iff₀ hpos]; nlinarith
      · rw [div_le_iff₀ hpos]; nlinarith
    have hat : |Real.arctan (0.043 * Real.sin w / (1 - 0.043 * Real.cos w))| ≤ 0.045 := by
      have key : ∀ x : ℝ, 0 ≤ x → Real.arctan x ≤ x := fun x hx => by
        by_cases hlt : Real.pi / 2 ≤ x
        · exact (Real.arctan_lt_pi_div_two x).le.trans hlt
        · have := Real.le_tan hx (not_le.1 hlt)
          calc Real.arctan x ≤ Real.arctan (Real.tan x) := Real.arctan_strictMono.monotone this
            _ = x := Real.arctan_tan (by linarith [Real.pi_pos]) (not_le.1 hlt)
      rw [abs_le] at hx ⊢
      constructor
      · have := Real.arctan_strictMono.monotone hx.1
        rw [Real.arctan_neg] at this
        linarith [key 0.045 (by norm_num)]
      · exact (Real.arctan_strictMono.monotone hx.2).trans (key 0.045 (by norm_num))
    have hpi : 0.045 ≤ radians 2.6 := by unfold radians; linarith [Real.pi_gt_d2]
    have hsum : radians 1.934 + radians 2.6 ≤ radians 4.6 := by
      rw [show radians 1.934 + radians 2.6 = radians 4.534 by unfold radians; ring]
      exact radians_le (by norm_num)
    calc _ ≤ |m - trueAnomaly m| + |Real.arctan (0.043 * Real.sin w / (1 - 0.043 * Real.cos w))| := abs_sub _ _
      _ ≤ _ := by linarith

theorem perihelion_val : perihelion yearDiff = 3.1616 := by
  unfold perihelion yearDiff
  have : ⌊(((1989 - 1968 : ℕ) : ℝ) + 3) / 4⌋ = 6 := by norm_num
  rw [this]; norm_num

/-- **C44 (seasons).** The declination is negative from day 267 (24 September) over the turn of the year to day 79 (20 March), and
positive from day 84 (25 March) to day 262 (19 September). -/
theorem C44_seasons (l t : ℝ) (d : ℕ) (h1 : 1 ≤ d) (h2 : d ≤ 365) :
    ((d ≤ 79 ∨ 267 ≤ d) → (sunAngles l d t).1 < 0) ∧ (84 ≤ d → d ≤ 262 → 0 < (sunAngles l d t).1) := by
  have hpi := Real.pi_pos
  have h0 : 0 < Real.sin (radians 23.4393) := by
    apply Real.sin_pos_of_pos_of_lt_pi
    · unfold radians; positivity
    · have : radians 23.4393 ≤ Real.pi / 2 := by rw [← radians_90]; exact radians_le (by norm_num)
      linarith
  set m := meanAnomaly d (perihelion yearDiff) with hm
  set e := solstice m yearDiff with he
  set v := trueAnomaly m with hv
  have hδ : (sunAngles l d t).1 = declination e v := rfl
  have hsin := (C44_declination e v).2
  have hab := abs_le.1 (C44_declination e v).1
  have h9 : radians 23.4393 < Real.pi / 2 := by rw [← radians_90]; exact radians_lt (by norm_num)
  have hx : m = Real.pi * (2 * ((d - 3.1616) / 365.2596)) := by rw [hm, perihelion_val]; unfold meanAnomaly; ring
  set x : ℝ := ((d : ℝ) - 3.1616) / 365.2596 with hxd
  have hee : e = Real.pi * ((12.3901 + 0.0172 * (21 + x)) / 180) := by
    rw [he]; unfold solstice radians yearDiff
    rw [show m / (2 * Real.pi) = x by rw [hx]; field_simp]
    norm_num; ring
  have hvm : |v - m| ≤ Real.pi * (1.934 / 180) := by
    rw [hv]; unfold trueAnomaly
    rw [show m + radians (1.914 * Real.sin m + 0.02 * Real.sin (2 * m)) - m
      = radians (1.914 * Real.sin m + 0.02 * Real.sin (2 * m)) by ring, show Real.pi * (1.934 / 180) = radians 1.934 by unfold radians; ring]
    have a1 := Real.sin_le_one m
    have a2 := Real.neg_one_le_sin m
    have a3 := Real.sin_le_one (2 * m)
    have a4 := Real.neg_one_le_sin (2 * m)
    rw [abs_le, ← radians_neg]
    exact ⟨radians_le (by linarith), radians_le (by linarith)⟩
  obtain ⟨b1, b2⟩ := abs_le.1 hvm
  have lo : Real.pi * (2 * x + (12.3901 + 0.0172 * (21 + x)) / 180 - 1.934 / 180) ≤ v + e := by
    rw [hee]; linarith
  have hi : v + e ≤ Real.pi * (2 * x + (12.3901 + 0.0172 * (21 + x)) / 180 + 1.934 / 180) := by
    rw [hee]; linarith
  have hxle : ∀ c : ℕ, d ≤ c → x ≤ ((c : ℝ) - 3.1616) / 365.2596 := fun c hc => by
    rw [hxd]; have : (d : ℝ) ≤ c := by exact_mod_cast hc
    gcongr
  have hxge : ∀ c : ℕ, c ≤ d → ((c : ℝ) - 3.1616) / 365.2596 ≤ x := fun c hc => by
    rw [hxd]; have : (c : ℝ) ≤ d := by exact_mod_cast hc
    gcongr
  have hneg : 0 < Real.cos (v + e) → declination e v < 0 := by
    intro hc
    by_contra hcon
    have := Real.sin_nonneg_of_nonneg_of_le_pi (not_lt.1 hcon) (by linarith)
    rw [hsin] at this
    nlinarith
  have hpos : Real.cos (v + e) < 0 → 0 < declination e v := by
    intro hc
    by_contra hcon
    have := Real.sin_nonpos_of_nonpos_of_neg_pi_le (not_lt.1 hcon) (by linarith)
    rw [hsin] at this
    nlinarith
  rw [hδ]
  refine ⟨fun hd => hneg ?_, fun g1 g2 => hpos ?_⟩
  · rcases hd with hd | hd
    · have u := hxle 79 hd
      have w := hxge 1 h1
      push_cast at u w
      norm_num at u w
      apply Real.cos_pos_of_mem_Ioo
      constructor
      · refine lt_of_lt_of_le ?_ lo
        rw [show -(Real.pi / 2) = Real.pi * (-(1 / 2)) by ring]
        exact mul_lt_mul_of_pos_left (by linarith) hpi
      · refine lt_of_le_of_lt hi ?_
        rw [show Real.pi / 2 = Real.pi * (1 / 2) by ring]
        exact mul_lt_mul_of_pos_left (by linarith) hpi
    · have u := hxle 365 h2
      have w := hxge 267 hd
      push_cast at u w
      norm_num at u w
      rw [← Real.cos_sub_two_pi]
      apply Real.cos_pos_of_mem_Ioo
      constructor
      · rw [lt_sub_iff_add_lt]
        refine lt_of_lt_of_le ?_ lo
        rw [show -(Real.pi / 2) + 2 * Real.pi = Real.pi * (3 / 2) by ring]
        exact mul_lt_mul_of_pos_left (by linarith) hpi
      · rw [sub_lt_iff_lt_add]
        refine lt_of_le_of_lt hi ?_
        rw [show Real.pi / 2 + 2 * Real.pi = Real.pi * (5 / 2) by ring]
        exact mul_lt_mul_of_pos_left (by linarith) hpi
  · have u := hxle 262 g2
    have w := hxge 84 g1
    push_cast at u w
    norm_num at u w
    apply Real.cos_neg_of_pi_div_two_lt_of_lt
    · refine lt_of_lt_of_le ?_ lo
      rw [show Real.pi / 2 = Real.pi * (1 / 2) by ring]
      exact mul_lt_mul_of_pos_left (by linarith) hpi
    · refine lt_of_le_of_lt hi ?_
      rw [show Real.pi + Real.pi / 2 = Real.pi * (3 / 2) by ring]
      exact mul_lt_mul_of_pos_left (by linarith) hpi

theorem location_range {region : ℤ} (h1 : 1 ≤ region) (h8 : region ≤ 8) :
    ∃ loc, location region = .ok loc ∧ radians 23.4393 < loc.1 ∧ loc.1 < Real.pi / 2 := by
  rw [← radians_90]
  interval_cases region <;> exact ⟨_, rfl, radians_lt (by norm_num), radians_lt (by norm_num)⟩

/-- **C44 (year).** For every region and admissible interval the solar position is computed for the whole year; the entry for day
`day + 1`, step `k` of the day has a defined azimuth, the altitude is strictly between nadir and zenith, and the two angles are the
direction of the sun at that date and standard time, at the latitude of the region. -/
theorem C44_year (region : ℤ) (interval : String) (h1 : 1 ≤ region) (h8 : region ≤ 8) (hi : IsInterval interval) :
    ∃ loc l, location region = .ok loc ∧ calcSolarPosition loc.1 loc.2 interval = .ok l ∧ l.length = 8760 * perHour interval ∧
      ∀ day < 365, ∀ k < 24 * perHour interval, ∃ h a, l[day * (24 * perHour interval) + k]? = some (h, some a) ∧
        -(Real.pi / 2) < h ∧ h < Real.pi / 2 ∧ -Real.pi < a ∧ a ≤ Real.pi ∧
        ofAngles h a = sunVector loc.1 (sunAngles loc.2 (day + 1) (k / perHour interval)).1
          (sunAngles loc.2 (day + 1) (k / perHour interval)).2 := by
  obtain ⟨loc, hl, hlo, hhi⟩ := location_range h1 h8
  have hp : 0 < perHour interval := by unfold perHour; split <;> [norm_num; (split <;> norm_num)]
  have hn : nHour interval = .ok (perHour interval) := by
    rcases hi with rfl | rfl | rfl <;> rfl
  have hstep : stepHours interval = .ok (1 / (perHour interval : ℝ)) := by
    rcases hi with rfl | rfl | rfl <;> simp [stepHours, perHour] <;> norm_num
  refine ⟨loc, List.ofFn fun i : Fin (365 * (24 * perHour interval)) => sunAt loc.1 loc.2 (perHour interval) (1 / perHour interval) i,
    hl, ?_, ?_, ?_⟩
  · unfold calcSolarPosition
    rw [hn, hstep]; rfl
  · rw [List.length_ofFn]; ring
  · intro day hday k hk
    have hidx : day * (24 * perHour interval) + k < 365 * (24 * perHour interval) := by nlinarith
    have hdayOf : dayOf (perHour interval) (day * (24 * perHour interval) + k) = day + 1 := by
      unfold dayOf
      rw [mul_comm day, Nat.mul_add_div (by positivity), Nat.div_eq_of_lt hk, add_zero]
    have htime : timeOf (perHour interval) (1 / perHour interval) (day * (24 * perHour interval) + k) = k / perHour interval := by
      unfold timeOf
      rw [mul_comm day, Nat.mul_add_mod, Nat.mod_eq_of_lt hk]
      ring
    set δ := (sunAngles loc.2 (day + 1) (k / perHour interval)).1 with hδ
    set ω := (sunAngles loc.2 (day + 1) (k / perHour interval)).2 with hω
    have hd : |δ| ≤ radians 23.4393 := (C44_declination _ _).1
    obtain ⟨s1, s2⟩ := altitude_strict ω hlo hhi hd
    have hφ : Real.cos loc.1 ≠ 0 := by
      have h0 : 0 ≤ radians 23.4393 := by unfold radians; positivity
      exact (Real.cos_pos_of_mem_Ioo ⟨by linarith, hhi⟩).ne'
    obtain ⟨-, a, ha, a1, a2, hv⟩ := C44_azimuth loc.1 ω δ hφ s1 s2
    refine ⟨altitude loc.1 ω δ, a, ?_, s1, s2, a1, a2, hv⟩
    rw [List.getElem?_ofFn, dif_pos hidx]
    simp only [sunAt, hdayOf, htime]
    push_cast
    rw [← hδ, ← hω, ha]

/-- A place and date: the sun at noon on 1 January in region 6, in steps of 15 minutes. -/
example : ∃ loc l, location 6 = .ok loc ∧ calcSolarPosition loc.1 loc.2 "15m" = .ok l ∧ ∃ h a, l[48]? = some (h, some a) := by
  obtain ⟨loc, l, h1, h2, -, h⟩ := C44_year 6 "15m" (by norm_num) (by norm_num) (by simp [IsInterval])
  obtain ⟨h, a, e, -⟩ := h 0 (by norm_num) 48 (by simp [perHour])
  exact ⟨loc, l, h1, h2, h, a, by simpa using e⟩

/-- **C44 (noon).** When the hour angle is zero the sun stands in the south at the altitude 90° - latitude + declination. -/
theorem C44_noon (φ δ : ℝ) (h1 : radians 23.4393 < φ) (h2 : φ < Real.pi / 2) (hd : |δ| ≤ radians 23.4393) :
    altitude φ 0 δ = Real.pi / 2 - φ + δ ∧ azimuth 0 φ δ (altitude φ 0 δ) = some 0 := by
  have hd' := abs_le.1 hd
  have halt : altitude φ 0 δ = Real.pi / 2 - φ + δ := by
    unfold altitude
    rw [Real.cos_zero, mul_one, show Real.sin φ * Real.sin δ + Real.cos φ * Real.cos δ = Real.sin (Real.pi / 2 - φ + δ) by
      rw [show Real.pi / 2 - φ + δ = Real.pi / 2 - (φ - δ) by ring, Real.sin_pi_div_two_sub, Real.cos_sub]; ring]
    have h0 : 0 ≤ radians 23.4393 := by unfold radians; positivity
    have h9 : radians 23.4393 < Real.pi / 2 := by rw [← radians_90]; exact radians_lt (by norm_num)
    exact Real.arcsin_sin (by linarith) (by linarith)
  refine ⟨halt, ?_⟩
  obtain ⟨s1, s2⟩ := altitude_strict 0 h1 h2 hd
  have h0 : 0 ≤ radians 23.4393 := by unfold radians; positivity
  have hφ : Real.cos φ ≠ 0 := (Real.cos_pos_of_mem_Ioo ⟨by linarith, h2⟩).ne'
  obtain ⟨-, a, ha, a1, a2, hv⟩ := C44_azimuth φ 0 δ hφ s1 s2
  rw [ha]
  have hc : 0 < Real.cos (altitude φ 0 δ) := Real.cos_pos_of_mem_Ioo ⟨s1, s2⟩
  have e1 : Real.cos (altitude φ 0 δ) * Real.sin a = 0 := by
    have := congrArg Prod.fst hv
    simpa [ofAngles, sunVector] using this
  have e2 : Real.cos (altitude φ 0 δ) * Real.cos a = Real.cos (altitude φ 0 δ) := by
    have := congrArg (fun p => p.2.1) hv
    simp only [ofAngles, sunVector, Real.cos_zero, mul_one] at this
    rw [this, halt, show Real.pi / 2 - φ + δ = Real.pi / 2 - (φ - δ) by ring, Real.cos_pi_div_two_sub, Real.sin_sub]
    ring
  have hs : Real.sin a = 0 := by
    rcases mul_eq_zero.1 e1 with h | h
    · exact absurd h hc.ne'
    · exact h
  have hco : Real.cos a = 1 := by
    have := mul_left_cancel₀ hc.ne' (e2.trans (mul_one _).symm)
    exact this
  congr 1
  by_contra hne
  have hpos : 0 < |a| := abs_pos.2 hne
  have := Real.cos_lt_cos_of_nonneg_of_le_pi (le_refl 0) (abs_le.2 ⟨a1.le, a2⟩) hpos
  rw [Real.cos_abs, hco, Real.cos_zero] at this
  exact lt_irrefl _ this

end HLC.Weather
