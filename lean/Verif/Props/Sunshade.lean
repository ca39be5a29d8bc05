import Verif.Model.Sunshade
import Verif.Spec.Shade
import Verif.Lemmas.Except
import Mathlib.Tactic.NormNum
import Mathlib.Tactic.Positivity
import Mathlib.Tactic.GCongr

/-!
# C65: sunshade correction factors
-/

namespace HLC

open HLC.Conv

/-- The correction factor of an upright opening is `min (0.01 (a + b (k dE + dH) / depth)) c` with coefficients that
depend on season, region and direction only. -/
theorem simpleF_vertical {region : ℤ} {season : String} {d : Direction} (hv : Spec.Vertical d)
    (hs : season = "heating" ∧ region ≠ 8 ∨ season = "cooling") :
    ∃ a b k c : ℝ, 5 ≤ a ∧ 0 < b ∧ 2 ≤ k ∧ (season = "heating" → c = 0.72) ∧ (season = "cooling" → c = 0.93) ∧
      ∀ depth dH dE, 0 < depth → simpleF depth dH dE region season d = .ok (min (0.01 * (a + b * (k * dE + dH) / depth)) c) := by
  have key : ∀ depth : ℝ, 0 < depth → ∀ x, pyDiv x depth = .ok (x / depth) := fun depth h x => by simp [pyDiv, h.ne']
  rcases hs with ⟨rfl, h8⟩ | rfl
  · by_cases h1 : southSide d = true
    · refine ⟨5, 20, 3, 0.72, by norm_num, by norm_num, by norm_num, fun _ => rfl, by simp, fun depth dH dE h => ?_⟩
      simp [simpleF, h8, h1, key depth h, Bind.bind, Except.bind, pure, Except.pure]
    · have h2 : northSide d = true := by cases d <;> simp_all [southSide, northSide, Spec.Vertical]
      refine ⟨10, 15, 2, 0.72, by norm_num, by norm_num, by norm_num, fun _ => rfl, by simp, fun depth dH dE h => ?_⟩
      simp [simpleF, h8, h1, h2, key depth h, Bind.bind, Except.bind, pure, Except.pure]
  · by_cases h8 : region = 8
    · by_cases h1 : southSide d = true
      · refine ⟨16, 19, 2, 0.93, by norm_num, by norm_num, by norm_num, by simp, fun _ => rfl, fun depth dH dE h => ?_⟩
        simp [simpleF, h8, h1, key depth h, Bind.bind, Except.bind, pure, Except.pure]
      · have h2 : northSide d = true := by cases d <;> simp_all [southSide, northSide, Spec.Vertical]
        refine ⟨16, 24, 2, 0.93, by norm_num, by norm_num, by norm_num, by simp, fun _ => rfl, fun depth dH dE h => ?_⟩
        simp [simpleF, h8, h1, h2, key depth h, Bind.bind, Except.bind, pure, Except.pure]
    · by_cases h1 : d = .s
      · refine ⟨24, 9, 3, 0.93, by norm_num, by norm_num, by norm_num, by simp, fun _ => rfl, fun depth dH dE h => ?_⟩
        simp [simpleF, h8, h1, key depth h, Bind.bind, Except.bind, pure, Except.pure]
      · have h2 : notSouth d = true := by cases d <;> simp_all [notSouth, Spec.Vertical]
        refine ⟨16, 24, 2, 0.93, by norm_num, by norm_num, by norm_num, by simp, fun _ => rfl, fun depth dH dE h => ?_⟩
        simp [simpleF, h8, h1, h2, key depth h, Bind.bind, Except.bind, pure, Except.pure]

/-- A factor was computed only in one of the two seasons, and not for heating in region 8. -/
theorem simpleF_season {depth dH dE : ℝ} {region : ℤ} {season : String} {d : Direction} {f : ℝ}
    (h : simpleF depth dH dE region season d = .ok f) : season = "heating" ∧ region ≠ 8 ∨ season = "cooling" := by
  unfold simpleF at h
  by_cases h1 : season = "heating"
  · rw [if_pos h1] at h
    by_cases h2 : region = 8
    · rw [if_pos h2] at h; cases h
    · exact .inl ⟨h1, h2⟩
  · rw [if_neg h1] at h
    by_cases h2 : season = "cooling"
    · exact .inr h2
    · rw [if_neg h2] at h; cases h

/-- **C65, completeness.** The simple method gives a factor for every overhang of positive depth, every region and
direction with a sky, in both seasons, except for heating in region 8 where there is no heating season. -/
theorem C65_defined {depth dH dE : ℝ} {region : ℤ} {season : String} {d : Direction} (hd : 0 < depth)
    (hv : Spec.Vertical d ∨ d = .top ∨ d = .bottom) (hs : season = "heating" ∧ region ≠ 8 ∨ season = "cooling") :
    ∃ f, (TransientShade.simple depth dH dE).getF region season d = .ok f := by
  rcases hv with hv | rfl | rfl
  · obtain ⟨a, b, k, c, -, -, -, -, -, h⟩ := simpleF_vertical hv hs
    exact ⟨_, h depth dH dE hd⟩
  · rcases hs with ⟨rfl, h⟩ | rfl
    · exact ⟨1, by simp [TransientShade.getF, simpleF, h, southSide, northSide]⟩
    · refine ⟨1, ?_⟩
      by_cases h : region = 8 <;> simp [TransientShade.getF, simpleF, h, southSide, northSide, notSouth]
  · rcases hs with ⟨rfl, h⟩ | rfl
    · exact ⟨0, by simp [TransientShade.getF, simpleF, h, southSide, northSide]⟩
    · refine ⟨0, ?_⟩
      by_cases h : region = 8 <;> simp [TransientShade.getF, simpleF, h, southSide, northSide, notSouth]

/-- **C65, range.** Whatever the overhang over a window (positive depth, non-negative heights), region,
season and direction: if a correction factor is given it is in the documented range. -/
theorem C65_range {depth dH dE : ℝ} {region : ℤ} {season : String} {d : Direction} {f : ℝ} (hd : 0 < depth) (hH : 0 ≤ dH)
    (hE : 0 ≤ dE) (h : (TransientShade.simple depth dH dE).getF region season d = .ok f) : Spec.ShadeRange season d f := by
  have hs := simpleF_season h
  refine ⟨?_, ?_, fun hv => ?_⟩
  · rintro rfl
    rcases hs with ⟨rfl, h8⟩ | rfl
    · simp [TransientShade.getF, simpleF, h8, southSide, northSide] at h; exact h.symm
    · by_cases h8 : region = 8 <;> simp [TransientShade.getF, simpleF, h8, southSide, northSide, notSouth] at h <;> exact h.symm
  · rintro rfl
    rcases hs with ⟨rfl, h8⟩ | rfl
    · simp [TransientShade.getF, simpleF, h8, southSide, northSide] at h; exact h.symm
    · by_cases h8 : region = 8 <;> simp [TransientShade.getF, simpleF, h8, southSide, northSide, notSouth] at h <;> exact h.symm
  · obtain ⟨a, b, k, c, ha, hb, hk, hc, hc', e⟩ := simpleF_vertical hv hs
    have h' := (e depth dH dE hd).symm.trans h
    have h' := Except.ok.inj h'
    refine ⟨?_, fun he => ?_, fun he => ?_⟩
    · rw [← h']
      have : 0 ≤ b * (k * dE + dH) / depth := by positivity
      refine lt_min (by linarith) ?_
      rcases hs with ⟨hs, -⟩ | hs
      · rw [hc hs]; norm_num
      · rw [hc' hs]; norm_num
    · rw [← h', hc he]; exact min_le_right _ _
    · rw [← h', hc' he]; exact min_le_right _ _

/-- **C65, default.** Without an entry, the factors are 0.51 and 0.93. -/
theorem C65_default {region : ℤ} {season : String} {d : Direction} {f : ℝ}
    (h : TransientShade.notInput.getF region season d = .ok f) :
    (season = "heating" → f = 0.51) ∧ (season = "cooling" → f = 0.93) ∧ (season = "heating" ∨ season = "cooling") := by
  unfold TransientShade.getF at h
  by_cases h1 : season = "heating"
  · subst h1
    by_cases h2 : region = 8
    · simp [h2] at h
    · simp [h2] at h; simp [← h]
  · by_cases h2 : season = "cooling"
    · subst h2; simp at h; simp [← h]
    · simp [h1, h2] at h

/-- **C65, monotone.** A deeper overhang, a lower window or a smaller gap above it never lets in more sun: the factor
decreases with the depth and increases with the two heights, for every season, region and direction. -/
theorem C65_monotone {depth depth' dH dH' dE dE' : ℝ} {region : ℤ} {season : String} {d : Direction} {f f' : ℝ}
    (hd : 0 < depth) (hdd : depth ≤ depth') (hH : 0 ≤ dH') (hHH : dH' ≤ dH) (hE : 0 ≤ dE') (hEE : dE' ≤ dE)
    (h : (TransientShade.simple depth dH dE).getF region season d = .ok f)
    (h' : (TransientShade.simple depth' dH' dE').getF region season d = .ok f') : f' ≤ f := by
  have hs := simpleF_season h
  by_cases hv : Spec.Vertical d
  · obtain ⟨a, b, k, c, ha, hb, hk, hc, hc', e⟩ := simpleF_vertical hv hs
    have e1 := Except.ok.inj ((e depth dH dE hd).symm.trans h)
    have e2 := Except.ok.inj ((e depth' dH' dE' (hd.trans_le hdd)).symm.trans h')
    rw [← e1, ← e2]
    have h1 : b * (k * dE' + dH') / depth' ≤ b * (k * dE + dH) / depth := by
      have hk0 : 0 ≤ k := by linarith
      have : 0 ≤ dE := hE.trans hEE
      have : 0 ≤ dH := hH.trans hHH
      gcongr
    exact min_le_min (by linarith) le_rfl
  · have : f = f' := by
      have hn : southSide d = false ∧ northSide d = false ∧ notSouth d = false ∧ d ≠ .s := by
        cases d <;> simp_all [southSide, northSide, notSouth, Spec.Vertical]
      obtain ⟨n1, n2, n3, n4⟩ := hn
      have : simpleF depth dH dE region season d = simpleF depth' dH' dE' region season d := by
        simp [simpleF, n1, n2, n3, n4]
      exact Except.ok.inj ((h.symm.trans this).trans h')
    exact this.ge

/-- An overhang of 30 cm directly over a window 1 m high, facing south-west, in region 6. -/
theorem C65_example :
    ∃ f, (TransientShade.simple 0.3 1 0).getF 6 "heating" .sw = .ok f ∧ Spec.ShadeRange "heating" .sw f := by
  obtain ⟨f, h⟩ := C65_defined (depth := 0.3) (dH := 1) (dE := 0) (region := 6) (season := "heating") (d := .sw)
    (by norm_num) (.inl trivial) (.inl ⟨rfl, by norm_num⟩)
  exact ⟨f, h, C65_range (by norm_num) (by norm_num) (by norm_num) h⟩

end HLC
