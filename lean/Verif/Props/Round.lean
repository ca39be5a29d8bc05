import Verif.Model.Round
import Verif.Spec.Round
import Mathlib.Tactic.Linarith
import Mathlib.Tactic.NormNum
import Mathlib.Tactic.Ring
import Mathlib.Tactic.FieldSimp
import Mathlib.Tactic.Positivity

/-!
# Decimal rounding (C57)
-/

namespace HLC

open Conv

theorem roundNum_nonneg_eq {x : ℝ} (hx : 0 ≤ x) (d : ℤ) : roundNum x d = ⌊x * (10:ℝ) ^ d + 1 / 2⌋ * (10:ℝ) ^ (-d) := by
  have : ¬ x < 0 := not_lt.2 hx
  simp only [roundNum, signOf, this, if_false, zpow_neg, one_mul]
  rw [div_eq_mul_inv]
  congr 4
  · ring
  · norm_num

theorem roundNum_neg_eq {x : ℝ} (hx : x < 0) (d : ℤ) : roundNum x d = -roundNum (-x) d := by
  have h : ¬ -x < 0 := by linarith
  simp only [roundNum, signOf, hx, if_true, h, if_false]
  rw [show -1 * (10:ℝ) ^ d * x = 1 * (10:ℝ) ^ d * -x by ring, show -1 * (10:ℝ) ^ d = -(1 * (10:ℝ) ^ d) by ring, div_neg]

/-- C57: rounding is odd. -/
theorem C57_odd (x : ℝ) (d : ℤ) : roundNum (-x) d = -roundNum x d := by
  rcases lt_trichotomy x 0 with h | h | h
  · rw [roundNum_neg_eq h, neg_neg]
  · subst h
    rw [neg_zero, roundNum_nonneg_eq le_rfl]
    norm_num
  · rw [roundNum_neg_eq (by linarith : -x < 0), neg_neg]

theorem roundsHalfAway_nonneg {x : ℝ} (hx : 0 ≤ x) (d : ℤ) : Spec.RoundsHalfAway x d (roundNum x d) := by
  have hp : (0:ℝ) < (10:ℝ) ^ (-d) := zpow_pos (by norm_num) _
  have hq : x = (x * (10:ℝ) ^ d) * (10:ℝ) ^ (-d) := by
    rw [mul_assoc, ← zpow_add₀ (by norm_num : (10:ℝ) ≠ 0)]; simp
  rw [roundNum_nonneg_eq hx]
  set y := x * (10:ℝ) ^ d with hy
  have hy0 : 0 ≤ y := mul_nonneg hx (zpow_pos (by norm_num) _).le
  set u := (10:ℝ) ^ (-d)
  have h1 := Int.floor_le (y + 1/2)
  have h2 := Int.lt_floor_add_one (y + 1/2)
  have hn : (0:ℤ) ≤ ⌊y + 1/2⌋ := Int.floor_nonneg.2 (by linarith)
  set n := ⌊y + 1/2⌋
  have hd : |y - n| ≤ 1/2 := abs_le.2 ⟨by linarith, by linarith⟩
  have key : ∀ k : ℤ, |x - k * u| = |y - k| * u := fun k => by
    rw [hq, ← sub_mul, abs_mul, abs_of_pos hp]
  refine ⟨⟨n, rfl⟩, fun k => ?_, fun k hk => ?_⟩
  · rw [key, key]
    refine mul_le_mul_of_nonneg_right ?_ hp.le
    rcases eq_or_ne k n with rfl | hne
    · exact le_rfl
    · have : (1:ℝ) ≤ |((k - n : ℤ) : ℝ)| := by
        have := Int.one_le_abs (sub_ne_zero.2 hne)
        exact_mod_cast this
      have h3 : |((k - n : ℤ) : ℝ)| ≤ |y - n| + |y - k| := by
        push_cast
        calc |(k:ℝ) - n| = |(y - n) - (y - k)| := by ring_nf
          _ ≤ _ := abs_sub _ _
      linarith
  · rw [key, key] at hk
    have hk' : |y - k| = |y - n| := mul_right_cancel₀ hp.ne' hk
    rw [abs_mul, abs_mul, abs_of_pos hp]
    refine mul_le_mul_of_nonneg_right ?_ hp.le
    have hnr : (0:ℝ) ≤ n := by exact_mod_cast hn
    rw [abs_of_nonneg hnr]
    have hk2 := abs_le.1 (hk'.le.trans hd)
    have hkn : k ≤ n := by
      have : (k:ℝ) ≤ y + 1/2 := by linarith [hk2.1]
      exact Int.le_floor.2 this
    have hk0 : -(n:ℝ) ≤ k := by
      have : (-1:ℝ) < k ∨ k ≤ -1 := by
        rcases le_or_gt k (-1) with h | h
        · exact .inr h
        · exact .inl (by exact_mod_cast h)
      rcases this with h | h
      · have : (0:ℤ) ≤ k := by
          have : (-1:ℤ) < k := by exact_mod_cast h
          omega
        have : (0:ℝ) ≤ k := by exact_mod_cast this
        linarith
      · have : (k:ℝ) ≤ -1 := by exact_mod_cast h
        linarith [hk2.2]
    exact abs_le.2 ⟨hk0, by exact_mod_cast hkn⟩

theorem _root_.HLC.Spec.RoundsHalfAway.neg {x : ℝ} {d : ℤ} {y : ℝ} (h : Spec.RoundsHalfAway x d y) : Spec.RoundsHalfAway (-x) d (-y) := by
  have key : ∀ k : ℤ, |-x - k * (10:ℝ) ^ (-d)| = |x - ((-k : ℤ) : ℝ) * (10:ℝ) ^ (-d)| := fun k => by
    rw [← abs_neg]; push_cast; congr 1; ring
  have key2 : |-x - -y| = |x - y| := by rw [← abs_neg]; congr 1; ring
  obtain ⟨k, hk⟩ := h.multiple
  refine ⟨⟨-k, by rw [hk]; push_cast; ring⟩, fun k => ?_, fun k hk => ?_⟩
  · rw [key, key2]; exact h.nearest _
  · rw [key, key2] at hk
    have := h.ties _ hk
    rw [abs_neg y]
    refine le_trans (le_of_eq ?_) this
    push_cast
    rw [neg_mul, abs_neg]

/-- C57: the result is the nearest multiple of `10^-d`, ties away from zero. -/
theorem C57_rounds (x : ℝ) (d : ℤ) : Spec.RoundsHalfAway x d (roundNum x d) := by
  rcases le_or_gt 0 x with h | h
  · exact roundsHalfAway_nonneg h d
  · have := (roundsHalfAway_nonneg (by linarith : 0 ≤ -x) d).neg
    rwa [neg_neg, ← roundNum_neg_eq h] at this

/-- C57: that description determines the result. -/
theorem C57_unique {x : ℝ} {d : ℤ} {y z : ℝ} (hy : Spec.RoundsHalfAway x d y) (hz : Spec.RoundsHalfAway x d z) : y = z := by
  obtain ⟨k, hk⟩ := hy.multiple
  obtain ⟨l, hl⟩ := hz.multiple
  have e : |x - y| = |x - z| := le_antisymm (hl ▸ hy.nearest l) (hk ▸ hz.nearest k)
  have h1 : |z| ≤ |y| := hl ▸ hy.ties l (by rw [← hl, e])
  have h2 : |y| ≤ |z| := hk ▸ hz.ties k (by rw [← hk, e])
  have h3 : |y| = |z| := le_antisymm h2 h1
  rcases abs_eq_abs.1 h3 with h | h
  · exact h
  · rw [h] at e
    rcases abs_eq_abs.1 e with h' | h'
    · have : z = 0 := by linarith
      rw [h, this, neg_zero]
    · have hx : x = 0 := by linarith
      have h0 := hz.nearest 0
      rw [hx] at h0
      have : z = 0 := by simpa using h0
      rw [h, this, neg_zero]

/-- C57: the distance is at most half a unit. -/
theorem C57_half_unit (x : ℝ) (d : ℤ) : |x - roundNum x d| ≤ (10:ℝ) ^ (-d) / 2 := by
  have hp : (0:ℝ) < (10:ℝ) ^ (-d) := zpow_pos (by norm_num) _
  have hq : x = (x * (10:ℝ) ^ d) * (10:ℝ) ^ (-d) := by
    rw [mul_assoc, ← zpow_add₀ (by norm_num : (10:ℝ) ≠ 0)]; simp
  refine ((C57_rounds x d).nearest (round (x * (10:ℝ) ^ d))).trans ?_
  conv_lhs => rw [hq]
  have h := abs_sub_round (x * (10:ℝ) ^ d)
  rw [← hq, show x - (round (x * (10:ℝ) ^ d) : ℝ) * (10:ℝ) ^ (-d) = (x * (10:ℝ) ^ d - round (x * (10:ℝ) ^ d)) * (10:ℝ) ^ (-d) by
    rw [sub_mul, ← hq], abs_mul, abs_of_pos hp]
  linarith [mul_le_mul_of_nonneg_right h hp.le]

/-- C57: rounding is monotone. -/
theorem C57_monotone (d : ℤ) {x y : ℝ} (h : x ≤ y) : roundNum x d ≤ roundNum y d := by
  have hp : (0:ℝ) < (10:ℝ) ^ (-d) := zpow_pos (by norm_num) _
  have hp' : (0:ℝ) < (10:ℝ) ^ d := zpow_pos (by norm_num) _
  have mono : ∀ {a b : ℝ}, 0 ≤ a → a ≤ b → roundNum a d ≤ roundNum b d := fun {a b} ha hab => by
    rw [roundNum_nonneg_eq ha, roundNum_nonneg_eq (ha.trans hab)]
    refine mul_le_mul_of_nonneg_right ?_ hp.le
    exact_mod_cast Int.floor_le_floor (by linarith [mul_le_mul_of_nonneg_right hab hp'.le])
  have nonneg : ∀ {a : ℝ}, 0 ≤ a → 0 ≤ roundNum a d := fun {a} ha => by
    rw [roundNum_nonneg_eq ha]
    refine mul_nonneg ?_ hp.le
    have : (0:ℝ) ≤ a * (10:ℝ) ^ d := mul_nonneg ha hp'.le
    exact_mod_cast Int.floor_nonneg.2 (by linarith : (0:ℝ) ≤ a * (10:ℝ) ^ d + 1 / 2)
  rcases le_or_gt 0 x with hx | hx
  · exact mono hx h
  · rcases le_or_gt 0 y with hy | hy
    · rw [roundNum_neg_eq hx]
      linarith [nonneg hy, nonneg (by linarith : 0 ≤ -x)]
    · rw [roundNum_neg_eq hx, roundNum_neg_eq hy]
      exact neg_le_neg (mono (by linarith) (by linarith))

/-- C57: rounding what already is a multiple of the unit changes nothing. -/
theorem C57_exact (k : ℤ) (d : ℤ) : roundNum (k * (10:ℝ) ^ (-d)) d = k * (10:ℝ) ^ (-d) := by
  have h := (C57_rounds (k * (10:ℝ) ^ (-d)) d).nearest k
  rw [sub_self, abs_zero] at h
  have := abs_nonpos_iff.1 h
  linarith

/-- C57: rounding is idempotent. -/
theorem C57_idempotent (x : ℝ) (d : ℤ) : roundNum (roundNum x d) d = roundNum x d := by
  obtain ⟨k, hk⟩ := (C57_rounds x d).multiple
  rw [hk, C57_exact]

/-- C57, a concrete case: the half-way value 2.735 goes up, its opposite down. -/
theorem C57_example : roundNum 2.735 2 = 2.74 ∧ roundNum (-2.735) 2 = -2.74 := by
  have h : roundNum 2.735 2 = 2.74 := by
    rw [roundNum_nonneg_eq (by norm_num)]
    rw [show ⌊(2.735:ℝ) * (10:ℝ) ^ (2:ℤ) + 1 / 2⌋ = 274 by rw [Int.floor_eq_iff]; norm_num]
    norm_num
  exact ⟨h, by rw [C57_odd, h]⟩

end HLC
