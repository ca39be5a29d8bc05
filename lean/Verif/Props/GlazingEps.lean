import Verif.Props.Glazing

/-!
# C106: emissivities
-/

namespace HLC.Glass

open Spec Finset

theorem quad_lt {a b x y : ℝ} (h : x < y) (hb : b * (x + y) < a) : x * (a - b * x) < y * (a - b * y) := by nlinarith

theorem quad_bounds {a b lo hi e v L U : ℝ} (h1 : lo ≤ e) (h2 : e < hi) (h3 : v = e * (a - b * e)) (hb : 0 ≤ b) (hab : b * (2 * hi) < a)
    (hL : L = lo * (a - b * lo)) (hU : U = hi * (a - b * hi)) : lo ≤ e ∧ e < hi ∧ v = e * (a - b * e) ∧ L ≤ v ∧ v < U := by
  refine ⟨h1, h2, h3, ?_, ?_⟩
  · rw [h3, hL]
    rcases h1.eq_or_lt with rfl | h
    · rfl
    · exact (quad_lt h (by nlinarith)).le
  · rw [h3, hU]
    exact quad_lt h2 (by nlinarith)

theorem lowE_seg {e v : ℝ} (hg : GoodSurface (.lowE e)) (h : (Surf.lowE e).eps = .ok v) :
      (0.03 ≤ e ∧ e < 0.05 ∧ v = e * (1.28 - 2 * e) ∧ 0.0366 ≤ v ∧ v < 0.059) ∨
      (0.05 ≤ e ∧ e < 0.1 ∧ v = e * (1.22 - 0.8 * e) ∧ 0.059 ≤ v ∧ v < 0.114) ∨
      (0.1 ≤ e ∧ e < 0.2 ∧ v = e * (1.18 - 0.4 * e) ∧ 0.114 ≤ v ∧ v < 0.22) ∨
      (0.2 ≤ e ∧ e < 0.3 ∧ v = e * (1.18 - 0.4 * e) ∧ 0.22 ≤ v ∧ v < 0.318) ∨
      (0.3 ≤ e ∧ e < 0.4 ∧ v = e * (1.15 - 0.3 * e) ∧ 0.318 ≤ v ∧ v < 0.412) ∨
      (0.4 ≤ e ∧ e < 0.5 ∧ v = e * (1.15 - 0.3 * e) ∧ 0.412 ≤ v ∧ v < 0.5) ∨
      (0.5 ≤ e ∧ e < 0.6 ∧ v = e * (1.1 - 0.2 * e) ∧ 0.5 ≤ v ∧ v < 0.588) ∨
      (0.6 ≤ e ∧ e < 0.7 ∧ v = e * (1.1 - 0.2 * e) ∧ 0.588 ≤ v ∧ v < 0.672) ∨
      (0.7 ≤ e ∧ e < 0.8 ∧ v = e * (1.03 - 0.1 * e) ∧ 0.672 ≤ v ∧ v < 0.76) ∨
      (0.8 ≤ e ∧ e < 0.89 ∧ v = e * ((0.95 + 0.8 / 9) - (1 / 9) * e) ∧ 0.76 ≤ v ∧ v < 0.8366) := by
  obtain ⟨w, hw, hc⟩ := lowE_pieces hg
  have : w = v := Except.ok.inj (hw.symm.trans h)
  subst this
  rcases hc with ⟨h1, h2, h3⟩ | ⟨h1, h2, h3⟩ | ⟨h1, h2, h3⟩ | ⟨h1, h2, h3⟩ | ⟨h1, h2, h3⟩ | ⟨h1, h2, h3⟩ | ⟨h1, h2, h3⟩ | ⟨h1, h2, h3⟩ | ⟨h1, h2, h3⟩ | ⟨h1, h2, h3⟩
  · exact Or.inl (quad_bounds h1 h2 h3 (by norm_num) (by norm_num) (by norm_num) (by norm_num))
  · exact Or.inr (Or.inl (quad_bounds h1 h2 h3 (by norm_num) (by norm_num) (by norm_num) (by norm_num)))
  · exact Or.inr (Or.inr (Or.inl (quad_bounds h1 h2 h3 (by norm_num) (by norm_num) (by norm_num) (by norm_num))))
  · exact Or.inr (Or.inr (Or.inr (Or.inl (quad_bounds h1 h2 h3 (by norm_num) (by norm_num) (by norm_num) (by norm_num)))))
  · exact Or.inr (Or.inr (Or.inr (Or.inr (Or.inl (quad_bounds h1 h2 h3 (by norm_num) (by norm_num) (by norm_num) (by norm_num))))))
  · exact Or.inr (Or.inr (Or.inr (Or.inr (Or.inr (Or.inl (quad_bounds h1 h2 h3 (by norm_num) (by norm_num) (by norm_num) (by norm_num)))))))
  · exact Or.inr (Or.inr (Or.inr (Or.inr (Or.inr (Or.inr (Or.inl (quad_bounds h1 h2 h3 (by norm_num) (by norm_num) (by norm_num) (by norm_num))))))))
  · exact Or.inr (Or.inr (Or.inr (Or.inr (Or.inr (Or.inr (Or.inr (Or.inl (quad_bounds h1 h2 h3 (by norm_num) (by norm_num) (by norm_num) (by norm_num)))))))))
  · exact Or.inr (Or.inr (Or.inr (Or.inr (Or.inr (Or.inr (Or.inr (Or.inr (Or.inl (quad_bounds h1 h2 h3 (by norm_num) (by norm_num) (by norm_num) (by norm_num))))))))))
  · exact Or.inr (Or.inr (Or.inr (Or.inr (Or.inr (Or.inr (Or.inr (Or.inr (Or.inr (quad_bounds h1 h2 (by rw [h3]; ring) (by norm_num) (by norm_num) (by norm_num) (by norm_num))))))))))

set_option maxHeartbeats 4000000 in
/-- **C106.** The corrected emissivity is defined exactly for normal emissivities from 0.03 to below 0.89; it is strictly increasing, positive, and below that
of an uncoated surface. -/
theorem C106_emissivity (e : ℝ) :
    ((∃ v, (Surf.lowE e).eps = .ok v) ↔ 0.03 ≤ e ∧ e < 0.89) ∧ (¬ (0.03 ≤ e ∧ e < 0.89) → (Surf.lowE e).eps = .error .valueError) ∧
    (∀ v, (Surf.lowE e).eps = .ok v → 0 < v ∧ ∃ w, Surf.plain.eps = .ok w ∧ v < w) ∧
    ∀ e' v v', e < e' → (Surf.lowE e).eps = .ok v → (Surf.lowE e').eps = .ok v' → v < v' := by
  have bad : ∀ e : ℝ, ¬ (0.03 ≤ e ∧ e < 0.89) → (Surf.lowE e).eps = .error .valueError := by
    intro e h
    rw [Surf.eps]
    by_cases h1 : e < 0.03
    · rw [if_pos h1]
    · have h2 : 0.89 ≤ e := by by_contra hc; exact h ⟨not_lt.1 h1, not_le.1 hc⟩
      rw [if_neg h1, if_neg (by linarith), if_neg (by linarith), if_neg (by linarith), if_neg (by linarith), if_neg (by linarith),
        if_neg (by linarith), if_neg (by linarith), if_neg (by linarith), if_neg (by linarith), if_neg (by linarith)]
  have good : ∀ e v : ℝ, (Surf.lowE e).eps = .ok v → GoodSurface (.lowE e) := by
    intro e v h
    by_contra hc
    rw [bad e hc] at h
    cases h
  refine ⟨⟨fun ⟨v, hv⟩ => good e v hv, fun h => ?_⟩, bad e, fun v hv => ?_, fun e' v v' he hv hv' => ?_⟩
  · obtain ⟨v, hv, -⟩ := eps_good (s := .lowE e) h
    exact ⟨v, hv⟩
  · obtain ⟨w, hw, hc⟩ := lowE_pieces (good e v hv)
    have : w = v := Except.ok.inj (hw.symm.trans hv)
    subst this
    obtain ⟨w', hw', h0, -⟩ := eps_good (good e _ hv)
    have : w' = w := Except.ok.inj (hw'.symm.trans hv)
    subst this
    refine ⟨h0, 0.837, rfl, ?_⟩
    rcases hc with ⟨h1, h2, rfl⟩ | ⟨h1, h2, rfl⟩ | ⟨h1, h2, rfl⟩ | ⟨h1, h2, rfl⟩ | ⟨h1, h2, rfl⟩ | ⟨h1, h2, rfl⟩ | ⟨h1, h2, rfl⟩ |
        ⟨h1, h2, rfl⟩ | ⟨h1, h2, rfl⟩ | ⟨h1, h2, rfl⟩ <;> nlinarith
  · rcases lowE_seg (good e v hv) hv with ⟨a1, a2, rfl, a3, a4⟩ | ⟨a1, a2, rfl, a3, a4⟩ | ⟨a1, a2, rfl, a3, a4⟩ | ⟨a1, a2, rfl, a3, a4⟩ | ⟨a1, a2, rfl, a3, a4⟩ | ⟨a1, a2, rfl, a3, a4⟩ | ⟨a1, a2, rfl, a3, a4⟩ | ⟨a1, a2, rfl, a3, a4⟩ | ⟨a1, a2, rfl, a3, a4⟩ | ⟨a1, a2, rfl, a3, a4⟩ <;>
      rcases lowE_seg (good e' v' hv') hv' with ⟨b1, b2, rfl, b3, b4⟩ | ⟨b1, b2, rfl, b3, b4⟩ | ⟨b1, b2, rfl, b3, b4⟩ | ⟨b1, b2, rfl, b3, b4⟩ | ⟨b1, b2, rfl, b3, b4⟩ | ⟨b1, b2, rfl, b3, b4⟩ | ⟨b1, b2, rfl, b3, b4⟩ | ⟨b1, b2, rfl, b3, b4⟩ | ⟨b1, b2, rfl, b3, b4⟩ | ⟨b1, b2, rfl, b3, b4⟩ <;>
      first
      | linarith
      | exact quad_lt he (by linarith)

end HLC.Glass
