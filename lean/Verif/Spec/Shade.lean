import Verif.Model.Tables

/-!
# Correction factors of sunshades
-/

namespace HLC.Spec

/-- The eight compass directions, in which walls and windows stand upright. -/
def Vertical : Direction → Prop
  | .n | .ne | .e | .se | .s | .sw | .w | .nw => True
  | _ => False

/-- The documented range of the correction factor in a season: a horizontal opening facing the sky is not shaded (1),
one facing the ground gets no sun (0), and an upright one gets a positive share, never more than the factor of a
window without shade (0.72 in the heating season, 0.93 in the cooling season). -/
def ShadeRange (season : String) (d : Direction) (f : ℝ) : Prop :=
  (d = .top → f = 1) ∧ (d = .bottom → f = 0) ∧
    (Vertical d → 0 < f ∧ (season = "heating" → f ≤ 0.72) ∧ (season = "cooling" → f ≤ 0.93))

end HLC.Spec
