import Verif.Spec.Relaxing

/-!
# Parts that let warmth through
-/

namespace HLC.Spec

variable {I J : Type} [Fintype I] [DecidableEq I] [Fintype J] [DecidableEq J]

/-- The temperature that 1 K behind part `j` during one step gives its inner surface in that step and `k` steps later, when no heat flows into it. -/
noncomputable def passed (h : House I J) (j : J) (k : ℕ) : ℝ := (if k = 0 then h.phiT0 j else 0) + ∑ l, h.phiT1 j l * h.ratio j l ^ k

/-- Part `j` lets warmth through: while the temperature in front of its film stays the same, 1 K behind it during one step makes it give a
heat flow `y` to the room that is never negative. (The flow `y` keeps the temperature in front of the film as it is: in each step it takes away
what the warmth behind gives.) -/
def LetsWarmthThrough (h : House I J) (hR : J → ℝ) (j : J) : Prop :=
  ∃ y : ℕ → ℝ, (∀ n, 0 ≤ y n) ∧ ∀ n, ∑ i ∈ Finset.range (n + 1), y i * pulse h hR j (n - i) = passed h j n

/-- Behind the parts that store heat the temperatures are the same in both records, except behind parts that let warmth through. -/
def WarmBehind (h : House I J) (hR : J → ℝ) (a b : Record I J) : Prop :=
  ∀ j, KeepsPast h j → LetsWarmthThrough h hR j ∨ b.thetaOSol j = a.thetaOSol j

end HLC.Spec
