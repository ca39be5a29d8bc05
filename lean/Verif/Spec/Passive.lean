import Verif.Spec.Fade
import Verif.Spec.Response
import Mathlib.Data.Complex.Basic
import Mathlib.Analysis.Complex.Basic

/-!
# Specification: parts that store heat without giving off more than they took up (C110)
-/

namespace HLC.Spec

variable {I J : Type}

/-- What the twelve modes of a surface hold of the heat flows `q` before step `k`, if they held `x` at the start: each mode of factor `p` decays by
its ratio `r`. -/
def heldOf (p r x : Fin 12 → ℝ) (q : ℕ → ℝ) : ℕ → Fin 12 → ℝ
  | 0 => x
  | k + 1 => fun l => p l * q k + r l * heldOf p r x q k l

/-- A surface at rest, behind a film of resistance `R`, never gives back what it has taken up: over any history of heat flows `q` into it, the sum of
flow times temperature on the room side of the film is at least `ε` times the sum of the squares of the flows. (The temperature of the surface
is `p0 * q k`, the answer within the step, plus what the modes hold.) -/
def Takes (p0 R ε : ℝ) (p r : Fin 12 → ℝ) : Prop :=
  ∀ (q : ℕ → ℝ) (n : ℕ), ε * ∑ k ∈ Finset.range n, q k ^ 2 ≤ ∑ k ∈ Finset.range n, q k * (p0 * q k + ∑ l, heldOf p r 0 q k l + R * q k)

/-- Every part with nothing of the house behind it takes up heat and never gives back more than it took; its modes die out. -/
structure Passive (h : House I J) (hR : J → ℝ) : Prop where
  ratio : ∀ j l, 0 ≤ h.ratio j l ∧ h.ratio j l < 1
  takes : ∃ ε, 0 < ε ∧ ∀ j, h.kEi j = none → Takes (h.phiA0 j) (1 / (h.hC j + hR j)) ε (h.phiA1 j) (h.ratio j)

/-- A part with another part (or itself) behind it is one side of a partition without storage: the two sides face each other, have the same area,
films and resistance, and that resistance (which counts the film behind) is at least that of the film. -/
structure Partitions (h : House I J) (hR : J → ℝ) : Prop where
  side : ∀ j m coef, h.kEi j = some (m, coef) → coef = 1 ∧ h.kEi m = some (j, 1)
  films : ∀ j m coef, h.kEi j = some (m, coef) → h.hC m = h.hC j ∧ hR m = hR j ∧ h.area m = h.area j
  resistance : ∀ j m coef, h.kEi j = some (m, coef) → h.phiA0 m = h.phiA0 j ∧ 1 / (h.hC j + hR j) ≤ h.phiA0 j
  steady : ∀ j m coef, h.kEi j = some (m, coef) → h.phiT0 j = 1 ∧ ∀ l, h.phiA1 j l = 0 ∧ h.phiT1 j l = 0

/-- Every room loses heat: through a part of its own to what is outside the house (outdoor air, ground or an adjacent space), or by
ventilation, by at least `w` m3/s more than half of the air that it exchanges with other rooms. -/
def LosesHeat (h : House I J) (w : I → ℝ) : Prop := ∀ i, 0 < w i ∨ ∃ j, h.room j = i ∧ h.kEi j = none

/-- Two states that agree up to `M`: temperatures of rooms and furniture, heat flows into the surfaces and what the parts hold of the past. -/
structure StateNear (M : ℝ) (c c' : Cond I J) : Prop where
  rooms : ∀ i, |c'.thetaR i - c.thetaR i| ≤ M
  furniture : ∀ i, |c'.thetaFrt i - c.thetaFrt i| ≤ M
  flows : ∀ j, |c'.qSrf j - c.qSrf j| ≤ M
  heldA : ∀ j l, |c'.dshA j l - c.dshA j l| ≤ M
  heldT : ∀ j l, |c'.dshT j l - c.dshT j l| ≤ M

/-- The partitions hold nothing of the past (so it is at the start of a calculation, and it stays so). -/
def PartitionsEmpty (h : House I J) (c : Cond I J) : Prop := ∀ j, h.kEi j ≠ none → ∀ l, c.dshA j l = 0 ∧ c.dshT j l = 0

/-- `c` is the state of the calculation `r` at its start or after one of its steps. -/
def StateOf {I : Type} [Fintype I] [DecidableEq I] {m N : ℕ} (r : CalcResult I m N) (hourly dMain dRunUpBuild : ℤ) (c : Cond I (Fin m)) : Prop :=
  updateByGround r.ss.isGround (initialConditions I (Fin m)) r.ground = .ok c ∨ ∃ t, StepOf r hourly dMain dRunUpBuild t ∧ c = t.next

/-- The answer of a surface with film to a periodic heat flow, at `z = exp (-i ω dt)`: its factor `p0`, the resistance `R` of the film and its modes. -/
noncomputable def answer (p0 R : ℝ) (p r : Fin 12 → ℝ) (z : ℂ) : ℂ := p0 + R + ∑ l, p l * z / (1 - r l * z)

/-- The same by signs: what the modes can take back at worst (`p / (1 + r)` for one that warms, `-p / (1 - r)` for one that cools) is less than the
answer within the step. -/
noncomputable def worst (p r : ℝ) : ℝ := if 0 ≤ p then p / (1 + r) else -p / (1 - r)

/-- The response factors of one part, as the program returns them, are passive behind a film of resistance `R`. -/
structure PassiveFactors (R : ℝ) (rf : HLC.RF.ResponseFactor) : Prop where
  ratio : ∀ l, 0 ≤ rf.row.getD l 0 ∧ rf.row.getD l 0 < 1
  takes : ∃ ε, 0 < ε ∧ Takes rf.rfa0 R ε (fun l => rf.rfa1.getD l 0) (fun l => rf.row.getD l 0)

/-- A surface that a constant heat flow warms: even without those terms of the step response of its temperature (a sum of exponentials) that fall
with time, it would start above zero on the room side of the film. -/
def WarmsUp {n : ℕ} (R a0 : ℝ) (a : Fin n → ℝ) : Prop := 0 < R + a0 + ∑ l, min (a l) 0

end HLC.Spec
