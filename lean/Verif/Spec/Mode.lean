import Verif.Model.OperationMode

/-!
# Specification of the operation mode rule (C01-C03), organised by outcome

Written from the English rule: which situations lead to heating, cooling, open window, closed window.
-/

namespace HLC.Spec

/-- The four modes a room may be in. -/
def Legal (m : OpMode) : Prop := m = .heating ∨ m = .cooling ∨ m = .stopOpen ∨ m = .stopClose

/-- The room's plant is stopped. -/
def Stopped (m : OpMode) : Prop := m = .stopOpen ∨ m = .stopClose

/-- Situations in which the room is heated: it was heated and is not yet too warm in heavy clothing; or it was cooled, is now
too cold in light clothing and cold even in heavy clothing; or it was stopped and cold in heavy clothing (and not warm in
light clothing). -/
def Heats (demand : ℝ) (prev : OpMode) (heavy light : ℝ) : Prop :=
  0 < demand ∧
    ((prev = .heating ∧ heavy ≤ 0.7) ∨
     (prev = .cooling ∧ light < -0.7 ∧ heavy ≤ -0.7) ∨
     (Stopped prev ∧ light < 0.7 ∧ heavy ≤ -0.7))

/-- Situations in which the room is cooled. -/
def Cools (demand : ℝ) (prev : OpMode) (heavy light : ℝ) : Prop :=
  0 < demand ∧
    ((prev = .cooling ∧ -0.7 ≤ light) ∨
     (prev = .heating ∧ 0.7 < heavy ∧ 0.7 ≤ light) ∨
     (Stopped prev ∧ 0.7 ≤ light))

/-- Situations in which windows are open: the room was stopped, is neither warm nor cold, and in middle clothing the PMV is
positive (window already open) or at least zero (window was closed). -/
def Opens (demand : ℝ) (prev : OpMode) (heavy middle light : ℝ) : Prop :=
  0 < demand ∧ light < 0.7 ∧ -0.7 < heavy ∧
    ((prev = .stopOpen ∧ 0 < middle) ∨ (prev = .stopClose ∧ 0 ≤ middle))

end HLC.Spec
