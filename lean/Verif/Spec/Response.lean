import Verif.Model.ResponseFactor
import Mathlib.MeasureTheory.Integral.IntervalIntegral.Basic

/-!
# Specification: response of walls (C39-C41, C67, C68)
-/

namespace HLC.Spec

open HLC.RF

/-- A wall that exists: at least one layer, positive resistances, non-negative heat capacities. -/
def PhysicalWall (ls : List Layer) : Prop := ls ≠ [] ∧ ∀ l ∈ ls, 0 < l.r ∧ 0 ≤ l.c

/-- Memory of a series of exponential terms after `n` inputs `x 0 … x (n-1)`: each term is multiplied by its common ratio and gets its
share of the last input. -/
def memory (phi1 row : List ℝ) (x : ℕ → ℝ) (init : ℕ → ℝ) : ℕ → ℕ → ℝ
  | 0, m => init m
  | n + 1, m => phi1.getD m 0 * x n + row.getD m 0 * memory phi1 row x init n m

/-- Output at step `n`: first term times the present input plus the memory. -/
noncomputable def output (phi0 : ℝ) (phi1 row : List ℝ) (x : ℕ → ℝ) (init : ℕ → ℝ) (n : ℕ) : ℝ :=
  phi0 * x n + ∑ m ∈ Finset.range 12, memory phi1 row x init n m

/-- A sum of decaying exponentials: the response at time `t` to a unit step. -/
noncomputable def stepResponse {n : ℕ} (alp : Fin n → ℝ) (a0 : ℝ) (a : Fin n → ℝ) (t : ℝ) : ℝ :=
  a0 + ∑ m, a m * Real.exp (-alp m * t)

/-- Response to the unit ramp (slope 1 from time 0): the integral of the step response. -/
noncomputable def rampResponse (A : ℝ → ℝ) (t : ℝ) : ℝ := ∫ τ in (0 : ℝ)..t, A τ

/-- Response at time `j d` to a unit triangular pulse from `-d` to `d` with its peak at time 0, by superposition of three ramps. -/
noncomputable def triangleResponse (A : ℝ → ℝ) (d : ℝ) (j : ℕ) : ℝ :=
  if j = 0 then rampResponse A d / d
  else (rampResponse A ((j + 1) * d) - 2 * rampResponse A (j * d) + rampResponse A ((j - 1) * d)) / d

/-- Response of a series of exponential terms to the pulse 1, 0, 0, … after `j` steps. -/
noncomputable def pulseResponse (phi0 : ℝ) (phi1 row : List ℝ) (j : ℕ) : ℝ :=
  output phi0 phi1 row (fun n => if n = 0 then 1 else 0) (fun _ => 0) j

/-- Sum of squared errors of the approximation `∑ a_m s/(s + α_m)` of the values `g` at the points `s`. -/
noncomputable def squaredError {n k : ℕ} (s : Fin k → ℝ) (alp : Fin n → ℝ) (g : Fin k → ℝ) (a : Fin n → ℝ) : ℝ :=
  ∑ i, (∑ m, a m * (s i / (s i + alp m)) - g i) ^ 2

/-- The unique best approximation. -/
def IsBestFit {n k : ℕ} (s : Fin k → ℝ) (alp : Fin n → ℝ) (g : Fin k → ℝ) (a : Fin n → ℝ) : Prop :=
  ∀ b, b ≠ a → squaredError s alp g a < squaredError s alp g b

end HLC.Spec
