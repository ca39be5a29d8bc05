import Verif.Spec.Period
import Verif.Spec.Balance

/-!
# Specification: a part remembers its heat flux and the temperature behind it (C87)
-/

namespace HLC.Spec

open Finset

/-- What a part remembers at time `n` of the excitations `x 0, …, x (n - 1)`: every term `l` of its response decays by the factor `r l` per
step. -/
def remembered (φ r : Fin 12 → ℝ) (x : ℕ → ℝ) (n : ℕ) : ℝ := ∑ k ∈ range n, ∑ l, φ l * r l ^ (n - 1 - k) * x k

variable {I J : Type} [Fintype I] [DecidableEq I] [Fintype J] [DecidableEq J]

/-- The temperature behind part `j` in row `n`: outdoors, and the equivalent temperature of the part on the other side. -/
def behind (h : House I J) (row : ℕ → LogRow I J) (d : ℕ → Record I J) (j : J) (n : ℕ) : ℝ :=
  rearTemp h (d n).thetaOSol (row n).thetaEi j

/-- Until row `M` the surface temperature of part `j` is the superposition of the responses to the heat flux at its surface and to the
temperature behind it, present and past, up to the decaying rest `R` of what happened before the first row. -/
def Superposes (h : House I J) (row : ℕ → LogRow I J) (d : ℕ → Record I J) (j : J) (M : ℕ) (R : Fin 12 → ℝ) : Prop :=
  ∀ n < M, (row n).thetaS j
    = h.phiA0 j * (row n).qiall j + remembered (h.phiA1 j) (h.ratio j) (fun k => (row k).qiall j) n
      + h.phiT0 j * behind h row d j n + remembered (h.phiT1 j) (h.ratio j) (behind h row d j) n
      + ∑ l, R l * h.ratio j l ^ n

end HLC.Spec
