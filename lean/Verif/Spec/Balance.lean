import Verif.Model.PreCalc

/-!
# Specification: physical heat and moisture balances of one room / one boundary (C13-C18)

Written from physics, with the house data only; sums run over the boundaries whose room is `i`.
-/

namespace HLC.Spec

variable {I J : Type} [Fintype I] [DecidableEq I] [Fintype J] [DecidableEq J]

/-- Heat capacity flow per volume flow, J/(m3 K): specific heat times density of air. -/
noncomputable def airCap : ℝ := 1005 * 1.2

/-- Boundaries of a room. -/
def surfaces (h : House I J) (i : I) : Finset J := Finset.univ.filter fun j => h.room j = i

/-- Convective heat from the surfaces of room `i` to its air at temperature `θr`, W. -/
noncomputable def convection (h : House I J) (i : I) (θr : ℝ) (θs : J → ℝ) : ℝ :=
  ∑ j ∈ surfaces h i, h.area j * h.hC j * (θs j - θr)

/-- Heat carried into room `i` by the air that flows in from other rooms, W. -/
noncomputable def interRoomHeat (h : House I J) (i : I) (θ : I → ℝ) : ℝ :=
  airCap * ∑ l, h.vInt i l * (θ l - θ i)

/-- Vapour carried into room `i` by the air that flows in from other rooms, kg/s. -/
noncomputable def interRoomVapour (h : House I J) (i : I) (x : I → ℝ) : ℝ :=
  1.2 * ∑ l, h.vInt i l * (x l - x i)

/-- Mean radiant temperature seen by the surfaces of room `i`: mean of the surface temperatures weighted by area times radiative
coefficient. -/
noncomputable def roomMrt (h : House I J) (hR : J → ℝ) (i : I) (θs : J → ℝ) : ℝ :=
  (∑ j ∈ surfaces h i, h.area j * hR j * θs j) / ∑ j ∈ surfaces h i, h.area j * hR j

/-- Temperature behind boundary `j`: weighted outdoor equivalent temperature plus weighted equivalent temperature of the
partner boundary, if any. -/
def rearTemp (h : House I J) (θoSol θei : J → ℝ) (j : J) : ℝ :=
  h.kEo j * θoSol j + (match h.kEi j with | none => 0 | some (m, coef) => coef * θei m)

end HLC.Spec
