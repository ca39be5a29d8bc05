import Verif.Model.Glazing

/-!
# Specification: heat through glazing (C103-C106)

`N` surfaces stand one behind the other between outdoors and indoors. `r k` is the resistance before surface `k` (the last one is that between
the last surface and the room), `q k` the heat that surface `k` receives from the sun.
-/

namespace HLC.Spec

open Glass

/-- The temperatures met on the way from outdoors to indoors: outdoors, surfaces, indoors. -/
noncomputable def wayIn {N : ℕ} (thetaE thetaI : ℝ) (theta : Fin N → ℝ) (k : ℕ) : ℝ :=
  if k = 0 then thetaE else if h : k - 1 < N then theta ⟨k - 1, h⟩ else thetaI

/-- Heat through resistance `k`, counted inwards. -/
noncomputable def heatThrough {N : ℕ} (r : ℕ → ℝ) (thetaE thetaI : ℝ) (theta : Fin N → ℝ) (k : ℕ) : ℝ :=
  (wayIn thetaE thetaI theta k - wayIn thetaE thetaI theta (k + 1)) / r k

/-- Every surface passes on what it receives. -/
def HeatBalance {N : ℕ} (r q : ℕ → ℝ) (thetaE thetaI : ℝ) (theta : Fin N → ℝ) : Prop :=
  ∀ k < N, heatThrough r thetaE thetaI theta k + q k = heatThrough r thetaE thetaI theta (k + 1)

/-- Half of what a pane absorbs on each of its two surfaces. -/
def OnSurfaces {n : ℕ} (ia : Fin (n + 1) → ℝ) (q : ℕ → ℝ) : Prop :=
  ∀ j : Fin (n + 1), q (2 * j) = ia j / 2 ∧ q (2 * j + 1) = ia j / 2

/-- A surface whose emissivity is in the range of the table. -/
def GoodSurface : Surf → Prop
  | .plain => True
  | .lowE e => 0.03 ≤ e ∧ e < 0.89

/-- Panes with at least one sheet and positive thicknesses and conductivities, gaps of positive width with non-negative shares of gases. -/
structure WellMade (g : Glazing) : Prop where
  sheets : ∀ i, (g.gls i).units ≠ []
  thick : ∀ i, ∀ u ∈ (g.gls i).units, 0 < u.1 ∧ 0 < u.2
  front : ∀ i, GoodSurface (g.gls i).sff
  back : ∀ i, GoodSurface (g.gls i).sfb
  width : ∀ i, 0 < (g.als i).s
  air : ∀ i, 0 ≤ (g.als i).mix.air
  argon : ∀ i, 0 ≤ (g.als i).mix.argon
  sf6 : ∀ i, 0 ≤ (g.als i).mix.sf6
  krypton : ∀ i, 0 ≤ (g.als i).mix.krypton
  total : ∀ i, (g.als i).mix.air + (g.als i).mix.argon + (g.als i).mix.sf6 + (g.als i).mix.krypton = 100

/-- The table of the standards EN 673 and JIS R 3107 for the gases: density in kg/m3, dynamic viscosity in 10⁻⁵ kg/(m s), conductivity in
10⁻² W/(m K), each at -10, 0, 10 and 20 degC, and specific heat capacity in 10³ J/(kg K). -/
noncomputable def gasTable : Gas → (Fin 4 → ℝ) × (Fin 4 → ℝ) × (Fin 4 → ℝ) × ℝ
  | .air => (![1.326, 1.277, 1.232, 1.189], ![1.661, 1.711, 1.761, 1.811], ![2.336, 2.416, 2.496, 2.576], 1.008)
  | .argon => (![1.829, 1.762, 1.699, 1.640], ![2.038, 2.101, 2.164, 2.228], ![1.584, 1.634, 1.684, 1.734], 0.519)
  | .sf6 => (![6.844, 6.602, 6.360, 6.118], ![1.383, 1.421, 1.459, 1.497], ![1.119, 1.197, 1.275, 1.354], 0.614)
  | .krypton => (![3.832, 3.690, 3.560, 3.430], ![2.260, 2.330, 2.400, 2.470], ![0.842, 0.870, 0.900, 0.926], 0.245)

/-- `f` has the values of the table in steps of 10 degrees from -10 degC and is linear between them. -/
def Tabulated (f : ℝ → ℝ) (v : Fin 4 → ℝ) : Prop :=
  ∀ (j : Fin 3) (s : ℝ), 0 ≤ s → s ≤ 1 → f (-10 + 10 * j + 10 * s) = (1 - s) * v j.castSucc + s * v j.succ

/-- Factor and exponent of the standards for the convection in a gap, by its position. -/
noncomputable def gapConstants : Direction → ℝ × ℝ
  | .vertical => (0.035, 0.38)
  | .horizontal => (0.16, 0.28)
  | .slope => (0.10, 0.31)

end HLC.Spec
