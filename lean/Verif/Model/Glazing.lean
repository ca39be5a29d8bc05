import Verif.Model.Panes
import Mathlib.Analysis.SpecialFunctions.Pow.Real
import Mathlib.Data.Matrix.Mul

/-!
# Model of `notebook/initializer/shgc_window/glass_thermal_balance.py`: heat through glazing

Quotients are quotients of real numbers; the theorems assume positive thicknesses and conductivities, for which no denominator is zero.
-/

namespace HLC.Glass

/-- `glass_thermal_balance.py` 14-23. -/
inductive Direction
  | vertical
  | horizontal
  | slope
  deriving DecidableEq

/-- `glass_thermal_balance.py` 26-34. -/
inductive Gas
  | air
  | argon
  | sf6
  | krypton
  deriving DecidableEq

/-- `glass_thermal_balance.py` 39-63, `get_interporation_property`. -/
noncomputable def interp (t v1 v2 v3 v4 : ℝ) : ℝ :=
  if t < 0 then v1 * (t - 0) / (-10 - 0) + v2 * (t - -10) / (0 - -10)
  else if t < 10 then v2 * (t - 10) / (0 - 10) + v3 * (t - 0) / (10 - 0)
  else v3 * (t - 20) / (10 - 20) + v4 * (t - 10) / (20 - 10)

/-- `glass_thermal_balance.py` 67-86, `get_rho`. -/
noncomputable def gasRho (t : ℝ) : Gas → ℝ
  | .air => interp t 1.326 1.277 1.232 1.189
  | .argon => interp t 1.829 1.762 1.699 1.640
  | .sf6 => interp t 6.844 6.602 6.360 6.118
  | .krypton => interp t 3.832 3.690 3.560 3.430

/-- `glass_thermal_balance.py` 89-107, `get_mu`. -/
noncomputable def gasMu (t : ℝ) : Gas → ℝ
  | .air => interp t 1.661 1.711 1.761 1.811 * (10 : ℝ) ^ (-5 : ℤ)
  | .argon => interp t 2.038 2.101 2.164 2.228 * (10 : ℝ) ^ (-5 : ℤ)
  | .sf6 => interp t 1.383 1.421 1.459 1.497 * (10 : ℝ) ^ (-5 : ℤ)
  | .krypton => interp t 2.260 2.330 2.400 2.470 * (10 : ℝ) ^ (-5 : ℤ)

/-- `glass_thermal_balance.py` 110-128, `get_lambda`. -/
noncomputable def gasLambda (t : ℝ) : Gas → ℝ
  | .air => interp t 2.336 2.416 2.496 2.576 * (10 : ℝ) ^ (-2 : ℤ)
  | .argon => interp t 1.584 1.634 1.684 1.734 * (10 : ℝ) ^ (-2 : ℤ)
  | .sf6 => interp t 1.119 1.197 1.275 1.354 * (10 : ℝ) ^ (-2 : ℤ)
  | .krypton => interp t 0.842 0.870 0.900 0.926 * (10 : ℝ) ^ (-2 : ℤ)

/-- `glass_thermal_balance.py` 131-147, `get_c_air`. -/
noncomputable def gasC : Gas → ℝ
  | .air => 1.008 * 10 ^ 3
  | .argon => 0.519 * 10 ^ 3
  | .sf6 => 0.614 * 10 ^ 3
  | .krypton => 0.245 * 10 ^ 3

/-- `glass_thermal_balance.py` 156-164, `get_sigma`. -/
noncomputable def glassSigma : ℝ := 5.67 / 100000000

/-- The surfaces of `glass_thermal_balance.py` 188-286: uncoated, or coated with a normal emissivity. -/
inductive Surf
  | plain
  | lowE (en : ℝ)

/-- `glass_thermal_balance.py` 196-207 and 235-286, `eps`: the corrected emissivity. -/
noncomputable def Surf.eps : Surf → Except PyErr ℝ
  | .plain => .ok 0.837
  | .lowE e =>
    if e < 0.03 then .error .valueError
    else if e < 0.05 then .ok (e * (1.22 * (0.05 - e) / (0.05 - 0.03) + 1.18 * (e - 0.03) / (0.05 - 0.03)))
    else if e < 0.1 then .ok (e * (1.18 * (0.1 - e) / (0.1 - 0.05) + 1.14 * (e - 0.05) / (0.1 - 0.05)))
    else if e < 0.2 then .ok (e * (1.14 * (0.2 - e) / (0.2 - 0.1) + 1.1 * (e - 0.1) / (0.2 - 0.1)))
    else if e < 0.3 then .ok (e * (1.1 * (0.3 - e) / (0.3 - 0.2) + 1.06 * (e - 0.2) / (0.3 - 0.2)))
    else if e < 0.4 then .ok (e * (1.06 * (0.4 - e) / (0.4 - 0.3) + 1.03 * (e - 0.3) / (0.4 - 0.3)))
    else if e < 0.5 then .ok (e * (1.03 * (0.5 - e) / (0.5 - 0.4) + 1 * (e - 0.4) / (0.5 - 0.4)))
    else if e < 0.6 then .ok (e * (1 * (0.6 - e) / (0.6 - 0.5) + 0.98 * (e - 0.5) / (0.6 - 0.5)))
    else if e < 0.7 then .ok (e * (0.98 * (0.7 - e) / (0.7 - 0.6) + 0.96 * (e - 0.6) / (0.7 - 0.6)))
    else if e < 0.8 then .ok (e * (0.96 * (0.8 - e) / (0.8 - 0.7) + 0.95 * (e - 0.7) / (0.8 - 0.7)))
    else if e < 0.89 then .ok (e * (0.95 * (0.89 - e) / (0.89 - 0.8) + 0.94 * (e - 0.8) / (0.89 - 0.8)))
    else .error .valueError

/-- `glass_thermal_balance.py` 289-311: a mixture of gases, volumetric shares in percent. -/
structure Mix where
  air : ℝ
  argon : ℝ
  sf6 : ℝ
  krypton : ℝ

/-- `glass_thermal_balance.py` 294-311, the constructor `MixedAirProperty`. -/
noncomputable def mkMix (air argon sf6 krypton : ℝ) : Except PyErr Mix :=
  if air + argon + sf6 + krypton ≠ 100 then .error .valueError else .ok ⟨air, argon, sf6, krypton⟩

/-- `glass_thermal_balance.py` 313-326, `get_mixed_property`. -/
noncomputable def Mix.of (m : Mix) (f : Gas → ℝ) : ℝ :=
  f .air * m.air / 100 + f .argon * m.argon / 100 + f .sf6 * m.sf6 / 100 + f .krypton * m.krypton / 100

/-- `glass_thermal_balance.py` 377-397: a layer of gas between two panes. -/
structure AirLayer where
  mix : Mix
  direction : Direction
  s : ℝ

/-- `glass_thermal_balance.py` 399-413, `get_a`. -/
noncomputable def AirLayer.a (l : AirLayer) : ℝ :=
  match l.direction with
  | .vertical => 0.035
  | .horizontal => 0.16
  | .slope => 0.10

/-- `glass_thermal_balance.py` 415-429, `get_n`. -/
noncomputable def AirLayer.n (l : AirLayer) : ℝ :=
  match l.direction with
  | .vertical => 0.38
  | .horizontal => 0.28
  | .slope => 0.31

/-- `glass_thermal_balance.py` 431-447, `get_gr`. -/
noncomputable def AirLayer.gr (l : AirLayer) (dT tm rho mu : ℝ) : ℝ := 9.81 * l.s ^ 3 * dT * rho ^ 2 / tm / mu ^ 2

/-- `glass_thermal_balance.py` 449-466, `get_pr`. -/
noncomputable def gasPr (mu c lam : ℝ) : ℝ := mu * c / lam

/-- `glass_thermal_balance.py` 572-621, `get_h_g` (with `get_nu` 468-486 and `get_cc` 488-503). -/
noncomputable def AirLayer.hG (l : AirLayer) (dT tm : ℝ) : ℝ :=
  let t := tm - 273.15
  let rho := l.mix.of (gasRho t)
  let mu := l.mix.of (gasMu t)
  let c := l.mix.of gasC
  let lam := l.mix.of (gasLambda t)
  let nu := l.a * (l.gr |dT| tm rho mu * gasPr mu c lam) ^ l.n
  max 1 nu * lam / l.s

/-- `glass_thermal_balance.py` 554-570, `get_h_r`. -/
noncomputable def gapHR (tm epsF epsB : ℝ) : ℝ := 4 * glassSigma / (1 / epsF + 1 / epsB - 1) * tm ^ 3

/-- `glass_thermal_balance.py` 537-552, `get_h_s`. -/
noncomputable def AirLayer.hS (l : AirLayer) (tm dT tm' epsF epsB : ℝ) : ℝ := gapHR tm epsF epsB + l.hG dT tm'

/-- `glass_thermal_balance.py` 505-535, `get_h_s_with_surfaces_temp`. -/
noncomputable def AirLayer.hSOf (l : AirLayer) (thetaF thetaB epsF epsB : ℝ) : ℝ :=
  l.hS ((thetaF + thetaB) / 2 + 273.15) |thetaF - thetaB| ((thetaF + thetaB) / 2 + 273.15) epsF epsB

/-- `glass_thermal_balance.py` 624-703, `GlassUnit` and `GlassLayer`: sheets of thickness and conductivity, and the two surfaces. -/
structure GlassLayer where
  units : List (ℝ × ℝ)
  sff : Surf
  sfb : Surf

/-- `glass_thermal_balance.py` 650-658 and 680-681, the resistance of a pane. -/
noncomputable def GlassLayer.r (g : GlassLayer) : ℝ := (g.units.map fun u => u.1 / u.2).sum

/-- `glass_thermal_balance.py` 706-732, `Glass`: `n + 1` panes with `n` layers of gas between them. -/
structure Glazing where
  n : ℕ
  gls : Fin (n + 1) → GlassLayer
  als : Fin n → AirLayer

/-- `glass_thermal_balance.py` 714-732, the constructor. -/
def mkGlazing (gls : List GlassLayer) (als : List AirLayer) : Except PyErr Glazing :=
  if h : gls.length = als.length + 1 then .ok ⟨als.length, fun i => gls.get (i.cast h.symm), als.get⟩ else .error .valueError

variable (g : Glazing)

/-- `glass_thermal_balance.py` 734-760, `get_h_e`. -/
noncomputable def Glazing.hE (method season : String) (thetaS thetaR : ℝ) : Except PyErr ℝ := do
  let eps ← (g.gls 0).sff.eps
  if method = "JIS_A2103" then
    let ts := thetaS + 273.15
    let tr := thetaR + 273.15
    let hr := eps * glassSigma * (ts ^ 3 + ts ^ 2 * tr + ts * tr ^ 2 + tr ^ 3)
    if season = "summer" then .ok (hr + 8)
    else if season = "winter" then .ok (hr + 20)
    else .error .keyError
  else .ok (4.9 * eps + 16.3)

/-- `glass_thermal_balance.py` 762-788, `get_h_i`. The radiative part of the method `JIS_A2103` uses the emissivity of the OUTER surface of the
OUTER pane (`self._gls[0].sff`, line 780). -/
noncomputable def Glazing.hI (method season : String) (thetaS thetaR : ℝ) : Except PyErr ℝ :=
  if method = "JIS_A2103" then do
    let eps ← (g.gls 0).sff.eps
    let ts := thetaS + 273.15
    let tr := thetaR + 273.15
    let hr := eps * glassSigma * (ts ^ 3 + ts ^ 2 * tr + ts * tr ^ 2 + tr ^ 3)
    if season = "summer" then .ok (hr + 2.5)
    else if season = "winter" then .ok (hr + 3.6)
    else .error .keyError
  else do
    let eps ← (g.gls (Fin.last g.n)).sfb.eps
    .ok (5.4 * eps + 4.1)

/-- The conditions of a calculation (`glass_thermal_balance.py` 821-827): outdoor and indoor temperature, method for the films, season, and
whether the temperatures of the gas layers are fixed. -/
structure GlazingCase where
  thetaE : ℝ
  thetaI : ℝ
  method : String
  season : String
  fixed : Bool

/-- The defaults of `get_temp_and_r` (`glass_thermal_balance.py` 822-825). -/
noncomputable def GlazingCase.default : GlazingCase := ⟨0, 20, "JIS_R3107", "winter", true⟩

/-- `glass_thermal_balance.py` 900-908 and 923-930: conductance of gas layer `i`. -/
noncomputable def Glazing.gap (k : GlazingCase) (theta : ℕ → ℝ) (i : Fin g.n) : Except PyErr ℝ := do
  let epsF ← (g.gls i.castSucc).sfb.eps
  let epsB ← (g.gls i.succ).sff.eps
  if k.fixed then .ok ((g.als i).hS 283 15 283 epsF epsB)
  else .ok ((g.als i).hSOf (theta (2 * i + 1)) (theta (2 * (i + 1))) epsF epsB)

/-- `glass_thermal_balance.py` 893-894 and 915-917: the film outdoors. -/
noncomputable def Glazing.outerFilm (k : GlazingCase) (th : ℕ → ℝ) : Except PyErr ℝ :=
  if k.fixed then g.hE "JIS_R3107" "" 0 0 else g.hE k.method k.season (th 0) k.thetaE

/-- `glass_thermal_balance.py` 910-911 and 932-934: the film indoors. -/
noncomputable def Glazing.innerFilm (k : GlazingCase) (th : ℕ → ℝ) : Except PyErr ℝ :=
  if k.fixed then g.hI "JIS_R3107" "" 0 0 else g.hI k.method k.season (th (2 * g.n + 1)) k.thetaI

/-- `glass_thermal_balance.py` 862-936, `get_r`: the `2 n + 3` resistances from outdoors to indoors, for given surface temperatures. With fixed
temperatures of the gas layers the films are those of the default method (lines 894 and 911). -/
noncomputable def Glazing.getR (k : GlazingCase) (theta : ℕ → ℝ) : Except PyErr (ℕ → ℝ) := do
  let he ← g.outerFilm k theta
  let gaps ← (List.finRange g.n).mapM (g.gap k theta)
  let hi ← g.innerFilm k theta
  .ok fun m =>
    if m = 0 then 1 / he
    else if m = 2 * (g.n + 1) then 1 / hi
    else if m % 2 = 1 then (if h : m / 2 < g.n + 1 then (g.gls ⟨m / 2, h⟩).r else 0)
    else 1 / gaps.getD (m / 2 - 1) 0

/-- `glass_thermal_balance.py` 942-949, the matrix `ca`. -/
noncomputable def flowMatrix (N : ℕ) (r : ℕ → ℝ) : Matrix (Fin N) (Fin N) ℝ := fun i j =>
  if i = j then 1 / r i + 1 / r (i + 1)
  else if (i : ℕ) = j + 1 then -1 / r (j + 1)
  else if (j : ℕ) = i + 1 then -1 / r (i + 1)
  else 0

/-- `glass_thermal_balance.py` 951-963, the vector `cb`. -/
noncomputable def flowVector (N : ℕ) (r q : ℕ → ℝ) (thetaE thetaI : ℝ) : Fin N → ℝ := fun i =>
  if (i : ℕ) = 0 then q i + thetaE / r i
  else if (i : ℕ) = N - 1 then q i + thetaI / r (i + 1)
  else q i

/-- `glass_thermal_balance.py` 849-860: half of what a pane absorbs on each of its surfaces. -/
noncomputable def halves {n : ℕ} (ia : Fin (n + 1) → ℝ) (m : ℕ) : ℝ := if h : m / 2 < n + 1 then ia ⟨m / 2, h⟩ / 2 else 0

/-- A vector as a sequence. -/
noncomputable def seq {N : ℕ} (v : Fin N → ℝ) (m : ℕ) : ℝ := if h : m < N then v ⟨m, h⟩ else 0

/-- `glass_thermal_balance.py` 938-965, `get_heat_flow`: what remains in the balance of every surface. -/
noncomputable def Glazing.heatFlow (k : GlazingCase) (ia : Fin (g.n + 1) → ℝ) (theta : Fin (2 * (g.n + 1)) → ℝ) :
    Except PyErr (Fin (2 * (g.n + 1)) → ℝ) := do
  let r ← g.getR k (seq theta)
  .ok fun i => flowVector _ r (halves ia) k.thetaE k.thetaI i - (flowMatrix _ r).mulVec theta i

/-- `glass_thermal_balance.py` 807-819, `get_r_qin`. -/
noncomputable def Glazing.rQin (ia : Fin (g.n + 1) → ℝ) (reg : ℕ → ℝ) : ℝ :=
  ∑ j : Fin (g.n + 1), ia j * ((∑ m ∈ Finset.range (2 * j + 1), reg m + reg (2 * j + 1) / 2) / ∑ m ∈ Finset.range (2 * (g.n + 1) + 1), reg m)

/-- `scipy.optimize.root`: some function of the residual function and the starting point. -/
abbrev Root (N : ℕ) : Type := ((Fin N → ℝ) → Except PyErr (Fin N → ℝ)) → (Fin N → ℝ) → Except PyErr (Fin N → ℝ)

/-- `glass_thermal_balance.py` 821-978, `get_temp_and_r`: surface temperatures, resistances and the part of the absorbed radiation that
goes inside. Whether the root finder succeeded is not looked at. -/
noncomputable def Glazing.tempAndR (root : (N : ℕ) → Root N) (k : GlazingCase) (ia : Fin (g.n + 1) → ℝ) :
    Except PyErr ((Fin (2 * (g.n + 1)) → ℝ) × (ℕ → ℝ) × ℝ) := do
  let theta ← root _ (g.heatFlow k ia) fun _ => (k.thetaE + k.thetaI) / 2
  let reg ← g.getR k (seq theta)
  .ok (theta, reg, g.rQin ia reg)

/-- `glass_thermal_balance.py` 790-805 and 980-1001, `get_heat_transmittance` and the property `r`. -/
noncomputable def Glazing.u (root : (N : ℕ) → Root N) : Except PyErr ℝ := do
  let res ← g.tempAndR root .default fun _ => 0
  .ok (1 / ∑ m ∈ Finset.range (2 * (g.n + 1) + 1), res.2.1 m)

/-- What `window.py` 82-114, `calc`, prints, and the surface temperatures it calculates. -/
structure WindowResult (n : ℕ) where
  abs : List ℝ
  tau : ℝ
  rho : ℝ
  theta : Fin (2 * (n + 1)) → ℝ
  rQin : ℝ
  u : ℝ
  shgc : ℝ

/-- The conditions of `window.py` 97-104. -/
noncomputable def windowCase : GlazingCase := ⟨0, 20, "JIS_R3107", "winter", false⟩

/-- `window.py` 82-114, `calc`: a stack of panes for light and the same panes for heat. Simplified: both are given with the same number of
panes. -/
noncomputable def windowCalc (root : (N : ℕ) → Root N) (p : Fin (g.n + 1) → Pane) : Except PyErr (WindowResult g.n) := do
  let spec ← getTotal (List.ofFn p)
  let abs ← getAbs (List.ofFn p)
  let res ← g.tempAndR root windowCase fun j => abs.getD j 0 * 300
  let u ← g.u root
  .ok ⟨abs, spec.tauF, spec.rhoF, res.1, res.2.2, u, res.2.2 / 300 + spec.tauF⟩

end HLC.Glass
