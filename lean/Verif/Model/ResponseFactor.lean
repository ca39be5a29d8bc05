import Verif.Model.Py
import Mathlib.Analysis.SpecialFunctions.Trigonometric.Basic
import Mathlib.Analysis.SpecialFunctions.Exp
import Mathlib.Analysis.Real.Sqrt
import Mathlib.Data.Fin.VecNotation
import Mathlib.LinearAlgebra.Matrix.Notation

/-!
# Response factors (`initializer/response_factor.py`)

The time interval is the constant 900 s of the code. The step responses `dblATstep`, `dblAAstep` (lines 197-206) are returned but
never used and are not modelled; of the series `RFT`, `RFA` only the first term is used.
-/

namespace HLC.RF

/-- `initializer/response_factor.py` 12-30, class `ResponseFactor`. -/
structure ResponseFactor where
  rft0 : ℝ
  rfa0 : ℝ
  rft1 : List ℝ
  rfa1 : List ℝ
  row : List ℝ
  nRoot : ℕ

/-- A layer: thermal resistance m2K/W and heat capacity J/(m2 K). -/
structure Layer where
  r : ℝ
  c : ℝ

/-- `initializer/response_factor.py` 82-93: fixed roots of parts other than ground. -/
noncomputable def alphaWall : Fin 8 → ℝ :=
  ![2.0000e-6, 7.9000e-6, 3.1205e-5, 1.2325e-4, 4.8687e-4, 1.9231e-3, 7.5964e-3, 3.0006e-2]

/-- `initializer/response_factor.py` 69-81: fixed roots of ground. -/
noncomputable def alphaGround : Fin 10 → ℝ :=
  ![1.05970e-9, 4.23890e-9, 1.69560e-8, 6.78060e-8, 2.71280e-7, 1.08500e-6, 4.34170e-6, 1.73610e-5, 6.94444e-5, 2.77778e-4]

/-- `alp[k]` (the code only indexes inside the array, see `getLaps`). -/
def rootAt {n : ℕ} (alp : Fin n → ℝ) (k : ℕ) : ℝ := if h : k < n then alp ⟨k, h⟩ else 0

/-- `initializer/response_factor.py` 34-54, `get_laps`: entry `k = i - 1` of the array; `i` even means `k` odd. -/
noncomputable def getLaps {n : ℕ} (alp : Fin n → ℝ) (k : Fin (2 * n)) : ℝ :=
  if k.val % 2 = 1 then rootAt alp (k.val / 2)
  else if k.val = 0 then rootAt alp 0 / Real.sqrt (rootAt alp 1 / rootAt alp 0)
  else rootAt alp (k.val / 2) / Real.sqrt (rootAt alp (k.val / 2) / rootAt alp (k.val / 2 - 1))

/-- `initializer/response_factor.py` 133-149: four-terminal matrix of one layer at Laplace parameter `s`.
Simplification: `math.sqrt` of a negative number (ValueError) is not modelled; a layer with a capacity but no resistance gives `nan`
in numpy (see `Model/Ieee.lean`), here the quotients are zero. -/
noncomputable def layerMat (s : ℝ) (l : Layer) : Matrix (Fin 2) (Fin 2) ℝ :=
  if |l.c| < 0.001 then !![1, l.r; 0, 1]
  else
    let t := Real.sqrt (l.r * l.c * s)
    !![Real.cosh t, l.r / t * Real.sinh t; t / l.r * Real.sinh t, Real.cosh t]

/-- `initializer/response_factor.py` 129-160: product of the matrices of all layers, from the indoor side. Without any layer `matFt`
is not bound: see `responseOf`. -/
noncomputable def wallMat (s : ℝ) : List Layer → Matrix (Fin 2) (Fin 2) ℝ
  | [] => 1
  | l :: ls => ls.foldl (fun m l => m * layerMat s l) (layerMat s l)

/-- `initializer/response_factor.py` 114-115, 118: `sum(R_i_k_p)`, the steady absorption response. -/
noncomputable def totalR (ls : List Layer) : ℝ := (ls.map Layer.r).sum

/-- `initializer/response_factor.py` 166: absorption transfer function minus its steady value. -/
noncomputable def gA (ls : List Layer) (s : ℝ) : ℝ := wallMat s ls 0 1 / wallMat s ls 1 1 - totalR ls

/-- `initializer/response_factor.py` 167: transmission transfer function minus its steady value 1. -/
noncomputable def gT (ls : List Layer) (s : ℝ) : ℝ := 1 / wallMat s ls 1 1 - 1

/-- `initializer/response_factor.py` 171-176: `matF`. -/
noncomputable def matF {n k : ℕ} (laps : Fin k → ℝ) (alp : Fin n → ℝ) : Matrix (Fin k) (Fin n) ℝ :=
  Matrix.of fun i j => laps i / (laps i + alp j)

/-- `initializer/response_factor.py` 183-198: least squares by the normal equations. -/
noncomputable def fit {n k : ℕ} (laps : Fin k → ℝ) (alp : Fin n → ℝ) (g : Fin k → ℝ) : Except PyErr (Fin n → ℝ) := do
  let inv ← npInv ((matF laps alp).transpose * matF laps alp)
  .ok (inv.mulVec ((matF laps alp).transpose.mulVec g))

/-- `initializer/response_factor.py` 238-241: first term of the response factors. -/
noncomputable def triFirst {n : ℕ} (alp : Fin n → ℝ) (a0 : ℝ) (a : Fin n → ℝ) : ℝ :=
  a0 + ∑ m, (1 - Real.exp (-(alp m * 900))) / (alp m * 900) * a m

/-- `initializer/response_factor.py` 244-247: term `j ≥ 1` of the response factors. -/
noncomputable def triTerm {n : ℕ} (alp : Fin n → ℝ) (a : Fin n → ℝ) (j : ℕ) : ℝ :=
  (-1) * ∑ m, (1 - Real.exp (-(alp m * 900))) ^ 2 * Real.exp (-((j : ℝ) - 1) * (alp m * 900)) / (alp m * 900) * a m

/-- `initializer/response_factor.py` 250-252: response factors by exponential term. -/
noncomputable def triExp {n : ℕ} (alp : Fin n → ℝ) (a : Fin n → ℝ) (m : Fin n) : ℝ :=
  -a m * (1 / (alp m * 900) * (1 - Real.exp (-(alp m * 900))) ^ 2)

/-- `initializer/response_factor.py` 253: common ratios. -/
noncomputable def triRow {n : ℕ} (alp : Fin n → ℝ) (m : Fin n) : ℝ := Real.exp (-(alp m * 900))

/-- `initializer/response_factor.py` 297-302: an array of 12 zeros whose first entries are overwritten. -/
def pad12 {n : ℕ} (f : Fin n → ℝ) : List ℝ := List.ofFn fun m : Fin 12 => if h : m.val < n then f ⟨m.val, h⟩ else 0

/-- `initializer/response_factor.py` 281-304 for given roots. Without any layer `matFt` is not bound in line 166 (UnboundLocalError, a
NameError). -/
noncomputable def responseOf {n : ℕ} (alp : Fin n → ℝ) (ls : List Layer) : Except PyErr ResponseFactor :=
  if ls.isEmpty then .error .nameError
  else do
    let aa ← fit (getLaps alp) alp (fun i => gA ls (getLaps alp i))
    let at' ← fit (getLaps alp) alp (fun i => gT ls (getLaps alp i))
    .ok {
      rft0 := triFirst alp 1 at'
      rfa0 := triFirst alp (totalR ls) aa
      rft1 := pad12 (triExp alp at')
      rfa1 := pad12 (triExp alp aa)
      row := pad12 (triRow alp)
      nRoot := n }

/-- `initializer/response_factor.py` 266-304, `calc_response_factor`. -/
noncomputable def calcResponseFactor (isGround : Bool) (ls : List Layer) : Except PyErr ResponseFactor :=
  if isGround then responseOf alphaGround ls else responseOf alphaWall ls

/-- The lists `cs` and `rs` (kJ and m2K/W) as layers in J. The lists come from the same layers; a length mismatch (the loop zips them) is
not modelled. -/
noncomputable def mkLayers (cs rs : List ℝ) : List Layer := List.zipWith (fun r c => ⟨r, c * 1000⟩) rs cs

/-- A response factor factory object (`initializer/response_factor.py` 307-477) with its attributes. -/
inductive Factory
  | direct (rf : ResponseFactor)
  | envelope (cs rs : List ℝ) (rO : ℝ)
  | ground (cs rs : List ℝ)
  | steady (uW rI : ℝ)

/-- What `create` reads of a boundary specification (`initializer/response_factor.py` 312-356). Simplification: all keys are present. -/
structure BSpec where
  method : String
  boundaryType : String
  phiT0 : ℝ
  phiA0 : ℝ
  phiT1 : List ℝ
  phiA1 : List ℝ
  r : List ℝ
  /-- (thermal_capacity kJ, thermal_resistance) -/
  layers : List (ℝ × ℝ)
  rO : ℝ
  uValue : ℝ
  rI : ℝ

/-- `initializer/response_factor.py` 312-356, `ResponseFactorFactory.create`. -/
def create (b : BSpec) : Except PyErr Factory :=
  if b.method = "response_factor" then
    .ok (.direct ⟨b.phiT0, b.phiA0, b.phiT1, b.phiA1, b.r, b.phiT1.length⟩)
  else if b.boundaryType = "external_general_part" ∨ b.boundaryType = "internal" then
    .ok (.envelope (b.layers.map Prod.fst) (b.layers.map Prod.snd) b.rO)
  else if b.boundaryType = "ground" then .ok (.ground (b.layers.map Prod.fst) (b.layers.map Prod.snd))
  else if b.boundaryType = "external_transparent_part" ∨ b.boundaryType = "external_opaque_part" then .ok (.steady b.uValue b.rI)
  else .error .keyError

/-- `get_response_factors`: `initializer/response_factor.py` 372-381 (direct), 399-416 (envelope), 433-450 (ground), 465-477 (steady).
Returns the result and the object after the call: `c = self._cs; c.append(…)` changes the object's own lists. -/
noncomputable def Factory.get : Factory → Except PyErr (ResponseFactor × Factory)
  | .direct rf => .ok (rf, .direct rf)
  | .envelope cs rs rO => do
    let rf ← calcResponseFactor false (mkLayers (cs ++ [0]) (rs ++ [rO]))
    .ok (rf, .envelope (cs ++ [0]) (rs ++ [rO]) rO)
  | .ground cs rs => do
    let rf ← calcResponseFactor true (mkLayers (cs ++ [3300 * 3]) (rs ++ [3 / 1]))
    .ok (rf, .ground (cs ++ [3300 * 3]) (rs ++ [3 / 1]))
  | .steady uW rI =>
    if uW = 0 ∨ 1 / uW - rI = 0 then .error .zeroDivisionError
    else .ok (⟨1, 1 / (1 / (1 / uW - rI)), List.replicate 12 0, List.replicate 12 0, List.replicate 12 0, 0⟩, .steady uW rI)

end HLC.RF
