import Verif.Model.PreCalc
import Verif.Model.Sequence
import Verif.Model.ResponseFactor
import Mathlib.Algebra.BigOperators.Group.Finset.Basic

/-!
# Special values of numpy's floating point numbers

The model computes with real numbers. Here the chain from the transmitted solar radiation to the temperatures of the surfaces is
written once more with numpy's infinities and `nan`, because the code divides there by an area that may be zero; likewise the chain
from the layers of a wall to its response factors, because the code divides there by a resistance that may be zero.
-/

namespace HLC

/-- A numpy floating point number without rounding, overflow and signed zero: a real number, an infinity (`true`: negative) or
`nan`. -/
inductive Fl
  | num (x : ℝ)
  | inf (neg : Bool)
  | nan

namespace Fl

/-- Sum: opposite infinities give `nan`. -/
noncomputable def add : Fl → Fl → Fl
  | nan, _ => nan
  | _, nan => nan
  | num x, num y => num (x + y)
  | num _, inf b => inf b
  | inf b, num _ => inf b
  | inf a, inf b => if a = b then inf a else nan

open Classical in
/-- A number times an infinity: zero gives `nan`. -/
noncomputable def mulInf (x : ℝ) (b : Bool) : Fl := if x = 0 then nan else inf (xor b (decide (x < 0)))

/-- Product. -/
noncomputable def mul : Fl → Fl → Fl
  | nan, _ => nan
  | _, nan => nan
  | num x, num y => num (x * y)
  | num x, inf b => mulInf x b
  | inf b, num x => mulInf x b
  | inf a, inf b => inf (xor a b)

open Classical in
/-- Quotient: `0 / 0` is `nan`, another number over zero an infinity. Zeros count as positive. -/
noncomputable def div : Fl → Fl → Fl
  | nan, _ => nan
  | _, nan => nan
  | num x, num y => if y = 0 then (if x = 0 then nan else inf (decide (x < 0))) else num (x / y)
  | num _, inf _ => num 0
  | inf b, num y => inf (xor b (decide (y < 0)))
  | inf _, inf _ => nan

noncomputable instance : Add Fl := ⟨add⟩
noncomputable instance : Mul Fl := ⟨mul⟩
noncomputable instance : Div Fl := ⟨div⟩
instance : Zero Fl := ⟨num 0⟩

theorem add_def (a b : Fl) : a + b = add a b := rfl
theorem mul_def (a b : Fl) : a * b = mul a b := rfl
theorem div_def (a b : Fl) : a / b = div a b := rfl
theorem zero_def : (0 : Fl) = num 0 := rfl

/-- Sums do not depend on the order. -/
noncomputable instance : AddCommMonoid Fl where
  add_assoc a b c := by
    rcases a with x | (_ | _) | _ <;> rcases b with y | (_ | _) | _ <;> rcases c with z | (_ | _) | _ <;> simp [add_def, add, add_assoc]
  zero_add a := by cases a <;> simp [add_def, add, zero_def]
  add_zero a := by cases a <;> simp [add_def, add, zero_def]
  add_comm a b := by
    rcases a with x | (_ | _) | _ <;> rcases b with y | (_ | _) | _ <;> simp [add_def, add, add_comm]
  nsmul := nsmulRec

end Fl

section
variable {I J : Type} [Fintype I] [DecidableEq I] [Fintype J] [DecidableEq J] {N : ℕ}

/-- `np.dot` of a row of numbers and a column: all products are added up, also those with zero. -/
noncomputable def flDot {K : Type} [Fintype K] (a : K → ℝ) (v : K → Fl) : Fl := ∑ k, Fl.num (a k) * v k

/-- `core/pre_calc_parameters.py` 484-485: radiation absorbed by a boundary. -/
noncomputable def House.qSolFl (h : House I J) (d : Record I J) (j : J) : Fl :=
  flDot (fun i => h.p i j) (fun i => Fl.num (d.qTrsSol i) / Fl.num (h.aSrfAbs i)) * Fl.num (ind (h.solarAbs j)) * Fl.num (1 - House.rSolFnt)

/-- `core/pre_calc_parameters.py` 503-505: CRX. -/
noncomputable def House.crxFl (h : House I J) (hR : J → ℝ) (d : Record I J) (j : J) : Fl :=
  Fl.num (h.phiA0 j) * h.qSolFl d j + Fl.num (h.phiT0 j) / Fl.num (h.hI hR j) * flDot (h.kEiMat j) (h.qSolFl d)
  + Fl.num (h.phiT0 j * h.thetaDstrb d j)

/-- `core/pre_calc_parameters.py` 515: WSC, given the inverse of AX. -/
noncomputable def House.wscFl (h : House I J) (hR : J → ℝ) (ivs : Matrix J J ℝ) (d : Record I J) (j : J) : Fl :=
  flDot (ivs j) (h.crxFl hR d)

/-- `core/sequence.py` 184-185: temperatures of the surfaces, from the room temperatures, the radiant heating and the history. -/
noncomputable def House.thetaSFl (h : House I J) (hR : J → ℝ) (ivs : Matrix J J ℝ) (d : Record I J) (thetaR lr : I → Fl) (wsv : J → Fl)
    (j : J) : Fl :=
  flDot ((ivs * h.fia hR) j) thetaR + h.wscFl hR ivs d j + flDot ((ivs * h.flb hR) j) lr + wsv j

/-- `core/sequence.py` 188: mean radiant temperatures of the occupants. -/
noncomputable def House.thetaMrtFl (h : House I J) (thetaS : J → Fl) (i : I) : Fl := flDot (h.fMrtHumMat i) thetaS

end

namespace RF

/-- `initializer/response_factor.py` 133-149: four-terminal matrix of one layer; the resistances and capacities are numpy numbers
(408-414), the root is a number (not modelled: the root of a negative number, a ValueError). -/
noncomputable def layerFl (s : ℝ) (l : Layer) : Matrix (Fin 2) (Fin 2) Fl :=
  if |l.c| < 0.001 then !![.num 1, .num l.r; .num 0, .num 1]
  else
    let t := Real.sqrt (l.r * l.c * s)
    !![.num (Real.cosh t), Fl.num l.r / Fl.num t * Fl.num (Real.sinh t); Fl.num t / Fl.num l.r * Fl.num (Real.sinh t), .num (Real.cosh t)]

/-- `np.dot` of two matrices of two rows (`initializer/response_factor.py` 160). -/
noncomputable def dotFl (a b : Matrix (Fin 2) (Fin 2) Fl) : Matrix (Fin 2) (Fin 2) Fl := Matrix.of fun i j => a i 0 * b 0 j + a i 1 * b 1 j

/-- `initializer/response_factor.py` 129-160: product of the matrices of the layers, the first of which is `l`. -/
noncomputable def wallFl (s : ℝ) (l : Layer) (ls : List Layer) : Matrix (Fin 2) (Fin 2) Fl :=
  ls.foldl (fun m l => dotFl m (layerFl s l)) (layerFl s l)

/-- `initializer/response_factor.py` 166. -/
noncomputable def gAFl (l : Layer) (ls : List Layer) (s : ℝ) : Fl :=
  wallFl s l ls 0 1 / wallFl s l ls 1 1 + Fl.num (-totalR (l :: ls))

/-- `initializer/response_factor.py` 183-198: least squares, given the inverse of the normal equations. -/
noncomputable def fitFl {n k : ℕ} (laps : Fin k → ℝ) (alp : Fin n → ℝ) (inv : Matrix (Fin n) (Fin n) ℝ) (g : Fin k → Fl) (m : Fin n) : Fl :=
  flDot (inv m) fun j => flDot ((matF laps alp).transpose j) g

/-- `initializer/response_factor.py` 238-241: first absorption response factor. -/
noncomputable def rfa0Fl {n : ℕ} (alp : Fin n → ℝ) (inv : Matrix (Fin n) (Fin n) ℝ) (l : Layer) (ls : List Layer) : Fl :=
  Fl.num (totalR (l :: ls)) + flDot (fun m => (1 - Real.exp (-(alp m * 900))) / (alp m * 900))
    (fitFl (getLaps alp) alp inv fun i => gAFl l ls (getLaps alp i))

end RF

end HLC
