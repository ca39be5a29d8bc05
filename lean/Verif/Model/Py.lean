import Mathlib.Data.Real.Basic
import Mathlib.Data.Fin.Basic
import Mathlib.LinearAlgebra.Matrix.NonsingularInverse

/-!
# Python / numpy conventions used by the model

Floats are modelled by real numbers, exceptions by `Except PyErr`.
-/

namespace HLC

/-- The exceptions raised explicitly or implicitly by the modelled code. -/
inductive PyErr
  | valueError
  | keyError
  | indexError
  | linAlgError
  | typeError
  | nameError
  | zeroDivisionError
  | notImplemented
  | attributeError
  | exception
  deriving DecidableEq, Repr

/-- `a[n]` for a sequence of length `N`: non-negative indices count from the front, negative ones from the back,
anything else is an `IndexError` (Python / numpy indexing convention, used by `core/sequence.py` 37-95 with
negative step numbers during run-up). -/
def pyIndex (N : ℕ) (n : ℤ) : Except PyErr (Fin N) :=
  if h : 0 ≤ n ∧ n < N then .ok ⟨n.toNat, by omega⟩
  else if h : n < 0 ∧ 0 ≤ (N : ℤ) + n then .ok ⟨((N : ℤ) + n).toNat, by omega⟩
  else .error .indexError

/-- `range(a, b)` as a list of integers (Python built-in). -/
def pyRange (a b : ℤ) : List ℤ := (List.range (b - a).toNat).map (fun k : ℕ => a + (k : ℤ))

/-- Indicator: a Python `bool` / `int` mask entry used as a number. -/
def ind (b : Bool) : ℝ := if b then 1 else 0

open Classical in
/-- `np.linalg.inv`: raises `LinAlgError` on a singular matrix, otherwise returns the inverse. -/
noncomputable def npInv {I : Type*} [Fintype I] [DecidableEq I] (A : Matrix I I ℝ) :
    Except PyErr (Matrix I I ℝ) :=
  if A.det = 0 then .error .linAlgError else .ok A⁻¹

end HLC
