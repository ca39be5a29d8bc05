import Verif.Model.Py

/-!
# Numbers of steps (`core/period.py`)
-/

namespace HLC

/-- Result of `get_n_step`: main steps, run-up steps, run-up steps of the whole building. -/
structure NStep where
  main : ℤ
  runUp : ℤ
  runUpBuild : ℤ

/-- `core/period.py` 44-56. -/
def nStepMain (hourly days : ℤ) : ℤ := days * hourly * 24

/-- `core/period.py` 59-70. -/
def nStepRunUp (hourly days : ℤ) : ℤ := days * hourly * 24

/-- `core/period.py` 73-82. -/
def nStepRunUpBuild (hourly days : ℤ) : ℤ := days * hourly * 24

/-- `core/period.py` 7-41, `get_n_step`. -/
def getNStep (hourly dMain dRunUp dRunUpBuild : ℤ) : Except PyErr NStep :=
  if dRunUp < dRunUpBuild then .error .valueError
  else .ok ⟨nStepMain hourly dMain, nStepRunUp hourly dRunUp, nStepRunUpBuild hourly dRunUpBuild⟩

end HLC
