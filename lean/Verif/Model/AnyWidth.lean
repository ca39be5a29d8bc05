import Verif.Model.Files

/-!
# Directories whose tables have any numbers of columns

`Verif.Model.Files` reads tables with one column per room or part. After an interrupted run for a house of another size there are others. numpy then
spreads a table with one column over all rooms or parts, and refuses other widths.
-/

namespace HLC.Init

/-- `core/pre_calc_parameters.py` 377-410, `np.array([row for row in r]).T`: the rows of the array are the columns of the table. Rows of different lengths
are a ValueError (numpy 1.24 and later). Tables that have not 35040 rows are not modelled here (an error; `Verif.Model.Sheets` models them). -/
noncomputable def readColumns : Option Content → Except PyErr (List (Fin 35040 → ℝ))
  | some (.table rows) =>
    if rows.length = 35040 ∧ ∀ r ∈ rows, r.length = (rows.headD []).length then
      .ok (List.ofFn fun (i : Fin (rows.headD []).length) (t : Fin 35040) => (rows.getD t.1 []).getD i.1 0)
    else .error .valueError
  | none => .error .exception
  | _ => .error .valueError

/-- numpy broadcasting of an array with `n` rows: one row is repeated, another number of rows is a ValueError. Places: `core/pre_calc_parameters.py` 472
(local ventilation), 484 (sun; there also for `n = 1`, since `np.dot` refuses it), 488, 505, 514 (outdoor side; for `n = 1` at 514), `core/sequence.py` 86,
92, 122, 212 and `core/ot_target_pmv.py` 448-449 (schedules). Schedules of several columns in a house of one room are not modelled (a ValueError here; the columns of the sun,
written later by the same run, are then as many, and are refused). -/
def spread (n : ℕ) (cols : List (Fin 35040 → ℝ)) : Except PyErr (List (Fin 35040 → ℝ)) :=
  if cols.length = n then .ok cols
  else if cols.length = 1 then .ok (List.replicate n (cols.headD fun _ => 0))
  else .error .valueError

/-- `core/core.py` 12-105, `calc`, on a directory whose tables may have any numbers of columns. The tables of the demand, the sun, the heat and the moisture
are recorded as they were read (`core/log.py` 120-123, 169, 177-179): with one column and several rooms, `table[1]` is an IndexError. (It is raised after the
calculation, if that is completed, or, for the demand, by the mask at `core/next_condition.py` 60-63; here it is raised first.) -/
noncomputable def calcAny (rnd : ℕ → ℝ → ℝ) (solve : List ℝ → ℝ) (temp hum : Fin 35040 → ℝ) (hourly dMain dRunUp dRunUpBuild : ℤ) (dir : Dir) :
    Except PyErr (Digest × Table) := do
  let h ← readHouseFile (dir .house)
  let v ← readColumns (dir .localVent)
  let q ← readColumns (dir .heatGeneration)
  let x ← readColumns (dir .moistureGeneration)
  let p ← readColumns (dir .occupants)
  let a ← readColumns (dir .acDemand)
  let s ← readColumns (dir .qTrsSol)
  let t ← readColumns (dir .thetaOSol)
  let n := h.spaces.length
  let v' ← spread n v
  let s' ← spread n s
  let t' ← spread h.boundaries.length t
  let q' ← spread n q
  let x' ← spread n x
  let p' ← spread n p
  let a' ← spread n a
  if 1 < n ∧ (a.length = 1 ∨ s.length = 1 ∨ q.length = 1 ∨ x.length = 1) then .error .indexError
  else
    calcFiles rnd solve temp hum hourly dMain dRunUp dRunUpBuild
      { building := h.building
        spaces := h.spaces
        boundaries := h.boundaries
        schedules := List.ofFn fun i : Fin n =>
          ⟨q'.getD i.1 fun _ => 0, x'.getD i.1 fun _ => 0, v'.getD i.1 fun _ => 0, p'.getD i.1 fun _ => 0, a'.getD i.1 fun _ => 0⟩
        qTrsSol := s'.map List.ofFn
        thetaOSol := t'.map List.ofFn }

end HLC.Init
