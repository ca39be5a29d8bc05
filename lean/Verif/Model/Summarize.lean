import Verif.Model.Boundary
import Mathlib.Data.List.FinRange
import Mathlib.Algebra.BigOperators.Fin

/-!
# Merging of building parts (`initializer/building_part_summarize.py`)

The calls of `integrate` are commented out in `initializer.py` (110, 226). Line 123 reads an attribute `n_root` that `BoundarySimple`
does not have; what follows it is only reached with an empty list.
-/

namespace HLC.Init

open Classical in
/-- `initializer/building_part_summarize.py` 311-325, `_is_almost_equal`. -/
noncomputable def almostEqual (v1 v2 : ℝ) : Bool := decide (|v1 - v2| < 1e-5)

/-- `initializer/building_part_summarize.py` 236-308, `_is_boundary_integratable`. -/
noncomputable def mergeable (b1 b2 : Bs) : Bool :=
  if b1.room ≠ b2.room then false
  else if b1.bType ≠ b2.bType then false
  else if b1.isFloor ≠ b2.isFloor then false
  else if b1.isSolarAbsorbed ≠ b2.isSolarAbsorbed then false
  else if almostEqual b1.hI b2.hI = false then false
  else if b1.bType.isExternal = true ∧ b1.isSunStruck ≠ b2.isSunStruck then false
  else if b1.bType.isExternal = true ∧ almostEqual b1.hTd b2.hTd = false then false
  else if b1.bType.isExternal = true ∧ b1.isSunStruck = some true ∧ b1.direction ≠ b2.direction then false
  else if b1.bType = .internal ∧ b1.nextRoomType ≠ b2.nextRoomType then false
  else true

section
variable {n : ℕ}

/-- `np.max(g_k)` (`initializer/building_part_summarize.py` 231); the entries are at least -1. -/
def maxGroup (g : Fin n → ℤ) : ℤ := (List.finRange n).foldl (fun m l => max m (g l)) (-1)

/-- One pass of the loop (`initializer/building_part_summarize.py` 220-231). -/
noncomputable def groupStep (bss : Fin n → Bs) (g : Fin n → ℤ) (k : Fin n) : Fin n → ℤ :=
  fun l => if g l < 0 ∧ mergeable (bss k) (bss l) = true then maxGroup g + 1 else g l

/-- `initializer/building_part_summarize.py` 196-233, `_get_group_indices`. -/
noncomputable def groupIndices (bss : Fin n → Bs) : Fin n → ℤ := (List.finRange n).foldl (groupStep bss) fun _ => -1

/-- `initializer/building_part_summarize.py` 62: area of group `c`. -/
noncomputable def groupArea (bss : Fin n → Bs) (c : ℤ) : ℝ := ∑ l, if groupIndices bss l = c then (bss l).area else 0

/-- `initializer/building_part_summarize.py` 107-114: area-weighted mean of the equivalent outdoor temperature of group `c` at step `t`. -/
noncomputable def groupTemp (bss : Fin n → Bs) (c : ℤ) (t : ℕ) : ℝ :=
  (∑ l, if groupIndices bss l = c then (bss l).area * (bss l).thetaOSol.getD t 0 else 0) / groupArea bss c

/-- `initializer/building_part_summarize.py` 117-120: transmitted radiation of group `c` at step `t`. -/
noncomputable def groupSolar (bss : Fin n → Bs) (c : ℤ) (t : ℕ) : ℝ :=
  ∑ l, if groupIndices bss l = c then (bss l).qTrsSol.getD t 0 else 0

/-- `np.unique(gp_idxs)` (`initializer/building_part_summarize.py` 44, 50 and below): the group numbers in use, in increasing order. -/
noncomputable def groupNumbers (bss : Fin n → Bs) : List ℤ :=
  (List.range (maxGroup (groupIndices bss) + 1).toNat).map fun k : ℕ => (k : ℤ)

/-- `np.where(gp_idxs == c)[0][0]` (`initializer/building_part_summarize.py` 44): the first part of group `c`. -/
noncomputable def firstOf (bss : Fin n → Bs) (c : ℤ) : Except PyErr (Fin n) :=
  match (List.finRange n).find? fun l => groupIndices bss l = c with
  | some l => .ok l
  | none => .error .indexError

/-- `gp_idxs[_id]` (`initializer/building_part_summarize.py` 76): a Python index, negative numbers count from the end. -/
noncomputable def groupOfId (bss : Fin n → Bs) (id : ℤ) : Except PyErr ℤ :=
  if h : 0 ≤ id ∧ id < n then .ok (groupIndices bss ⟨id.toNat, by omega⟩)
  else if h : id < 0 ∧ 0 ≤ id + n then .ok (groupIndices bss ⟨(id + n).toNat, by omega⟩)
  else .error .indexError

/-- `initializer/building_part_summarize.py` 69-78: the number of the merged part behind group `c`. -/
noncomputable def groupRear (bss : Fin n → Bs) (c : ℤ) : Except PyErr (Option ℤ) := do
  let l ← firstOf bss c
  match (bss l).rear with
  | none => return none
  | some id => return some (← groupOfId bss id)

open Classical in
/-- `np.average(…, weights=…)` (`initializer/building_part_summarize.py` 107-114) refuses weights whose sum is zero. -/
noncomputable def groupWeights (bss : Fin n → Bs) (c : ℤ) : Except PyErr Unit :=
  if groupArea bss c = 0 then .error .zeroDivisionError else .ok ()

/-- `initializer/building_part_summarize.py` 20-193, `integrate`, as far as it gets: the values collected up to line 120 that can fail, then
line 123. The series of the parts of a group are taken to be of the same length (`initializer.py` makes them so). -/
noncomputable def integrate (bss : Fin n → Bs) : Except PyErr (List Bs) := do
  let gs := groupNumbers bss
  let _ ← gs.mapM (firstOf bss)
  let _ ← gs.mapM (groupRear bss)
  let _ ← gs.mapM (groupWeights bss)
  match gs with
  | [] => return []
  | _ :: _ => .error .attributeError

end

end HLC.Init
