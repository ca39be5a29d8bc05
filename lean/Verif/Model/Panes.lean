import Verif.Model.PyVal

/-!
# Model of `notebook/initializer/shgc_window/multiple_reflection.py`: light on a stack of panes
-/

namespace HLC.Glass

/-- `multiple_reflection.py` 18-46, `SolarSpecSingleLayer`: transmittance and reflectance of one pane for light on its front and on its
back. -/
@[ext] structure Pane where
  tauF : ℝ
  tauB : ℝ
  rhoF : ℝ
  rhoB : ℝ

/-- `multiple_reflection.py` 43: absorptance for light on the front. -/
noncomputable def Pane.aF (p : Pane) : ℝ := 1 - p.tauF - p.rhoF

/-- `multiple_reflection.py` 46: absorptance for light on the back. -/
noncomputable def Pane.aB (p : Pane) : ℝ := 1 - p.tauB - p.rhoB

/-- `multiple_reflection.py` 110-120: a stack `s` (the class `SolarSpecMultiLayer`, 49-72, has the same four numbers as a pane) and the pane
`p` behind it. The four quotients have the same denominator. -/
noncomputable def addPane (s p : Pane) : Except PyErr Pane := do
  let tauF ← pyDiv (s.tauF * p.tauF) (1 - s.rhoB * p.rhoF)
  let tauB ← pyDiv (p.tauB * s.tauB) (1 - s.rhoB * p.rhoF)
  let rF ← pyDiv (s.tauF * p.rhoF * s.tauB) (1 - s.rhoB * p.rhoF)
  let rB ← pyDiv (p.tauB * s.rhoB * p.tauF) (1 - s.rhoB * p.rhoF)
  .ok ⟨tauF, tauB, s.rhoF + rF, p.rhoB + rB⟩

/-- `ss[j]` for `0 ≤ j < len(ss)` (the index was checked before). -/
def paneAt (ss : List Pane) (j : ℤ) : Except PyErr Pane :=
  match pyIndex ss.length j with
  | .ok k => .ok ss[k]
  | .error e => .error e

/-- `multiple_reflection.py` 81-122, `get_solar_spec_multi_layer`: the panes `i` to `j` as one. -/
noncomputable def getMulti (ss : List Pane) (i j : ℤ) : Except PyErr Pane :=
  if i < 0 then .error .valueError
  else if j < 0 then .error .valueError
  else if h : j < i then .error .valueError
  else if (ss.length : ℤ) ≤ j then .error .valueError
  else if h' : i = j then paneAt ss j
  else do
    let s ← getMulti ss i (j - 1)
    let p ← paneAt ss j
    addPane s p
termination_by (j - i).toNat
decreasing_by omega

/-- `multiple_reflection.py` 142-149: light on the front of pane `j`, per unit of light on the stack. -/
noncomputable def solF (front back : List Pane) (j : ℕ) : Except PyErr ℝ :=
  if j = 0 then .ok 1 else do
    let a ← paneAt front ((j : ℤ) - 1)
    let b ← paneAt back j
    pyDiv a.tauF (1 - a.rhoB * b.rhoF)

/-- `multiple_reflection.py` 151-157: light on the back of pane `j` of `n`. -/
noncomputable def solB (front back : List Pane) (n j : ℕ) : Except PyErr ℝ :=
  if j + 1 = n then .ok 0 else do
    let a ← paneAt front j
    let b ← paneAt back ((j : ℤ) + 1)
    pyDiv (a.tauF * b.rhoF) (1 - a.rhoB * b.rhoF)

/-- `multiple_reflection.py` 124-159, `get_abs_multi_layer`: the share of the light that every pane absorbs. -/
noncomputable def getAbs (ss : List Pane) : Except PyErr (List ℝ) := do
  let n := ss.length
  let front ← (List.range n).mapM fun j : ℕ => getMulti ss 0 j
  let back ← (List.range n).mapM fun j : ℕ => getMulti ss j ((n : ℤ) - 1)
  let sf ← (List.range n).mapM (solF front back)
  let sb ← (List.range n).mapM (solB front back n)
  .ok (List.ofFn fun j : Fin n => sf.getD j 0 * (ss.get j).aF + sb.getD j 0 * (ss.get j).aB)

/-- `multiple_reflection.py` 161-171, `get_total_solar_spec`. -/
noncomputable def getTotal (ss : List Pane) : Except PyErr Pane := getMulti ss 0 ((ss.length : ℤ) - 1)

end HLC.Glass
