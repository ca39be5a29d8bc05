import Verif.Model.EesDict
import Mathlib.Tactic.Linarith

/-!
# From the indices of a house to its parts (`convert/get_u_psi_eta_from_u_a_and_eta_a.py`,
`convert/check_ua_a_eta_a.py`)
-/

namespace HLC.Conv

/-- `convert/get_u_psi_eta_from_u_a_and_eta_a.py` 14-25: the fields of `PartType`, used as dictionary keys. -/
inductive PT
  | roof | ceiling | wall | floor | boundaryCeiling | boundaryWall | boundaryFloor | window | door | earthfloorPerimeter
  deriving DecidableEq, Repr

/-- `convert/get_u_psi_eta_from_u_a_and_eta_a.py` 15-24: the names of the fields. -/
def PT.name : PT → String
  | .roof => "roof"
  | .ceiling => "ceiling"
  | .wall => "wall"
  | .floor => "floor"
  | .boundaryCeiling => "boundary_ceiling"
  | .boundaryWall => "boundary_wall"
  | .boundaryFloor => "boundary_floor"
  | .window => "window"
  | .door => "door"
  | .earthfloorPerimeter => "earthfloor_perimeter"

/-- `convert/get_u_psi_eta_from_u_a_and_eta_a.py` 104, 161, 176: `PartType._fields`. -/
def PT.all : List PT :=
  [.roof, .ceiling, .wall, .floor, .boundaryCeiling, .boundaryWall, .boundaryFloor, .window, .door, .earthfloorPerimeter]

/-- `d[key]` for a dictionary whose keys are the names of the fields of `PartType`. -/
def ptGet {α : Type} (d : PT → α) (key : String) : Except PyErr α :=
  match PT.all.find? fun p => p.name = key with
  | some p => .ok (d p)
  | none => .error .keyError

/-- `convert/get_u_psi_eta_from_u_a_and_eta_a.py` 28-48, `get_u_psi`: the dictionary built there gives the value of
boundary walls for boundary floors. -/
def getUPsi (u : PT → ℝ) (key : String) : Except PyErr ℝ :=
  ptGet (fun p => match p with | .boundaryFloor => u .boundaryWall | q => u q) key

/-- `convert/get_u_psi_eta_from_u_a_and_eta_a.py` 60-71: the rows of the table. -/
noncomputable def uPsiStdRow : PT → Fin 8 → ℝ
  | .roof => ![0.17, 0.17, 0.24, 0.24, 0.24, 0.24, 0.24, 0.24]
  | .ceiling => ![0.17, 0.17, 0.24, 0.24, 0.24, 0.24, 0.24, 0.24]
  | .wall => ![0.35, 0.35, 0.53, 0.53, 0.53, 0.53, 0.53, 4.10]
  | .floor => ![0.34, 0.34, 0.34, 0.48, 0.48, 0.48, 0.48, 3.52]
  | .boundaryCeiling => ![0.17, 0.17, 0.24, 0.24, 0.24, 0.24, 0.24, 0.24]
  | .boundaryWall => ![0.35, 0.35, 0.53, 0.53, 0.53, 0.53, 0.53, 4.10]
  | .boundaryFloor => ![0.34, 0.34, 0.34, 0.48, 0.48, 0.48, 0.48, 3.52]
  | .window => ![2.33, 2.33, 3.49, 4.65, 4.65, 4.65, 4.65, 6.51]
  | .door => ![2.33, 2.33, 3.49, 4.65, 4.65, 4.65, 4.65, 6.51]
  | .earthfloorPerimeter => ![0.53, 0.53, 0.53, 0.76, 0.76, 0.76, 0.76, 1.80]

/-- `convert/get_u_psi_eta_from_u_a_and_eta_a.py` 51-71, `get_u_psi_std`. -/
noncomputable def uPsiStd (region : ℤ) (p : PT) : Except PyErr ℝ := region8 (uPsiStdRow p) region

/-- `convert/get_u_psi_eta_from_u_a_and_eta_a.py` 74-93, `get_u_psi_max`. -/
noncomputable def uPsiMax : PT → ℝ
  | .roof => 1 / (0.09 + 0.0095 / 0.22 + 0.04)
  | .ceiling => 1 / (0.09 + 0.0095 / 0.22 + 0.09)
  | .wall => 1 / (0.11 + 0.0095 / 0.22 + 0.04)
  | .floor => 1 / (0.15 + 0.012 / 0.16 + 0.04)
  | .boundaryCeiling => 1 / (0.09 + 0.0095 / 0.22 + 0.09)
  | .boundaryWall => 1 / (0.11 + 0.0095 / 0.22 + 0.11)
  | .boundaryFloor => 1 / (0.15 + 0.012 / 0.16 + 0.15)
  | .window => 6.51
  | .door => 6.51
  | .earthfloorPerimeter => 100

/-- A dictionary comprehension over all fields, `{p: f(p) for p in PartType._fields}`: fails with the first failing
entry. -/
noncomputable def ptDict (f : PT → Except PyErr ℝ) : Except PyErr (PT → ℝ) := do
  let a ← f .roof
  let b ← f .ceiling
  let c ← f .wall
  let d ← f .floor
  let e ← f .boundaryCeiling
  let g ← f .boundaryWall
  let h ← f .boundaryFloor
  let i ← f .window
  let j ← f .door
  let k ← f .earthfloorPerimeter
  return fun p => match p with
    | .roof => a
    | .ceiling => b
    | .wall => c
    | .floor => d
    | .boundaryCeiling => e
    | .boundaryWall => g
    | .boundaryFloor => h
    | .window => i
    | .door => j
    | .earthfloorPerimeter => k

/-- `convert/get_u_psi_eta_from_u_a_and_eta_a.py` 96-106, `get_f_u_psi_max_each_part`. -/
noncomputable def fUPsiMax (region : ℤ) : Except PyErr (PT → ℝ) :=
  ptDict fun p => do pyDiv (uPsiMax p) (← uPsiStd region p)

/-- `min` over a non-empty list given by its head and tail (Python built-in). -/
noncomputable def minOf (x : ℝ) : List ℝ → ℝ
  | [] => x
  | y :: l => min x (minOf y l)

theorem minOf_le (x : ℝ) (l : List ℝ) : ∀ y ∈ x :: l, minOf x l ≤ y := by
  induction l generalizing x with
  | nil => intro y hy; simp at hy; rw [hy]; exact le_rfl
  | cons z l ih =>
    intro y hy
    rcases List.mem_cons.1 hy with rfl | hy
    · exact min_le_left _ _
    · exact (min_le_right _ _).trans (ih z y hy)

theorem minOf_mem (x : ℝ) (l : List ℝ) : minOf x l ∈ x :: l := by
  induction l generalizing x with
  | nil => simp [minOf]
  | cons z l ih =>
    rw [minOf]
    rcases min_choice x (minOf z l) with h | h
    · rw [h]; simp
    · rw [h]; exact List.mem_cons_of_mem _ (ih z)

/-- `convert/get_u_psi_eta_from_u_a_and_eta_a.py` 127: the smallest maximum among the remaining parts. -/
noncomputable def minOver {α : Type} (f : α → ℝ) (p : α) (ps : List α) : ℝ := minOf (f p) (ps.map f)

open Classical in
/-- The parts left over by lines 148-149 are fewer. -/
theorem remaining_shorter {α : Type} (fm : α → ℝ) (p : α) (ps : List α) :
    ((p :: ps).filter fun x => decide (fm x ≠ minOver fm p ps)).length < (p :: ps).length := by
  have h := minOf_mem (fm p) (ps.map fm)
  rw [← List.map_cons, List.mem_map] at h
  obtain ⟨x, hx, e⟩ := h
  refine lt_of_le_of_ne (List.length_filter_le _ _) fun h => ?_
  have := List.length_filter_eq_length_iff.1 h x hx
  rw [← minOver] at e
  simp [e] at this

open Classical in
/-- `convert/get_u_psi_eta_from_u_a_and_eta_a.py` 119-159, `get_remaining_f`: the dictionary as the list of its
entries, for any list of different parts. -/
noncomputable def remainingF {α : Type} (qStd fMax : α → ℝ) (q base : ℝ) : List α → Except PyErr (List (α × ℝ))
  | [] => .ok []
  | p :: ps =>
    let m := minOver fMax p ps
    let s := ((p :: ps).map qStd).sum
    let qSub := s * (m - base)
    if qSub > q then do
      let v := base + (← pyDiv q s)
      return (p :: ps).map fun x => (x, v)
    else do
      let d2 ← remainingF qStd fMax (q - qSub) m ((p :: ps).filter fun x => decide (fMax x ≠ m))
      return ((p :: ps).filter fun x => decide (fMax x = m)).map (fun x => (x, m)) ++ d2
  termination_by l => l.length
  decreasing_by exact remaining_shorter fMax p ps

/-- `convert/get_u_psi_eta_from_u_a_and_eta_a.py` 109-163, `get_f_u_psi`. -/
noncomputable def getFUPsi (qStd fMax : PT → ℝ) (q : ℝ) : Except PyErr (List (PT × ℝ)) := remainingF qStd fMax q 0 PT.all

/-- `convert/get_u_psi_eta_from_u_a_and_eta_a.py` 166-176, `get_u_psi_value`. -/
noncomputable def uPsiValue (region : ℤ) (f : List (PT × ℝ)) : Except PyErr (PT → ℝ) :=
  ptDict fun p => do
    let s ← uPsiStd region p
    match f.lookup p with
    | some x => .ok (s * x)
    | none => .error .keyError

/-- `convert/get_u_psi_eta_from_u_a_and_eta_a.py` 195-207: the sums for one season. -/
noncomputable def mOpq (region : ℤ) (u : PT → ℝ) (gps : List GPNoSpec) (ds : List DoorNoSpec) (season : String) : Except PyErr (ℝ × ℝ) := do
  let g ← gps.mapM fun s => do
    return s.area * 0.034 * (← ptGet u s.type.value) * (← partNu s.nextSpace s.direction region season)
  let d ← ds.mapM fun s => do
    return s.area * 0.034 * u .door * (← partNu s.nextSpace s.direction region season)
  return (g.sum, d.sum)

/-- `convert/get_u_psi_eta_from_u_a_and_eta_a.py` 179-212, `get_m_opq`. The four sums are evaluated season by season,
not part kind by part kind: which error is reported first may differ. -/
noncomputable def getMOpq (region : ℤ) (u : PT → ℝ) (gps : List GPNoSpec) (ds : List DoorNoSpec) : Except PyErr (ℝ × ℝ) := do
  let (gh, dh) ← mOpq region u gps ds "heating"
  let (gc, dc) ← mOpq region u gps ds "cooling"
  return (gh + dh, gc + dc)

/-- `convert/get_u_psi_eta_from_u_a_and_eta_a.py` 230-236: the area of the windows weighted by shading and direction. -/
noncomputable def sumAFNu (region : ℤ) (ws : List WinNoSpec) (season : String) : Except PyErr ℝ := do
  let l ← ws.mapM fun s => do
    return s.area * (← s.getF region season) * (← partNu s.nextSpace s.direction region season)
  return l.sum

/-- `np.clip(x, 0.0, 0.88)`, `convert/get_u_psi_eta_from_u_a_and_eta_a.py` 238-239. -/
noncomputable def clipEta (x : ℝ) : ℝ := min (max x 0) 0.88

/-- `convert/get_u_psi_eta_from_u_a_and_eta_a.py` 215-241, `get_eta_d_each`. -/
noncomputable def getEtaDEach (region : ℤ) (mH mC mHOpq mCOpq : ℝ) (ws : List WinNoSpec) : Except PyErr (ℝ × ℝ) := do
  let sh ← sumAFNu region ws "heating"
  let sc ← sumAFNu region ws "cooling"
  let h ← pyDiv (mH - mHOpq) sh
  let c ← pyDiv (mC - mCOpq) sc
  return (clipEta h, clipEta c)

/-- `convert/get_u_psi_eta_from_u_a_and_eta_a.py` 244-259, `get_eta_d`. -/
noncomputable def getEtaD (region : ℤ) (h c : ℝ) : ℝ := if region = 8 then c else (h + c) / 2

/-- `convert/get_u_psi_eta_from_u_a_and_eta_a.py` 335-337, `_get_a_evp_total`. -/
noncomputable def aEvpTotal (gps : List GPNoSpec) (ws : List WinNoSpec) (ds : List DoorNoSpec) (ecs : List EfcNoSpec) : ℝ :=
  (gps.map (·.area) ++ ws.map (·.area) ++ ds.map (·.area) ++ ecs.map (·.area)).sum

/-- `convert/get_u_psi_eta_from_u_a_and_eta_a.py` 396-429: one of the sums over the general parts. -/
noncomputable def qStdGp (region : ℤ) (p : PT) (t : GPType) (gps : List GPNoSpec) : Except PyErr ℝ := do
  let l ← (gps.filter fun s => s.type = t).mapM fun s => do
    return s.area * (← uPsiStd region p) * (← s.nextSpace.getH region)
  return l.sum

/-- `convert/get_u_psi_eta_from_u_a_and_eta_a.py` 431-433, 435-437, 439-442: the other sums; `x` is the area or length
with the adjacent space. -/
noncomputable def qStdOf (region : ℤ) (p : PT) (l : List (ℝ × NextSpace)) : Except PyErr ℝ := do
  let l ← l.mapM fun s => do return s.1 * (← uPsiStd region p) * (← s.2.getH region)
  return l.sum

/-- `convert/get_u_psi_eta_from_u_a_and_eta_a.py` 376-444, `_get_q_std`. -/
noncomputable def getQStd (region : ℤ) (gps : List GPNoSpec) (ws : List WinNoSpec) (ds : List DoorNoSpec) (eps : List EfpNoSpec) :
    Except PyErr (PT → ℝ) :=
  ptDict fun p => match p with
    | .roof => qStdGp region .roof .roof gps
    | .ceiling => qStdGp region .ceiling .ceiling gps
    | .wall => qStdGp region .wall .wall gps
    | .floor => qStdGp region .floor .floor gps
    | .boundaryCeiling => qStdGp region .boundaryCeiling .upwardBoundaryFloor gps
    | .boundaryWall => qStdGp region .boundaryWall .boundaryWall gps
    | .boundaryFloor => qStdGp region .boundaryFloor .downwardBoundaryFloor gps
    | .window => qStdOf region .window (ws.map fun s => (s.area, s.nextSpace))
    | .door => qStdOf region .door (ds.map fun s => (s.area, s.nextSpace))
    | .earthfloorPerimeter => qStdOf region .earthfloorPerimeter (eps.map fun s => (s.length, s.nextSpace))

/-- The result of `calc_parts_spec`. -/
structure PartsSpec where
  u : PT → ℝ
  etaD : ℝ
  etaDH : ℝ
  etaDC : ℝ

/-- `convert/get_u_psi_eta_from_u_a_and_eta_a.py` 262-332, `calc_parts_spec` (with 340-373). -/
noncomputable def calcPartsSpec (region : ℤ) (uA etaAH etaAC : ℝ) (gps : List GPNoSpec) (ds : List DoorNoSpec) (ws : List WinNoSpec)
    (eps : List EfpNoSpec) (ecs : List EfcNoSpec) : Except PyErr PartsSpec := do
  let a := aEvpTotal gps ws ds ecs
  let q := a * uA
  let mH := etaAH / 100 * a
  let mC := etaAC / 100 * a
  let qStd ← getQStd region gps ws ds eps
  let fMax ← fUPsiMax region
  let f ← getFUPsi qStd fMax q
  let u ← uPsiValue region f
  let (mHOpq, mCOpq) ← getMOpq region u gps ds
  let (h, c) ← getEtaDEach region mH mC mHOpq mCOpq ws
  return { u := u, etaD := getEtaD region h c, etaDH := h, etaDC := c }

/-- The dictionaries `general_parts`, `windows`, `doors`, `earthfloor_perimeters`, `earthfloor_centers` after reading,
`convert/check_ua_a_eta_a.py` 13-17. -/
structure Envelope where
  gps : List GP
  ws : List Win
  ds : List Door
  eps : List Efp
  ecs : List Efc

/-- `convert/check_ua_a_eta_a.py` 13-17. -/
noncomputable def Envelope.make (d : PyVal) : Except PyErr Envelope := do
  let gps ← (← d.getList "general_parts").mapM GP.make
  let ws ← (← d.getList "windows").mapM Win.make
  let ds ← (← d.getList "doors").mapM Door.make
  let eps ← (← d.getList "earthfloor_perimeters").mapM Efp.make
  let ecs ← (← d.getList "earthfloor_centers").mapM Efc.make
  return { gps := gps, ws := ws, ds := ds, eps := eps, ecs := ecs }

/-- `convert/check_ua_a_eta_a.py` 44-57, `get_envelope_total_area`. -/
noncomputable def Envelope.area (e : Envelope) : ℝ :=
  (e.gps.map (·.area) ++ e.ws.map (·.area) ++ e.ds.map (·.area) ++ e.ecs.map (·.area)).sum

/-- `convert/check_ua_a_eta_a.py` 60-73, `get_q`. -/
noncomputable def Envelope.getQ (e : Envelope) (region : ℤ) : Except PyErr ℝ := do
  let g ← e.gps.mapM fun s => s.getQ region
  let w ← e.ws.mapM fun s => s.getQ region
  let d ← e.ds.mapM fun s => s.getQ region
  let p ← e.eps.mapM fun s => s.getQ region
  return (g ++ w ++ d ++ p).sum

/-- `convert/check_ua_a_eta_a.py` 76-89, `get_m`. -/
noncomputable def Envelope.getM (e : Envelope) (region : ℤ) (season : String) : Except PyErr ℝ := do
  let g ← e.gps.mapM fun s => s.getM region season
  let w ← e.ws.mapM fun s => s.getM region season
  let d ← e.ds.mapM fun s => s.getM region season
  return (g ++ w ++ d).sum

/-- The result of `check_u_a_and_eta_a`; `etaAH` is `None` in region 8. -/
structure Indices where
  uA : ℝ
  etaAH : Option ℝ
  etaAC : ℝ

/-- `convert/check_ua_a_eta_a.py` 19-41: the evaluation of the parts. -/
noncomputable def Envelope.check (e : Envelope) (region : ℤ) : Except PyErr Indices := do
  let a := e.area
  let q ← e.getQ region
  let uA ← pyDiv q a
  let h ← match decide (region ≠ 8) with
    | true => do
      let m ← e.getM region "heating"
      let x ← pyDiv m a
      pure (some (x * 100))
    | false => pure none
  let m ← e.getM region "cooling"
  let c ← pyDiv m a
  return { uA := uA, etaAH := h, etaAC := c * 100 }

/-- `convert/check_ua_a_eta_a.py` 11-41, `check_u_a_and_eta_a`. -/
noncomputable def checkUaEtaA (region : ℤ) (d : PyVal) : Except PyErr Indices := do (← Envelope.make d).check region

end HLC.Conv
