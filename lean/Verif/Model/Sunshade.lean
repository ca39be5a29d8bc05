import Verif.Model.PyVal
import Verif.Model.Tables

/-!
# Sunshades of the conversion package (`convert/factor_f.py`)
-/

namespace HLC.Conv

/-- `convert/factor_f.py` 55-124, `SunshadeComplexKernel`: the ten lengths. -/
structure ShadeKernel where
  x1 : ℝ
  x2 : ℝ
  x3 : ℝ
  y1 : ℝ
  y2 : ℝ
  y3 : ℝ
  zxPls : ℝ
  zxMns : ℝ
  zyPls : ℝ
  zyMns : ℝ

/-- `convert/factor_f.py` 82-84, `SunshadeComplexKernel.get_f_sh`: not implemented. -/
noncomputable def ShadeKernel.getFSh (_k : ShadeKernel) (_region : ℤ) (_season : String) (_d : Direction) : Except PyErr ℝ := .error .notImplemented

/-- The ten entries written for a kernel, `convert/factor_f.py` 244-255, 262-272, 529-540, 548-558. -/
def ShadeKernel.entries (k : ShadeKernel) : List (String × PyVal) :=
  [("x1", .num k.x1), ("x2", .num k.x2), ("x3", .num k.x3), ("y1", .num k.y1), ("y2", .num k.y2), ("y3", .num k.y3),
   ("z_x_pls", .num k.zxPls), ("z_x_mns", .num k.zxMns), ("z_y_pls", .num k.zyPls), ("z_y_mns", .num k.zyMns)]

/-- The ten entries read for a kernel, `convert/factor_f.py` 144-155, 300-311. -/
def ShadeKernel.read (d : PyVal) : Except PyErr ShadeKernel := do
  let x1 ← d.getNum "x1"
  let x2 ← d.getNum "x2"
  let x3 ← d.getNum "x3"
  let y1 ← d.getNum "y1"
  let y2 ← d.getNum "y2"
  let y3 ← d.getNum "y3"
  let zxPls ← d.getNum "z_x_pls"
  let zxMns ← d.getNum "z_x_mns"
  let zyPls ← d.getNum "z_y_pls"
  let zyMns ← d.getNum "z_y_mns"
  return ⟨x1, x2, x3, y1, y2, y3, zxPls, zxMns, zyPls, zyMns⟩

/-- `convert/factor_f.py` 127-272: the three classes of sunshades on opaque parts. -/
inductive OpaqueShade
  | notDefined
  | notInput
  | input (k : ShadeKernel)

/-- `convert/factor_f.py` 138-159, `SunshadeOpaque.make_sunshade_opaque`. -/
def OpaqueShade.make (d : PyVal) : Except PyErr OpaqueShade := do
  match ← d.getBool "is_defined" with
  | true =>
    let i ← d.getStr "input"
    if i = "not_input" then return .notInput
    else if i = "complex" then return .input (← ShadeKernel.read d)
    else .error .valueError
  | false => return .notDefined

/-- `convert/factor_f.py` 172-174, 195-197, 235-237: `get_f_sh`. -/
noncomputable def OpaqueShade.getFSh (s : OpaqueShade) (region : ℤ) (season : String) (d : Direction) : Except PyErr ℝ :=
  match s with
  | .notDefined => .error .exception
  | .notInput => .ok 1
  | .input k => k.getFSh region season d

/-- `convert/factor_f.py` 176-180, 199-204, 239-256: `get_as_dict`. -/
def OpaqueShade.asDict : OpaqueShade → PyVal
  | .notDefined => .dict [("is_defined", .bool false)]
  | .notInput => .dict [("is_defined", .bool true), ("input", .str "not_input")]
  | .input k => .dict [("is_defined", .bool true), ("input", .str "complex"), ("spec", .dict k.entries)]

/-- `convert/factor_f.py` 182-186, 206-209, 258-272: `make_initializer_dict`. -/
def OpaqueShade.initDict : OpaqueShade → PyVal
  | .notDefined => .dict [("existence", .bool false)]
  | .notInput => .dict [("existence", .bool false)]
  | .input k => .dict ([("existence", .bool true), ("input_method", .str "detailed")] ++ k.entries)

/-- `convert/factor_f.py` 275-558: the five classes of sunshades on transparent parts. -/
inductive TransientShade
  | notDefined
  | notInput
  | notExist
  | simple (depth dH dE : ℝ)
  | detail (k : ShadeKernel)

/-- `convert/factor_f.py` 290-315, `SunshadeTransient.make_sunshade_transient`. Lines 296 and 300 *raise* an
object that is not an exception, which is a `TypeError`. -/
def TransientShade.make (d : PyVal) : Except PyErr TransientShade := do
  match ← d.getBool "is_defined" with
  | true =>
    let i ← d.getStr "input"
    if i = "not_input" then return .notInput
    else if i = "not_exist" then .error .typeError
    else if i = "simple" then
      let depth ← d.getNum "depth"
      let dH ← d.getNum "d_h"
      let dE ← d.getNum "d_e"
      return .simple depth dH dE
    else if i = "complex" then
      let _ ← ShadeKernel.read d
      .error .typeError
    else .error .keyError
  | false => return .notDefined

/-- `[Direction.SW, Direction.S, Direction.SE]`, `convert/factor_f.py` 430, 442. -/
def southSide (d : Direction) : Bool := d ∈ [Direction.sw, .s, .se]

/-- `[Direction.N, Direction.NE, Direction.E, Direction.NW, Direction.W]`, `convert/factor_f.py` 432, 444. -/
def northSide (d : Direction) : Bool := d ∈ [Direction.n, .ne, .e, .nw, .w]

/-- `[Direction.N, Direction.NE, Direction.E, Direction.SE, Direction.NW, Direction.W, Direction.SW]`,
`convert/factor_f.py` 455-456. -/
def notSouth (d : Direction) : Bool := d ∈ [Direction.n, .ne, .e, .se, .nw, .w, .sw]

/-- `convert/factor_f.py` 415-465, `SunshadeTransientExistSimple.get_f`. -/
noncomputable def simpleF (depth dH dE : ℝ) (region : ℤ) (season : String) (d : Direction) : Except PyErr ℝ :=
  if season = "heating" then
    if region = 8 then .error .exception
    else if southSide d then do return min (0.01 * (5 + (← pyDiv (20 * (3 * dE + dH)) depth))) 0.72
    else if northSide d then do return min (0.01 * (10 + (← pyDiv (15 * (2 * dE + dH)) depth))) 0.72
    else if d = .top then .ok 1
    else if d = .bottom then .ok 0
    else .error .valueError
  else if season = "cooling" then
    if region = 8 then
      if southSide d then do return min (0.01 * (16 + (← pyDiv (19 * (2 * dE + dH)) depth))) 0.93
      else if northSide d then do return min (0.01 * (16 + (← pyDiv (24 * (2 * dE + dH)) depth))) 0.93
      else if d = .top then .ok 1
      else if d = .bottom then .ok 0
      else .error .valueError
    else if d = .s then do return min (0.01 * (24 + (← pyDiv (9 * (3 * dE + dH)) depth))) 0.93
    else if notSouth d then do return min (0.01 * (16 + (← pyDiv (24 * (2 * dE + dH)) depth))) 0.93
    else if d = .top then .ok 1
    else if d = .bottom then .ok 0
    else .error .valueError
  else .error .valueError

/-- `convert/factor_f.py` 324-326, 347-357, 379-380, 415-465, 511-522: `get_f`. Line 522 calls the kernel without
the direction, which is a `TypeError`. -/
noncomputable def TransientShade.getF (s : TransientShade) (region : ℤ) (season : String) (d : Direction) : Except PyErr ℝ :=
  match s with
  | .notDefined => .error .exception
  | .notInput =>
    if season = "heating" then (if region = 8 then .error .exception else .ok 0.51)
    else if season = "cooling" then .ok 0.93
    else .error .valueError
  | .notExist => .error .notImplemented
  | .simple depth dH dE => simpleF depth dH dE region season d
  | .detail _ => .error .typeError

/-- `convert/factor_f.py` 328-332, 359-364, 382-386, 467-475, 524-541: `get_as_dict`. -/
def TransientShade.asDict : TransientShade → PyVal
  | .notDefined => .dict [("is_defined", .bool false)]
  | .notInput => .dict [("is_defined", .bool true), ("input", .str "not_input")]
  | .notExist => .dict [("is_defined", .bool true), ("input", .str "not_exist")]
  | .simple depth dH dE =>
    .dict [("is_defined", .bool true), ("input", .str "simple"), ("depth", .num depth), ("d_h", .num dH), ("d_e", .num dE)]
  | .detail k => .dict [("is_defined", .bool true), ("input", .str "complex"), ("spec", .dict k.entries)]

/-- `convert/factor_f.py` 334-338, 366-371, 388-392, 477-485, 543-558: `make_initializer_dict`. -/
def TransientShade.initDict : TransientShade → PyVal
  | .notDefined => .dict [("existence", .bool false)]
  | .notInput => .dict [("existence", .bool true), ("input_method", .str "default")]
  | .notExist => .dict [("existence", .bool false)]
  | .simple depth dH dE =>
    .dict [("existence", .bool true), ("input_method", .str "simple"), ("depth", .num depth), ("d_h", .num dH), ("d_e", .num dE)]
  | .detail k => .dict ([("existence", .bool true), ("input_method", .str "detailed")] ++ k.entries)

end HLC.Conv
