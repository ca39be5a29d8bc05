import Verif.Model.Py

/-!
# Dictionaries read from and written to JSON

The conversion package passes houses between its stages as dictionaries. They are modelled as JSON values.
-/

namespace HLC

/-- A JSON value: what `json.load` returns and what the `get_as_dict` methods of `convert/` build. -/
inductive PyVal
  | null
  | bool (b : Bool)
  | num (x : ℝ)
  | str (s : String)
  | list (l : List PyVal)
  | dict (l : List (String × PyVal))

namespace PyVal

/-- `d[k]`: `KeyError` when the key is absent, `TypeError` when `d` is not a dictionary. -/
def get (d : PyVal) (k : String) : Except PyErr PyVal :=
  match d with
  | .dict l =>
    match l.lookup k with
    | some v => .ok v
    | none => .error .keyError
  | _ => .error .typeError

/-- A value used as a number. The code does not check types when it reads; a value of another type would be
carried along and fail at its first use, the model fails at once. -/
def asNum : PyVal → Except PyErr ℝ
  | .num x => .ok x
  | _ => .error .typeError

/-- A value used as a string (same remark as `asNum`). -/
def asStr : PyVal → Except PyErr String
  | .str s => .ok s
  | _ => .error .typeError

/-- A value used as a list (same remark as `asNum`). -/
def asList : PyVal → Except PyErr (List PyVal)
  | .list l => .ok l
  | _ => .error .typeError

/-- A value used as a condition; only booleans are modelled. -/
def asBool : PyVal → Except PyErr Bool
  | .bool b => .ok b
  | _ => .error .typeError

/-- `d[k]` used as a number. -/
def getNum (d : PyVal) (k : String) : Except PyErr ℝ := do (← d.get k).asNum

/-- `d[k]` used as a string. -/
def getStr (d : PyVal) (k : String) : Except PyErr String := do (← d.get k).asStr

/-- `d[k]` used as a list. -/
def getList (d : PyVal) (k : String) : Except PyErr (List PyVal) := do (← d.get k).asList

/-- `d[k]` used as a condition. -/
def getBool (d : PyVal) (k : String) : Except PyErr Bool := do (← d.get k).asBool

end PyVal

/-- `a / b` of two Python floats: `ZeroDivisionError` when `b` is zero. -/
noncomputable def pyDiv (a b : ℝ) : Except PyErr ℝ := if b = 0 then .error .zeroDivisionError else .ok (a / b)

end HLC
