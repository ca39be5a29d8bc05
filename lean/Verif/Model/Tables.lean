import Verif.Model.Py
import Mathlib.Data.Fin.VecNotation
import Mathlib.Data.Real.Basic

/-!
# Adjacent spaces and directions (`external/factor_h.py`, `external/factor_nu.py`)
-/

namespace HLC

/-- `external/factor_h.py` 4-20. -/
inductive NextSpace
  | outdoor | openSpace | closedSpace | airConditioned | openUnderfloor | closedUnderfloor
  deriving DecidableEq, Repr

/-- `external/factor_h.py` 5-20: the values, for `NextSpace(value)`; other values raise ValueError. -/
def NextSpace.ofValue (s : String) : Except PyErr NextSpace :=
  if s = "outdoor" then .ok .outdoor
  else if s = "open_space" then .ok .openSpace
  else if s = "closed_space" then .ok .closedSpace
  else if s = "air_conditioned" then .ok .airConditioned
  else if s = "open_underfloor" then .ok .openUnderfloor
  else if s = "closed_underfloor" then .ok .closedUnderfloor
  else .error .valueError

/-- `external/factor_h.py` 5-20: `.value`. -/
def NextSpace.value : NextSpace → String
  | .outdoor => "outdoor"
  | .openSpace => "open_space"
  | .closedSpace => "closed_space"
  | .airConditioned => "air_conditioned"
  | .openUnderfloor => "open_underfloor"
  | .closedUnderfloor => "closed_underfloor"

/-- `external/factor_h.py` 22-35, `get_is_sun_striked_outside`. -/
def NextSpace.isSunStriked : NextSpace → Bool
  | .outdoor => true
  | .openSpace => false
  | .closedSpace => false
  | .openUnderfloor => false
  | .airConditioned => false
  | .closedUnderfloor => false

/-- Lookup in a dict `{1: …, …, 8: …}`. -/
def region8 {α : Type} (vals : Fin 8 → α) (region : ℤ) : Except PyErr α :=
  if h : 1 ≤ region ∧ region ≤ 8 then .ok (vals ⟨(region - 1).toNat, by omega⟩) else .error .keyError

/-- `external/factor_h.py` 37-70, `get_h`. The two inner dicts are indexed when the outer dict is built, for every space. -/
noncomputable def NextSpace.getH (sp : NextSpace) (region : ℤ) : Except PyErr ℝ := do
  let ac ← region8 ![0.05, 0.05, 0.05, 0.15, 0.15, 0.15, 0.15, 0.15] region
  let cu ← region8 ![0.05, 0.05, 0.05, 0.15, 0.15, 0.15, 0.15, 0.15] region
  match sp with
  | .outdoor => .ok 1
  | .openSpace => .ok 1
  | .closedSpace => .ok 0.7
  | .openUnderfloor => .ok 0.7
  | .airConditioned => .ok ac
  | .closedUnderfloor => .ok cu

/-- `external/factor_nu.py` 8-22. -/
inductive Direction
  | top | n | ne | e | se | s | sw | w | nw | bottom | upward | horizontal | downward
  deriving DecidableEq, Repr

/-- `external/factor_nu.py` 10-22: the values, for `Direction(value)`; other values raise ValueError. -/
def Direction.ofValue (s : String) : Except PyErr Direction :=
  if s = "top" then .ok .top
  else if s = "n" then .ok .n
  else if s = "ne" then .ok .ne
  else if s = "e" then .ok .e
  else if s = "se" then .ok .se
  else if s = "s" then .ok .s
  else if s = "sw" then .ok .sw
  else if s = "w" then .ok .w
  else if s = "nw" then .ok .nw
  else if s = "bottom" then .ok .bottom
  else if s = "upward" then .ok .upward
  else if s = "horizontal" then .ok .horizontal
  else if s = "downward" then .ok .downward
  else .error .valueError

/-- `external/factor_nu.py` 10-22: `.value`. -/
def Direction.value : Direction → String
  | .top => "top" | .n => "n" | .ne => "ne" | .e => "e" | .se => "se" | .s => "s" | .sw => "sw" | .w => "w" | .nw => "nw"
  | .bottom => "bottom" | .upward => "upward" | .horizontal => "horizontal" | .downward => "downward"

/-- `external/factor_nu.py` 38-49: table for the heating season; `none` is `None`. -/
noncomputable def nuHeating : Direction → Except PyErr (Fin 8 → Option ℝ)
  | .top => .ok ![some 1.000, some 1.000, some 1.000, some 1.000, some 1.000, some 1.000, some 1.000, none]
  | .n => .ok ![some 0.260, some 0.263, some 0.284, some 0.256, some 0.238, some 0.261, some 0.227, none]
  | .ne => .ok ![some 0.333, some 0.341, some 0.348, some 0.330, some 0.310, some 0.325, some 0.281, none]
  | .e => .ok ![some 0.564, some 0.554, some 0.540, some 0.531, some 0.568, some 0.579, some 0.543, none]
  | .se => .ok ![some 0.823, some 0.766, some 0.751, some 0.724, some 0.846, some 0.833, some 0.843, none]
  | .s => .ok ![some 0.935, some 0.856, some 0.851, some 0.815, some 0.983, some 0.936, some 1.023, none]
  | .sw => .ok ![some 0.790, some 0.753, some 0.750, some 0.723, some 0.815, some 0.763, some 0.848, none]
  | .w => .ok ![some 0.535, some 0.544, some 0.542, some 0.527, some 0.538, some 0.523, some 0.548, none]
  | .nw => .ok ![some 0.325, some 0.341, some 0.351, some 0.326, some 0.297, some 0.317, some 0.284, none]
  | .bottom => .ok ![some 0.000, some 0.000, some 0.000, some 0.000, some 0.000, some 0.000, some 0.000, none]
  | .upward => .error .keyError
  | .horizontal => .error .keyError
  | .downward => .error .keyError

/-- `external/factor_nu.py` 50-61: table for the cooling season. -/
noncomputable def nuCooling : Direction → Except PyErr (Fin 8 → Option ℝ)
  | .top => .ok ![some 1.000, some 1.000, some 1.000, some 1.000, some 1.000, some 1.000, some 1.000, some 1.000]
  | .n => .ok ![some 0.329, some 0.341, some 0.335, some 0.322, some 0.373, some 0.341, some 0.307, some 0.325]
  | .ne => .ok ![some 0.430, some 0.412, some 0.390, some 0.426, some 0.437, some 0.431, some 0.415, some 0.414]
  | .e => .ok ![some 0.545, some 0.503, some 0.468, some 0.518, some 0.500, some 0.512, some 0.509, some 0.515]
  | .se => .ok ![some 0.560, some 0.527, some 0.487, some 0.508, some 0.500, some 0.498, some 0.490, some 0.528]
  | .s => .ok ![some 0.502, some 0.507, some 0.476, some 0.437, some 0.472, some 0.434, some 0.412, some 0.480]
  | .sw => .ok ![some 0.526, some 0.548, some 0.550, some 0.481, some 0.520, some 0.491, some 0.479, some 0.517]
  | .w => .ok ![some 0.508, some 0.529, some 0.553, some 0.481, some 0.518, some 0.504, some 0.495, some 0.505]
  | .nw => .ok ![some 0.411, some 0.428, some 0.447, some 0.401, some 0.442, some 0.427, some 0.406, some 0.411]
  | .bottom => .ok ![some 0.000, some 0.000, some 0.000, some 0.000, some 0.000, some 0.000, some 0.000, some 0.000]
  | .upward => .error .keyError
  | .horizontal => .error .keyError
  | .downward => .error .keyError

/-- `external/factor_nu.py` 37, 62: `{'heating': …, 'cooling': …}[season]`. -/
noncomputable def nuTable (season : String) : Except PyErr (Direction → Except PyErr (Fin 8 → Option ℝ)) :=
  if season = "heating" then .ok nuHeating
  else if season = "cooling" then .ok nuCooling
  else .error .keyError

/-- `external/factor_nu.py` 24-62, `get_nu`; the result may be `None`. -/
noncomputable def Direction.getNu (d : Direction) (region : ℤ) (season : String) : Except PyErr (Option ℝ) :=
  if region = 8 ∧ season = "heating" then .error .valueError
  else do
    let t ← nuTable season
    let row ← t d
    region8 row region

/-- `external/factor_nu.py` 64-80, `is_horizontal`. -/
def Direction.isHorizontal (d : Direction) : Bool := d ∈ [.n, .ne, .e, .se, .s, .sw, .w, .nw, .horizontal]

end HLC
