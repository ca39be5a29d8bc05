import Verif.Spec.FadeHumid
import Verif.Spec.Run

/-!
# Specification: calculations that are not exact (C134)
-/

namespace HLC.Spec

variable {I J : Type} [Fintype I] [DecidableEq I] [Fintype J] [DecidableEq J] {N : ℕ}

/-- `c'` is what a calculation with numbers of finite length may keep of the state `c`: temperatures, heat flows and what the parts hold are off by at
most `ε` and humidities by at most `ξ`, and a part that holds nothing is kept as holding nothing. -/
structure Rounded (ε ξ : ℝ) (c c' : Cond I J) : Prop where
  near : StateNear ε c c'
  humid : HumidNear ξ c c'
  emptyA : ∀ j l, c.dshA j l = 0 → c'.dshA j l = 0
  emptyT : ∀ j l, c.dshT j l = 0 → c'.dshT j l = 0

/-- Steps `ns` from the state `c` on in a calculation that is off by up to `ε` (`ξ` for humidities) in every step: in the row that it writes and in the state that it hands to
the next step. Each step starts from what the step before handed to it, so errors are handed on. -/
inductive Inexact (ss : PreCalc I J N) (dt ε ξ : ℝ) : Cond I J → List ℤ → List (LogRow I J) → Prop
  | nil (c : Cond I J) : Inexact ss dt ε ξ c [] []
  | cons {c c' : Cond I J} {n : ℤ} {ns : List ℤ} {t : TickVars I J} {row : LogRow I J} {rows : List (LogRow I J)} :
      runTick n dt ss c = .ok t → RowNear ε (LogRow.ofTick t) row → RowHumidNear ξ (LogRow.ofTick t) row → Rounded ε ξ t.next c' → Inexact ss dt ε ξ c' ns rows →
        Inexact ss dt ε ξ c (n :: ns) (row :: rows)

end HLC.Spec
