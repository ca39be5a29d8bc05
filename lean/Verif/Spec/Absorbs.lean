import Verif.Model.PreCalc

/-!
# Rooms with a surface that absorbs the sun
-/

namespace HLC.Spec

variable {I J : Type}

/-- Room `i` has a surface that absorbs the sun. -/
def Absorbs (h : House I J) (i : I) : Prop := ∃ j, h.room j = i ∧ h.solarAbs j = true

end HLC.Spec
