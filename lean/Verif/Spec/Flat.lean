import Verif.Model.Record

/-!
# Specification: one flat of a building (C99)

A flat consists of some of the rooms of a building, `e`, and of some of its parts, `f`. `room` says in which of its rooms a part of the
flat lies and `rear` which part of the flat is behind it, both counted within the flat.
-/

namespace HLC.Spec

variable {I A J B : Type}

/-- The flat as a house of its own: everything the building says about its rooms and parts, and nothing else. -/
def houseFlat (e : A → I) (f : B → J) (room : B → A) (rear : B → Option (B × ℝ)) (h : House I J) : House A B where
  vRoom := fun i => h.vRoom (e i)
  beta := fun i => h.beta (e i)
  vVentEx := fun i => h.vVentEx (e i)
  vInt := fun i l => h.vInt (e i) (e l)
  vNtrl := fun i => h.vNtrl (e i)
  cSh := fun i => h.cSh (e i)
  gSh := fun i => h.gSh (e i)
  cLh := fun i => h.cLh (e i)
  gLh := fun i => h.gLh (e i)
  isRadHeating := fun i => h.isRadHeating (e i)
  capH := fun i => h.capH (e i)
  isRadCooling := fun i => h.isRadCooling (e i)
  capC := fun i => h.capC (e i)
  rac := fun i => h.rac (e i)
  isGround := fun j => h.isGround (f j)
  room := room
  area := fun j => h.area (f j)
  phiA0 := fun j => h.phiA0 (f j)
  phiT0 := fun j => h.phiT0 (f j)
  phiA1 := fun j => h.phiA1 (f j)
  phiT1 := fun j => h.phiT1 (f j)
  ratio := fun j => h.ratio (f j)
  hC := fun j => h.hC (f j)
  flr := fun j => h.flr (f j)
  solarAbs := fun j => h.solarAbs (f j)
  fMrtHum := fun j => h.fMrtHum (f j)
  kEo := fun j => h.kEo (f j)
  kEi := rear
  story := h.story
  cValue := h.cValue
  pressure := h.pressure

/-- The flat is separate: it has all parts of its rooms, the parts behind its partitions are its own, and no air comes into its rooms
from other rooms. Air may go from its rooms to others. -/
structure Separate (e : A → I) (f : B → J) (room : B → A) (rear : B → Option (B × ℝ)) (h : House I J) : Prop where
  rooms : Function.Injective e
  parts : Function.Injective f
  room_eq : ∀ j, h.room (f j) = e (room j)
  all_parts : ∀ j, h.room j ∈ Set.range e → j ∈ Set.range f
  rear_eq : ∀ j, h.kEi (f j) = (rear j).map fun x => (f x.1, x.2)
  no_air : ∀ i, ∀ l ∉ Set.range e, h.vInt (e i) l = 0

/-- The data of the flat. -/
def recordFlat (e : A → I) (f : B → J) (d : Record I J) : Record A B where
  thetaO := d.thetaO
  xO := d.xO
  vLocal := fun i => d.vLocal (e i)
  qGen := fun i => d.qGen (e i)
  xGen := fun i => d.xGen (e i)
  nHum := fun i => d.nHum (e i)
  acDemand := fun i => d.acDemand (e i)
  qTrsSol := fun i => d.qTrsSol (e i)
  thetaOSol := fun j => d.thetaOSol (f j)

/-- The results of the flat. -/
def rowFlat (e : A → I) (f : B → J) (r : LogRow I J) : LogRow A B where
  mode := fun i => r.mode (e i)
  thetaR := fun i => r.thetaR (e i)
  thetaMrt := fun i => r.thetaMrt (e i)
  xR := fun i => r.xR (e i)
  thetaFrt := fun i => r.thetaFrt (e i)
  xFrt := fun i => r.xFrt (e i)
  thetaEi := fun j => r.thetaEi (f j)
  qHum := fun i => r.qHum (e i)
  xHum := fun i => r.xHum (e i)
  lCs := fun i => r.lCs (e i)
  lRs := fun i => r.lRs (e i)
  lCl := fun i => r.lCl (e i)
  vLeak := fun i => r.vLeak (e i)
  vNtrl := fun i => r.vNtrl (e i)
  hHumC := fun i => r.hHumC (e i)
  hHumR := fun i => r.hHumR (e i)
  thetaOt := fun i => r.thetaOt (e i)
  thetaS := fun j => r.thetaS (f j)
  thetaRear := fun j => r.thetaRear (f j)
  qiall := fun j => r.qiall (f j)

end HLC.Spec
