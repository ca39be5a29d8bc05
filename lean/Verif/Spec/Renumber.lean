import Verif.Model.Record

/-!
# Specification: listing rooms and parts in another order (C83)

`e` says which old room stands at the place of a new room, `f` which old part stands at the place of a new part. References of a part
to its room and to the part behind it are translated with them.
-/

namespace HLC.Spec

variable {I I' J J' : Type}

/-- The same house with its rooms and parts listed in another order. -/
def houseInOrder (e : I' ≃ I) (f : J' ≃ J) (h : House I J) : House I' J' where
  vRoom := fun i => h.vRoom (e i)
  beta := fun i => h.beta (e i)
  vVentEx := fun i => h.vVentEx (e i)
  vInt := fun i l => h.vInt (e i) (e l)
  vNtrl := fun i => h.vNtrl (e i)
  cSh := fun i => h.cSh (e i)
  gSh := fun i => h.gSh (e i)
  cLh := fun i => h.cLh (e i)
  gLh := fun i => h.gLh (e i)
  isRadHeating := fun i => h.isRadHeating (e i)
  capH := fun i => h.capH (e i)
  isRadCooling := fun i => h.isRadCooling (e i)
  capC := fun i => h.capC (e i)
  rac := fun i => h.rac (e i)
  isGround := fun j => h.isGround (f j)
  room := fun j => e.symm (h.room (f j))
  area := fun j => h.area (f j)
  phiA0 := fun j => h.phiA0 (f j)
  phiT0 := fun j => h.phiT0 (f j)
  phiA1 := fun j => h.phiA1 (f j)
  phiT1 := fun j => h.phiT1 (f j)
  ratio := fun j => h.ratio (f j)
  hC := fun j => h.hC (f j)
  flr := fun j => h.flr (f j)
  solarAbs := fun j => h.solarAbs (f j)
  fMrtHum := fun j => h.fMrtHum (f j)
  kEo := fun j => h.kEo (f j)
  kEi := fun j => (h.kEi (f j)).map fun x => (f.symm x.1, x.2)
  story := h.story
  cValue := h.cValue
  pressure := h.pressure

/-- The same data with the series of rooms and parts in another order. -/
def recordInOrder (e : I' ≃ I) (f : J' ≃ J) (d : Record I J) : Record I' J' where
  thetaO := d.thetaO
  xO := d.xO
  vLocal := fun i => d.vLocal (e i)
  qGen := fun i => d.qGen (e i)
  xGen := fun i => d.xGen (e i)
  nHum := fun i => d.nHum (e i)
  acDemand := fun i => d.acDemand (e i)
  qTrsSol := fun i => d.qTrsSol (e i)
  thetaOSol := fun j => d.thetaOSol (f j)

/-- The results of a step in another order. -/
def rowInOrder (e : I' ≃ I) (f : J' ≃ J) (r : LogRow I J) : LogRow I' J' where
  mode := fun i => r.mode (e i)
  thetaR := fun i => r.thetaR (e i)
  thetaMrt := fun i => r.thetaMrt (e i)
  xR := fun i => r.xR (e i)
  thetaFrt := fun i => r.thetaFrt (e i)
  xFrt := fun i => r.xFrt (e i)
  thetaEi := fun j => r.thetaEi (f j)
  qHum := fun i => r.qHum (e i)
  xHum := fun i => r.xHum (e i)
  lCs := fun i => r.lCs (e i)
  lRs := fun i => r.lRs (e i)
  lCl := fun i => r.lCl (e i)
  vLeak := fun i => r.vLeak (e i)
  vNtrl := fun i => r.vNtrl (e i)
  hHumC := fun i => r.hHumC (e i)
  hHumR := fun i => r.hHumR (e i)
  thetaOt := fun i => r.thetaOt (e i)
  thetaS := fun j => r.thetaS (f j)
  thetaRear := fun j => r.thetaRear (f j)
  qiall := fun j => r.qiall (f j)

end HLC.Spec
