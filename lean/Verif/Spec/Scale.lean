import Verif.Spec.Executed

/-!
# Specification: a house `s` times as large (C98)

All areas, volumes, air flows, capacities, exchange coefficients of the furniture and outputs of the equipment are multiplied by `s`, and
so are heat and moisture gains and the number of occupants. What is said per area, per volume or per person, the temperatures outside,
the length of a step and the demand for conditioning stay as they are.
-/

namespace HLC.Spec

variable {I J : Type}

/-- An air conditioner with `s` times the output and `s` times the air flow. -/
def racScaled (s : ℝ) (a : RacSpec) : RacSpec where
  qMin := s * a.qMin
  qMax := s * a.qMax
  vMin := s * a.vMin
  vMax := s * a.vMax

/-- The house `s` times as large. -/
def houseScaled (s : ℝ) (h : House I J) : House I J where
  vRoom := fun i => s * h.vRoom i
  beta := h.beta
  vVentEx := fun i => s * h.vVentEx i
  vInt := fun i l => s * h.vInt i l
  vNtrl := fun i => s * h.vNtrl i
  cSh := fun i => s * h.cSh i
  gSh := fun i => s * h.gSh i
  cLh := fun i => s * h.cLh i
  gLh := fun i => s * h.gLh i
  isRadHeating := h.isRadHeating
  capH := fun i => s * h.capH i
  isRadCooling := h.isRadCooling
  capC := fun i => s * h.capC i
  rac := fun i => racScaled s (h.rac i)
  isGround := h.isGround
  room := h.room
  area := fun j => s * h.area j
  phiA0 := h.phiA0
  phiT0 := h.phiT0
  phiA1 := h.phiA1
  phiT1 := h.phiT1
  ratio := h.ratio
  hC := h.hC
  flr := h.flr
  solarAbs := h.solarAbs
  fMrtHum := h.fMrtHum
  kEo := h.kEo
  kEi := h.kEi
  story := h.story
  cValue := h.cValue
  pressure := h.pressure

/-- The data of a step of the house `s` times as large. -/
def recordScaled (s : ℝ) (d : Record I J) : Record I J where
  thetaO := d.thetaO
  xO := d.xO
  vLocal := fun i => s * d.vLocal i
  qGen := fun i => s * d.qGen i
  xGen := fun i => s * d.xGen i
  nHum := fun i => s * d.nHum i
  acDemand := d.acDemand
  qTrsSol := fun i => s * d.qTrsSol i
  thetaOSol := d.thetaOSol

/-- The results of a step of the house `s` times as large: temperatures, humidities, modes and heat flows per area are the same, loads,
gains and air flows are `s` times as large. -/
def rowScaled (s : ℝ) (r : LogRow I J) : LogRow I J where
  mode := r.mode
  thetaR := r.thetaR
  thetaMrt := r.thetaMrt
  xR := r.xR
  thetaFrt := r.thetaFrt
  xFrt := r.xFrt
  thetaEi := r.thetaEi
  qHum := fun i => s * r.qHum i
  xHum := fun i => s * r.xHum i
  lCs := fun i => s * r.lCs i
  lRs := fun i => s * r.lRs i
  lCl := fun i => s * r.lCl i
  vLeak := fun i => s * r.vLeak i
  vNtrl := fun i => s * r.vNtrl i
  hHumC := r.hHumC
  hHumR := r.hHumR
  thetaOt := r.thetaOt
  thetaS := r.thetaS
  thetaRear := r.thetaRear
  qiall := r.qiall

/-- A convective load is, together with `s` times the load, on the same side of the 0.001 W of cooling above which the air conditioner
dehumidifies. -/
def SameSide (s l : ℝ) : Prop := 0.001 < -l ↔ 0.001 < -(s * l)

end HLC.Spec
