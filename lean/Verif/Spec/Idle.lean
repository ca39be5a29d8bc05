import Verif.Spec.Executed

/-!
# Specification: what is idle does not matter (C107)

Two inputs describe the same building under the same heat gains and outdoor temperatures. They may differ in everything that belongs to the
air conditioning (emitters, capacities, radiant shares and panels, the air conditioner, the amount of air admitted by opening windows) and
in everything about moisture (moisture capacity of the furniture, humidity outdoors, moisture released).
-/

namespace HLC.Spec

variable {I J : Type} {N : ℕ}

/-- The part of the description of a house that belongs to air conditioning, window opening and moisture. -/
structure Equipment (I J : Type) where
  beta : I → ℝ
  vNtrl : I → ℝ
  cLh : I → ℝ
  gLh : I → ℝ
  isRadHeating : I → Bool
  capH : I → ℝ
  isRadCooling : I → Bool
  capC : I → ℝ
  rac : I → RacSpec
  flr : J → ℝ

/-- The same building with other equipment. -/
def equipped (h : House I J) (e : Equipment I J) : House I J where
  vRoom := h.vRoom
  beta := e.beta
  vVentEx := h.vVentEx
  vInt := h.vInt
  vNtrl := e.vNtrl
  cSh := h.cSh
  gSh := h.gSh
  cLh := e.cLh
  gLh := e.gLh
  isRadHeating := e.isRadHeating
  capH := e.capH
  isRadCooling := e.isRadCooling
  capC := e.capC
  rac := e.rac
  isGround := h.isGround
  room := h.room
  area := h.area
  phiA0 := h.phiA0
  phiT0 := h.phiT0
  phiA1 := h.phiA1
  phiT1 := h.phiT1
  ratio := h.ratio
  hC := h.hC
  flr := e.flr
  solarAbs := h.solarAbs
  fMrtHum := h.fMrtHum
  kEo := h.kEo
  kEi := h.kEi
  story := h.story
  cValue := h.cValue
  pressure := h.pressure

/-- The same heat gains, ventilation, occupants and outdoor temperatures with another humidity outdoors, other moisture released and
another demand for conditioning. -/
def moistened (d : Record I J) (xO : ℝ) (xGen acDemand : I → ℝ) : Record I J where
  thetaO := d.thetaO
  xO := xO
  vLocal := d.vLocal
  qGen := d.qGen
  xGen := xGen
  nHum := d.nHum
  acDemand := acDemand
  qTrsSol := d.qTrsSol
  thetaOSol := d.thetaOSol

/-- No room demands conditioning in the steps number `a` to `b`; negative numbers count from the end of the year. -/
def NoDemand (demand : Fin N → I → ℝ) (a b : ℤ) : Prop :=
  ∀ n : ℤ, a ≤ n → n ≤ b → ∀ k : Fin N, (k : ℤ) = n ∨ (n < 0 ∧ (k : ℤ) = n + N) → ∀ i, demand k i ≤ 0

end HLC.Spec
