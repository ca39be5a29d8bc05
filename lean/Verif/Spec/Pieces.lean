import Verif.Spec.Balance
import Verif.Model.Record

/-!
# Specification: entering a part in pieces (C89)

`π` says for every piece to which part it belongs. The pieces of a part have its layers, its exposure and its room; their areas add up to its
area, and so do their shares of the radiation a person exchanges. A heating panel cut in pieces gives off the same heat per area.
-/

namespace HLC.Spec

variable {I J J' : Type} [Fintype J] [DecidableEq J']

/-- `h` is the house `h'` with its parts entered in pieces. -/
structure Pieces (π : J → J') (h : House I J) (h' : House I J') : Prop where
  onto : Function.Surjective π
  vRoom : h.vRoom = h'.vRoom
  beta : h.beta = h'.beta
  vVentEx : h.vVentEx = h'.vVentEx
  vInt : h.vInt = h'.vInt
  vNtrl : h.vNtrl = h'.vNtrl
  cSh : h.cSh = h'.cSh
  gSh : h.gSh = h'.gSh
  cLh : h.cLh = h'.cLh
  gLh : h.gLh = h'.gLh
  isRadHeating : h.isRadHeating = h'.isRadHeating
  capH : h.capH = h'.capH
  isRadCooling : h.isRadCooling = h'.isRadCooling
  capC : h.capC = h'.capC
  rac : h.rac = h'.rac
  story : h.story = h'.story
  cValue : h.cValue = h'.cValue
  pressure : h.pressure = h'.pressure
  isGround : ∀ j, h.isGround j = h'.isGround (π j)
  room : ∀ j, h.room j = h'.room (π j)
  phiA0 : ∀ j, h.phiA0 j = h'.phiA0 (π j)
  phiT0 : ∀ j, h.phiT0 j = h'.phiT0 (π j)
  phiA1 : ∀ j, h.phiA1 j = h'.phiA1 (π j)
  phiT1 : ∀ j, h.phiT1 j = h'.phiT1 (π j)
  ratio : ∀ j, h.ratio j = h'.ratio (π j)
  hC : ∀ j, h.hC j = h'.hC (π j)
  solarAbs : ∀ j, h.solarAbs j = h'.solarAbs (π j)
  kEo : ∀ j, h.kEo j = h'.kEo (π j)
  /-- Behind a piece of a part is a piece of the part behind it. -/
  kEi : ∀ j, (h.kEi j).map (fun x => (π x.1, x.2)) = h'.kEi (π j)
  area_pos : ∀ j, 0 < h.area j
  area : ∀ j', h'.area j' = ∑ j ∈ Finset.univ.filter (fun j => π j = j'), h.area j
  fMrtHum : ∀ j', h'.fMrtHum j' = ∑ j ∈ Finset.univ.filter (fun j => π j = j'), h.fMrtHum j
  /-- The same panel heat per area. -/
  flr : ∀ j, h.flr j / h.area j = h'.flr (π j) / h'.area (π j)
  /-- A piece and the piece behind it have areas in the proportion of the parts (both sides of a wall are cut alike). -/
  behind : ∀ j m coef, h.kEi j = some (m, coef) → h.area m / h.area j = h'.area (π m) / h'.area (π j)

/-- The data of the pieces: those of the parts. -/
structure PieceData (π : J → J') (d : Record I J) (d' : Record I J') : Prop where
  thetaO : d.thetaO = d'.thetaO
  xO : d.xO = d'.xO
  vLocal : d.vLocal = d'.vLocal
  qGen : d.qGen = d'.qGen
  xGen : d.xGen = d'.xGen
  nHum : d.nHum = d'.nHum
  acDemand : d.acDemand = d'.acDemand
  qTrsSol : d.qTrsSol = d'.qTrsSol
  thetaOSol : ∀ j, d.thetaOSol j = d'.thetaOSol (π j)

/-- The results of a step for the pieces: the rooms as they are, every piece as its part (results per area and temperatures). -/
def rowOfPieces (π : J → J') (r : LogRow I J') : LogRow I J where
  mode := r.mode
  thetaR := r.thetaR
  thetaMrt := r.thetaMrt
  xR := r.xR
  thetaFrt := r.thetaFrt
  xFrt := r.xFrt
  thetaEi := fun j => r.thetaEi (π j)
  qHum := r.qHum
  xHum := r.xHum
  lCs := r.lCs
  lRs := r.lRs
  lCl := r.lCl
  vLeak := r.vLeak
  vNtrl := r.vNtrl
  hHumC := r.hHumC
  hHumR := r.hHumR
  thetaOt := r.thetaOt
  thetaS := fun j => r.thetaS (π j)
  thetaRear := fun j => r.thetaRear (π j)
  qiall := fun j => r.qiall (π j)

end HLC.Spec
