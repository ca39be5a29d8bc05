import Verif.Model.Boundary

/-!
# Specification: parts of a building that may be merged (C49)
-/

namespace HLC.Spec
open HLC.Init

/-- Two parts agree in everything that matters for merging; the heat transfer coefficient and the temperature difference coefficient
differ by less than `tol`. -/
structure Alike (tol : ℝ) (b1 b2 : Bs) : Prop where
  room : b1.room = b2.room
  bType : b1.bType = b2.bType
  floor : b1.isFloor = b2.isFloor
  absorbed : b1.isSolarAbsorbed = b2.isSolarAbsorbed
  hI : |b1.hI - b2.hI| < tol
  sun : b1.bType.isExternal = true → b1.isSunStruck = b2.isSunStruck
  hTd : b1.bType.isExternal = true → |b1.hTd - b2.hTd| < tol
  direction : b1.bType.isExternal = true → b1.isSunStruck = some true → b1.direction = b2.direction
  next : b1.bType = .internal → b1.nextRoomType = b2.nextRoomType

end HLC.Spec
