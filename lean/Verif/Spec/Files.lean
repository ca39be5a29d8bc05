import Verif.Model.Files

/-!
# Specification: numbers as they are written (C123) and a directory in which only some of the files have been replaced (C124)
-/

namespace HLC.Spec

open HLC.Init

/-- `vols` are the volumes of the rooms as they are written in the input file (`60` or `60.0`). -/
def Written (vols : List JNum) (d : Input) : Prop := vols.map JNum.value = d.rooms.map RoomDict.volume

/-- At least one of the numbers is written with a decimal point. -/
def SomePoint (vols : List JNum) : Prop := ∃ x ∈ vols, x.isInt = false

/-- The first `k` files (in the order: house, local ventilation, heat, moisture, occupants, demand, solar gains, outdoor temperatures) are those of the
output `new`, the others those of the output `old`. -/
noncomputable def firstFiles (k : ℕ) (old new : Output) : Output where
  building := if 1 ≤ k then new.building else old.building
  spaces := if 1 ≤ k then new.spaces else old.spaces
  boundaries := if 1 ≤ k then new.boundaries else old.boundaries
  schedules := List.zipWith (fun a b => {
    vLocal := if 2 ≤ k then b.vLocal else a.vLocal
    qGen := if 3 ≤ k then b.qGen else a.qGen
    xGen := if 4 ≤ k then b.xGen else a.xGen
    nHum := if 5 ≤ k then b.nHum else a.nHum
    acDemand := if 6 ≤ k then b.acDemand else a.acDemand }) old.schedules new.schedules
  qTrsSol := if 7 ≤ k then new.qTrsSol else old.qTrsSol
  thetaOSol := if 8 ≤ k then new.thetaOSol else old.thetaOSol

end HLC.Spec
