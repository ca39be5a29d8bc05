import Verif.Spec.Renumber

/-!
# Specification: rooms and parts entered alike (C101)
-/

namespace HLC.Spec

variable {I J : Type}

/-- Exchanging rooms by `e` and parts by `f` gives the same house: the room `e i` is entered like the room `i` and the part `f j` like
the part `j`, including the rooms they belong to and the parts behind them. -/
def HouseAlike (e : I ≃ I) (f : J ≃ J) (h : House I J) : Prop := houseInOrder e f h = h

/-- Exchanging rooms by `e` and parts by `f` gives the same schedules and boundary temperatures in every record. -/
def DataAlike {N : ℕ} (e : I ≃ I) (f : J ≃ J) (data : Fin N → Record I J) : Prop := ∀ n, recordInOrder e f (data n) = data n

/-- Rooms and parts exchanged by `e` and `f` have the same results in a row. -/
structure RowAlike (e : I ≃ I) (f : J ≃ J) (r : LogRow I J) : Prop where
  mode : ∀ i, r.mode (e i) = r.mode i
  thetaR : ∀ i, r.thetaR (e i) = r.thetaR i
  thetaMrt : ∀ i, r.thetaMrt (e i) = r.thetaMrt i
  thetaOt : ∀ i, r.thetaOt (e i) = r.thetaOt i
  thetaFrt : ∀ i, r.thetaFrt (e i) = r.thetaFrt i
  xR : ∀ i, r.xR (e i) = r.xR i
  xFrt : ∀ i, r.xFrt (e i) = r.xFrt i
  qHum : ∀ i, r.qHum (e i) = r.qHum i
  xHum : ∀ i, r.xHum (e i) = r.xHum i
  lCs : ∀ i, r.lCs (e i) = r.lCs i
  lRs : ∀ i, r.lRs (e i) = r.lRs i
  lCl : ∀ i, r.lCl (e i) = r.lCl i
  vLeak : ∀ i, r.vLeak (e i) = r.vLeak i
  vNtrl : ∀ i, r.vNtrl (e i) = r.vNtrl i
  hHumC : ∀ i, r.hHumC (e i) = r.hHumC i
  hHumR : ∀ i, r.hHumR (e i) = r.hHumR i
  thetaS : ∀ j, r.thetaS (f j) = r.thetaS j
  thetaEi : ∀ j, r.thetaEi (f j) = r.thetaEi j
  thetaRear : ∀ j, r.thetaRear (f j) = r.thetaRear j
  qiall : ∀ j, r.qiall (f j) = r.qiall j

end HLC.Spec
