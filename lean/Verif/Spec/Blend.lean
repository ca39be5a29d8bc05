import Verif.Spec.Idle

/-!
# Specification: superposition (C108)

The weighted mean of two inputs, and of two rows of results. The weight is any real number: with the weight 2 the mean of an input without
sun and one with sun is the input with twice the sun.
-/

namespace HLC.Spec

/-- The mean of `x` and `y` with the weights `1 - w` and `w`. -/
noncomputable def mix (w x y : ℝ) : ℝ := (1 - w) * x + w * y

variable {I J : Type}

/-- The weighted mean of all weather, heat gains and moisture; ventilation and demand as in the first. -/
noncomputable def blend (w : ℝ) (a b : Record I J) : Record I J where
  thetaO := mix w a.thetaO b.thetaO
  xO := mix w a.xO b.xO
  vLocal := a.vLocal
  qGen := fun i => mix w (a.qGen i) (b.qGen i)
  xGen := fun i => mix w (a.xGen i) (b.xGen i)
  nHum := a.nHum
  acDemand := a.acDemand
  qTrsSol := fun i => mix w (a.qTrsSol i) (b.qTrsSol i)
  thetaOSol := fun j => mix w (a.thetaOSol j) (b.thetaOSol j)

/-- The weighted mean of every number of a row of the results. -/
noncomputable def blendRow (w : ℝ) (a b : LogRow I J) : LogRow I J where
  mode := a.mode
  thetaR := fun i => mix w (a.thetaR i) (b.thetaR i)
  thetaMrt := fun i => mix w (a.thetaMrt i) (b.thetaMrt i)
  xR := fun i => mix w (a.xR i) (b.xR i)
  thetaFrt := fun i => mix w (a.thetaFrt i) (b.thetaFrt i)
  xFrt := fun i => mix w (a.xFrt i) (b.xFrt i)
  thetaEi := fun j => mix w (a.thetaEi j) (b.thetaEi j)
  qHum := fun i => mix w (a.qHum i) (b.qHum i)
  xHum := fun i => mix w (a.xHum i) (b.xHum i)
  lCs := fun i => mix w (a.lCs i) (b.lCs i)
  lRs := fun i => mix w (a.lRs i) (b.lRs i)
  lCl := fun i => mix w (a.lCl i) (b.lCl i)
  vLeak := fun i => mix w (a.vLeak i) (b.vLeak i)
  vNtrl := fun i => mix w (a.vNtrl i) (b.vNtrl i)
  hHumC := fun i => mix w (a.hHumC i) (b.hHumC i)
  hHumR := fun i => mix w (a.hHumR i) (b.hHumR i)
  thetaOt := fun i => mix w (a.thetaOt i) (b.thetaOt i)
  thetaS := fun j => mix w (a.thetaS j) (b.thetaS j)
  thetaRear := fun j => mix w (a.thetaRear j) (b.thetaRear j)
  qiall := fun j => mix w (a.qiall j) (b.qiall j)

end HLC.Spec
