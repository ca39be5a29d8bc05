import Verif.Spec.Run
import Verif.Spec.Balance

/-!
# Specification: periods after which the house is as it was (C93, C94, C95)
-/

namespace HLC.Spec

variable {I J : Type} [Fintype I] [DecidableEq I] [Fintype J] [DecidableEq J] {N : ℕ}

/-- `P` steps in a row: step `p` has number `n p`, reads record `k p`, starts from state `s p` and computes `t p`. -/
structure Steps (ss : PreCalc I J N) (dt : ℝ) (P : ℕ) (n : ℕ → ℤ) (k : ℕ → Fin N) (s : ℕ → Cond I J) (t : ℕ → TickVars I J) : Prop where
  executed : ∀ p < P, runTick (n p) dt ss (s p) = .ok (t p)
  record : ∀ p < P, pyIndex N (n p) = .ok (k p)
  handed : ∀ p < P, s (p + 1) = (t p).next

/-- The two states hold the same heat: rooms, furniture and parts are the same; humidities and operation modes may differ. -/
structure SameHeat (c c' : Cond I J) : Prop where
  room : c'.thetaR = c.thetaR
  furniture : c'.thetaFrt = c.thetaFrt
  flux : c'.qSrf = c.qSrf
  equivalent : c'.thetaEi = c.thetaEi
  absorbed : c'.dshA = c.dshA
  transmitted : c'.dshT = c.dshT

/-- Thermal resistance of part `j` without the room-side film: the surface temperature rise after infinitely long time under a heat flux of
1 W/m2, m2K/W. -/
noncomputable def resistance (h : House I J) (j : J) : ℝ := h.phiA0 j + ∑ l, h.phiA1 j l / (1 - h.ratio j l)

/-- U value of part `j`, W/m2K: film on the room side and part in series. -/
noncomputable def uValue (h : House I J) (hR : J → ℝ) (j : J) : ℝ := 1 / (1 / (h.hC j + hR j) + resistance h j)

/-- Temperature that part `j` is exposed to on its room side when the air is at `θr`, the surfaces are at `θs` and the radiant system of
every room gives `lr`: mean of air and mean radiant temperature weighted by the coefficients, raised by absorbed sun and radiant heat. -/
noncomputable def exposure (h : House I J) (hR : J → ℝ) (d : Record I J) (θr lr : I → ℝ) (θs : J → ℝ) (j : J) : ℝ :=
  (h.hC j * θr (h.room j) + hR j * roomMrt h hR (h.room j) θs + h.qSol d j
    + h.flr j * (1 - h.beta (h.room j)) * lr (h.room j) / h.area j) / (h.hC j + hR j)

/-- What every part is exposed to in a step. -/
noncomputable def exposureIn (h : House I J) (hR : J → ℝ) (d : Record I J) (t : TickVars I J) : J → ℝ :=
  exposure h hR d t.thetaR t.lr t.thetaS

/-- A part passes on a temperature behind it with factor one after infinitely long time. -/
structure Transmits (h : House I J) (j : J) : Prop where
  ratio_ne : ∀ l, h.ratio j l ≠ 1
  total : h.phiT0 j + ∑ l, h.phiT1 j l / (1 - h.ratio j l) = 1

/-- The part behind part `j`, if any, has the same coefficients and area. -/
def EvenSides (h : House I J) (hR : J → ℝ) (j : J) : Prop :=
  ∀ m coef, h.kEi j = some (m, coef) → h.hC m = h.hC j ∧ hR m = hR j ∧ h.area m = h.area j

/-- By how much the program misreads the temperature behind part `j` at the time of a step: it evaluates the exposure of the part behind with
the coefficients and the area of `j`. -/
noncomputable def misread (h : House I J) (hR : J → ℝ) (d : Record I J) (t : TickVars I J) (j : J) : ℝ :=
  match h.kEi j with
  | none => 0
  | some (m, coef) => coef * ((h.hC j * t.thetaR (h.room m) + hR j * roomMrt h hR (h.room m) t.thetaS + h.qSol d m
      + h.flr m * (1 - h.beta (h.room m)) * t.lr (h.room m) / h.area j) / (h.hC j + hR j) - exposureIn h hR d t m)

/-- Heat that part `j` takes from its room by the textbook: U value times difference of the temperatures on its two sides, W/m2. -/
noncomputable def transmission (h : House I J) (hR : J → ℝ) (d : Record I J) (t : TickVars I J) (j : J) : ℝ :=
  uValue h hR j * (exposureIn h hR d t j - rearTemp h d.thetaOSol (exposureIn h hR d t) j)

/-- Heat put into room `i` in a step: appliances, occupants, air conditioning, sun, W. -/
def heatPut (d : Record I J) (t : TickVars I J) (i : I) : ℝ := d.qGen i + t.qHum i + t.lc i + t.lr i + d.qTrsSol i

/-- Heat that room `i` loses in a step by the textbook: transmission through its parts and ventilation with outdoor air, W. -/
noncomputable def heatLost (h : House I J) (hR : J → ℝ) (d : Record I J) (t : TickVars I J) (i : I) : ℝ :=
  ∑ j ∈ surfaces h i, h.area j * transmission h hR d t j + airCap * t.vOut i * (t.thetaR i - d.thetaO)

end HLC.Spec

namespace HLC.Spec

variable {I J : Type} [Fintype I] [DecidableEq I] [Fintype J] [DecidableEq J]

/-- Temperatures of rooms, furniture and surfaces at which, with constant weather `d`, outdoor air `v`, heat of occupants `qHum` and loads
`lc`, `lr`, all heat flows balance: every part takes U value times temperature difference, every room loses what is put into it, the
furniture gives off what it receives from the sun. -/
structure SteadyState (h : House I J) (hR : J → ℝ) (d : Record I J) (v qHum lc lr θr θfrt : I → ℝ) (θs : J → ℝ) : Prop where
  part : ∀ j, (h.hC j + hR j) * (exposure h hR d θr lr θs j - θs j)
    = uValue h hR j * (exposure h hR d θr lr θs j - rearTemp h d.thetaOSol (exposure h hR d θr lr θs) j)
  room : ∀ i, d.qGen i + qHum i + lc i + lr i + d.qTrsSol i
    = ∑ j ∈ surfaces h i, h.area j * ((h.hC j + hR j) * (exposure h hR d θr lr θs j - θs j)) + airCap * v i * (θr i - d.thetaO)
  furniture : ∀ i, h.gSh i * (θfrt i - θr i) = d.qTrsSol i * 0.5

/-- Operative temperature of room `i`: mean of the air temperature and the mean radiant temperature of the person, weighted by the heat transfer
coefficients of the person. -/
noncomputable def operative (h : House I J) (θr : I → ℝ) (θs : J → ℝ) (i : I) : ℝ :=
  (hHumC * θr i + hHumR * ∑ j ∈ surfaces h i, h.fMrtHum j * θs j) / (hHumC + hHumR)

/-- The house has been at these temperatures for infinitely long time. -/
structure Settled (h : House I J) (hR : J → ℝ) (d : Record I J) (lr θr θfrt : I → ℝ) (θs : J → ℝ) (c : Cond I J) : Prop where
  room : c.thetaR = θr
  furniture : c.thetaFrt = θfrt
  flux : ∀ j, c.qSrf j = (h.hC j + hR j) * (exposure h hR d θr lr θs j - θs j)
  equivalent : c.thetaEi = exposure h hR d θr lr θs
  absorbed : ∀ j l, c.dshA j l = h.phiA1 j l / (1 - h.ratio j l) * ((h.hC j + hR j) * (exposure h hR d θr lr θs j - θs j))
  transmitted : ∀ j l, c.dshT j l = h.phiT1 j l / (1 - h.ratio j l) * rearTemp h d.thetaOSol (exposure h hR d θr lr θs) j

end HLC.Spec
