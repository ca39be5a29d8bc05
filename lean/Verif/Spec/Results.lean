import Verif.Model.Record
import Verif.Spec.Run

/-!
# Specification: the result tables (C79-C82)

The columns are those of the documented output format (`notebook/data_spec/spec_core_output_detail.csv`).
-/

namespace HLC.Spec

/-- Row `k` of the column called `name` holds `x`. -/
def Cell (tab : Table) (name : String) (k : ℕ) (x : ℝ) : Prop := ∃ l, (name, Column.nums l) ∈ tab.cols ∧ l[k]? = some x

/-- Row `k` of the column called `name` holds the operation mode `x`. -/
def ModeCell (tab : Table) (name : String) (k : ℕ) (x : OpMode) : Prop :=
  ∃ l, (name, Column.modes l) ∈ tab.cols ∧ l[k]? = some (some x)

/-- Row `k` of the column called `name` holds a remark that reports this target of the PMV, this speed of the air around the people and this clothing. -/
def RemarkCell (tab : Table) (name : String) (k : ℕ) (pmv speed clothing : ℝ) : Prop :=
  ∃ l x, (name, Column.remarks l) ∈ tab.cols ∧ l[k]? = some (some x) ∧ x.pmvTarget = pmv ∧ x.vHum = speed ∧ x.clo = clothing

/-- Target of the PMV in an operation mode: slightly cool when heating, slightly warm when cooling. -/
noncomputable def reportedPmv : OpMode → ℝ
  | .heating => -(1 / 2)
  | .cooling => 1 / 2
  | _ => 0

/-- Air speed around the people [m/s]: an air conditioner blows, a radiant floor or panel does not, and open windows let in a draught. -/
noncomputable def reportedSpeed (radiantHeating radiantCooling : Bool) : OpMode → ℝ
  | .heating => if radiantHeating then 0 else 1 / 5
  | .cooling => if radiantCooling then 0 else 1 / 5
  | .stopOpen => 1 / 10
  | _ => 0

/-- Clothing [clo]: heavy when heating, light when cooling, medium otherwise (the mode of heating and cooling at once does not occur). -/
noncomputable def reportedClothing : OpMode → ℝ
  | .heating => 11 / 10
  | .cooling => 3 / 10
  | .stopOpen => 7 / 10
  | .stopClose => 7 / 10
  | .heatingAndCooling => 0

/-- No two columns have the same name, and every column has an entry in every row. -/
def Regular (tab : Table) : Prop := (tab.cols.map Prod.fst).Nodup ∧ ∀ c ∈ tab.cols, c.2.length = tab.rows

/-- Name of the column of room `i` for a quantity. -/
def roomColumn (i : ℕ) (s : String) : String := "rm" ++ toString i ++ "_" ++ s

/-- Name of the column of the part with number `b` of room `i` for a quantity. -/
def partColumn (i b : ℕ) (s : String) : String := "rm" ++ toString i ++ "_b" ++ toString b ++ "_" ++ s

section
variable {n m : ℕ}

/-- Number of the parts of the same room that stand before part `j` in the input. -/
def partNumber (h : House (Fin n) (Fin m)) (j : Fin m) : ℕ := (Finset.univ.filter fun j' => j' < j ∧ h.room j' = h.room j).card

/-- Row `k` of the columns of room `i`: the values computed by the step, `t`, and the data `d` given for the same step. -/
structure RoomCells (tab : Table) (h : House (Fin n) (Fin m)) (d : Record (Fin n) (Fin m)) (t : TickVars (Fin n) (Fin m))
    (k : ℕ) (i : Fin n) : Prop where
  operation : ModeCell tab (roomColumn i "ac_operate") k (t.ot i).mode
  occupancy : Cell tab (roomColumn i "occupancy") k (d.acDemand i)
  convectiveCoefficient : Cell tab (roomColumn i "hc_hum") k (t.ot i).hHumC
  radiativeCoefficient : Cell tab (roomColumn i "hr_hum") k (t.ot i).hHumR
  temperature : Cell tab (roomColumn i "t_r") k (t.thetaR i)
  relativeHumidity : Cell tab (roomColumn i "rh_r") k (getH (getPvR (t.xR i)) (getPvs (t.thetaR i)))
  humidity : Cell tab (roomColumn i "x_r") k (t.xR i)
  meanRadiantTemperature : Cell tab (roomColumn i "mrt") k (t.thetaMrt i)
  operativeTemperature : Cell tab (roomColumn i "ot") k (t.thetaOt i)
  transmittedSun : Cell tab (roomColumn i "q_sol_t") k (d.qTrsSol i)
  internalHeat : Cell tab (roomColumn i "q_s_except_hum") k (d.qGen i)
  internalMoisture : Cell tab (roomColumn i "q_l_except_hum") k (d.xGen i)
  heatOfPeople : Cell tab (roomColumn i "q_hum_s") k (t.qHum i)
  moistureOfPeople : Cell tab (roomColumn i "q_hum_l") k (t.xHum i)
  convectiveLoad : Cell tab (roomColumn i "l_s_c") k (t.lc i)
  radiativeLoad : Cell tab (roomColumn i "l_s_r") k (t.lr i)
  latentLoad : Cell tab (roomColumn i "l_l_c") k (t.lCl i)
  furnitureTemperature : Cell tab (roomColumn i "t_fun") k (t.thetaFrt i)
  furnitureHeat : Cell tab (roomColumn i "q_s_fun") k (h.gSh i * (t.thetaR i - t.thetaFrt i))
  furnitureSun : Cell tab (roomColumn i "q_s_sol_fun") k (House.qSolFrt d i)
  furnitureHumidity : Cell tab (roomColumn i "x_fun") k (t.xFrt i)
  furnitureMoisture : Cell tab (roomColumn i "q_l_fun") k (h.gLh i * (t.xR i - t.xFrt i))
  infiltration : Cell tab (roomColumn i "v_reak") k (t.vLeak i)
  naturalVentilation : Cell tab (roomColumn i "v_ntrl") k (t.vNtrl i)
  remarks : RemarkCell tab (roomColumn i "remarks") k (reportedPmv (t.ot i).mode)
    (reportedSpeed (h.isRadHeating i) (h.isRadCooling i) (t.ot i).mode) (reportedClothing (t.ot i).mode)

/-- Row `k` of the columns of the part `j`, written as the part number `b` of the room `i`. -/
structure PartCells (tab : Table) (h : House (Fin n) (Fin m)) (hR : Fin m → ℝ) (d : Record (Fin n) (Fin m))
    (t : TickVars (Fin n) (Fin m)) (k : ℕ) (i : Fin n) (b : ℕ) (j : Fin m) : Prop where
  surfaceTemperature : Cell tab (partColumn i b "t_s") k (t.thetaS j)
  equivalentTemperature : Cell tab (partColumn i b "t_e") k (t.thetaEi j)
  rearTemperature : Cell tab (partColumn i b "t_b") k (t.thetaRear j)
  radiativeCoefficient : Cell tab (partColumn i b "hir_s") k (hR j)
  radiantHeat : Cell tab (partColumn i b "qir_s") k (hR j * h.area j * (∑ l, h.fMrt hR i l * t.thetaS l - t.thetaS j))
  convectiveCoefficient : Cell tab (partColumn i b "hic_s") k (h.hC j)
  convectiveHeat : Cell tab (partColumn i b "qic_s") k (h.hC j * h.area j * (t.thetaR i - t.thetaS j))
  sun : Cell tab (partColumn i b "qisol_s") k (h.qSol d j * h.area j)
  surfaceFlux : Cell tab (partColumn i b "qiall_s") k (t.qSrf j)

end

/-- Sum of a quantity over the four quarter hours of hour `t`. -/
def hourTotal {M : ℕ} (f : Fin M → ℝ) (t : ℕ) (ht : 4 * t + 4 ≤ M) : ℝ :=
  f ⟨4 * t, by omega⟩ + f ⟨4 * t + 1, by omega⟩ + f ⟨4 * t + 2, by omega⟩ + f ⟨4 * t + 3, by omega⟩

end HLC.Spec
