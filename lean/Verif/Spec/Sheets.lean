import Verif.Model.Sheets

/-!
# Specification: tables that are too short (C133)
-/

namespace HLC.Spec

variable {I J : Type} {N W : ℕ}

/-- All tables have at least `k` rows. -/
structure AtLeast (S : Sheets I J W) (k : ℤ) : Prop where
  weather : k ≤ W
  vent : k ≤ S.nVent
  heat : k ≤ S.nHeat
  moisture : k ≤ S.nMoist
  people : k ≤ S.nPeople
  demand : k ≤ S.nDemand
  sun : k ≤ S.nSun
  outdoors : k ≤ S.nOut

/-- The tables are the beginnings of tables of `N` rows, the weather is complete. -/
structure CutOf (S : Sheets I J N) (data : Fin N → Record I J) : Prop where
  temperature : ∀ k, S.thetaO k = (data k).thetaO
  humidity : ∀ k, S.xO k = (data k).xO
  vent : S.nVent ≤ N ∧ ∀ (t : Fin S.nVent) (h : t.1 < N), S.vLocal t = (data ⟨t, h⟩).vLocal
  heat : S.nHeat ≤ N ∧ ∀ (t : Fin S.nHeat) (h : t.1 < N), S.qGen t = (data ⟨t, h⟩).qGen
  moisture : S.nMoist ≤ N ∧ ∀ (t : Fin S.nMoist) (h : t.1 < N), S.xGen t = (data ⟨t, h⟩).xGen
  people : S.nPeople ≤ N ∧ ∀ (t : Fin S.nPeople) (h : t.1 < N), S.nHum t = (data ⟨t, h⟩).nHum
  demand : S.nDemand ≤ N ∧ ∀ (t : Fin S.nDemand) (h : t.1 < N), S.acDemand t = (data ⟨t, h⟩).acDemand
  sun : S.nSun ≤ N ∧ ∀ (t : Fin S.nSun) (h : t.1 < N), S.qTrsSol t = (data ⟨t, h⟩).qTrsSol
  outdoors : S.nOut ≤ N ∧ ∀ (t : Fin S.nOut) (h : t.1 < N), S.thetaOSol t = (data ⟨t, h⟩).thetaOSol

/-- The tables of one length. -/
def equalSheets (data : Fin N → Record I J) : Sheets I J N where
  thetaO := fun k => (data k).thetaO
  xO := fun k => (data k).xO
  nVent := N
  vLocal := fun k => (data k).vLocal
  nHeat := N
  qGen := fun k => (data k).qGen
  nMoist := N
  xGen := fun k => (data k).xGen
  nPeople := N
  nHum := fun k => (data k).nHum
  nDemand := N
  acDemand := fun k => (data k).acDemand
  nSun := N
  qTrsSol := fun k => (data k).qTrsSol
  nOut := N
  thetaOSol := fun k => (data k).thetaOSol

/-- What is left of a result without the parameters. -/
def withoutParameters {m : ℕ} (r : CalcResult I m N) : SheetResult I m where
  nMain := r.nMain
  ground := r.ground
  final := r.final
  log := r.log

/-- The row of a table of `L` rows that is as far from its end as row `k` is from the end of `N` rows. -/
def fromEnd (L : ℕ) (k : Fin N) : Fin N := ⟨min L N - (N - k.1), by omega⟩

/-- The records that are used when the tables are cut: the first `main` as they are, the others counted from the end of what is left of each table. -/
def shifted (S : Sheets I J N) (data : Fin N → Record I J) (main : ℤ) (k : Fin N) : Record I J :=
  if (k.1 : ℤ) < main then data k else
  { thetaO := (data k).thetaO
    xO := (data k).xO
    vLocal := (data (fromEnd S.nVent k)).vLocal
    qGen := (data (fromEnd S.nHeat k)).qGen
    xGen := (data (fromEnd S.nMoist k)).xGen
    nHum := (data (fromEnd S.nPeople k)).nHum
    acDemand := (data (fromEnd S.nDemand k)).acDemand
    qTrsSol := (data (fromEnd S.nSun k)).qTrsSol
    thetaOSol := (data (fromEnd S.nOut k)).thetaOSol }

end HLC.Spec
