import Verif.Spec.Period
import Verif.Props.LoggedSteps
import Verif.Props.RoomExchange

/-!
# C85: the heat and the moisture of a room are accounted for over every period of the result
-/

namespace HLC

set_option linter.unusedSectionVars false

open Spec

section
variable {I J : Type} [Fintype I] [DecidableEq I] [Fintype J] [DecidableEq J] {N : ℕ} {h : House I J} {hR : J → ℝ}
  {data : Fin N → Record I J} {dt : ℝ} {ss : PreCalc I J N} {n : ℤ} {c : Cond I J} {t : TickVars I J} {k : Fin N}

theorem frt_ne {a g : ℝ} (hdt : 0 < dt) (ha : 0 ≤ a) (hg : 0 ≤ g) (hag : 0 < a + g) : a + dt * g ≠ 0 := by
  rcases lt_or_eq_of_le ha with h1 | h1
  · have := mul_nonneg hdt.le hg; exact ne_of_gt (by linarith)
  · have : 0 < g := by linarith
    have := mul_pos hdt this; exact ne_of_gt (by linarith)

/-- What flows into the parts of a room in one step: nothing is lost in the radiative exchange. -/
theorem parts_receive (Hp : makePreCalc h hR dt data = .ok ss) (H : runTick n dt ss c = .ok t) (hk : pyIndex N n = .ok k)
    (hw : WellFormed h hR dt) (i : I) (habs : ∑ j ∈ surfaces h i, h.area j * (if h.solarAbs j then 1 else 0) ≠ 0) :
    ∑ j ∈ surfaces h i, h.area j * t.qSrf j
      = - convection h i (t.thetaR i) t.thetaS + (data k).qTrsSol i * 0.5
        + (∑ j ∈ surfaces h i, h.flr j) * ((1 - h.beta i) * t.lr i) := by
  have hrad := C32_radiant_exchange Hp hw.area_pos hw.hR_pos (LogRow.ofTick t) i
  have hsol := (C35_solar_distributed Hp k i habs).1
  obtain ⟨e1, e2, e3, e4, e5, e6, -⟩ := fMrt_eq Hp
  have e : ∀ j ∈ surfaces h i, h.area j * t.qSrf j = - (h.area j * h.hC j * (t.thetaS j - t.thetaR i)) + (LogRow.ofTick t).qr ss j
      + qisol ss k j + h.flr j * ((1 - h.beta i) * t.lr i) := by
    intro j hj
    have hj' : h.room j = i := by simpa [surfaces] using hj
    have hh : h.hC j + hR j ≠ 0 := (add_pos (hw.hC_pos j) (hw.hR_pos j)).ne'
    have ha : h.area j ≠ 0 := (hw.area_pos j).ne'
    rw [C16_surface_flux Hp H hk j hh]
    unfold LogRow.qr qisol
    rw [e1, e2, e3, e4, e6, pT_fMrt_mulVec, hj']
    have ed : h.area j * (h.flr j * (1 - h.beta i) * t.lr i / h.area j) = h.flr j * ((1 - h.beta i) * t.lr i) := by
      rw [mul_div_cancel₀ _ ha]; ring
    have ht : (LogRow.ofTick t).thetaS = t.thetaS := rfl
    rw [mul_add, ed, ht]
    ring
  rw [Finset.sum_congr rfl e, Finset.sum_add_distrib, Finset.sum_add_distrib, Finset.sum_add_distrib, hrad, Finset.sum_neg_distrib,
    ← Finset.sum_mul]
  have hf : ss.qSolFrt k i = (data k).qTrsSol i * 0.5 := by rw [e5]; simp only [House.qSolFrt, House.rSolFnt]
  rw [hf] at hsol
  unfold convection
  linarith

/-- Heat of one step as the program closes it. -/
theorem heat_step (Hp : makePreCalc h hR dt data = .ok ss) (H : runTick n dt ss c = .ok t) (hk : pyIndex N n = .ok k)
    (hw : WellFormed h hR dt) (i : I) (habs : ∑ j ∈ surfaces h i, h.area j * (if h.solarAbs j then 1 else 0) ≠ 0)
    (hflr : ∑ j ∈ surfaces h i, h.flr j = 1 ∨ t.lr i = 0) :
    h.vRoom i * airCap * (t.thetaR i - c.thetaR i) + h.cSh i * (t.thetaFrt i - c.thetaFrt i)
      = dt * (heatReceived h i (data k) (LogRow.ofTick t) - airCap * ∑ l, h.vInt i l * (2 * t.thetaR l - t.thetaR i)) := by
  have hdt := hw.dt_pos
  have hf : h.cSh i + dt * h.gSh i ≠ 0 := frt_ne hdt (hw.cSh_nonneg i) (hw.gSh_nonneg i) (hw.frtSh_pos i)
  have h1 := C14_balance_as_coded Hp H hk i hf
  have h2 := C15_furniture_heat Hp H hk i hf
  have h3 := parts_receive Hp H hk hw i habs
  have h4 := (C23_natural_ventilation Hp H hk i).2.2.1
  rw [div_eq_iff hdt.ne'] at h1
  have e1 : ∑ l, h.vInt i l * (2 * t.thetaR l - t.thetaR i)
      = ∑ l, h.vInt i l * t.thetaR l + ∑ l, h.vInt i l * (t.thetaR l - t.thetaR i) := by
    rw [← Finset.sum_add_distrib]; apply Finset.sum_congr rfl; intro l _; ring
  have h5 : (∑ j ∈ surfaces h i, h.flr j) * ((1 - h.beta i) * t.lr i) = (1 - h.beta i) * t.lr i := by
    rcases hflr with hf | hf <;> rw [hf] <;> ring
  have hrow : heatReceived h i (data k) (LogRow.ofTick t) = (data k).qGen i + t.qHum i + t.lc i + t.lr i + (data k).qTrsSol i
      + airCap * (t.vLeak i + (h.vVentEx i + (data k).vLocal i) + t.vNtrl i) * ((data k).thetaO - t.thetaR i)
      + airCap * ∑ l, h.vInt i l * (t.thetaR l - t.thetaR i) - ∑ j ∈ surfaces h i, h.area j * t.qSrf j := rfl
  rw [hrow, e1, h1, h2, h3, h5, h4]
  ring

/-- Vapour of one step as the program closes it. -/
theorem vapour_step (Hp : makePreCalc h hR dt data = .ok ss) (H : runTick n dt ss c = .ok t) (hk : pyIndex N n = .ok k)
    (hw : WellFormed h hR dt) (i : I) :
    1.2 * h.vRoom i * (t.xR i - c.xR i) + h.cLh i * (t.xFrt i - c.xFrt i)
      = dt * (vapourReceived h i (data k) (LogRow.ofTick t) + 1.2 * ((∑ l, h.vInt i l) * t.xR i)) := by
  have hdt := hw.dt_pos
  have hf : h.cLh i + dt * h.gLh i ≠ 0 := frt_ne hdt (hw.cLh_nonneg i) (hw.gLh_nonneg i) (hw.frtLh_pos i)
  have h1 := C18_balance_as_coded Hp H hk i hf
  have h2 := C15_furniture_moisture Hp H i hf
  have h4 := (C23_natural_ventilation Hp H hk i).2.2.1
  rw [div_eq_iff hdt.ne'] at h1
  have e1 : ∑ l, h.vInt i l * (t.xR l - t.xR i) = ∑ l, h.vInt i l * t.xR l - (∑ l, h.vInt i l) * t.xR i := by
    rw [Finset.sum_mul, ← Finset.sum_sub_distrib]; apply Finset.sum_congr rfl; intro l _; ring
  have hrow : vapourReceived h i (data k) (LogRow.ofTick t) = (data k).xGen i + t.xHum i
      + 1.2 * (t.vLeak i + (h.vVentEx i + (data k).vLocal i) + t.vNtrl i) * ((data k).xO - t.xR i)
      + 1.2 * ∑ l, h.vInt i l * (t.xR l - t.xR i) + t.lCl i / 2501000 := rfl
  rw [hrow, e1, h1, h2, h4, show lWtr = 2501000 from rfl]
  ring

end

section
variable {I : Type} [Fintype I] [DecidableEq I] {m N : ℕ} {h : House I (Fin m)} {hR : Fin m → ℝ} {data : Fin N → Record I (Fin m)}
    {hourly dMain dRunUp dRunUpBuild : ℤ} {r : CalcResult I m N} {row : ℕ → LogRow I (Fin m)} {d : ℕ → Record I (Fin m)}

theorem telescope (f g : ℕ → ℝ) {a b : ℕ} (hab : a ≤ b) (H : ∀ k, a ≤ k → k < b → f (k + 1) - f k = g (k + 1)) :
    f b - f a = ∑ k ∈ Finset.Ioc a b, g k := by
  induction b, hab using Nat.le_induction with
  | base => simp
  | succ b hab ih =>
    rw [Finset.sum_Ioc_succ_top hab]
    rw [← ih fun k h1 h2 => H k h1 (by omega), ← H b hab (by omega)]
    ring

/-- **C85 (heat, exact).** For every completed calculation, every room with a part that absorbs sun, and every two rows `a ≤ b` of the
log: the heat held by the air and the furniture changes by what the room received in the steps after row `a` up to row `b`, minus the
amount by which the program misreads the air from other rooms. The heat of radiative systems must land on surfaces of the room. -/
theorem C85_heat_exact (hw : WellFormed h hR (3600 / (hourly : ℝ))) (H : coreCalc h hR data hourly dMain dRunUp dRunUpBuild = .ok r)
    (hrow : Continues row r.log) (hd : Continues d data) (i : I)
    (habs : ∑ j ∈ surfaces h i, h.area j * (if h.solarAbs j then 1 else 0) ≠ 0)
    (hflr : ∑ j ∈ surfaces h i, h.flr j = 1 ∨ ∀ k, (r.log k).lRs i = 0) {a b : ℕ} (hab : a ≤ b) (hb : b < r.nMain.toNat) :
    storedHeat h i (row b) - storedHeat h i (row a) = ∑ k ∈ Finset.Ioc a b, 3600 / (hourly : ℝ) *
      (heatReceived h i (d k) (row k) - airCap * ∑ l, h.vInt i l * (2 * (row k).thetaR l - (row k).thetaR i)) := by
  apply telescope (fun k => storedHeat h i (row k)) _ hab
  intro k h1 h2
  obtain ⟨k', t, t', e1, e2, Hp, Ht, el, el'⟩ := logged_pair H k (by omega)
  have er : row k = LogRow.ofTick t := (hrow ⟨k, by omega⟩).trans el
  have er' : row (k + 1) = LogRow.ofTick t' := (hrow ⟨k + 1, by omega⟩).trans el'
  have ed : d (k + 1) = data k' := by rw [← hd k', e1]
  have hl : ∑ j ∈ surfaces h i, h.flr j = 1 ∨ t'.lr i = 0 := hflr.imp id fun h0 => by
    have := h0 ⟨k + 1, by omega⟩
    rw [el'] at this
    exact this
  have := heat_step Hp Ht e2 hw i habs hl
  rw [er, er', ed]
  have q : storedHeat h i (LogRow.ofTick t') - storedHeat h i (LogRow.ofTick t)
      = h.vRoom i * airCap * (t'.thetaR i - t.next.thetaR i) + h.cSh i * (t'.thetaFrt i - t.next.thetaFrt i) := by
    show h.vRoom i * airCap * t'.thetaR i + h.cSh i * t'.thetaFrt i - (h.vRoom i * airCap * t.thetaR i + h.cSh i * t.thetaFrt i)
      = h.vRoom i * airCap * (t'.thetaR i - t.thetaR i) + h.cSh i * (t'.thetaFrt i - t.thetaFrt i)
    ring
  exact q.trans this

/-- **C85 (heat, partial).** In a room into which no air flows from other rooms, over every period of the log: change of the heat held by
air and furniture = heat received. Missing: rooms with inflow, where it fails by the amount in `C85_heat_exact`. -/
theorem C85_heat_partial (hw : WellFormed h hR (3600 / (hourly : ℝ))) (H : coreCalc h hR data hourly dMain dRunUp dRunUpBuild = .ok r)
    (hrow : Continues row r.log) (hd : Continues d data) (i : I)
    (habs : ∑ j ∈ surfaces h i, h.area j * (if h.solarAbs j then 1 else 0) ≠ 0)
    (hflr : ∑ j ∈ surfaces h i, h.flr j = 1 ∨ ∀ k, (r.log k).lRs i = 0) (hv : ∀ l, h.vInt i l = 0)
    {a b : ℕ} (hab : a ≤ b) (hb : b < r.nMain.toNat) :
    storedHeat h i (row b) - storedHeat h i (row a) = ∑ k ∈ Finset.Ioc a b, 3600 / (hourly : ℝ) * heatReceived h i (d k) (row k) := by
  rw [C85_heat_exact hw H hrow hd i habs hflr hab hb]
  simp [hv]

/-- **C85 (moisture, exact).** For every completed calculation, every room and every two rows `a ≤ b` of the log: the vapour held by the
air and the furniture changes by what the room received, plus the vapour in the air displaced by air from other rooms, which the program
forgets to remove. -/
theorem C85_moisture_exact (hw : WellFormed h hR (3600 / (hourly : ℝ))) (H : coreCalc h hR data hourly dMain dRunUp dRunUpBuild = .ok r)
    (hrow : Continues row r.log) (hd : Continues d data) (i : I) {a b : ℕ} (hab : a ≤ b) (hb : b < r.nMain.toNat) :
    storedVapour h i (row b) - storedVapour h i (row a) = ∑ k ∈ Finset.Ioc a b, 3600 / (hourly : ℝ) *
      (vapourReceived h i (d k) (row k) + 1.2 * ((∑ l, h.vInt i l) * (row k).xR i)) := by
  apply telescope (fun k => storedVapour h i (row k)) _ hab
  intro k h1 h2
  obtain ⟨k', t, t', e1, e2, Hp, Ht, el, el'⟩ := logged_pair H k (by omega)
  have er : row k = LogRow.ofTick t := (hrow ⟨k, by omega⟩).trans el
  have er' : row (k + 1) = LogRow.ofTick t' := (hrow ⟨k + 1, by omega⟩).trans el'
  have ed : d (k + 1) = data k' := by rw [← hd k', e1]
  have := vapour_step Hp Ht e2 hw i
  rw [er, er', ed]
  have q : storedVapour h i (LogRow.ofTick t') - storedVapour h i (LogRow.ofTick t)
      = 1.2 * h.vRoom i * (t'.xR i - t.next.xR i) + h.cLh i * (t'.xFrt i - t.next.xFrt i) := by
    show 1.2 * h.vRoom i * t'.xR i + h.cLh i * t'.xFrt i - (1.2 * h.vRoom i * t.xR i + h.cLh i * t.xFrt i)
      = 1.2 * h.vRoom i * (t'.xR i - t.xR i) + h.cLh i * (t'.xFrt i - t.xFrt i)
    ring
  exact q.trans this

/-- **C85 (moisture, partial).** In a room without inflow from other rooms the vapour is accounted for over every period of the log.
Missing: rooms with inflow (`C85_moisture_violated`). -/
theorem C85_moisture_partial (hw : WellFormed h hR (3600 / (hourly : ℝ)))
    (H : coreCalc h hR data hourly dMain dRunUp dRunUpBuild = .ok r) (hrow : Continues row r.log) (hd : Continues d data) (i : I)
    (hv : ∀ l, h.vInt i l = 0) {a b : ℕ} (hab : a ≤ b) (hb : b < r.nMain.toNat) :
    storedVapour h i (row b) - storedVapour h i (row a)
      = ∑ k ∈ Finset.Ioc a b, 3600 / (hourly : ℝ) * vapourReceived h i (d k) (row k) := by
  rw [C85_moisture_exact hw H hrow hd i hab hb]
  simp [hv]

/-- **C85 (heat, when).** With inflow from other rooms the heat balance over a period closes if and only if the misread amounts cancel. -/
theorem C85_heat_iff (hw : WellFormed h hR (3600 / (hourly : ℝ))) (H : coreCalc h hR data hourly dMain dRunUp dRunUpBuild = .ok r)
    (hrow : Continues row r.log) (hd : Continues d data) (i : I)
    (habs : ∑ j ∈ surfaces h i, h.area j * (if h.solarAbs j then 1 else 0) ≠ 0)
    (hflr : ∑ j ∈ surfaces h i, h.flr j = 1 ∨ ∀ k, (r.log k).lRs i = 0) {a b : ℕ} (hab : a ≤ b) (hb : b < r.nMain.toNat) :
    storedHeat h i (row b) - storedHeat h i (row a) = ∑ k ∈ Finset.Ioc a b, 3600 / (hourly : ℝ) * heatReceived h i (d k) (row k) ↔
      ∑ k ∈ Finset.Ioc a b, ∑ l, h.vInt i l * (2 * (row k).thetaR l - (row k).thetaR i) = 0 := by
  rw [C85_heat_exact hw H hrow hd i habs hflr hab hb]
  simp only [mul_sub (3600 / (hourly : ℝ)), Finset.sum_sub_distrib, ← Finset.mul_sum]
  have hcap : airCap ≠ 0 := by unfold airCap; norm_num
  have hdt := hw.dt_pos.ne'
  constructor
  · intro h1
    have h2 : 3600 / (hourly : ℝ) * (airCap * ∑ k ∈ Finset.Ioc a b, ∑ l, h.vInt i l * (2 * (row k).thetaR l - (row k).thetaR i)) = 0 := by
      linarith
    exact (mul_eq_zero.mp ((mul_eq_zero.mp h2).resolve_left hdt)).resolve_left hcap
  · intro h1
    rw [h1]; ring

/-- **C85 (moisture, violated).** In a room with inflow from other rooms more vapour appears than is received, over every period of at
least one step of every completed calculation. -/
theorem C85_moisture_violated (hw : WellFormed h hR (3600 / (hourly : ℝ))) (hfan : ∀ i, FanKeepsUp (h.rac i))
    (hm : ∀ k, MoistRecord (data k)) (H : coreCalc h hR data hourly dMain dRunUp dRunUpBuild = .ok r)
    (hθ : ∀ t, StepOf r hourly dMain dRunUpBuild t → ∀ i, t.lc i < -0.001 → -150 < t.thetaR i ∧ t.thetaR i ≤ 90)
    (hrow : Continues row r.log) (hd : Continues d data) (i : I) (hv : 0 < ∑ l, h.vInt i l) {a b : ℕ} (hab : a < b)
    (hb : b < r.nMain.toNat) :
    ∑ k ∈ Finset.Ioc a b, 3600 / (hourly : ℝ) * vapourReceived h i (d k) (row k)
      < storedVapour h i (row b) - storedVapour h i (row a) := by
  rw [C85_moisture_exact hw H hrow hd i hab.le hb]
  apply Finset.sum_lt_sum_of_nonempty ⟨b, Finset.mem_Ioc.2 ⟨hab, le_rfl⟩⟩
  intro k hk
  have hk' := (Finset.mem_Ioc.1 hk).2
  have hx := (C19_program hw hfan hm H hθ ⟨k, by omega⟩ i).1
  rw [← hrow ⟨k, by omega⟩] at hx
  have := mul_pos hv hx
  apply mul_lt_mul_of_pos_left _ hw.dt_pos
  linarith

end

/-! ## Concrete case -/

/-- A day of quarter hours with changing weather and sun, people and gains, and no air conditioning. -/
noncomputable def exDay : Fin 96 → Record (Fin 2) (Fin 4) := fun k =>
  { thetaO := (k : ℕ) / 10
    xO := 0.004
    vLocal := ![0, 0.01]
    qGen := ![100, 50]
    xGen := ![0.0001, 0]
    nHum := ![2, 0]
    acDemand := fun _ => 0
    qTrsSol := ![0, (k : ℕ)]
    thetaOSol := fun _ => (k : ℕ) / 8 }

/-- The example house with these records meets the hypotheses of all theorems of C85 (and of `C19_program`): room 0 has no inflow, room 1
has. -/
theorem exDay_run : ∃ r, coreCalc exHouse exHR exDay 4 1 1 1 = .ok r ∧ r.nMain.toNat = 96 ∧ WellFormed exHouse exHR (3600 / ((4 : ℤ) : ℝ)) ∧
    (∀ k, MoistRecord (exDay k)) ∧ (∀ i, FanKeepsUp (exHouse.rac i)) ∧
    (∀ t, StepOf r 4 1 1 t → ∀ i, t.lc i < -0.001 → -150 < t.thetaR i ∧ t.thetaR i ≤ 90) ∧
    (∀ i, ∑ j ∈ surfaces exHouse i, exHouse.area j * (if exHouse.solarAbs j then 1 else 0) ≠ 0) ∧
    (∀ i k, (r.log k).lRs i = 0) ∧ (∀ l, exHouse.vInt 0 l = 0) ∧ 0 < ∑ l, exHouse.vInt 1 l := by
  have e4 : (3600 / ((4 : ℤ) : ℝ)) = 900 := by norm_num
  have hw : WellFormed exHouse exHR (3600 / ((4 : ℤ) : ℝ)) := by rw [e4]; exact exHouse_wellFormed
  have hcap : ∀ i, 0 ≤ exHouse.capH i ∧ 0 ≤ exHouse.capC i := fun i => ⟨le_rfl, le_rfl⟩
  obtain ⟨r, hr⟩ := C21_program_partial (data := exDay) (dMain := 1) (dRunUp := 1) (dRunUpBuild := 1) hw (fun _ => rfl) (fun _ => rfl)
    (fun k i => by fin_cases i <;> norm_num [exDay]) (by norm_num) (by norm_num) (by norm_num) le_rfl (by norm_num) (by norm_num)
  obtain ⟨gs, c0, up, mn, T⟩ := coreCalc_ok hr
  refine ⟨r, hr, by rw [T.nMain_eq]; rfl, hw, ?_, exHouse_fan, ?_, ?_, ?_, ?_, ?_⟩
  · intro k
    constructor
    · norm_num [exDay]
    · intro i; fin_cases i <;> norm_num [exDay]
    · intro i; fin_cases i <;> norm_num [exDay]
    · intro i; fin_cases i <;> norm_num [exDay]
  · rintro t ⟨c, ts, -, hrun, ht⟩ i hl
    exfalso
    obtain ⟨p, hp, e⟩ := List.mem_iff_getElem.mp ht
    obtain ⟨c', h1⟩ := run_at hrun p (by rw [← hrun.length_eq]; exact hp) hp
    rw [e] at h1
    obtain ⟨k, hk⟩ := runTick_index h1
    rw [(step_no_demand T.pre h1 hk hcap (i := i) le_rfl).1] at hl
    norm_num at hl
  · intro i
    simp only [surfaces, Finset.sum_filter, Fin.sum_univ_four]
    fin_cases i <;> simp [exHouse] <;> norm_num
  · intro i k
    obtain ⟨k', c, t, e1, e2, Hp, Ht, el⟩ := logged_step hr k
    rw [el]
    exact (step_no_demand Hp Ht e2 hcap (i := i) le_rfl).2.1
  · intro l; fin_cases l <;> simp [exHouse]
  · simp only [Fin.sum_univ_two]; norm_num [exHouse]

end HLC
