import Verif.Props.LoggedSteps
import Verif.Props.Period

/-!
# C13-C16, C18, C20, C23 and C37 for whole calculations

The theorems about single steps, stated on the rows of the log of a completed calculation and the records of the same step.
-/

namespace HLC

set_option linter.unusedSectionVars false

open Spec

section
variable {I : Type} [Fintype I] [DecidableEq I] {m N : ℕ} {h : House I (Fin m)} {hR : Fin m → ℝ} {data : Fin N → Record I (Fin m)}
    {hourly dMain dRunUp dRunUpBuild : ℤ} {r : CalcResult I m N} {row : ℕ → LogRow I (Fin m)} {d : ℕ → Record I (Fin m)}

/-- Every row of the log belongs to a step on the record with the same number. -/
theorem row_step (H : coreCalc h hR data hourly dMain dRunUp dRunUpBuild = .ok r) (hrow : Continues row r.log)
    (hd : Continues d data) {k : ℕ} (hk : k < r.nMain.toNat) :
    ∃ (k' : Fin N) (c : Cond I (Fin m)) (t : TickVars I (Fin m)), pyIndex N (k : ℕ) = .ok k' ∧
      makePreCalc h hR (3600 / (hourly : ℝ)) data = .ok r.ss ∧ runTick (k : ℕ) (3600 / (hourly : ℝ)) r.ss c = .ok t ∧
      row k = LogRow.ofTick t ∧ d k = data k' := by
  obtain ⟨k', c, t, e1, e2, Hp, Ht, el⟩ := logged_step H ⟨k, hk⟩
  exact ⟨k', c, t, e2, Hp, Ht, (hrow ⟨k, hk⟩).trans el, by rw [← hd k', e1]⟩

/-- Every row of the log but the first belongs to a step from the state the previous row describes. -/
theorem row_pair (H : coreCalc h hR data hourly dMain dRunUp dRunUpBuild = .ok r) (hrow : Continues row r.log)
    (hd : Continues d data) {k : ℕ} (hk : k + 1 < r.nMain.toNat) :
    ∃ (k' : Fin N) (t t' : TickVars I (Fin m)), pyIndex N ((k + 1 : ℕ) : ℤ) = .ok k' ∧
      makePreCalc h hR (3600 / (hourly : ℝ)) data = .ok r.ss ∧ runTick ((k + 1 : ℕ) : ℤ) (3600 / (hourly : ℝ)) r.ss t.next = .ok t' ∧
      row k = LogRow.ofTick t ∧ row (k + 1) = LogRow.ofTick t' ∧ d (k + 1) = data k' := by
  obtain ⟨k', t, t', e1, e2, Hp, Ht, el, el'⟩ := logged_pair H k hk
  exact ⟨k', t, t', e2, Hp, Ht, (hrow ⟨k, by omega⟩).trans el, (hrow ⟨k + 1, hk⟩).trans el', by rw [← hd k', e1]⟩

/-- **C13** for the whole program: in every row of the log the operative temperature of a room is the mean of its air temperature and of the
surface temperatures (weighted with the view factors of the occupant), with the fixed coefficients of the occupant as weights. -/
theorem C13_program (H : coreCalc h hR data hourly dMain dRunUp dRunUpBuild = .ok r) (k : Fin r.nMain.toNat) (i : I) :
    (r.log k).thetaOt i = (hHumC * (r.log k).thetaR i + hHumR * ∑ j ∈ surfaces h i, h.fMrtHum j * (r.log k).thetaS j) / (hHumC + hHumR) ∧
    (r.log k).thetaMrt i = ∑ j ∈ surfaces h i, h.fMrtHum j * (r.log k).thetaS j ∧
    (r.log k).hHumC i = hHumC ∧ (r.log k).hHumR i = hHumR := by
  obtain ⟨k', c, t, -, -, Hp, Ht, el⟩ := logged_step H k
  rw [el]
  refine ⟨C13_operative_temperature Hp Ht i, ?_, ?_⟩
  · obtain ⟨ivs, k, -, hs, -, e⟩ := step_eqs Hp Ht
    show t.thetaMrt i = _
    rw [e.thetaMrt, hs]
    exact fMrtHum_mulVec h _ i
  · obtain ⟨ivs, k, -, hs, -, e⟩ := step_eqs Hp Ht
    exact ot_coefs (e.ot i)

/-- **C14** for the whole program (partial: rooms without inflow from other rooms): between two rows of the log the heat held by the air of
a room changes by convection from its surfaces, exchange with its furniture, outdoor air, gains, occupants, and loads. -/
theorem C14_program_partial (hw : WellFormed h hR (3600 / (hourly : ℝ))) (H : coreCalc h hR data hourly dMain dRunUp dRunUpBuild = .ok r)
    (hrow : Continues row r.log) (hd : Continues d data) {k : ℕ} (hk : k + 1 < r.nMain.toNat) (i : I) (hv : ∀ l, h.vInt i l = 0) :
    h.vRoom i * airCap * ((row (k + 1)).thetaR i - (row k).thetaR i) / (3600 / (hourly : ℝ))
      = convection h i ((row (k + 1)).thetaR i) (row (k + 1)).thetaS + h.gSh i * ((row (k + 1)).thetaFrt i - (row (k + 1)).thetaR i)
        + airCap * ((row (k + 1)).vLeak i + (h.vVentEx i + (d (k + 1)).vLocal i) + (row (k + 1)).vNtrl i)
            * ((d (k + 1)).thetaO - (row (k + 1)).thetaR i)
        + (d (k + 1)).qGen i + (row (k + 1)).qHum i + (row (k + 1)).lCs i + h.beta i * (row (k + 1)).lRs i := by
  obtain ⟨k', t, t', e2, Hp, Ht, er, er', ed⟩ := row_pair H hrow hd hk
  rw [er, er', ed]
  have hf : h.cSh i + 3600 / (hourly : ℝ) * h.gSh i ≠ 0 := frt_ne hw.dt_pos (hw.cSh_nonneg i) (hw.gSh_nonneg i) (hw.frtSh_pos i)
  have h1 := C14_room_balance_partial Hp Ht e2 i hf hv
  rw [(C23_natural_ventilation Hp Ht e2 i).2.2.1] at h1
  have h2 : interRoomHeat h i t'.thetaR = 0 := by simp [interRoomHeat, hv]
  rw [h2, add_zero] at h1
  exact h1

/-- **C15** for the whole program: between two rows of the log the heat held by the furniture of a room changes by the exchange with the
air and half of the transmitted sun, the vapour held by it by the exchange with the air. -/
theorem C15_program (hw : WellFormed h hR (3600 / (hourly : ℝ))) (H : coreCalc h hR data hourly dMain dRunUp dRunUpBuild = .ok r)
    (hrow : Continues row r.log) (hd : Continues d data) {k : ℕ} (hk : k + 1 < r.nMain.toNat) (i : I) :
    h.cSh i * ((row (k + 1)).thetaFrt i - (row k).thetaFrt i)
      = 3600 / (hourly : ℝ) * (h.gSh i * ((row (k + 1)).thetaR i - (row (k + 1)).thetaFrt i) + (d (k + 1)).qTrsSol i * 0.5) ∧
    h.cLh i * ((row (k + 1)).xFrt i - (row k).xFrt i)
      = 3600 / (hourly : ℝ) * (h.gLh i * ((row (k + 1)).xR i - (row (k + 1)).xFrt i)) := by
  obtain ⟨k', t, t', e2, Hp, Ht, er, er', ed⟩ := row_pair H hrow hd hk
  rw [er, er', ed]
  exact ⟨C15_furniture_heat Hp Ht e2 i (frt_ne hw.dt_pos (hw.cSh_nonneg i) (hw.gSh_nonneg i) (hw.frtSh_pos i)),
    C15_furniture_moisture Hp Ht i (frt_ne hw.dt_pos (hw.cLh_nonneg i) (hw.gLh_nonneg i) (hw.frtLh_pos i))⟩

/-- **C16** for the whole program: in every row of the log the surface heat flux of a part is convection, radiation from the other
surfaces of the room, its share of half of the transmitted sun and its share of the radiative load. -/
theorem C16_program (hw : WellFormed h hR (3600 / (hourly : ℝ))) (H : coreCalc h hR data hourly dMain dRunUp dRunUpBuild = .ok r)
    (hrow : Continues row r.log) (hd : Continues d data) {k : ℕ} (hk : k < r.nMain.toNat) (j : Fin m) :
    (row k).qiall j = h.hC j * ((row k).thetaR (h.room j) - (row k).thetaS j)
      + hR j * (roomMrt h hR (h.room j) (row k).thetaS - (row k).thetaS j)
      + (if h.solarAbs j then (d k).qTrsSol (h.room j) * 0.5
          / ∑ l ∈ surfaces h (h.room j), h.area l * (if h.solarAbs l then 1 else 0) else 0)
      + h.flr j * (1 - h.beta (h.room j)) * (row k).lRs (h.room j) / h.area j := by
  obtain ⟨k', c, t, e2, Hp, Ht, er, ed⟩ := row_step H hrow hd hk
  rw [er, ed]
  have h1 := C16_surface_flux Hp Ht e2 j (add_pos (hw.hC_pos j) (hw.hR_pos j)).ne'
  have h2 : h.qSol (data k') j = (if h.solarAbs j then (data k').qTrsSol (h.room j) * 0.5
      / ∑ l ∈ surfaces h (h.room j), h.area l * (if h.solarAbs l then 1 else 0) else 0) := by
    have hA : h.aSrfAbs (h.room j) = ∑ l ∈ surfaces h (h.room j), h.area l * (if h.solarAbs l then 1 else 0) := by
      unfold House.aSrfAbs
      rw [sum_p]
      apply Finset.sum_congr rfl
      intro l _
      unfold ind; rfl
    unfold House.qSol
    rw [sum_pT h (fun i => (data k').qTrsSol i / h.aSrfAbs i), hA]
    unfold ind House.rSolFnt
    cases h.solarAbs j <;> simp
    ring
  rw [h2] at h1
  exact h1

/-- **C18** for the whole program (partial: rooms without inflow from other rooms): between two rows of the log the vapour held by the air
of a room changes by outdoor air, exchange with the furniture, generation, occupants, and the latent load divided by the heat of
evaporation. -/
theorem C18_program_partial (hw : WellFormed h hR (3600 / (hourly : ℝ))) (H : coreCalc h hR data hourly dMain dRunUp dRunUpBuild = .ok r)
    (hrow : Continues row r.log) (hd : Continues d data) {k : ℕ} (hk : k + 1 < r.nMain.toNat) (i : I) (hv : ∀ l, h.vInt i l = 0) :
    1.2 * h.vRoom i * ((row (k + 1)).xR i - (row k).xR i) / (3600 / (hourly : ℝ))
      = 1.2 * ((row (k + 1)).vLeak i + (h.vVentEx i + (d (k + 1)).vLocal i) + (row (k + 1)).vNtrl i)
            * ((d (k + 1)).xO - (row (k + 1)).xR i)
        + h.gLh i * ((row (k + 1)).xFrt i - (row (k + 1)).xR i)
        + (d (k + 1)).xGen i + (row (k + 1)).xHum i + (row (k + 1)).lCl i / 2501000 := by
  obtain ⟨k', t, t', e2, Hp, Ht, er, er', ed⟩ := row_pair H hrow hd hk
  rw [er, er', ed]
  have hf : h.cLh i + 3600 / (hourly : ℝ) * h.gLh i ≠ 0 := frt_ne hw.dt_pos (hw.cLh_nonneg i) (hw.gLh_nonneg i) (hw.frtLh_pos i)
  have h1 := C18_moisture_balance_partial Hp Ht e2 i hf hv
  rw [(C23_natural_ventilation Hp Ht e2 i).2.2.1] at h1
  have h2 : interRoomVapour h i t'.xR = 0 := by simp [interRoomVapour, hv]
  rw [h2, add_zero] at h1
  exact h1

/-- **C20** for the whole program (partial as `C20_only_removes_partial`): in every row of the log the latent load of a room is not
positive if it gets no air from other rooms or no other room is cooled, and zero if the room is not convectively cooled. -/
theorem C20_program_partial (hw : WellFormed h hR (3600 / (hourly : ℝ))) (H : coreCalc h hR data hourly dMain dRunUp dRunUpBuild = .ok r)
    (hloc : ∀ k i, 0 ≤ (data k).vLocal i) (k : Fin r.nMain.toNat) (i : I) :
    ((∀ l, l ≠ i → h.vInt i l = 0) ∨ (∀ l, l ≠ i → -0.001 ≤ (r.log k).lCs l) → (r.log k).lCl i ≤ 0) ∧
    (-0.001 ≤ (r.log k).lCs i → (r.log k).lCl i = 0) := by
  obtain ⟨k', c, t, -, e2, Hp, Ht, el⟩ := logged_step H k
  rw [el]
  exact ⟨fun h1 => C20_only_removes_partial hw Hp Ht e2 (hloc k') i h1, fun h1 => C20_only_when_cooled Hp Ht i h1⟩

/-- **C23** for the whole program: in every row of the log natural ventilation is the full rate of the room if its mode is STOP_OPEN and
zero otherwise; infiltration is not negative. -/
theorem C23_program (hw : WellFormed h hR (3600 / (hourly : ℝ))) (H : coreCalc h hR data hourly dMain dRunUp dRunUpBuild = .ok r)
    (k : Fin r.nMain.toNat) (i : I) :
    ((r.log k).mode i = some .stopOpen → (r.log k).vNtrl i = h.vNtrl i) ∧
    ((r.log k).mode i ≠ some .stopOpen → (r.log k).vNtrl i = 0) ∧ 0 ≤ (r.log k).vLeak i := by
  obtain ⟨k', c, t, -, e2, Hp, Ht, el⟩ := logged_step H k
  rw [el]
  obtain ⟨h1, h2, h3, h4⟩ := C23_natural_ventilation Hp Ht e2 i
  refine ⟨fun hm => h1 (Option.some.inj hm), fun hm => h2 fun h0 => hm (congrArg some h0), ?_⟩
  have h5 := h4 (hw.vRoom_pos i).le (hw.vNtrl_nonneg i)
  obtain ⟨ivs, k3, -, hs, hk3, e⟩ := step_eqs Hp Ht
  have := e.vLeak
  show 0 ≤ t.vLeak i
  unfold getInfiltration at this
  simp only [bind, Except.bind] at this
  split at this
  · cases this
  split at this
  · cases this
  split at this
  · cases this
  rw [← Except.ok.inj this, hs]
  simp only [preCalcOf]
  have := le_max_right (0.022 : ℝ) 0
  have := (hw.vRoom_pos i).le
  positivity

/-- **C37** for the whole program: in every row of the log but the first the sensible and latent heat of the occupants of a room is 119 W
per person, the sensible part according to the previously logged room temperature. -/
theorem C37_program (H : coreCalc h hR data hourly dMain dRunUp dRunUpBuild = .ok r)
    (hrow : Continues row r.log) (hd : Continues d data) {k : ℕ} (hk : k + 1 < r.nMain.toNat) (i : I) :
    (row (k + 1)).qHum i + 2501000 * (row (k + 1)).xHum i = 119 * (d (k + 1)).nHum i ∧
    (row (k + 1)).qHum i = min (63 - 4 * ((row k).thetaR i - 24)) 119 * (d (k + 1)).nHum i := by
  obtain ⟨k', t, t', e2, Hp, Ht, er, er', ed⟩ := row_pair H hrow hd hk
  rw [er, er', ed]
  exact C37_logged Hp Ht e2 i

end

/-- The hypotheses of the theorems above are met by a day of the example house (and its log has a continuation). -/
example : ∃ r, coreCalc exHouse exHR exDay 4 1 1 1 = .ok r ∧ r.nMain.toNat = 96 ∧ WellFormed exHouse exHR (3600 / ((4 : ℤ) : ℝ)) ∧
    (∀ k i, 0 ≤ (exDay k).vLocal i) ∧ (∀ l, exHouse.vInt 0 l = 0) ∧ (∃ row, Continues row r.log) ∧ ∃ d, Continues d exDay := by
  obtain ⟨r, h1, h2, h3, h4, -, -, -, -, h5, -⟩ := exDay_run
  refine ⟨r, h1, h2, h3, fun k => (h4 k).localVent, h5, ?_, ?_⟩
  · exact ⟨fun k => if hk : k < r.nMain.toNat then r.log ⟨k, hk⟩ else LogRow.empty _ _, fun k => dif_pos k.isLt⟩
  · exact ⟨fun k => if hk : k < 96 then exDay ⟨k, hk⟩ else exDay 0, fun k => dif_pos k.isLt⟩

end HLC
