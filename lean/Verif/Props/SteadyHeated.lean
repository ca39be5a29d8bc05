import Verif.Props.Steady
import Verif.Props.LoadLogged

/-!
# A heated house that stands still (C95)
-/

namespace HLC

open Spec Finset

/-- A tight room with a radiant heater of 500 W, half of whose heat goes to the wall. -/
noncomputable def exHearth : House (Fin 1) (Fin 1) :=
  { exStove with
    flr := fun _ => 1
    cValue := 0
    capC := fun _ => 100 }

/-- Operative temperature at which dry air is comfortable in winter. -/
noncomputable def hearthT : ℝ := getThetaOtTargetOfMode (getPvR 0) (hHumC + hHumR) .heating

/-- Outdoor air is 15 K colder than that, the wall is kept at that temperature from behind. -/
noncomputable def exHearthDay : Fin 96 → Record (Fin 1) (Fin 1) := fun _ =>
  { thetaO := hearthT - 15
    xO := 0
    vLocal := fun _ => 0
    qGen := fun _ => 0
    xGen := fun _ => 0
    nHum := fun _ => 0
    acDemand := fun _ => 1
    qTrsSol := fun _ => 0
    thetaOSol := fun _ => hearthT }

/-- The load that makes up for the ventilation: half of it reaches the air. -/
noncomputable def hearthL : ℝ := 2 * (airCap * 0.01 * 15)

theorem exHearth_wellFormed : WellFormed exHearth exColdHR 900 :=
  { exStove_wellFormed with
    capC_nonneg := by intro i; norm_num [exHearth] }

theorem exHearth_surfaces (i : Fin 1) : surfaces exHearth i = {0} := exCold_surfaces i

theorem exHearth_mrt (θs : Fin 1 → ℝ) (i : Fin 1) : roomMrt exHearth exColdHR i θs = θs 0 := by
  unfold roomMrt
  rw [exHearth_surfaces]
  simp only [sum_singleton]
  norm_num [exHearth, exStove, exCold, exColdHR]

theorem exHearth_exposure (k : Fin 96) (j : Fin 1) :
    exposure exHearth exColdHR (exHearthDay k) (fun _ => hearthT) (fun _ => hearthL) (fun _ => hearthT) j = hearthT + hearthL / 150 := by
  unfold exposure
  rw [exHearth_mrt]
  have : exHearth.qSol (exHearthDay k) j = 0 := by simp [House.qSol, exHearthDay]
  rw [this]
  norm_num [exHearth, exStove, exCold, exColdHR]
  ring

theorem exHearth_resistance (j : Fin 1) : resistance exHearth j = 0 := by
  unfold resistance
  simp [exHearth, exStove, exCold]

theorem exHearth_parts (j : Fin 1) : 0 ≤ resistance exHearth j ∧ Transmits exHearth j ∧ EvenSides exHearth exColdHR j := by
  refine ⟨(exHearth_resistance j).ge, ⟨fun l => ?_, ?_⟩, fun m coef hm => ?_⟩
  · simp [exHearth, exStove, exCold]
  · simp [exHearth, exStove, exCold]
  · simp [exHearth, exStove, exCold] at hm

theorem exHearth_steady (k : Fin 96) : SteadyState exHearth exColdHR (exHearthDay k) (fun _ => 0.01) (fun _ => 0) (fun _ => 0)
    (fun _ => hearthL) (fun _ => hearthT) (fun _ => hearthT) (fun _ => hearthT) := by
  refine ⟨fun j => ?_, fun i => ?_, fun i => ?_⟩
  · rw [exHearth_exposure]
    unfold uValue rearTemp
    rw [exHearth_resistance]
    norm_num [exHearth, exStove, exCold, exColdHR, exHearthDay]
  · rw [exHearth_surfaces, sum_singleton, exHearth_exposure]
    norm_num [exHearth, exStove, exCold, exColdHR, exHearthDay, hearthL, airCap]
  · simp [exHearth, exStove, exCold, exHearthDay]

/-- The state of the house that has been at these temperatures for infinitely long time. -/
noncomputable def exHearthC : Cond (Fin 1) (Fin 1) :=
  { initialConditions (Fin 1) (Fin 1) with
    mode := fun _ => .heating
    thetaR := fun _ => hearthT
    thetaMrt := fun _ => hearthT
    xR := fun _ => 0
    thetaFrt := fun _ => hearthT
    thetaEi := fun _ => hearthT + hearthL / 150
    qSrf := fun _ => 7.5 * (hearthL / 150)
    dshA := fun _ _ => 0
    dshT := fun _ _ => 0 }

theorem exHearth_settled (k : Fin 96) : Settled exHearth exColdHR (exHearthDay k) (fun _ => hearthL) (fun _ => hearthT) (fun _ => hearthT)
    (fun _ => hearthT) exHearthC := by
  refine ⟨rfl, rfl, fun j => ?_, ?_, fun j l => ?_, fun j l => ?_⟩
  · rw [exHearth_exposure]
    norm_num [exHearthC, exHearth, exStove, exCold, exColdHR]
  · funext j
    rw [exHearth_exposure]
    rfl
  · simp [exHearthC, exHearth, exStove, exCold]
  · simp [exHearthC, exHearth, exStove, exCold]

theorem exHearth_operative (i : Fin 1) : operative exHearth (fun _ => hearthT) (fun _ => hearthT) i = hearthT := by
  unfold operative
  rw [exHearth_surfaces, sum_singleton]
  have := hHumC_pos
  have := hHumR_pos
  have hne : hHumC + hHumR ≠ 0 := by positivity
  rw [div_eq_iff hne]
  simp [exHearth, exStove, exCold]
  ring

/-- The room stays in the mode HEATING and is to be kept at its temperature. -/
theorem exHearth_target {o : OtTarget} (H : getOtTargetAndHHum hearthT hearthT 0 .heating 1 = .ok o) : o.mode = .heating ∧ o.thetaLower = hearthT := by
  have hh : 0 < hHumC + hHumR := add_pos hHumC_pos hHumR_pos
  have hp : getHHumAndPmv (getPvR 0) hearthT hearthT cloHeavy = -0.5 := by
    have := pmv_target_exact 1.1 (getPvR 0) (hHumC + hHumR) (-0.5) (by norm_num) hh
    unfold getHHumAndPmv getThetaOt
    have e1 : (hHumR * hearthT + hHumC * hearthT) / (hHumR + hHumC) = hearthT := by
      rw [div_eq_iff (by rw [add_comm]; exact hh.ne')]; ring
    rw [e1, add_comm hHumR hHumC]
    simpa [hearthT, getThetaOtTargetOfMode, getClo, getPmvTarget, cloHeavy] using this
  unfold getOtTargetAndHHum getOperationMode at H
  simp only [bind, Except.bind, hp] at H
  norm_num at H
  rw [← H]
  exact ⟨rfl, by simp [hearthT]⟩

/-- **C95.** The hypotheses of `C95_found_partial` and `C95_kept_partial` are met by a house that a radiant heater keeps 15 K above the outdoor
air: the step finds the load of the heater, and nothing changes. -/
theorem exHearth_still : ∃ ss t, makePreCalc exHearth exColdHR 900 exHearthDay = .ok ss ∧ runTick 0 900 ss exHearthC = .ok t ∧
    t.thetaR 0 = hearthT ∧ t.lr 0 = hearthL ∧ t.lc 0 = 0 ∧ 361 < t.lr 0 ∧ SameHeat exHearthC t.next := by
  have hw := exHearth_wellFormed
  have hrad : RadiantWellFormed exHearth := ⟨fun i => by norm_num [exHearth, exStove], fun j => by norm_num [exHearth]⟩
  have hreach : RadiantReaches exHearth default := Or.inl (by norm_num [exHearth, exStove])
  have hloc : ∀ k i, 0 ≤ (exHearthDay k).vLocal i := fun _ _ => le_rfl
  obtain ⟨ss, t, Hp, H⟩ := C21_single_room_partial (c := exHearthC) (data := exHearthDay) (n := 0) hw hrad hreach hloc
    (fun i => by simp [exHearthC]) (by norm_num)
  have hk : pyIndex 96 0 = .ok (0 : Fin 96) := rfl
  have h23 := fun i => C23_natural_ventilation Hp H hk i
  have hwall : t.thetaS 0 = hearthT := by
    obtain ⟨ivs, k', -, hss, -, e⟩ := step_eqs Hp H
    have h17 := C17_wall_equation_partial Hp H hk 0 (by norm_num [exHearth, exStove, exCold, exColdHR]) (by simp [exHearth, exStove, exCold])
    have h1 : ∀ m, t.dshA 0 m = 0 := by
      intro m; rw [e.dshA, hss]; simp [Tick.dshA, preCalcOf, exHearth, exStove, exCold]
    have h2 : ∀ m, t.dshT 0 m = 0 := by
      intro m; rw [e.dshT, hss]; simp [Tick.dshT, preCalcOf, exHearth, exStove, exCold]
    simp only [h1, h2] at h17
    rw [h17]
    simp [exHearth, exStove, exCold, rearTemp, exHearthDay]
  have h13 := C13_operative_temperature Hp H 0
  rw [exHearth_surfaces, sum_singleton, hwall] at h13
  have hf1 : exHearth.fMrtHum 0 = 1 := rfl
  rw [hf1, one_mul, eq_div_iff (add_pos hHumC_pos hHumR_pos).ne'] at h13
  have h14 := C14_balance_as_coded Hp H hk 0 (by norm_num [exHearth, exStove, exCold])
  obtain ⟨ivs, k', hi, hss, hk', e⟩ := step_eqs Hp H
  have : k' = 0 := Except.ok.inj (hk'.symm.trans hk)
  subst this
  have e' := e
  rw [hss] at e'
  obtain ⟨hmode, hlow⟩ := exHearth_target (o := t.ot 0) (by
    have := e'.ot 0
    simpa [exHearthC, preCalcOf, exHearthDay] using this)
  have hleak : ∀ i, t.vLeak i = 0 := by
    have h1 : getInfiltration exHearth.cValue exHearth.vRoom exHearth.story exHearth.pressure (fun _ => hearthT) (hearthT - 15)
        = .ok t.vLeak := e'.vLeak
    intro i
    unfold getInfiltration volumeAverage at h1
    simp only [exHearth, exStove, exCold, infiltrationA, infiltrationB, bind, Except.bind, Fintype.sum_unique] at h1
    norm_num at h1
    rw [← h1]
  have hvo : t.vOut = fun _ => 0.01 := by
    funext i
    have hi0 : i = 0 := Subsingleton.elim _ _
    subst hi0
    rw [(h23 0).2.2.1, (h23 0).2.1 (by simp [TickVars.next, hmode]), hleak]
    norm_num [exHearth, exStove, exCold, exHearthDay]
  have hq : t.qHum = fun _ => 0 := by
    funext i
    rw [e'.qHum]
    simp [Tick.qHum, preCalcOf, exHearthDay]
  have hg : exHearth.gSh 0 = 0 := rfl
  have hconv : convection exHearth 0 (t.thetaR 0) t.thetaS = 25 * (hearthT - t.thetaR 0) := by
    unfold convection
    rw [exHearth_surfaces, sum_singleton, hwall]
    norm_num [exHearth, exStove, exCold]
  have hint : ∑ l, exHearth.vInt 0 l * t.thetaR l = 0 := by simp [exHearth, exStove, exCold]
  rw [hconv, hint, hvo, hq, hg] at h14
  norm_num [exHearth, exStove, exCold, exHearthDay, exHearthC, airCap] at h14
  obtain ⟨nat, p1, -, hnat, -, -⟩ := calc_passes e.load
  set a := Tick.loadInput ss 0 t.ot t.brcOt t.brmOt t.brlOt with ha
  have hcap : CapsNonneg a := by rw [ha, hss]; exact fun i => ⟨hw.capH_nonneg i, hw.capC_nonneg i⟩
  have hamode : a.mode 0 = .heating := hmode
  have hnc : ¬ Cooled a nat 0 := by rintro ⟨h1, -⟩; rw [hamode] at h1; cases h1
  have c1 := hHumC_pos
  have c2 := hHumR_pos
  have hheat : Heated a nat 0 := by
    by_contra hh
    have hz : t.lc 0 = 0 ∧ t.lr 0 = 0 := C08_no_load a _ e.load hcap nat hnat _ hh hnc
    have hno : ∀ i, ¬ Heated a nat i ∧ ¬ Cooled a nat i := fun i => by
      have hi0 : i = 0 := Subsingleton.elim _ _
      subst hi0
      exact ⟨hh, hnc⟩
    have hdet : t.brmOt.det ≠ 0 := by
      obtain ⟨n', p', hd, -⟩ := calc_passes e.load
      exact hd
    have hnt : t.thetaOt 0 = nat 0 := by
      have h7 := C07_room_equations _ _ e.load 0
      have h8 := congrFun hnat 0
      rw [← ha] at h7
      simp only [Fintype.sum_unique] at h7
      have h9 : t.brmOt 0 0 * t.thetaOt 0 = t.brcOt 0 := by
        have : t.brmOt 0 0 * t.thetaOt 0 = t.lc 0 + t.brlOt 0 0 * t.lr 0 + t.brcOt 0 := h7
        rw [this, hz.1, hz.2]; ring
      have h10 : t.brmOt 0 0 * nat 0 = t.brcOt 0 := by
        have h11 : a.brm 0 0 * nat 0 = a.brc 0 := by simpa [Matrix.mulVec, dotProduct] using h8
        exact h11
      have hd0 : t.brmOt 0 0 ≠ 0 := by simpa using hdet
      exact mul_left_cancel₀ hd0 (h9.trans h10.symm)
    have hge : hearthT ≤ nat 0 := by
      by_contra hlt
      apply hh
      refine ⟨hamode, ?_⟩
      show nat 0 < (t.ot 0).thetaLower
      rw [hlow]
      exact not_le.1 hlt
    rw [hz.1, hz.2] at h14
    rw [hnt] at h13
    have : t.thetaR 0 < hearthT := by
      by_contra hc
      push Not at hc
      linarith
    nlinarith
  have hot : t.thetaOt 0 = hearthT := by
    have := (C09_full_demand a _ e.load nat hnat 0 (by rw [ha, hss]; rfl)).1 hheat
    have h2 : t.thetaOt 0 = (t.ot 0).thetaLower := this
    rw [h2, hlow]
  have hθ : t.thetaR 0 = hearthT := by
    rw [hot] at h13
    have : hHumC * (t.thetaR 0 - hearthT) = 0 := by linarith
    linarith [(mul_eq_zero.1 this).resolve_left c1.ne']
  have hpos := single_pos hw hrad (hloc 0) hi e'
  have hsign := (C12_single_room_partial a _ e.load hcap nat hnat hpos.1 (fun _ => hpos.2 hreach) (by rw [ha, hss]; exact ⟨zero_le_one, le_rfl⟩)).1 hheat
  have hsign' : 0 ≤ t.lc 0 ∧ 0 ≤ t.lr 0 := hsign
  rw [hθ] at h14
  have hra : ∀ i, RadiantActive a nat i := fun i => by
    have hi0 : i = 0 := Subsingleton.elim _ _
    subst hi0
    exact Or.inl ⟨hheat, by rw [ha, hss]; rfl⟩
  have hfound := C95_found_partial (θr := fun _ => hearthT) (θfrt := fun _ => hearthT) (lc := fun _ => 0) (lr := fun _ => hearthL)
    (θs := fun _ => hearthT) (nat := nat) Hp hw H hk (fun i => by rw [exHearth_surfaces, sum_singleton]; norm_num [exHearth, exStove, exCold])
    (fun i => Or.inl (by rw [exHearth_surfaces, sum_singleton]; rfl)) (fun i l => rfl) exHearth_parts
    (by rw [hvo, hq]; exact exHearth_steady 0) (exHearth_settled 0) ha hnat
    (fun i h1 => by
      have hi0 : i = 0 := Subsingleton.elim _ _
      subst hi0
      exact absurd hheat h1)
    (fun i _ => by
      have hi0 : i = 0 := Subsingleton.elim _ _
      subst hi0
      rw [exHearth_operative, hot])
    (fun i _ => by
      have hi0 : i = 0 := Subsingleton.elim _ _
      subst hi0
      refine ⟨rfl, ?_, ?_⟩
      · norm_num [exHearth]; linarith
      · norm_num [exHearth, exStove]; linarith)
    (fun i h1 => absurd (hra i) h1)
  obtain ⟨-, -, -, f4, f5, f6⟩ := hfound
  refine ⟨ss, t, Hp, H, hθ, congrFun f5 0, congrFun f4 0, ?_, f6⟩
  rw [congrFun f5 0]
  norm_num [hearthL, airCap]

end HLC
