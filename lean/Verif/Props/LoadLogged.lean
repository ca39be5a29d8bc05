import Verif.Props.ModeLogged

/-!
# C09-C12 for whole calculations: the loads of every row
-/

namespace HLC

set_option linter.unusedSectionVars false

open Spec

section
variable {I : Type} [Fintype I] [DecidableEq I] {m N : ℕ} {h : House I (Fin m)} {hR : Fin m → ℝ}
  {data : Fin N → Record I (Fin m)} {hourly dMain dRunUp dRunUpBuild : ℤ} {r : CalcResult I m N}

/-- **C10** for whole calculations. In every row: a room whose mode is neither HEATING nor COOLING has no load; a radiative load appears only
in a room that is heated and has a radiative heating system or is cooled and has a radiative cooling system; and where both loads appear
the radiative one is at a capacity limit. -/
theorem C10_program (hcap : ∀ i, 0 ≤ h.capH i ∧ 0 ≤ h.capC i)
    (H : coreCalc h hR data hourly dMain dRunUp dRunUpBuild = .ok r) (k : Fin r.nMain.toNat) (i : I) :
    ((r.log k).mode i ≠ some .heating → (r.log k).mode i ≠ some .cooling → (r.log k).lCs i = 0 ∧ (r.log k).lRs i = 0) ∧
    ((r.log k).lRs i ≠ 0 → ((r.log k).mode i = some .heating ∧ h.isRadHeating i = true) ∨
      ((r.log k).mode i = some .cooling ∧ h.isRadCooling i = true)) ∧
    ((r.log k).lRs i ≠ 0 → (r.log k).lCs i ≠ 0 → (r.log k).lRs i = h.capH i ∨ (r.log k).lRs i = -h.capC i) := by
  obtain ⟨k', c, t, -, e2, Hp, Ht, el⟩ := logged_step H k
  obtain ⟨ivs, k'', -, hs, hk', e⟩ := step_eqs Hp Ht
  rw [el]
  simp only [LogRow.ofTick, ne_eq, Option.some.injEq]
  obtain ⟨nat, p1, -, hnat, -, -⟩ := calc_passes e.load
  set a := Tick.loadInput r.ss k'' t.ot t.brcOt t.brmOt t.brlOt with ha
  have hcap' : CapsNonneg a := by rw [ha, hs]; exact hcap
  have eH : a.isRadHeating i = h.isRadHeating i := by rw [ha, hs]; rfl
  have eC : a.isRadCooling i = h.isRadCooling i := by rw [ha, hs]; rfl
  have fH : a.capH i = h.capH i := by rw [ha, hs]; rfl
  have fC : a.capC i = h.capC i := by rw [ha, hs]; rfl
  have hmode : a.mode i = (t.ot i).mode := rfl
  obtain ⟨g1, g2⟩ := C10_one_system a _ e.load hcap' nat hnat i
  have hact : ¬ t.lr i = 0 → RadiantActive a nat i := fun hl => by
    by_contra hn
    exact hl (g1 hn)
  refine ⟨fun n1 n2 => ?_, fun hl => ?_, fun hl hc => ?_⟩
  · refine C08_no_load a _ e.load hcap' nat hnat i ?_ ?_
    · rintro ⟨x, -⟩; exact n1 (hmode.symm.trans x)
    · rintro ⟨x, -⟩; exact n2 (hmode.symm.trans x)
  · rcases hact hl with ⟨⟨x, -⟩, y⟩ | ⟨⟨x, -⟩, y⟩
    · exact Or.inl ⟨hmode.symm.trans x, eH ▸ y⟩
    · exact Or.inr ⟨hmode.symm.trans x, eC ▸ y⟩
  · have := g2 (hact hl) hc
    rwa [fH, fC] at this

/-- **C11** for whole calculations (partial): in a house with radiative equipment in at most one room, the radiative load of every room in every
row is between its cooling and its heating capacity. Missing: radiative equipment in several rooms, where the claim is false
(`C11_capacity_violated`). -/
theorem C11_program_partial (hcap : ∀ i, 0 ≤ h.capH i ∧ 0 ≤ h.capC i)
    (hone : ∀ i j, (h.isRadHeating i = true ∨ h.isRadCooling i = true) → (h.isRadHeating j = true ∨ h.isRadCooling j = true) → i = j)
    (H : coreCalc h hR data hourly dMain dRunUp dRunUpBuild = .ok r) (k : Fin r.nMain.toNat) (i : I) :
    -h.capC i ≤ (r.log k).lRs i ∧ (r.log k).lRs i ≤ h.capH i := by
  obtain ⟨k', c, t, -, e2, Hp, Ht, el⟩ := logged_step H k
  obtain ⟨ivs, k'', -, hs, hk', e⟩ := step_eqs Hp Ht
  rw [el]
  simp only [LogRow.ofTick]
  obtain ⟨nat, p1, -, hnat, -, -⟩ := calc_passes e.load
  set a := Tick.loadInput r.ss k'' t.ot t.brcOt t.brmOt t.brlOt with ha
  have hcap' : CapsNonneg a := by rw [ha, hs]; exact hcap
  have eH : a.isRadHeating = h.isRadHeating := by rw [ha, hs]; rfl
  have eC : a.isRadCooling = h.isRadCooling := by rw [ha, hs]; rfl
  have fH : a.capH i = h.capH i := by rw [ha, hs]; rfl
  have fC : a.capC i = h.capC i := by rw [ha, hs]; rfl
  have hact : ∀ i, RadiantActive a nat i → h.isRadHeating i = true ∨ h.isRadCooling i = true := by
    rintro i (⟨-, y⟩ | ⟨-, y⟩)
    · exact Or.inl (eH ▸ y)
    · exact Or.inr (eC ▸ y)
  have := C11_capacity_partial a _ e.load hcap' nat hnat (fun i j x y => hone i j (hact i x) (hact j y)) i
  rwa [fH, fC] at this

/-- A temperature at which the program's comfort index has a value is one at which that of the specification has it. -/
theorem getPmv_vote {clo : ℝ} (hc : 0 ≤ clo) (T x : ℝ) : getPmv T clo (getPvR x) (hHumC + hHumR) T = roomVote clo T T x := by
  rw [← getHHumAndPmv_eq hc]
  unfold getHHumAndPmv getThetaOt
  have h1 : (0 : ℝ) < hHumR + hHumC := add_pos hHumR_pos hHumC_pos
  rw [add_comm hHumC, ← add_mul, mul_div_cancel_left₀ _ h1.ne']

/-- **C09** for whole calculations, any number of rooms: in every row but the first in which a room with full demand has a load, a person in
winter clothing (if it is heated; in summer clothing if it is cooled), in air and between surfaces of the logged operative temperature
and with the humidity of the row before, votes -0.5 (+0.5). -/
theorem C09_program (hcap : ∀ i, 0 ≤ h.capH i ∧ 0 ≤ h.capC i)
    (H : coreCalc h hR data hourly dMain dRunUp dRunUpBuild = .ok r) (k : ℕ) (hk : k + 1 < r.nMain.toNat) (k' : Fin N)
    (hk' : (k' : ℕ) = k + 1) (i : I) (hd : (data k').acDemand i = 1)
    (hl : (r.log ⟨k + 1, hk⟩).lCs i ≠ 0 ∨ (r.log ⟨k + 1, hk⟩).lRs i ≠ 0) :
    let θ := (r.log ⟨k + 1, hk⟩).thetaOt i
    let x := (r.log ⟨k, by omega⟩).xR i
    ((r.log ⟨k + 1, hk⟩).mode i = some .heating ∧ roomVote 1.1 θ θ x = -0.5) ∨
    ((r.log ⟨k + 1, hk⟩).mode i = some .cooling ∧ roomVote 0.3 θ θ x = 0.5) := by
  obtain ⟨k'', t, t', e1, e2, Hp, Ht, el, el'⟩ := logged_pair H k hk
  have : k'' = k' := Fin.ext (by omega)
  subst this
  obtain ⟨ivs, k3, -, hs, hk3, e⟩ := step_eqs Hp Ht
  have : k3 = k'' := Except.ok.inj (hk3.symm.trans e2)
  subst this
  obtain ⟨g1, g2, -⟩ := C04_target_realises_pmv _ _ _ _ _ _ (e.ot i)
  obtain ⟨q1, q2⟩ := ot_coefs (e.ot i)
  rw [q1, q2] at g1 g2
  rw [el'] at hl
  rw [el, el']
  simp only [LogRow.ofTick, Option.some.injEq] at hl ⊢
  obtain ⟨nat, p1, -, hnat, -, -⟩ := calc_passes e.load
  set a := Tick.loadInput r.ss k3 t'.ot t'.brcOt t'.brmOt t'.brlOt with ha
  have hcap' : CapsNonneg a := by rw [ha, hs]; exact hcap
  have hdem : a.demand i = 1 := by rw [ha, hs]; exact hd
  obtain ⟨f1, f2⟩ := C09_full_demand a _ e.load nat hnat i hdem
  by_cases hh : Heated a nat i
  · left
    have hm : (t'.ot i).mode = .heating := hh.1
    have := (g1 hm).1
    have hθ : t'.thetaOt i = (t'.ot i).thetaLower := f1 hh
    rw [← hθ, getPmv_vote (by norm_num)] at this
    exact ⟨hm, this⟩
  by_cases hc : Cooled a nat i
  · right
    have hm : (t'.ot i).mode = .cooling := hc.1
    have := (g2 hm).1
    have hθ : t'.thetaOt i = (t'.ot i).thetaUpper := f2 hc
    rw [← hθ, getPmv_vote (by norm_num)] at this
    exact ⟨hm, this⟩
  have hz : t'.lc i = 0 ∧ t'.lr i = 0 := C08_no_load a _ e.load hcap' nat hnat i hh hc
  rcases hl with hl | hl
  · exact absurd hz.1 hl
  · exact absurd hz.2 hl

end

section
variable {I J : Type} [Fintype I] [DecidableEq I] [Unique I] [Fintype J] [DecidableEq J] {N : ℕ} {h : House I J} {hR : J → ℝ}
  {data : Fin N → Record I J} {dt : ℝ} {k : Fin N} {c : Cond I J} {t : TickVars I J} {ivs : Matrix J J ℝ}

/-- In a well-formed one-room house heat warms the room, radiant heat if it reaches the room. -/
theorem single_pos (hw : WellFormed h hR dt) (hr : RadiantWellFormed h)
    (hloc : ∀ i, 0 ≤ (data k).vLocal i) (hi : npInv (h.ax hR) = .ok ivs) (e : TickEqs (preCalcOf h hR dt data ivs) dt k c t) :
    0 < t.brmOt default default ∧ (RadiantReaches h default → 0 < t.brlOt default default) := by
  set pc := preCalcOf h hR dt data ivs with hpc
  have hcoef : ∀ i, (t.ot i).hHumC = hHumC ∧ (t.ot i).hHumR = hHumR := fun i => ot_coefs (e.ot i)
  have hbrm : 0 < t.brm default default := by
    rw [e.brm]; exact (brm_rowDom hw hi (vOut_nonneg hw hloc e) default).diag_pos
  have hxotp : 0 < t.xot default default := by
    have h1 : Tick.otMat pc t.ot default default * t.xot default default = 1 := by
      have := congrFun (congrFun (mul_npInv e.xot) default) default
      rwa [Matrix.mul_apply, Fintype.sum_unique, Matrix.one_apply_eq] at this
    have h2 : 0 < Tick.otMat pc t.ot default default := (otMat_rowDom hw hi hcoef default).diag_pos
    by_contra hc
    have := mul_nonpos_of_nonneg_of_nonpos h2.le (not_lt.mp hc)
    linarith
  constructor
  · rw [e.brmOt]; unfold Tick.brmOt
    rw [Matrix.mul_apply, Fintype.sum_unique]
    exact mul_pos hbrm hxotp
  · intro hreach
    rw [e.brlOt]; unfold Tick.brlOt
    rw [Matrix.add_apply, Matrix.mul_apply, Fintype.sum_unique]
    have h1 : 0 < pc.brl default default := brl_pos hw hr hi hreach
    have h2 : 0 ≤ t.xlr default default := by
      rw [e.xlr]; unfold Tick.xlr
      rw [Matrix.mul_apply, Fintype.sum_unique, Matrix.of_apply]
      refine mul_nonneg hxotp.le (mul_nonneg ?_ ?_)
      · unfold Tick.kr; rw [(hcoef _).1, (hcoef _).2]
        have := hHumR_pos
        have h4 : (0 : ℝ) < hHumC := by unfold hHumC; norm_num
        positivity
      · refine mul_nonneg_entries (fun a b => ?_) (wsb_nonneg hw hr hi) _ _
        show 0 ≤ h.fMrtHumMat a b
        simp only [House.fMrtHumMat, Matrix.of_apply]
        exact mul_nonneg (p_nonneg h a b) (hw.fMrtHum_nonneg b)
    have := mul_nonneg hbrm.le h2
    linarith

end

section
variable {I : Type} [Fintype I] [DecidableEq I] [Unique I] {m N : ℕ} {h : House I (Fin m)} {hR : Fin m → ℝ}
  {data : Fin N → Record I (Fin m)} {hourly dMain dRunUp dRunUpBuild : ℤ} {r : CalcResult I m N}

/-- **C12** for whole calculations (partial: one room): in every row of a well-formed one-room house with demands between 0 and 1, a room
in the mode HEATING has loads of at least zero and a room in the mode COOLING has loads of at most zero. Missing: several rooms, where
the claim is false for single rooms (`C12_sign_violated`). -/
theorem C12_program_partial (hw : WellFormed h hR (3600 / (hourly : ℝ))) (hr : RadiantWellFormed h)
    (hreach : h.isRadHeating default = true ∨ h.isRadCooling default = true → RadiantReaches h default)
    (hloc : ∀ k i, 0 ≤ (data k).vLocal i) (hd : ∀ k i, 0 ≤ (data k).acDemand i ∧ (data k).acDemand i ≤ 1)
    (H : coreCalc h hR data hourly dMain dRunUp dRunUpBuild = .ok r) (k : Fin r.nMain.toNat) (i : I) :
    ((r.log k).mode i = some .heating → 0 ≤ (r.log k).lCs i ∧ 0 ≤ (r.log k).lRs i) ∧
    ((r.log k).mode i = some .cooling → (r.log k).lCs i ≤ 0 ∧ (r.log k).lRs i ≤ 0) := by
  obtain ⟨k', c, t, -, e2, Hp, Ht, el⟩ := logged_step H k
  obtain ⟨ivs, k'', hi, hs, hk', e⟩ := step_eqs Hp Ht
  rw [el]
  simp only [LogRow.ofTick, Option.some.injEq]
  rw [Unique.eq_default i]
  obtain ⟨nat, p1, -, hnat, -, -⟩ := calc_passes e.load
  set a := Tick.loadInput r.ss k'' t.ot t.brcOt t.brmOt t.brlOt with ha
  have hcap' : CapsNonneg a := by rw [ha, hs]; exact fun i => ⟨hw.capH_nonneg i, hw.capC_nonneg i⟩
  have hdem : 0 ≤ a.demand default ∧ a.demand default ≤ 1 := by rw [ha, hs]; exact hd k'' default
  have hpos := single_pos hw hr (hloc k'') hi (by rw [← hs]; exact e)
  obtain ⟨s1, s2⟩ := C12_single_room_partial a _ e.load hcap' nat hnat hpos.1 (fun h => hpos.2 (hreach (by rw [ha, hs] at h; exact h))) hdem
  have hmode : a.mode default = (t.ot default).mode := rfl
  constructor
  · intro hm
    by_cases hh : Heated a nat default
    · exact s1 hh
    · have hc : ¬ Cooled a nat default := by rintro ⟨h1, -⟩; rw [hmode, hm] at h1; cases h1
      have hz : t.lc default = 0 ∧ t.lr default = 0 := C08_no_load a _ e.load hcap' nat hnat _ hh hc
      exact ⟨hz.1.ge, hz.2.ge⟩
  · intro hm
    by_cases hc : Cooled a nat default
    · exact s2 hc
    · have hh : ¬ Heated a nat default := by rintro ⟨h1, -⟩; rw [hmode, hm] at h1; cases h1
      have hz : t.lc default = 0 ∧ t.lr default = 0 := C08_no_load a _ e.load hcap' nat hnat _ hh hc
      exact ⟨hz.1.le, hz.2.le⟩

end

/-! ## A house with a radiant heater -/

/-- The cold house with a radiant heater of 500 W, half of whose heat goes to the air. -/
noncomputable def exStove : House (Fin 1) (Fin 1) :=
  { exCold with
    beta := fun _ => 0.5
    isRadHeating := fun _ => true
    capH := fun _ => 500 }

theorem exStove_wellFormed : WellFormed exStove exColdHR 900 where
  dt_pos := by norm_num
  vRoom_pos := by intro i; norm_num [exStove, exCold]
  cSh_nonneg := by intro i; norm_num [exStove, exCold]
  gSh_nonneg := by intro i; norm_num [exStove, exCold]
  cLh_nonneg := by intro i; norm_num [exStove, exCold]
  gLh_nonneg := by intro i; norm_num [exStove, exCold]
  frtSh_pos := by intro i; norm_num [exStove, exCold]
  frtLh_pos := by intro i; norm_num [exStove, exCold]
  area_pos := by intro j; norm_num [exStove, exCold]
  hC_pos := by intro j; norm_num [exStove, exCold]
  hR_pos := by intro j; norm_num [exColdHR]
  phiA0_nonneg := by intro j; norm_num [exStove, exCold]
  phiT0_mem := by intro j; norm_num [exStove, exCold]
  kEi_mem := by intro j m coef; simp [exStove, exCold]
  fMrtHum_nonneg := by intro j; norm_num [exStove, exCold]
  fMrtHum_sum := by intro i; exact exCold_wellFormed.fMrtHum_sum i
  vInt_nonneg := by intro i l; simp [exStove, exCold]
  vInt_lt := by intro i; norm_num [exStove, exCold]
  vVentEx_nonneg := by intro i; norm_num [exStove, exCold]
  vNtrl_nonneg := by intro i; norm_num [exStove, exCold]
  capH_nonneg := by intro i; norm_num [exStove, exCold]
  capC_nonneg := by intro i; norm_num [exStove, exCold]
  story_mem := Or.inl rfl
  pressure_mem := Or.inl rfl
  rac_q := by intro i; norm_num [exStove, exCold]
  rac_v := by intro i; norm_num [exStove, exCold]
  rac_fan := by intro i; norm_num [exStove, exCold]

theorem exStove_radiant : RadiantWellFormed exStove where
  beta_mem := by intro i; norm_num [exStove]
  flr_nonneg := by intro j; norm_num [exStove, exCold]

theorem exStove_reaches : RadiantReaches exStove default := Or.inl (by norm_num [exStove])

theorem exStove_completes : ∃ r, coreCalc exStove exColdHR exColdData 4 1 0 0 = .ok r := by
  apply C21_program_single_partial
  · have := exStove_wellFormed
    norm_num at this ⊢
    exact this
  · exact exStove_radiant
  · exact exStove_reaches
  · intro k i; norm_num [exColdData]
  all_goals norm_num

/-- The hypotheses of `C10_program`, `C11_program_partial` and `C12_program_partial` are met: in every row of this calculation the radiant
heater gives at most 500 W, and no cold. -/
example : ∃ r, coreCalc exStove exColdHR exColdData 4 1 0 0 = .ok r ∧ ∀ k : Fin r.nMain.toNat,
    0 ≤ (r.log k).lRs 0 ∧ (r.log k).lRs 0 ≤ 500 := by
  obtain ⟨r, H⟩ := exStove_completes
  refine ⟨r, H, fun k => ?_⟩
  have := C11_program_partial (h := exStove) (fun i => by norm_num [exStove, exCold]) (fun _ _ _ _ => Subsingleton.elim _ _) H k 0
  simpa [exStove, exCold] using this

/-! ## A room that is heated in its second quarter hour -/

/-- Votes in cold, not too humid rooms. -/
theorem cold_pmv_le {p a mr : ℝ} (hp : p ≤ 1300) (ha : a ≤ 15) (hmr : mr ≤ 15) :
    getHHumAndPmv p a mr 1.1 ≤ -0.7 ∧ getHHumAndPmv p a mr 0.3 < 0.7 := by
  obtain ⟨h1, h2⟩ := hHum_bounds
  have hR0 := hHumR_pos
  have hC0 := hHumC_pos
  have hmax : max (0.42 * (getM - 58.15)) (0 : ℝ) = 0 := by unfold getM; norm_num
  have hot : getThetaOt hHumR hHumC mr a ≤ 15 := by
    unfold getThetaOt
    rw [div_le_iff₀ (by linarith)]
    nlinarith
  have hk : 0.04 ≤ 0.303 * Real.exp (-0.036 * getM) + 0.028 := by
    have h3 : Real.exp (-3) ≤ Real.exp (-0.036 * getM) := Real.exp_le_exp.2 (by unfold getM; norm_num)
    have h4 : Real.exp 3 ≤ 21 := by
      have h5 : Real.exp 3 = Real.exp 1 ^ 3 := by rw [← Real.exp_nat_mul]; norm_num
      have h6 : Real.exp 1 ^ 3 ≤ 2.7182818286 ^ 3 := pow_le_pow_left₀ (Real.exp_pos 1).le Real.exp_one_lt_d9.le 3
      have h7 : (2.7182818286 : ℝ) ^ 3 ≤ 21 := by norm_num
      linarith
    have h8 : 1 / 21 ≤ Real.exp (-3) := by
      rw [Real.exp_neg, ← one_div]
      exact one_div_le_one_div_of_le (Real.exp_pos 3) h4
    linarith
  have key : ∀ clo, getHHumAndPmv p a mr clo = (0.303 * Real.exp (-0.036 * getM) + 0.028) *
      (getM - 3.05 * (10 : ℝ) ^ (-3 : ℤ) * (5733 - 6.99 * getM - p) - 1.7 * (10 : ℝ) ^ (-5 : ℤ) * getM * (5867 - p)
        - 0.0014 * getM * (34 - a) - cloFactor clo (hHumR + hHumC) * (35.7 - 0.028 * getM - getThetaOt hHumR hHumC mr a)) := by
    intro clo
    unfold getHHumAndPmv getPmv cloFactor
    simp only [hmax]
    ring
  have c1 : 3.3 ≤ cloFactor 1.1 (hHumR + hHumC) := by
    generalize hHumR + hHumC = h at *
    unfold cloFactor
    rw [fcl_heavy]
    unfold getIcl
    have : (0 : ℝ) < 1 + 1.1 * 0.155 * 1.1599725 * h := by nlinarith
    rw [le_div_iff₀ this]; nlinarith
  have c2 : 5 ≤ cloFactor 0.3 (hHumR + hHumC) := by
    generalize hHumR + hHumC = h at *
    unfold cloFactor
    rw [fcl_light]
    unfold getIcl
    have : (0 : ℝ) < 1 + 0.3 * 0.155 * 1.059985 * h := by nlinarith
    rw [le_div_iff₀ this]; nlinarith
  generalize 0.303 * Real.exp (-0.036 * getM) + 0.028 = K at *
  rw [key, key]
  generalize cloFactor 1.1 (hHumR + hHumC) = g1 at *
  generalize cloFactor 0.3 (hHumR + hHumC) = g2 at *
  generalize getThetaOt hHumR hHumC mr a = o at *
  unfold getM
  norm_num
  have d1 : 3.3 * (35.7 - 0.028 * 58.15 - 15) ≤ g1 * (35.7 - 0.028 * 58.15 - o) := by nlinarith
  have d2 : 5 * (35.7 - 0.028 * 58.15 - 15) ≤ g2 * (35.7 - 0.028 * 58.15 - o) := by nlinarith
  norm_num at d1 d2
  constructor
  · nlinarith
  · nlinarith

/-- The cold house without people, with demand in the second quarter hour only. -/
noncomputable def exLateData : Fin 96 → Record (Fin 1) (Fin 1) := fun k =>
  { exColdData k with
    nHum := fun _ => 0
    acDemand := fun _ => if k = 1 then 1 else 0 }

theorem exLate_completes : ∃ r, coreCalc exCold exColdHR exLateData 4 1 0 0 = .ok r := by
  apply C21_program_partial
  · have := exCold_wellFormed
    norm_num at this ⊢
    exact this
  · exact fun _ => rfl
  · exact fun _ => rfl
  · intro k i; norm_num [exLateData, exColdData]
  all_goals norm_num

/-- The wall of the cold house has the temperature -100 in every step. -/
theorem exCold_wall {data : Fin 96 → Record (Fin 1) (Fin 1)} {ss : PreCalc (Fin 1) (Fin 1) 96} {n : ℤ} {c : Cond (Fin 1) (Fin 1)}
    {t : TickVars (Fin 1) (Fin 1)} {k : Fin 96} (hsol : (data k).thetaOSol 0 = -100) (Hp : makePreCalc exCold exColdHR 900 data = .ok ss)
    (Ht : runTick n 900 ss c = .ok t) (hk : pyIndex 96 n = .ok k) : t.thetaS 0 = -100 := by
  obtain ⟨ivs, k', -, hs, -, e⟩ := step_eqs Hp Ht
  have hh : exCold.hI exColdHR 0 ≠ 0 := by norm_num [exCold, exColdHR, House.hI]
  have hw := C17_wall_equation_partial Hp Ht hk 0 hh (by simp [exCold])
  have h1 : ∀ m, t.dshA 0 m = 0 := by
    intro m; rw [e.dshA, hs]; simp [Tick.dshA, preCalcOf, exCold]
  have h2 : ∀ m, t.dshT 0 m = 0 := by
    intro m; rw [e.dshT, hs]; simp [Tick.dshT, preCalcOf, exCold]
  simp only [h1, h2] at hw
  rw [hw]
  simp [exCold, rearTemp, hsol]

theorem late_step {r : CalcResult (Fin 1) 1 96} (H : coreCalc exCold exColdHR exLateData 4 1 0 0 = .ok r) (hk : 1 < r.nMain.toNat) :
    (r.log ⟨1, hk⟩).mode 0 = some .heating ∧ 0 < (r.log ⟨1, hk⟩).lCs 0 := by
  have hcap : ∀ i, 0 ≤ exCold.capH i ∧ 0 ≤ exCold.capC i := fun i => by norm_num [exCold]
  have hdt : (3600 / ((4 : ℤ) : ℝ)) = 900 := by norm_num
  -- the first quarter hour
  obtain ⟨c, t0, Hp, Ht0, el, c1, c2, c3, c4, c5, -⟩ := first_step H (fun _ => rfl)
  have hidx0 : pyIndex 96 0 = .ok (0 : Fin 96) := by rfl
  have hS0 := exCold_wall (by simp [exLateData, exColdData]) Hp Ht0 hidx0
  obtain ⟨z1, z2, z3⟩ := step_no_demand Hp Ht0 hidx0 hcap (i := 0) (by simp [exLateData])
  have hp0 := C37_logged Hp Ht0 hidx0 0
  have hq0 : t0.qHum 0 = 0 ∧ t0.xHum 0 = 0 := by
    have h1 := hp0.1
    have h2 := hp0.2
    norm_num [exLateData, LogRow.ofTick] at h1 h2
    exact ⟨by linarith, by linarith⟩
  have vo : ∀ {n : ℤ} {c : Cond (Fin 1) (Fin 1)} {t : TickVars (Fin 1) (Fin 1)}, runTick n 900 r.ss c = .ok t → 0 ≤ t.vOut 0 := by
    intro n c t Ht
    obtain ⟨ivs, k', -, hs, -, e⟩ := step_eqs Hp Ht
    rw [hs] at e
    exact vOut_nonneg exCold_wellFormed (fun i => by norm_num [exLateData, exColdData]) e 0
  have hr0 : t0.thetaR 0 ≤ 15 := by
    have h14 := C14_balance_as_coded Hp Ht0 hidx0 0 (by norm_num [exCold])
    rw [hq0.1, c1, z1, z2] at h14
    simp only [convection, exCold_surfaces, Finset.sum_singleton, hS0] at h14
    norm_num [exCold, exLateData, exColdData, airCap] at h14
    have := vo Ht0
    by_contra hlt
    push Not at hlt
    nlinarith [mul_nonneg this (sub_nonneg.2 hlt.le)]
  have hx0 : getPvR (t0.xR 0) ≤ 1300 := by
    have h18 := C18_balance_as_coded Hp Ht0 hidx0 0 (by norm_num [exCold])
    rw [hq0.2, z3] at h18
    norm_num [exCold, exLateData, exColdData] at h18
    have hv := vo Ht0
    have hc := c4 0
    have hc1 := coldP_le
    rw [← hc] at hc1
    unfold getPvR getF at hc1 ⊢
    have hpos : 0 < coldP := by
      have h1 := pvs20_le
      have h0 := C54_saturation_positive 20
      have hx : 0 < getX (getPvs 20 * 0.4) := by
        unfold getX getF
        exact div_pos (by positivity) (by linarith)
      unfold coldP getPvR getF
      positivity
    have hne : c.xR 0 + 0.62198 ≠ 0 := by
      intro h0
      unfold getPvR at hc
      rw [h0, div_zero] at hc
      exact hpos.ne hc
    have hce : 101325 * c.xR 0 = coldP * (c.xR 0 + 0.62198) := by
      unfold getPvR getF at hc
      rwa [div_eq_iff hne] at hc
    have hP := coldP_le
    have hxl : 0 ≤ c.xR 0 := by
      by_contra hlt
      push Not at hlt
      nlinarith
    have hxu : 100025 * c.xR 0 ≤ 808.574 := by nlinarith
    have hl : 0 ≤ t0.xR 0 := by
      by_contra hlt
      push Not at hlt
      nlinarith [mul_nonneg hv (neg_nonneg.2 hlt.le)]
    have hu : 100025 * t0.xR 0 ≤ 808.574 := by
      by_contra hlt
      push Not at hlt
      have : 0 ≤ t0.xR 0 - 0.004 := by linarith
      nlinarith [mul_nonneg hv this]
    rw [div_le_iff₀ (by linarith)]
    linarith
  have hm0 : t0.thetaMrt 0 = -100 := by
    obtain ⟨ivs, k', -, hs, -, e⟩ := step_eqs Hp Ht0
    have hm : t0.thetaMrt 0 = ∑ j ∈ surfaces exCold 0, exCold.fMrtHum j * t0.thetaS j := by
      rw [e.thetaMrt, hs]; exact fMrtHum_mulVec exCold _ 0
    rw [hm, exCold_surfaces, Finset.sum_singleton, hS0]
    norm_num [exCold]
  -- the second quarter hour
  obtain ⟨n, t, t', hn, hidx, Hp', Ht, e1, e2⟩ := logged_pair H 0 hk
  rw [hdt] at Ht
  have hn1 : n = 1 := Fin.ext (by simpa using hn)
  subst hn1
  have erow := e1.symm.trans (el (by omega))
  have er : t.thetaR = t0.thetaR := congrArg LogRow.thetaR erow
  have ex : t.xR = t0.xR := congrArg LogRow.xR erow
  have em : t.thetaMrt = t0.thetaMrt := congrArg LogRow.thetaMrt erow
  have hmode : (t'.ot 0).mode = .heating := by
    obtain ⟨md, md', n, hn, g1, g2, g3⟩ := C02_program H 0 hk 0
    have hn1 : n = 1 := Fin.ext (by simpa using hn)
    subst hn1
    rw [e1] at g3
    simp only [LogRow.ofTick, er, ex, em, hm0] at g3
    have hv := g3 _ fun _ => rfl
    obtain ⟨q1, q2⟩ := cold_pmv_le hx0 hr0 (show (-100 : ℝ) ≤ 15 by norm_num)
    rw [getHHumAndPmv_eq (by norm_num)] at q1 q2
    have hd : (exLateData 1).acDemand 0 = 1 := by simp [exLateData]
    have : md' = .heating := by
      rw [hv.1, hd]
      obtain ⟨m0, f1, -, k0, f2, f3⟩ := C01_program H ⟨0, by omega⟩ 0
      have hk0 : k0 = 0 := Fin.ext (by simpa using f2)
      have h0 : m0 = .stopClose := f3 (by rw [hk0]; simp [exLateData])
      have hmd : md = .stopClose := (Option.some.inj (g1.symm.trans f1)).trans h0
      exact ⟨one_pos, Or.inr (Or.inr ⟨Or.inr hmd, q2, q1⟩)⟩
    rw [e2, this] at g2
    exact Option.some.inj g2
  have hset := ((step_target Hp Ht hidx hcap 0 (by simp [exLateData])).1 hmode).1
  obtain ⟨ivs, k', -, hs, hk', e⟩ := step_eqs Hp Ht
  have htarget := ((C04_target_realises_pmv _ _ _ _ _ _ (e.ot 0)).1 hmode).1
  obtain ⟨w1, w2⟩ := ot_coefs (e.ot 0)
  rw [w1, w2, show t.next.xR 0 = t0.xR 0 from congrFun ex 0, getPmv_vote (by norm_num)] at htarget
  have h15 : 15 < (t'.ot 0).thetaLower := by
    by_contra hle
    push Not at hle
    have := (cold_pmv_le hx0 hle hle).1
    rw [getHHumAndPmv_eq (by norm_num), htarget] at this
    norm_num at this
  have hS := exCold_wall (by simp [exLateData, exColdData]) Hp Ht hidx
  have h13 := C13_operative_temperature Hp Ht 0
  rw [exCold_surfaces, Finset.sum_singleton, hS] at h13
  have hsum := add_pos hHumC_pos hHumR_pos
  have hR0 := hHumR_pos
  have hC0 := hHumC_pos
  have hRoom : 15 < t'.thetaR 0 := by
    rw [h13, le_div_iff₀ hsum] at hset
    simp only [exCold, one_mul] at hset
    nlinarith
  have hp1 := C37_logged Hp Ht hidx 0
  have hq1 : t'.qHum 0 = 0 := by
    have h1 := hp1.1
    have h2 := hp1.2
    norm_num [exLateData, LogRow.ofTick] at h1 h2
    linarith
  have h14 := C14_balance_as_coded Hp Ht hidx 0 (by norm_num [exCold])
  rw [hq1, show t.next.thetaR = t0.thetaR from er] at h14
  simp only [convection, exCold_surfaces, Finset.sum_singleton, hS] at h14
  rw [e2]
  refine ⟨by show some (t'.ot 0).mode = _; rw [hmode], ?_⟩
  show 0 < t'.lc 0
  norm_num [exCold, exLateData, exColdData, airCap] at h14
  nlinarith [mul_nonneg (vo Ht) (sub_nonneg.2 hRoom.le)]

/-- The hypotheses of `C09_program` are met: the room is heated in its second quarter hour, to the vote -0.5. -/
example : ∃ r, coreCalc exCold exColdHR exLateData 4 1 0 0 = .ok r ∧ ∃ hk : 0 + 1 < r.nMain.toNat,
    0 < (r.log ⟨0 + 1, hk⟩).lCs 0 ∧
    roomVote 1.1 ((r.log ⟨0 + 1, hk⟩).thetaOt 0) ((r.log ⟨0 + 1, hk⟩).thetaOt 0) ((r.log ⟨0, by omega⟩).xR 0) = -0.5 := by
  obtain ⟨r, H⟩ := exLate_completes
  obtain ⟨gs, c0, up, mn, T⟩ := coreCalc_ok H
  have hk : 0 + 1 < r.nMain.toNat := by rw [T.nMain_eq]; norm_num
  obtain ⟨h1, h2⟩ := late_step H hk
  refine ⟨r, H, hk, h2, ?_⟩
  rcases C09_program (fun i => by norm_num [exCold]) H 0 hk 1 rfl 0 (by simp [exLateData]) (Or.inl h2.ne') with ⟨-, h⟩ | ⟨h, -⟩
  · exact h
  · rw [h1] at h; cases h

end HLC
