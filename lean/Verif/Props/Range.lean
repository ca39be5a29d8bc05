import Verif.Spec.Range
import Verif.Props.ProgramSteps

/-!
# C86: temperatures stay in the range of what drives them
-/

namespace HLC

set_option linter.unusedSectionVars false

open Spec

section
variable {I J : Type} [Fintype I] [DecidableEq I] [Fintype J] [DecidableEq J] {N : ℕ} {h : House I J} {hR : J → ℝ}
  {data : Fin N → Record I J} {dt : ℝ} {ss : PreCalc I J N} {n : ℤ} {c : Cond I J} {t : TickVars I J} {k : Fin N}

/-- The equations of one step of a house without storage and without air flow between rooms, with sources `g`, `f`, `s`, `s'`. -/
structure Averages (h : House I J) (hR : J → ℝ) (dt : ℝ) (v : I → ℝ) (θo : ℝ) (θosol : J → ℝ) (old oldF θr θf : I → ℝ) (θs : J → ℝ)
    (g f : I → ℝ) (s s' : J → ℝ) : Prop where
  room : ∀ i, h.vRoom i * airCap * (θr i - old i) / dt
    = convection h i (θr i) θs + h.gSh i * (θf i - θr i) + airCap * v i * (θo - θr i) + g i
  furniture : ∀ i, h.cSh i * (θf i - oldF i) = dt * (h.gSh i * (θr i - θf i) + f i)
  surface : ∀ j, θs j = h.phiA0 j * (h.hC j * (θr (h.room j) - θs j) + hR j * (roomMrt h hR (h.room j) θs - θs j) + s j)
    + h.kEo j * θosol j
    + (match h.kEi j with
      | none => 0
      | some (m, coef) => coef * ((h.hC j * θr (h.room m) + hR j * roomMrt h hR (h.room m) θs + s' j) / (h.hC j + hR j)))

theorem roomMrt_ge (hw : WellFormed h hR dt) {θs : J → ℝ} {lo : ℝ} (hl : ∀ j, lo ≤ θs j) (j : J) : lo ≤ roomMrt h hR (h.room j) θs := by
  have h1 := roomMrt_nonneg hw (x := fun j => θs j - lo) (fun j => by have := hl j; linarith) (h.room j)
  have h2 : roomMrt h hR (h.room j) (fun j => θs j - lo) = roomMrt h hR (h.room j) θs - lo := by
    rw [← roomMrt_const hw lo j]
    unfold roomMrt
    rw [← sub_div, ← Finset.sum_sub_distrib]
    congr 1
    apply Finset.sum_congr rfl
    intro l _
    rw [show (∑ j ∈ surfaces h (h.room j), h.area j * hR j * lo) / ∑ j ∈ surfaces h (h.room j), h.area j * hR j = lo from
      roomMrt_const hw lo j]
    ring
  linarith

/-- Surfaces are not colder than `lo` and the rooms. -/
theorem Averages.surfaces_ge (hw : WellFormed h hR dt) (hwt : ∀ j, h.kEo j + (match h.kEi j with | none => 0 | some (_, coef) => coef) = 1)
    {v : I → ℝ} {θo : ℝ} {θosol : J → ℝ} {old oldF θr θf : I → ℝ} {θs : J → ℝ} {g f : I → ℝ} {s s' : J → ℝ}
    (A : Averages h hR dt v θo θosol old oldF θr θf θs g f s s') {lo : ℝ} (hsol : ∀ j, lo ≤ θosol j) (hs : ∀ j, 0 ≤ s j)
    (hs' : ∀ j, 0 ≤ s' j) : ∀ m, m ≤ lo → (∀ i, m ≤ θr i) → ∀ j, m ≤ θs j := by
  intro m hm hr
  by_contra hne
  push Not at hne
  obtain ⟨j1, hj1⟩ := hne
  obtain ⟨j, -, hmin⟩ := Finset.exists_min_image Finset.univ θs ⟨j1, Finset.mem_univ j1⟩
  have hlt : θs j < m := lt_of_le_of_lt (hmin j1 (Finset.mem_univ _)) hj1
  have hmrt : ∀ l, θs j ≤ roomMrt h hR (h.room l) θs := roomMrt_ge hw fun l => hmin l (Finset.mem_univ _)
  have e := A.surface j
  have hc := hw.hC_pos j
  have hrr := hw.hR_pos j
  have t1 : 0 ≤ h.phiA0 j * (h.hC j * (θr (h.room j) - θs j) + hR j * (roomMrt h hR (h.room j) θs - θs j) + s j) := by
    apply mul_nonneg (hw.phiA0_nonneg j)
    have a1 := mul_nonneg hc.le (sub_nonneg.2 (hlt.le.trans (hr (h.room j))))
    have a2 := mul_nonneg hrr.le (sub_nonneg.2 (hmrt j))
    have := hs j
    linarith
  have hk := hwt j
  have hsolj : θs j < θosol j := hlt.trans_le (hm.trans (hsol j))
  cases hK : h.kEi j with
  | none =>
    rw [hK] at e hk
    simp only [add_zero] at e hk
    rw [hk] at e
    linarith
  | some mc =>
    obtain ⟨l, coef⟩ := mc
    rw [hK] at e hk
    simp only [] at e hk
    obtain ⟨c0, c1⟩ := hw.kEi_mem j l coef hK
    have hq : θs j < (h.hC j * θr (h.room l) + hR j * roomMrt h hR (h.room l) θs + s' j) / (h.hC j + hR j) := by
      rw [lt_div_iff₀ (by linarith)]
      have a1 := mul_lt_mul_of_pos_left (hlt.trans_le (hr (h.room l))) hc
      have a2 := mul_le_mul_of_nonneg_left (hmrt l) hrr.le
      have := hs' j
      linarith
    have hko : h.kEo j = 1 - coef := by linarith
    rw [hko] at e
    rcases lt_or_eq_of_le c1 with c2 | c2
    · have b1 := mul_lt_mul_of_pos_left hsolj (show 0 < 1 - coef by linarith)
      have b2 := mul_le_mul_of_nonneg_left hq.le c0
      linarith
    · rw [c2] at e
      linarith

/-- Minimum principle of one step. -/
theorem Averages.floor (hw : WellFormed h hR dt) (hwt : ∀ j, h.kEo j + (match h.kEi j with | none => 0 | some (_, coef) => coef) = 1)
    {v : I → ℝ} {θo : ℝ} {θosol : J → ℝ} {old oldF θr θf : I → ℝ} {θs : J → ℝ} {g f : I → ℝ} {s s' : J → ℝ}
    (A : Averages h hR dt v θo θosol old oldF θr θf θs g f s s') {lo : ℝ} (hv : ∀ i, 0 ≤ v i) (hθo : lo ≤ θo) (hsol : ∀ j, lo ≤ θosol j)
    (hold : ∀ i, lo ≤ old i) (holdF : ∀ i, lo ≤ oldF i) (hg : ∀ i, 0 ≤ g i) (hf : ∀ i, 0 ≤ f i) (hs : ∀ j, 0 ≤ s j)
    (hs' : ∀ j, 0 ≤ s' j) : (∀ i, lo ≤ θr i) ∧ (∀ i, lo ≤ θf i) ∧ ∀ j, lo ≤ θs j := by
  have hsurf := A.surfaces_ge hw hwt hsol hs hs'
  -- rooms
  have hfr : ∀ i, θr i < lo → θr i ≤ θf i := by
    intro i hi
    have e := A.furniture i
    have g1 := hw.cSh_nonneg i
    have g2 := hw.gSh_nonneg i
    have g3 := hw.frtSh_pos i
    have hdt := hw.dt_pos
    by_contra hlt
    push Not at hlt
    have b1 : h.cSh i * (θf i - oldF i) ≤ 0 := mul_nonpos_of_nonneg_of_nonpos g1 (by have := holdF i; linarith)
    have b2 : 0 ≤ h.gSh i * (θr i - θf i) := mul_nonneg g2 (by linarith)
    have b3 := hf i
    rcases lt_or_eq_of_le g1 with g4 | g4
    · have : h.cSh i * (θf i - oldF i) < 0 := mul_neg_of_pos_of_neg g4 (by have := holdF i; linarith)
      have := mul_nonneg hdt.le (add_nonneg b2 b3)
      linarith
    · have g5 : 0 < h.gSh i := by linarith
      have b4 : 0 < h.gSh i * (θr i - θf i) := mul_pos g5 (by linarith)
      have := mul_pos hdt (add_pos_of_pos_of_nonneg b4 b3)
      linarith
  have hroom : ∀ i, lo ≤ θr i := by
    by_contra hne
    push Not at hne
    obtain ⟨i1, hi1⟩ := hne
    obtain ⟨i, -, hmin⟩ := Finset.exists_min_image Finset.univ θr ⟨i1, Finset.mem_univ i1⟩
    have hlt : θr i < lo := lt_of_le_of_lt (hmin i1 (Finset.mem_univ _)) hi1
    have hS := hsurf (θr i) hlt.le fun l => hmin l (Finset.mem_univ _)
    have e := A.room i
    have hcap : (0 : ℝ) < airCap := by unfold airCap; norm_num
    have b1 : 0 ≤ convection h i (θr i) θs := Finset.sum_nonneg fun j _ =>
      mul_nonneg (mul_nonneg (hw.area_pos j).le (hw.hC_pos j).le) (sub_nonneg.2 (hS j))
    have b2 := mul_nonneg (hw.gSh_nonneg i) (sub_nonneg.2 (hfr i hlt))
    have b3 : 0 ≤ airCap * v i * (θo - θr i) := mul_nonneg (mul_nonneg hcap.le (hv i)) (by linarith)
    have b4 := hg i
    have b5 : h.vRoom i * airCap * (θr i - old i) / dt < 0 :=
      div_neg_of_neg_of_pos (mul_neg_of_pos_of_neg (mul_pos (hw.vRoom_pos i) hcap) (by have := hold i; linarith)) hw.dt_pos
    linarith
  refine ⟨hroom, fun i => ?_, hsurf lo le_rfl hroom⟩
  have e := A.furniture i
  have g1 := hw.cSh_nonneg i
  have g2 := hw.gSh_nonneg i
  have g3 := hw.frtSh_pos i
  have hdt := hw.dt_pos
  by_contra hlt
  push Not at hlt
  have b2 : 0 ≤ h.gSh i * (θr i - θf i) := mul_nonneg g2 (by have := hroom i; linarith)
  have b3 := hf i
  rcases lt_or_eq_of_le g1 with g4 | g4
  · have : h.cSh i * (θf i - oldF i) < 0 := mul_neg_of_pos_of_neg g4 (by have := holdF i; linarith)
    have := mul_nonneg hdt.le (add_nonneg b2 b3)
    linarith
  · have g5 : 0 < h.gSh i := by linarith
    have b4 : 0 < h.gSh i * (θr i - θf i) := mul_pos g5 (by have := hroom i; linarith)
    have := mul_pos hdt (add_pos_of_pos_of_nonneg b4 b3)
    rw [← g4] at e
    linarith

theorem roomMrt_neg (i : I) (θs : J → ℝ) : roomMrt h hR i (fun j => -θs j) = -roomMrt h hR i θs := by
  unfold roomMrt
  rw [← neg_div, ← Finset.sum_neg_distrib]
  congr 1
  apply Finset.sum_congr rfl
  intro j _
  ring

/-- Changing the sign of all temperatures and sources. -/
theorem Averages.neg {v : I → ℝ} {θo : ℝ} {θosol : J → ℝ} {old oldF θr θf : I → ℝ} {θs : J → ℝ} {g f : I → ℝ} {s s' : J → ℝ}
    (A : Averages h hR dt v θo θosol old oldF θr θf θs g f s s') :
    Averages h hR dt v (-θo) (fun j => -θosol j) (fun i => -old i) (fun i => -oldF i) (fun i => -θr i) (fun i => -θf i) (fun j => -θs j)
      (fun i => -g i) (fun i => -f i) (fun j => -s j) (fun j => -s' j) where
  room i := by
    have e := A.room i
    have hc : convection h i (-θr i) (fun j => -θs j) = - convection h i (θr i) θs := by
      unfold convection
      rw [← Finset.sum_neg_distrib]
      apply Finset.sum_congr rfl
      intro j _
      ring
    rw [hc]
    have : h.vRoom i * airCap * (-θr i - -old i) / dt = -(h.vRoom i * airCap * (θr i - old i) / dt) := by ring
    rw [this, e]
    ring
  furniture i := by linear_combination -(A.furniture i)
  surface j := by
    have e := A.surface j
    simp only [roomMrt_neg]
    cases hK : h.kEi j with
    | none =>
      rw [hK] at e
      simp only [] at e ⊢
      linear_combination -e
    | some mc =>
      rw [hK] at e
      simp only [] at e ⊢
      linear_combination -e

/-- A house without storage is driven by the present temperatures only. -/
theorem step_averages (hw : WellFormed h hR dt) (hst : Storageless h) (hv : ∀ i l, h.vInt i l = 0)
    (Hp : makePreCalc h hR dt data = .ok ss) (H : runTick n dt ss c = .ok t) (hk : pyIndex N n = .ok k)
    (hA : ∀ j m, c.dshA j m = 0) (hT : ∀ j m, c.dshT j m = 0) :
    (∀ j m, t.dshA j m = 0) ∧ (∀ j m, t.dshT j m = 0) ∧
    Averages h hR dt t.vOut (data k).thetaO (data k).thetaOSol c.thetaR c.thetaFrt t.thetaR t.thetaFrt t.thetaS
      (fun i => (data k).qGen i + t.qHum i + t.lc i + h.beta i * t.lr i) (fun i => (data k).qTrsSol i * 0.5)
      (fun j => h.qSol (data k) j + h.flr j * (1 - h.beta (h.room j)) * t.lr (h.room j) / h.area j)
      (fun j => match h.kEi j with
        | none => 0
        | some (m, _) => h.qSol (data k) m + h.flr m * ((1 - h.beta (h.room m)) * t.lr (h.room m)) / h.area j) := by
  obtain ⟨ivs, k', hi, hs, hk', e⟩ := step_eqs Hp H
  have : k' = k := Except.ok.inj (hk'.symm.trans hk)
  subst this
  have dA : ∀ j m, t.dshA j m = 0 := by
    intro j m
    rw [e.dshA, hs]
    simp [Tick.dshA, preCalcOf, hst.absorbed, hA]
  have dT : ∀ j m, t.dshT j m = 0 := by
    intro j m
    rw [e.dshT, hs]
    simp [Tick.dshT, preCalcOf, hst.transmitted, hT]
  refine ⟨dA, dT, ?_, ?_, ?_⟩
  · intro i
    rw [C14_balance_as_coded Hp H hk i (frt_ne hw.dt_pos (hw.cSh_nonneg i) (hw.gSh_nonneg i) (hw.frtSh_pos i))]
    simp only [hv, zero_mul, Finset.sum_const_zero, mul_zero, sub_zero]
    ring
  · intro i
    exact C15_furniture_heat Hp H hk i (frt_ne hw.dt_pos (hw.cSh_nonneg i) (hw.gSh_nonneg i) (hw.frtSh_pos i))
  · intro j
    have hh : h.hC j + hR j ≠ 0 := (add_pos (hw.hC_pos j) (hw.hR_pos j)).ne'
    have hq := C16_surface_flux Hp H hk j hh
    cases hK : h.kEi j with
    | none =>
      have h1 := C17_wall_equation_partial Hp H hk j hh (fun m coef h0 => by rw [hK] at h0; cases h0)
      rw [hq] at h1
      simp only [rearTemp, hK, dA, dT, hst.steady j, Finset.sum_const_zero, add_zero, one_mul] at h1 ⊢
      linear_combination h1
    | some mc =>
      obtain ⟨m, coef⟩ := mc
      have h1 := C17_equation_as_coded Hp H hk j hh m coef hK
      rw [hq] at h1
      simp only [dA, dT, hst.steady j, Finset.sum_const_zero, add_zero, one_mul] at h1 ⊢
      linear_combination h1

theorem qSol_nonneg (hw : WellFormed h hR dt) {d : Record I J} (hq : ∀ i, 0 ≤ d.qTrsSol i) (j : J) : 0 ≤ h.qSol d j := by
  unfold House.qSol
  rw [sum_pT h (fun i => d.qTrsSol i / h.aSrfAbs i)]
  have hA : 0 ≤ h.aSrfAbs (h.room j) := by
    unfold House.aSrfAbs
    rw [sum_p]
    apply Finset.sum_nonneg
    intro l _
    unfold ind
    split_ifs
    · simpa using (hw.area_pos l).le
    · simp
  have : 0 ≤ ind (h.solarAbs j) := by unfold ind; split_ifs <;> norm_num
  have h2 : (0 : ℝ) ≤ 1 - House.rSolFnt := by unfold House.rSolFnt; norm_num
  exact mul_nonneg (mul_nonneg (div_nonneg (hq _) hA) this) h2

/-- **C86 (one step, lower bound).** In a house of parts without storage and without air flow between rooms: if nothing cools the rooms, no
temperature falls below the lowest of the outdoor temperatures and the temperatures before the step. -/
theorem step_floor (hw : WellFormed h hR dt) (hst : Storageless h) (hv : ∀ i l, h.vInt i l = 0)
    (hβ : ∀ i, 0 ≤ h.beta i ∧ h.beta i ≤ 1) (hflr : ∀ j, 0 ≤ h.flr j)
    (Hp : makePreCalc h hR dt data = .ok ss) (H : runTick n dt ss c = .ok t) (hk : pyIndex N n = .ok k)
    (hA : ∀ j m, c.dshA j m = 0) (hT : ∀ j m, c.dshT j m = 0) {lo : ℝ} (hloc : ∀ i, 0 ≤ (data k).vLocal i)
    (hout : Outdoors (lo ≤ ·) (data k)) (hgen : ∀ i, 0 ≤ (data k).qGen i) (hsun : ∀ i, 0 ≤ (data k).qTrsSol i)
    (hcool : ∀ i, 0 ≤ t.qHum i ∧ 0 ≤ t.lc i ∧ 0 ≤ t.lr i) (hr : ∀ i, lo ≤ c.thetaR i) (hf : ∀ i, lo ≤ c.thetaFrt i) :
    RowTemps (lo ≤ ·) (LogRow.ofTick t) := by
  obtain ⟨-, -, A⟩ := step_averages hw hst hv Hp H hk hA hT
  have hvo : ∀ i, 0 ≤ t.vOut i := by
    obtain ⟨ivs, k', hi, hs, hk', e⟩ := step_eqs Hp H
    have : k' = k := Except.ok.inj (hk'.symm.trans hk)
    subst this
    subst hs
    exact vOut_nonneg hw hloc e
  have hlr : ∀ j l, 0 ≤ h.flr j * ((1 - h.beta (h.room j)) * t.lr (h.room j)) / h.area l := fun j l =>
    div_nonneg (mul_nonneg (hflr j) (mul_nonneg (by have := (hβ (h.room j)).2; linarith) (hcool _).2.2)) (hw.area_pos l).le
  refine A.floor hw hst.weights hvo hout.1 hout.2 hr hf ?_ ?_ ?_ ?_
  · intro i
    obtain ⟨q1, q2, q3⟩ := hcool i
    have := mul_nonneg (hβ i).1 q3
    have := hgen i
    show 0 ≤ (data k).qGen i + t.qHum i + t.lc i + h.beta i * t.lr i
    linarith
  · intro i
    show 0 ≤ (data k).qTrsSol i * 0.5
    have := hsun i
    linarith
  · intro j
    have := hlr j j
    rw [← mul_assoc] at this
    exact add_nonneg (qSol_nonneg hw hsun j) this
  · intro j
    cases hK : h.kEi j with
    | none => simp
    | some mc =>
      obtain ⟨m, coef⟩ := mc
      simp only []
      exact add_nonneg (qSol_nonneg hw hsun m) (hlr m j)

/-- Without people there is no heat of people. -/
theorem idle_qHum (Hp : makePreCalc h hR dt data = .ok ss) (H : runTick n dt ss c = .ok t) (hk : pyIndex N n = .ok k)
    (hidle : Idle (data k)) (i : I) : t.qHum i = 0 := by
  obtain ⟨ivs, k', hi, hs, hk', e⟩ := step_eqs Hp H
  have : k' = k := Except.ok.inj (hk'.symm.trans hk)
  subst this
  subst hs
  rw [e.qHum]
  simp [Tick.qHum, preCalcOf, hidle.noPeople]

/-- **C86 (one step, lower bound without sources).** -/
theorem step_idle_floor (hw : WellFormed h hR dt) (hst : Storageless h) (hv : ∀ i l, h.vInt i l = 0)
    (Hp : makePreCalc h hR dt data = .ok ss) (H : runTick n dt ss c = .ok t) (hk : pyIndex N n = .ok k)
    (hA : ∀ j m, c.dshA j m = 0) (hT : ∀ j m, c.dshT j m = 0) {lo : ℝ} (hloc : ∀ i, 0 ≤ (data k).vLocal i)
    (hout : Outdoors (lo ≤ ·) (data k)) (hidle : Idle (data k)) (hr : ∀ i, lo ≤ c.thetaR i) (hf : ∀ i, lo ≤ c.thetaFrt i) :
    RowTemps (lo ≤ ·) (LogRow.ofTick t) := by
  obtain ⟨-, -, A⟩ := step_averages hw hst hv Hp H hk hA hT
  have hl : ∀ i, t.lc i = 0 ∧ t.lr i = 0 := fun i => by
    obtain ⟨h1, h2, -⟩ := step_no_demand Hp H hk (fun i => ⟨hw.capH_nonneg i, hw.capC_nonneg i⟩) (hidle.noDemand i)
    exact ⟨h1, h2⟩
  have hvo : ∀ i, 0 ≤ t.vOut i := by
    obtain ⟨ivs, k', hi, hs, hk', e⟩ := step_eqs Hp H
    have : k' = k := Except.ok.inj (hk'.symm.trans hk)
    subst this
    subst hs
    exact vOut_nonneg hw hloc e
  have hqs : ∀ j, h.qSol (data k) j = 0 := fun j => by unfold House.qSol; simp [hidle.noSun]
  exact A.floor hw hst.weights hvo hout.1 hout.2 hr hf (fun i => by simp [hidle.noGain, idle_qHum Hp H hk hidle, hl])
    (fun i => by simp [hidle.noSun]) (fun j => by simp [hqs, hl]) (fun j => by cases h.kEi j <;> simp [hqs, hl])

/-- **C86 (one step, upper bound).** In the same house: if nothing heats or cools the rooms, no temperature rises above the highest of the
outdoor temperatures and the temperatures before the step. -/
theorem step_ceiling (hw : WellFormed h hR dt) (hst : Storageless h) (hv : ∀ i l, h.vInt i l = 0)
    (Hp : makePreCalc h hR dt data = .ok ss) (H : runTick n dt ss c = .ok t) (hk : pyIndex N n = .ok k)
    (hA : ∀ j m, c.dshA j m = 0) (hT : ∀ j m, c.dshT j m = 0) {hi : ℝ} (hloc : ∀ i, 0 ≤ (data k).vLocal i)
    (hout : Outdoors (· ≤ hi) (data k)) (hidle : Idle (data k)) (hr : ∀ i, c.thetaR i ≤ hi) (hf : ∀ i, c.thetaFrt i ≤ hi) :
    RowTemps (· ≤ hi) (LogRow.ofTick t) := by
  obtain ⟨-, -, A⟩ := step_averages hw hst hv Hp H hk hA hT
  have hcap : ∀ i, 0 ≤ h.capH i ∧ 0 ≤ h.capC i := fun i => ⟨hw.capH_nonneg i, hw.capC_nonneg i⟩
  have hl : ∀ i, t.lc i = 0 ∧ t.lr i = 0 := fun i => by
    obtain ⟨h1, h2, -⟩ := step_no_demand Hp H hk hcap (hidle.noDemand i)
    exact ⟨h1, h2⟩
  have hvo : ∀ i, 0 ≤ t.vOut i := by
    obtain ⟨ivs, k', hi, hs, hk', e⟩ := step_eqs Hp H
    have : k' = k := Except.ok.inj (hk'.symm.trans hk)
    subst this
    subst hs
    exact vOut_nonneg hw hloc e
  have hq : ∀ i, t.qHum i = 0 := by
    intro i
    obtain ⟨ivs, k', hi, hs, hk', e⟩ := step_eqs Hp H
    have : k' = k := Except.ok.inj (hk'.symm.trans hk)
    subst this
    subst hs
    rw [e.qHum]
    simp [Tick.qHum, preCalcOf, hidle.noPeople]
  have hqs : ∀ j, h.qSol (data k) j = 0 := fun j => by unfold House.qSol; simp [hidle.noSun]
  have := A.neg.floor hw hst.weights (lo := -hi) hvo (neg_le_neg hout.1) (fun j => neg_le_neg (hout.2 j)) (fun i => neg_le_neg (hr i))
    (fun i => neg_le_neg (hf i)) (fun i => by simp [hidle.noGain, hq, hl]) (fun i => by simp [hidle.noSun])
    (fun j => by simp [hqs, hl]) (fun j => by cases h.kEi j <;> simp [hqs, hl])
  exact ⟨fun i => neg_le_neg_iff.1 (this.1 i), fun i => neg_le_neg_iff.1 (this.2.1 i), fun j => neg_le_neg_iff.1 (this.2.2 j)⟩

end

section
variable {I : Type} [Fintype I] [DecidableEq I] {m N : ℕ} {h : House I (Fin m)} {hR : Fin m → ℝ} {data : Fin N → Record I (Fin m)}
    {hourly dMain dRunUp dRunUpBuild : ℤ} {r : CalcResult I m N}

/-- Without parts in contact with the ground the calculation starts from the initial conditions. -/
theorem start_eq (hng : ∀ j, h.isGround j = false) {gs : List (List GroundCell)} {c0 : Cond I (Fin m)} {up mn : List (TickVars I (Fin m))}
    (T : CalcTrace h hR data hourly dMain dRunUp dRunUpBuild r gs c0 up mn) : c0 = initialConditions I (Fin m) := by
  obtain ⟨ivs, hi, hs⟩ := makePreCalc_ok T.pre
  have hg : r.ss.isGround = fun _ => false := by rw [hs]; exact funext hng
  have hlen : r.ground.length = (Finset.univ.filter fun j => r.ss.isGround j = true).card := by
    have hw : (makePreCalcGround r.ss).walls.length = (Finset.univ.filter fun j => r.ss.isGround j = true).card := by
      rw [← filter_finRange_length]; simp [makePreCalcGround, maskSelect]
    rw [T.ground_last, lastGround_length T.ground, hw]
    rw [hw, ← filter_finRange_length]
    simp [initialGround, makePreCalcGround]
  obtain ⟨c', hc', -, h2, a1, a2, a3, a4, a5, a6, a7, a8⟩ := C26_hand_over r.ss.isGround (initialConditions I (Fin m)) r.ground hlen
  have : c' = c0 := Except.ok.inj (hc'.symm.trans T.start)
  subst this
  have b1 : c'.dshA = (initialConditions I (Fin m)).dshA := funext fun j => (h2 j (by rw [hg])).1
  have b2 : c'.qSrf = (initialConditions I (Fin m)).qSrf := funext fun j => (h2 j (by rw [hg])).2
  cases c'
  simp only at a1 a2 a3 a4 a5 a6 a7 a8 b1 b2
  subst a1 a2 a3 a4 a5 a6 a7 a8 b1 b2
  rfl

/-- Rows of the log inherit what every step preserves. -/
theorem log_invariant (H : coreCalc h hR data hourly dMain dRunUp dRunUpBuild = .ok r) (hng : ∀ j, h.isGround j = false)
    {P : Cond I (Fin m) → Prop} (h0 : P (initialConditions I (Fin m)))
    (hs : ∀ n c t k, P c → runTick n (3600 / (hourly : ℝ)) r.ss c = .ok t → pyIndex N n = .ok k →
      StepOf r hourly dMain dRunUpBuild t → P t.next) (k : Fin r.nMain.toNat) :
    ∃ c t, StepOf r hourly dMain dRunUpBuild t ∧ P c ∧ P t.next ∧ runTick (k : ℕ) (3600 / (hourly : ℝ)) r.ss c = .ok t ∧
      r.log k = LogRow.ofTick t := by
  obtain ⟨gs, c0, up, mn, T⟩ := coreCalc_ok H
  have e0 := start_eq hng T
  have hrun := T.runUp.append T.main
  have key : ∀ {c : Cond I (Fin m)} {ns : List ℤ} {ts : List (TickVars I (Fin m))}, Run r.ss (3600 / (hourly : ℝ)) c ns ts →
      (∀ t ∈ ts, StepOf r hourly dMain dRunUpBuild t) → P c →
      ∀ (p : ℕ) (h1 : p < ns.length) (h2 : p < ts.length), ∃ c', P c' ∧ P ts[p].next ∧ runTick ns[p] (3600 / (hourly : ℝ)) r.ss c' = .ok ts[p] := by
    intro c ns ts hr
    induction hr with
    | nil => intro _ _ p h1; simp at h1
    | cons h1 _ ih =>
      intro hst hc p h2 h3
      obtain ⟨k, hk⟩ := runTick_index h1
      have hn := hs _ _ _ k hc h1 hk (hst _ (by simp))
      cases p with
      | zero => exact ⟨_, hc, hn, h1⟩
      | succ p => exact ih (fun t ht => hst t (by simp [ht])) hn p (by simpa using h2) (by simpa using h3)
  have hk : (k : ℕ) < mn.length := by rw [T.mn_length]; exact k.isLt
  have hl := T.main.length_eq
  have hall : ∀ t ∈ up ++ mn, StepOf r hourly dMain dRunUpBuild t := fun t ht => ⟨c0, _, T.start, hrun, ht⟩
  have hup : P (after c0 up) := by
    have : ∀ {c : Cond I (Fin m)} {ns : List ℤ} {ts : List (TickVars I (Fin m))}, Run r.ss (3600 / (hourly : ℝ)) c ns ts →
        (∀ t ∈ ts, StepOf r hourly dMain dRunUpBuild t) → P c → P (after c ts) := by
      intro c ns ts hr
      induction hr with
      | nil => exact fun _ hc => hc
      | cons h1 _ ih =>
        intro hst hc
        obtain ⟨k, hk⟩ := runTick_index h1
        exact ih (fun t ht => hst t (by simp [ht])) (hs _ _ _ k hc h1 hk (hst _ (by simp)))
    exact this T.runUp (fun t ht => hall t (List.mem_append_left _ ht)) (by rw [e0]; exact h0)
  obtain ⟨c, hc, hn, ht⟩ := key T.main (fun t ht => hall t (List.mem_append_right _ ht)) hup k (by omega) hk
  rw [pyRange_getElem, zero_add] at ht
  exact ⟨c, mn[(k : ℕ)], hall _ (List.mem_append_right _ (List.getElem_mem hk)), hc, hn, ht, T.logged k hk⟩

/-- What is known of a state during the run: convolution terms zero and temperatures with property `P`. -/
def Held (P : ℝ → Prop) (c : Cond I (Fin m)) : Prop :=
  ((∀ j l, c.dshA j l = 0) ∧ ∀ j l, c.dshT j l = 0) ∧ (∀ i, P (c.thetaR i)) ∧ ∀ i, P (c.thetaFrt i)

theorem held_initial {P : ℝ → Prop} (h15 : P 15) : Held P (initialConditions I (Fin m)) :=
  ⟨⟨fun _ _ => rfl, fun _ _ => rfl⟩, fun _ => h15, fun _ => h15⟩

/-- The mean radiant and the operative temperature of a row are means of its other temperatures, where the radiant weights sum to one. -/
theorem row_means (H : coreCalc h hR data hourly dMain dRunUp dRunUpBuild = .ok r) {lo : ℝ} {k : Fin r.nMain.toNat}
    (hf : ∀ j, 0 ≤ h.fMrtHum j) (hsum : ∀ i, ∑ j ∈ surfaces h i, h.fMrtHum j = 1) :
    (RowTemps (lo ≤ ·) (r.log k) → RowMeans (lo ≤ ·) (r.log k)) ∧ (RowTemps (· ≤ lo) (r.log k) → RowMeans (· ≤ lo) (r.log k)) := by
  have hc : (0 : ℝ) < hHumC := by unfold hHumC; norm_num
  have hr := hHumR_pos
  constructor
  · rintro ⟨h1, -, h3⟩
    have key : ∀ i, lo ≤ ∑ j ∈ surfaces h i, h.fMrtHum j * (r.log k).thetaS j := by
      intro i
      calc lo = ∑ j ∈ surfaces h i, h.fMrtHum j * lo := by rw [← Finset.sum_mul, hsum, one_mul]
        _ ≤ _ := Finset.sum_le_sum fun j _ => mul_le_mul_of_nonneg_left (h3 j) (hf j)
    constructor <;> intro i <;> obtain ⟨a, b, -⟩ := C13_program H k i
    · rw [b]; exact key i
    · rw [a]
      show lo ≤ _
      rw [le_div_iff₀ (by linarith)]
      have := mul_le_mul_of_nonneg_left (h1 i) hc.le
      have := mul_le_mul_of_nonneg_left (key i) hr.le
      linarith
  · rintro ⟨h1, -, h3⟩
    have key : ∀ i, ∑ j ∈ surfaces h i, h.fMrtHum j * (r.log k).thetaS j ≤ lo := by
      intro i
      calc _ ≤ ∑ j ∈ surfaces h i, h.fMrtHum j * lo := Finset.sum_le_sum fun j _ => mul_le_mul_of_nonneg_left (h3 j) (hf j)
        _ = lo := by rw [← Finset.sum_mul, hsum, one_mul]
    constructor <;> intro i <;> obtain ⟨a, b, -⟩ := C13_program H k i
    · rw [b]; exact key i
    · rw [a]
      show _ ≤ lo
      rw [div_le_iff₀ (by linarith)]
      have := mul_le_mul_of_nonneg_left (h1 i) hc.le
      have := mul_le_mul_of_nonneg_left (key i) hr.le
      linarith

/-- **C86 (partial), no undershoot.** In a house of parts without storage, off the ground and without air flow between rooms: if in no step of
the calculation anything cools the rooms (gains, people, sun and heat supplied are not negative), then no logged temperature is below both the
lowest outdoor temperature and the 15 degC the calculation starts from.
Missing: parts with storage and air flow between rooms, where it fails (`C86_cold_start_violated`, `C86_inflow_violated`). -/
theorem C86_floor_partial (hw : WellFormed h hR (3600 / (hourly : ℝ))) (hst : Storageless h) (hng : ∀ j, h.isGround j = false)
    (hv : ∀ i l, h.vInt i l = 0) (hβ : ∀ i, 0 ≤ h.beta i ∧ h.beta i ≤ 1) (hflr : ∀ j, 0 ≤ h.flr j)
    (H : coreCalc h hR data hourly dMain dRunUp dRunUpBuild = .ok r) {lo : ℝ} (h15 : lo ≤ 15)
    (hd : ∀ k, Outdoors (lo ≤ ·) (data k) ∧ (∀ i, 0 ≤ (data k).vLocal i) ∧ (∀ i, 0 ≤ (data k).qGen i) ∧ ∀ i, 0 ≤ (data k).qTrsSol i)
    (hcool : ∀ t, StepOf r hourly dMain dRunUpBuild t → ∀ i, 0 ≤ t.qHum i ∧ 0 ≤ t.lc i ∧ 0 ≤ t.lr i) (k : Fin r.nMain.toNat) :
    RowTemps (lo ≤ ·) (r.log k) := by
  obtain ⟨gs, c0, up, mn, T⟩ := coreCalc_ok H
  have step : ∀ n c t k, Held (lo ≤ ·) c → runTick n (3600 / (hourly : ℝ)) r.ss c = .ok t → pyIndex N n = .ok k →
      StepOf r hourly dMain dRunUpBuild t → RowTemps (lo ≤ ·) (LogRow.ofTick t) := fun n c t k hc ht hk hs =>
    step_floor hw hst hv hβ hflr T.pre ht hk hc.1.1 hc.1.2 (hd k).2.1 (hd k).1 (hd k).2.2.1 (hd k).2.2.2 (hcool t hs) hc.2.1 hc.2.2
  obtain ⟨c, t, hs, hc, -, ht, el⟩ := log_invariant (P := Held (lo ≤ ·)) H hng (held_initial h15) (fun n c t k hc ht hk hs => by
    obtain ⟨a1, a2, -⟩ := step n c t k hc ht hk hs
    obtain ⟨b1, b2, -⟩ := step_averages hw hst hv T.pre ht hk hc.1.1 hc.1.2
    exact ⟨⟨b1, b2⟩, a1, a2⟩) k
  obtain ⟨k', hk'⟩ := runTick_index ht
  rw [el]
  exact step _ c t k' hc ht hk' hs

/-- **C86 (partial), free-running house.** In a house of parts without storage, off the ground and without air flow between rooms, with no
gains, people, sun or demand: every logged temperature of rooms, furniture and surfaces lies between the lowest and the highest of the outdoor
temperatures and the 15 degC the calculation starts from, and so do the mean radiant and operative temperatures if the radiant weights sum to
one. Missing: parts with storage and air flow between rooms, where it fails (`C86_cold_start_violated`, `C86_inflow_violated`). -/
theorem C86_range_partial (hw : WellFormed h hR (3600 / (hourly : ℝ))) (hst : Storageless h) (hng : ∀ j, h.isGround j = false)
    (hv : ∀ i l, h.vInt i l = 0) (H : coreCalc h hR data hourly dMain dRunUp dRunUpBuild = .ok r) {lo hi : ℝ} (h15 : lo ≤ 15 ∧ 15 ≤ hi)
    (hd : ∀ k, Outdoors (lo ≤ ·) (data k) ∧ Outdoors (· ≤ hi) (data k) ∧ (∀ i, 0 ≤ (data k).vLocal i) ∧ Idle (data k))
    (k : Fin r.nMain.toNat) :
    RowTemps (fun θ => lo ≤ θ ∧ θ ≤ hi) (r.log k) ∧
    ((∀ i, ∑ j ∈ surfaces h i, h.fMrtHum j = 1) → RowMeans (fun θ => lo ≤ θ ∧ θ ≤ hi) (r.log k)) := by
  have up : RowTemps (· ≤ hi) (r.log k) := by
    obtain ⟨gs, c0, up, mn, T⟩ := coreCalc_ok H
    have step : ∀ n c t k, Held (· ≤ hi) c → runTick n (3600 / (hourly : ℝ)) r.ss c = .ok t → pyIndex N n = .ok k →
        RowTemps (· ≤ hi) (LogRow.ofTick t) := fun n c t k hc ht hk =>
      step_ceiling hw hst hv T.pre ht hk hc.1.1 hc.1.2 (hd k).2.2.1 (hd k).2.1 (hd k).2.2.2 hc.2.1 hc.2.2
    obtain ⟨c, t, hs, hc, -, ht, el⟩ := log_invariant (P := Held (· ≤ hi)) H hng (held_initial h15.2) (fun n c t k hc ht hk hs => by
      obtain ⟨a1, a2, -⟩ := step n c t k hc ht hk
      obtain ⟨b1, b2, -⟩ := step_averages hw hst hv T.pre ht hk hc.1.1 hc.1.2
      exact ⟨⟨b1, b2⟩, a1, a2⟩) k
    obtain ⟨k', hk'⟩ := runTick_index ht
    rw [el]
    exact step _ c t k' hc ht hk'
  have low : RowTemps (lo ≤ ·) (r.log k) := by
    obtain ⟨gs, c0, up, mn, T⟩ := coreCalc_ok H
    have step : ∀ n c t k, Held (lo ≤ ·) c → runTick n (3600 / (hourly : ℝ)) r.ss c = .ok t → pyIndex N n = .ok k →
        RowTemps (lo ≤ ·) (LogRow.ofTick t) := fun n c t k hc ht hk =>
      step_idle_floor hw hst hv T.pre ht hk hc.1.1 hc.1.2 (hd k).2.2.1 (hd k).1 (hd k).2.2.2 hc.2.1 hc.2.2
    obtain ⟨c, t, hs, hc, -, ht, el⟩ := log_invariant (P := Held (lo ≤ ·)) H hng (held_initial h15.1) (fun n c t k hc ht hk hs => by
      obtain ⟨a1, a2, -⟩ := step n c t k hc ht hk
      obtain ⟨b1, b2, -⟩ := step_averages hw hst hv T.pre ht hk hc.1.1 hc.1.2
      exact ⟨⟨b1, b2⟩, a1, a2⟩) k
    obtain ⟨k', hk'⟩ := runTick_index ht
    rw [el]
    exact step _ c t k' hc ht hk'
  refine ⟨⟨fun i => ⟨low.1 i, up.1 i⟩, fun i => ⟨low.2.1 i, up.2.1 i⟩, fun j => ⟨low.2.2 j, up.2.2 j⟩⟩, fun hsum => ?_⟩
  have m1 := (row_means (k := k) (lo := lo) H hw.fMrtHum_nonneg hsum).1 low
  have m2 := (row_means (k := k) (lo := hi) H hw.fMrtHum_nonneg hsum).2 up
  exact ⟨fun i => ⟨m1.1 i, m2.1 i⟩, fun i => ⟨m1.2 i, m2.2 i⟩⟩

/-- The first row of the log of a calculation without run-up is one step from the initial conditions. -/
theorem first_row (hng : ∀ j, h.isGround j = false) (H : coreCalc h hR data hourly dMain dRunUp 0 = .ok r) (k : Fin r.nMain.toNat)
    (hk : (k : ℕ) = 0) : ∃ (k' : Fin N) (t : TickVars I (Fin m)), makePreCalc h hR (3600 / (hourly : ℝ)) data = .ok r.ss ∧
      pyIndex N 0 = .ok k' ∧ runTick 0 (3600 / (hourly : ℝ)) r.ss (initialConditions I (Fin m)) = .ok t ∧ r.log k = LogRow.ofTick t := by
  obtain ⟨gs, c0, up, mn, T⟩ := coreCalc_ok H
  have e0 := start_eq hng T
  have hr := T.runUp
  have : up = [] := by
    have := hr.length_eq
    simp [pyRange] at this
    exact this
  subst this
  have hkm : (k : ℕ) < mn.length := by rw [T.mn_length]; exact k.isLt
  have hl := T.main.length_eq
  have hm := T.main
  have hlog := T.logged k hkm
  have hns : (pyRange 0 (dMain * hourly * 24))[0]? = some 0 := by
    rw [List.getElem?_eq_getElem (by omega), pyRange_getElem]; simp
  generalize hgen : pyRange 0 (dMain * hourly * 24) = ns at hm hl hns
  cases hm with
  | nil => simp at hkm
  | @cons _ n ns t ts h1 h2 =>
    have hns : n = 0 := by simpa using hns
    subst hns
    obtain ⟨k', hk'⟩ := runTick_index h1
    simp only [after, e0] at h1
    refine ⟨k', t, T.pre, hk', h1, ?_⟩
    rw [hlog]
    simp [hk]

/-- **C86 (violated) by air flow between rooms.** In every house of parts without storage into one of whose rooms air flows from other
rooms: without run-up, with 15 degC outdoors as in the initial state and nothing else happening, some room leaves 15 degC in the first row. -/
theorem C86_inflow_violated (hw : WellFormed h hR (3600 / (hourly : ℝ))) (hst : Storageless h) (hng : ∀ j, h.isGround j = false)
    (hratio : ∀ j m, h.ratio j m ≠ 1) {i : I} (hv : 0 < ∑ l, h.vInt i l) (H : coreCalc h hR data hourly dMain dRunUp 0 = .ok r)
    (hq : ∀ k, Quiet 15 (data k)) (k : Fin r.nMain.toNat) (hk : (k : ℕ) = 0) : ∃ l, (r.log k).thetaR l ≠ 15 := by
  obtain ⟨k', t, Hp, hk', Ht, el⟩ := first_row hng H k hk
  rw [el]
  have hs : SteadyWalls h := ⟨hratio, fun j => by simp [hst.transmitted, hst.steady], hst.weights⟩
  have hr : AtRest h 15 (initialConditions I (Fin m)) :=
    ⟨fun _ => rfl, fun _ => rfl, fun _ => rfl, fun _ => rfl, fun _ _ => rfl, fun j l => by simp [hst.transmitted, initialConditions]⟩
  exact C22_violated hw hs hv (by norm_num) Hp Ht hk' hr (hq k')

/-- **C86 (violated) by storage.** The calculation starts with rooms and furniture at 15 degC but with parts at 0 degC: in every house without
air flow between rooms one of whose parts has a memory, without run-up, with 15 degC outdoors and nothing else happening, some temperature
of the first row is not 15 degC. -/
theorem C86_cold_start_violated (hw : WellFormed h hR (3600 / (hourly : ℝ))) (hs : SteadyWalls h) (hng : ∀ j, h.isGround j = false)
    {j : Fin m} (hj : h.phiT0 j + ∑ l, h.phiT1 j l ≠ 1) (H : coreCalc h hR data hourly dMain dRunUp 0 = .ok r)
    (hq : ∀ k, Quiet 15 (data k)) (k : Fin r.nMain.toNat) (hk : (k : ℕ) = 0) : ¬ RowTemps (· = 15) (r.log k) := by
  obtain ⟨k', t, Hp, hk', Ht, el⟩ := first_row hng H k hk
  rw [el]
  rintro ⟨h1, -, h3⟩
  replace h1 : ∀ i, t.thetaR i = 15 := h1
  replace h3 : ∀ j, t.thetaS j = 15 := h3
  have hcap : ∀ i, 0 ≤ h.capH i ∧ 0 ≤ h.capC i := fun i => ⟨hw.capH_nonneg i, hw.capC_nonneg i⟩
  have hl : ∀ i, t.lr i = 0 := fun i => (step_no_demand Hp Ht hk' hcap ((hq k').noDemand i).le).2.1
  have hh : h.hC j + hR j ≠ 0 := (add_pos (hw.hC_pos j) (hw.hR_pos j)).ne'
  have hqs : ∀ j, h.qSol (data k') j = 0 := fun j => by unfold House.qSol; simp [(hq k').noSun]
  have hmrt : ∀ l, roomMrt h hR (h.room l) t.thetaS = 15 := fun l => by rw [show t.thetaS = fun _ => 15 from funext h3, roomMrt_const hw]
  have hflux : t.qSrf j = 0 := by
    rw [C16_surface_flux Hp Ht hk' j hh, hmrt, h1, h3, hqs, hl]; simp
  have hrear : t.thetaRear j = 15 := by
    obtain ⟨ivs, k2, hi, hss, hk2, e⟩ := step_eqs Hp Ht
    have : k2 = k' := Except.ok.inj (hk2.symm.trans hk')
    subst this
    rw [e.thetaRear, hss]
    have hwt := hs.weights j
    simp only [Tick.thetaRear, preCalcOf, House.thetaDstrb, kEi_mulVec, (hq k2).solAir, initialConditions] 
    cases hK : h.kEi j with
    | none => rw [hK] at hwt; simp only [] at hwt ⊢; linarith
    | some mc => rw [hK] at hwt; simp only [] at hwt ⊢; linarith
  have hconv : ∑ l, (t.dshT j l + t.dshA j l) = 15 * ∑ l, h.phiT1 j l := by
    obtain ⟨ivs, k2, hi, hss, hk2, e⟩ := step_eqs Hp Ht
    rw [Finset.mul_sum]
    apply Finset.sum_congr rfl
    intro l _
    rw [e.dshT, e.dshA, hss]
    simp only [Tick.dshT, Tick.dshA, hrear, preCalcOf, initialConditions]
    ring
  have hwt := hs.weights j
  cases hK : h.kEi j with
  | none =>
    have h0 := C17_wall_equation_partial Hp Ht hk' j hh (fun m coef h0 => by rw [hK] at h0; cases h0)
    rw [hconv, hflux, h3] at h0
    rw [hK] at hwt
    simp only [rearTemp, hK, (hq k').solAir] at h0 hwt
    apply hj
    rw [add_zero] at hwt
    rw [hwt] at h0
    linarith
  | some mc =>
    obtain ⟨l, coef⟩ := mc
    have h0 := C17_equation_as_coded Hp Ht hk' j hh l coef hK
    rw [hconv, hflux, h3, h1, hmrt, hqs, hl, (hq k').solAir] at h0
    rw [hK] at hwt
    simp only [] at hwt
    have e2 : (h.hC j * 15 + hR j * 15 + 0 + h.flr l * ((1 - h.beta (h.room l)) * 0) / h.area j) / (h.hC j + hR j) = 15 := by
      rw [div_eq_iff hh]; ring
    rw [e2] at h0
    apply hj
    have : h.phiT0 j * (h.kEo j * 15 + coef * 15) = h.phiT0 j * 15 := by rw [← add_mul, hwt, one_mul]
    rw [this] at h0
    linarith

end

/-! ## Concrete cases -/

/-- The example house built of parts without storage (for instance panels), with (`v = 0.01`) or without air flow between its rooms. -/
noncomputable def exPanels (v : ℝ) : House (Fin 2) (Fin 4) :=
  { exHouse with phiT0 := fun _ => 1, phiA1 := fun _ _ => 0, phiT1 := fun _ _ => 0, vInt := !![0, 0; v, 0] }

theorem exPanels_storageless (v : ℝ) : Storageless (exPanels v) where
  absorbed := fun _ _ => rfl
  transmitted := fun _ _ => rfl
  steady := fun _ => rfl
  weights := exHouse_steady.weights

theorem exPanels_wellFormed {v : ℝ} (hv : 0 ≤ v ∧ v ≤ 0.01) : WellFormed (exPanels v) exHR 900 where
  __ := exHouse_wellFormed
  phiT0_mem := fun _ => ⟨zero_le_one, le_rfl⟩
  vInt_nonneg := by intro i l; fin_cases i <;> fin_cases l <;> simp [exPanels, hv.1]
  vInt_lt := by
    intro i
    simp only [Fin.sum_univ_two]
    fin_cases i
    · simp [exPanels, exHouse]
    · simp [exPanels, exHouse]; linarith [hv.2]

/-- A day with 0 to 12 degC outdoors, nobody at home and no sun. -/
noncomputable def exIdle : Fin 96 → Record (Fin 2) (Fin 4) := fun k =>
  { exDay k with qGen := fun _ => 0, nHum := fun _ => 0, qTrsSol := fun _ => 0 }

/-- The hypotheses of `C86_range_partial` and `C86_floor_partial` are met by a day of the house of panels, with `lo = 0` and `hi = 15`. -/
example : ∃ r, coreCalc (exPanels 0) exHR exIdle 4 1 1 1 = .ok r ∧ r.nMain.toNat = 96 ∧
    WellFormed (exPanels 0) exHR (3600 / ((4 : ℤ) : ℝ)) ∧ Storageless (exPanels 0) ∧ (∀ j, (exPanels 0).isGround j = false) ∧
    (∀ i l, (exPanels 0).vInt i l = 0) ∧ (∀ i, ∑ j ∈ surfaces (exPanels 0) i, (exPanels 0).fMrtHum j = 1) ∧
    (∀ i, 0 ≤ (exPanels 0).beta i ∧ (exPanels 0).beta i ≤ 1) ∧ (∀ j, 0 ≤ (exPanels 0).flr j) ∧
    (∀ k, Outdoors (0 ≤ ·) (exIdle k) ∧ Outdoors (· ≤ 15) (exIdle k) ∧ (∀ i, 0 ≤ (exIdle k).vLocal i) ∧ Idle (exIdle k)) ∧
    (∀ t, StepOf r 4 1 1 t → ∀ i, 0 ≤ t.qHum i ∧ 0 ≤ t.lc i ∧ 0 ≤ t.lr i) := by
  have e4 : (3600 / ((4 : ℤ) : ℝ)) = 900 := by norm_num
  have hw : WellFormed (exPanels 0) exHR (3600 / ((4 : ℤ) : ℝ)) := by rw [e4]; exact exPanels_wellFormed (by norm_num)
  have hloc : ∀ k i, 0 ≤ (exIdle k).vLocal i := fun k i => by fin_cases i <;> norm_num [exIdle, exDay]
  have hidle : ∀ k, Idle (exIdle k) := fun k => ⟨fun _ => rfl, fun _ => rfl, fun _ => rfl, fun _ => le_rfl⟩
  obtain ⟨r, hr⟩ := C21_program_partial (data := exIdle) (dMain := 1) (dRunUp := 1) (dRunUpBuild := 1) hw (fun _ => rfl) (fun _ => rfl)
    hloc (by norm_num) (by norm_num) (by norm_num) le_rfl (by norm_num) (by norm_num)
  obtain ⟨gs, c0, up, mn, T⟩ := coreCalc_ok hr
  refine ⟨r, hr, by rw [T.nMain_eq]; rfl, hw, exPanels_storageless 0, fun _ => rfl, ?_, ?_, ?_, ?_, ?_, ?_⟩
  · intro i l; fin_cases i <;> fin_cases l <;> simp [exPanels]
  · intro i
    simp only [surfaces, Finset.sum_filter, Fin.sum_univ_four]
    fin_cases i <;> simp [exPanels, exHouse] <;> norm_num
  · intro i; fin_cases i <;> simp [exPanels, exHouse]
  · intro j; fin_cases j <;> simp [exPanels, exHouse]
  · intro k
    have hk : ((k : ℕ) : ℝ) ≤ 96 := by exact_mod_cast k.isLt.le
    refine ⟨⟨?_, fun j => ?_⟩, ⟨?_, fun j => ?_⟩, hloc k, hidle k⟩ <;> simp only [exIdle, exDay]
    · positivity
    · positivity
    · rw [div_le_iff₀ (by norm_num)]; linarith
    · rw [div_le_iff₀ (by norm_num)]; linarith
  · rintro t ⟨c, ts, -, hrun, ht⟩ i
    obtain ⟨p, hp, e⟩ := List.mem_iff_getElem.mp ht
    obtain ⟨c', h1⟩ := run_at hrun p (by rw [← hrun.length_eq]; exact hp) hp
    rw [e] at h1
    obtain ⟨k, hk⟩ := runTick_index h1
    obtain ⟨a, b, -⟩ := step_no_demand T.pre h1 hk (fun i => ⟨hw.capH_nonneg i, hw.capC_nonneg i⟩) (i := i) le_rfl
    rw [a, b, idle_qHum T.pre h1 hk (hidle k)]
    simp

/-- The hypotheses of `C86_inflow_violated` and of `C86_cold_start_violated` are met by houses at 15 degC. -/
example : (∃ r, coreCalc (exPanels 0.01) exHR (fun _ : Fin 96 => exQuiet 15 0) 4 1 1 0 = .ok r ∧ r.nMain.toNat = 96) ∧
    (∃ r, coreCalc exHouse0 exHR (fun _ : Fin 96 => exQuiet 15 0) 4 1 1 0 = .ok r ∧ r.nMain.toNat = 96) ∧
    WellFormed (exPanels 0.01) exHR (3600 / ((4 : ℤ) : ℝ)) ∧ WellFormed exHouse0 exHR (3600 / ((4 : ℤ) : ℝ)) ∧ SteadyWalls exHouse0 ∧
    0 < ∑ l, (exPanels 0.01).vInt 1 l ∧ (∀ j m, (exPanels 0.01).ratio j m ≠ 1) ∧ Quiet 15 (exQuiet 15 0) ∧
    exHouse0.phiT0 0 + ∑ l, exHouse0.phiT1 0 l ≠ 1 := by
  have e4 : (3600 / ((4 : ℤ) : ℝ)) = 900 := by norm_num
  have hw : WellFormed (exPanels 0.01) exHR (3600 / ((4 : ℤ) : ℝ)) := by rw [e4]; exact exPanels_wellFormed (by norm_num)
  have hw0 : WellFormed exHouse0 exHR (3600 / ((4 : ℤ) : ℝ)) := by rw [e4]; exact exHouse0_wellFormed
  refine ⟨?_, ?_, hw, hw0, ?_, ?_, ?_, ?_, ?_⟩
  · obtain ⟨r, hr⟩ := C21_program_partial (data := fun _ : Fin 96 => exQuiet 15 0) (dMain := 1) (dRunUp := 1) (dRunUpBuild := 0) hw
      (fun _ => rfl) (fun _ => rfl) (fun _ => exQuiet_local 15 0) (by norm_num) (by norm_num) (by norm_num) (by norm_num) (by norm_num)
      (by norm_num)
    obtain ⟨gs, c0, up, mn, T⟩ := coreCalc_ok hr
    exact ⟨r, hr, by rw [T.nMain_eq]; rfl⟩
  · obtain ⟨r, hr⟩ := C21_program_partial (data := fun _ : Fin 96 => exQuiet 15 0) (dMain := 1) (dRunUp := 1) (dRunUpBuild := 0) hw0
      (fun _ => rfl) (fun _ => rfl) (fun _ => exQuiet_local 15 0) (by norm_num) (by norm_num) (by norm_num) (by norm_num) (by norm_num)
      (by norm_num)
    obtain ⟨gs, c0, up, mn, T⟩ := coreCalc_ok hr
    exact ⟨r, hr, by rw [T.nMain_eq]; rfl⟩
  · exact ⟨exHouse_steady.1, exHouse_steady.2, exHouse_steady.3⟩
  · simp only [Fin.sum_univ_two]; norm_num [exPanels]
  · intro j m; norm_num [exPanels, exHouse]
  · exact ⟨by constructor <;> intros <;> rfl, fun _ => rfl⟩
  · simp [exHouse0, exHouse]; norm_num

end HLC
