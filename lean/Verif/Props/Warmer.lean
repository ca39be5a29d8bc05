import Verif.Spec.Warmer
import Verif.Props.Range
import Verif.Props.Blend

/-!
# C109: more heat never makes anything colder
-/

set_option linter.unusedSectionVars false

namespace HLC
open Spec

section
variable {I J : Type} [Fintype I] [DecidableEq I] [Fintype J] [DecidableEq J] {N : ℕ} {h : House I J} {hR : J → ℝ} {dt : ℝ}

theorem roomMrt_sub (i : I) (x y : J → ℝ) : roomMrt h hR i (fun j => x j - y j) = roomMrt h hR i x - roomMrt h hR i y := by
  unfold roomMrt
  rw [← sub_div, ← Finset.sum_sub_distrib]
  congr 1
  exact Finset.sum_congr rfl fun j _ => by ring

/-- The difference of two steps with the same ventilation. -/
theorem Averages.sub {v : I → ℝ} {θo θo' : ℝ} {θosol θosol' : J → ℝ} {old oldF θr θf old' oldF' θr' θf' : I → ℝ} {θs θs' : J → ℝ}
    {g f g' f' : I → ℝ} {s p s' p' : J → ℝ}
    (A : Averages h hR dt v θo θosol old oldF θr θf θs g f s p) (B : Averages h hR dt v θo' θosol' old' oldF' θr' θf' θs' g' f' s' p') :
    Averages h hR dt v (θo' - θo) (fun j => θosol' j - θosol j) (fun i => old' i - old i) (fun i => oldF' i - oldF i) (fun i => θr' i - θr i)
      (fun i => θf' i - θf i) (fun j => θs' j - θs j) (fun i => g' i - g i) (fun i => f' i - f i) (fun j => s' j - s j) (fun j => p' j - p j) where
  room i := by
    have e := A.room i
    have e' := B.room i
    have hc : convection h i (θr' i - θr i) (fun j => θs' j - θs j) = convection h i (θr' i) θs' - convection h i (θr i) θs := by
      unfold convection
      rw [← Finset.sum_sub_distrib]
      exact Finset.sum_congr rfl fun j _ => by ring
    rw [hc, show h.vRoom i * airCap * (θr' i - θr i - (old' i - old i)) / dt
      = h.vRoom i * airCap * (θr' i - old' i) / dt - h.vRoom i * airCap * (θr i - old i) / dt by ring]
    linear_combination e' - e
  furniture i := by linear_combination B.furniture i - A.furniture i
  surface j := by
    have e := A.surface j
    have e' := B.surface j
    simp only [roomMrt_sub]
    cases hK : h.kEi j with
    | none =>
      rw [hK] at e e'
      simp only [] at e e' ⊢
      linear_combination e' - e
    | some mc =>
      rw [hK] at e e'
      simp only [] at e e' ⊢
      linear_combination e' - e

/-- Heat released to a room during a step may be counted as a warmer start. -/
theorem Averages.early {v : I → ℝ} {θo : ℝ} {θosol : J → ℝ} {old oldF θr θf : I → ℝ} {θs : J → ℝ} {g f : I → ℝ} {s p : J → ℝ}
    (A : Averages h hR dt v θo θosol old oldF θr θf θs g f s p) (q : I → ℝ) (hc : ∀ i, h.vRoom i * airCap ≠ 0) (hdt : dt ≠ 0) :
    Averages h hR dt v θo θosol (fun i => old i + q i * dt / (h.vRoom i * airCap)) oldF θr θf θs (fun i => g i - q i) f s p where
  room i := by
    have e := A.room i
    have := hc i
    have : h.vRoom i * airCap * (θr i - (old i + q i * dt / (h.vRoom i * airCap))) / dt = h.vRoom i * airCap * (θr i - old i) / dt - q i := by
      have h1 : h.vRoom i * airCap * (q i * dt / (h.vRoom i * airCap)) = q i * dt := mul_div_cancel₀ _ (hc i)
      rw [div_sub' hdt, div_left_inj' hdt]
      linear_combination -h1
    rw [this, e]
    ring
  furniture := A.furniture
  surface := A.surface

theorem qHumPsn_slope {x y : ℝ} (hxy : x ≤ y) : -(4 * (y - x)) ≤ qHumPsn y - qHumPsn x := by
  unfold qHumPsn
  have h1 := min_le_left (63 - 4 * (x - 24)) 119
  have h2 := min_le_right (63 - 4 * (x - 24)) 119
  rcases min_choice (63 - 4 * (y - 24)) 119 with h | h <;> rw [h] <;> linarith

theorem qSol_sub (h : House I J) (a b : Record I J) (c : Record I J) (hc : ∀ i, c.qTrsSol i = b.qTrsSol i - a.qTrsSol i) (j : J) :
    h.qSol b j - h.qSol a j = h.qSol c j := by
  unfold House.qSol
  rw [← sub_mul, ← sub_mul, ← Finset.sum_sub_distrib]
  congr 2
  refine Finset.sum_congr rfl fun i _ => ?_
  rw [hc]
  ring

/-- Two states without stored heat in the parts, the second at least as warm. -/
structure Below (c c' : Cond I J) : Prop where
  emptyA : ∀ j m, c.dshA j m = 0 ∧ c'.dshA j m = 0
  emptyT : ∀ j m, c.dshT j m = 0 ∧ c'.dshT j m = 0
  rooms : ∀ i, c.thetaR i ≤ c'.thetaR i
  furniture : ∀ i, c.thetaFrt i ≤ c'.thetaFrt i

/-- A step without demand: no loads, closed windows. -/
theorem no_demand_tight {data : Fin N → Record I J} {ivs : Matrix J J ℝ} {k : Fin N} {c : Cond I J} {t : TickVars I J} (hC : h.cValue = 0)
    (hcap : ∀ i, 0 ≤ h.capH i ∧ 0 ≤ h.capC i) (hd : ∀ i, (data k).acDemand i ≤ 0) (E : TickEqs (preCalcOf h hR dt data ivs) dt k c t) :
    (∀ i, t.lc i = 0 ∧ t.lr i = 0) ∧ (∀ i, t.vOut i = h.vVentEx i + (data k).vLocal i) ∧ ∀ i, (t.ot i).hHumC = hHumC ∧ (t.ot i).hHumR = hHumR := by
  have o := ot_no_demand E hd
  have l := natural_no_demand E.load hcap (fun i => by simp only [Tick.loadInput, o])
  have lc : t.lc = fun _ => 0 := l.2.2.1
  have lr : t.lr = fun _ => 0 := l.2.2.2
  refine ⟨fun i => ⟨by rw [lc], by rw [lr]⟩, fun i => ?_, fun i => by rw [o]; exact ⟨rfl, rfl⟩⟩
  have k1 : t.vLeak = fun _ => 0 := by have := E.vLeak; simp only [preCalcOf, hC] at this; exact leak_tight this
  have n1 : t.vNtrl = fun _ => 0 := by rw [E.vNtrl, o]; unfold Tick.vNtrl; funext i; simp
  rw [E.vOut, k1, n1]
  simp [Tick.vOut, preCalcOf, House.vMec]

/-- **C109 (one step).** -/
theorem step_warmer {ss ss' : PreCalc I J N} {n : ℤ} {k : Fin N} {A B : Fin N → Record I J} {c c' : Cond I J} {t t' : TickVars I J}
    (hw : WellFormed h hR dt) (hst : Storageless h) (hv : ∀ i l, h.vInt i l = 0) (hC : h.cValue = 0)
    (Hp : makePreCalc h hR dt A = .ok ss) (Hp' : makePreCalc h hR dt B = .ok ss') (H : runTick n dt ss c = .ok t)
    (H' : runTick n dt ss' c' = .ok t') (hk : pyIndex N n = .ok k) (hloc : ∀ i, 0 ≤ (A k).vLocal i) (hAB : Warmer (A k) (B k))
    (hp : RoomForPeople h dt (A k)) (hd : ∀ i, (A k).acDemand i ≤ 0) (hd' : ∀ i, (B k).acDemand i ≤ 0) (hc : Below c c') :
    Below t.next t'.next ∧ RowBelow (LogRow.ofTick t) (LogRow.ofTick t') := by
  obtain ⟨a1, a2, SA⟩ := step_averages hw hst hv Hp H hk (fun j m => (hc.emptyA j m).1) (fun j m => (hc.emptyT j m).1)
  obtain ⟨b1, b2, SB⟩ := step_averages hw hst hv Hp' H' hk (fun j m => (hc.emptyA j m).2) (fun j m => (hc.emptyT j m).2)
  have hcap : ∀ i, 0 ≤ h.capH i ∧ 0 ≤ h.capC i := fun i => ⟨hw.capH_nonneg i, hw.capC_nonneg i⟩
  obtain ⟨ivs, k1, hi1, hs1, hk1, e1⟩ := step_eqs Hp H
  obtain rfl : k1 = k := Except.ok.inj (hk1.symm.trans hk)
  obtain ⟨ivs', k2, hi2, hs2, hk2, e2⟩ := step_eqs Hp' H'
  obtain rfl : k2 = k1 := Except.ok.inj (hk2.symm.trans hk)
  subst hs1 hs2
  obtain ⟨l1, v1, o1⟩ := no_demand_tight hC hcap hd e1
  obtain ⟨l2, v2, o2⟩ := no_demand_tight hC hcap hd' e2
  have hvo : t'.vOut = t.vOut := by funext i; rw [v1, v2, hAB.ventilation]
  rw [hvo] at SB
  have hcapA : ∀ i, 0 < h.vRoom i * airCap := fun i => mul_pos (hw.vRoom_pos i) (by unfold airCap; norm_num)
  have D := (SA.sub SB).early (fun i => t'.qHum i - t.qHum i) (fun i => (hcapA i).ne') hw.dt_pos.ne'
  have hq : ∀ i, -(c'.thetaR i - c.thetaR i) ≤ (t'.qHum i - t.qHum i) * dt / (h.vRoom i * airCap) := by
    intro i
    have q1 : t.qHum i = qHumPsn (c.thetaR i) * (A k2).nHum i := by rw [e1.qHum]; rfl
    have q2 : t'.qHum i = qHumPsn (c'.thetaR i) * (A k2).nHum i := by rw [e2.qHum, ← hAB.people]; rfl
    rw [le_div_iff₀ (hcapA i), q1, q2]
    have hs := qHumPsn_slope (hc.rooms i)
    have h1 := mul_le_mul_of_nonneg_right (mul_le_mul_of_nonneg_right hs (hp i).1) hw.dt_pos.le
    have h2 := mul_le_mul_of_nonneg_left (hp i).2 (sub_nonneg.2 (hc.rooms i))
    nlinarith
  have hdiff : ∀ j, 0 ≤ h.qSol (B k2) j - h.qSol (A k2) j := by
    intro j
    rw [qSol_sub h (A k2) (B k2) { A k2 with qTrsSol := fun i => (B k2).qTrsSol i - (A k2).qTrsSol i } (fun _ => rfl)]
    exact qSol_nonneg hw (fun i => sub_nonneg.2 (hAB.sun i)) j
  have key := D.floor hw hst.weights (lo := 0) (fun i => by
      rw [v1]; exact add_nonneg (hw.vVentEx_nonneg i) (hloc i)) (sub_nonneg.2 hAB.air) (fun j => sub_nonneg.2 (hAB.parts j))
    (fun i => by have := hq i; linarith) (fun i => sub_nonneg.2 (hc.furniture i))
    (fun i => by
      have := hAB.gains i
      simp only [l1, l2]
      linarith)
    (fun i => by
      have := hAB.sun i
      show 0 ≤ (B k2).qTrsSol i * 0.5 - (A k2).qTrsSol i * 0.5
      linarith)
    (fun j => by simp only [l1, l2]; have := hdiff j; simpa using this)
    (fun j => by
      cases hK : h.kEi j with
      | none => simp
      | some mc =>
        obtain ⟨m, coef⟩ := mc
        simp only [l1, l2]
        have := hdiff m
        simpa using this)
  have r1 : ∀ i, t.thetaR i ≤ t'.thetaR i := fun i => sub_nonneg.1 (key.1 i)
  have r2 : ∀ i, t.thetaFrt i ≤ t'.thetaFrt i := fun i => sub_nonneg.1 (key.2.1 i)
  have r3 : ∀ j, t.thetaS j ≤ t'.thetaS j := fun j => sub_nonneg.1 (key.2.2 j)
  have r4 : ∀ i, t.thetaMrt i ≤ t'.thetaMrt i := by
    intro i
    rw [e1.thetaMrt, e2.thetaMrt]
    unfold Tick.thetaMrt Matrix.mulVec dotProduct
    refine Finset.sum_le_sum fun j _ => mul_le_mul_of_nonneg_left (r3 j) ?_
    show 0 ≤ h.p i j * h.fMrtHum j
    unfold House.p
    simp only [Matrix.of_apply]
    split_ifs
    · simpa using hw.fMrtHum_nonneg j
    · simp
  refine ⟨⟨fun j m => ⟨a1 j m, b1 j m⟩, fun j m => ⟨a2 j m, b2 j m⟩, r1, r2⟩, ⟨r1, r2, r3, r4, fun i => ?_⟩⟩
  have hm : ∀ j, 0 ≤ h.fMrtHum j := hw.fMrtHum_nonneg
  have hc0 : (0 : ℝ) < hHumC := by unfold hHumC; norm_num
  have hr0 := hHumR_pos
  show t.thetaOt i ≤ t'.thetaOt i
  rw [C13_operative_temperature Hp H i, C13_operative_temperature Hp' H' i]
  refine div_le_div_of_nonneg_right (add_le_add (mul_le_mul_of_nonneg_left (r1 i) hc0.le) (mul_le_mul_of_nonneg_left ?_ hr0.le)) (by linarith)
  exact Finset.sum_le_sum fun j _ => mul_le_mul_of_nonneg_left (r3 j) (hm j)

/-- **C109 (a run).** -/
theorem run_warmer {ss ss' : PreCalc I J N} {A B : Fin N → Record I J}
    (hw : WellFormed h hR dt) (hst : Storageless h) (hv : ∀ i l, h.vInt i l = 0) (hC : h.cValue = 0)
    (Hp : makePreCalc h hR dt A = .ok ss) (Hp' : makePreCalc h hR dt B = .ok ss') (hloc : ∀ k i, 0 ≤ (A k).vLocal i)
    (hAB : ∀ k, Warmer (A k) (B k)) (hp : ∀ k, RoomForPeople h dt (A k)) {c c' : Cond I J} {ns : List ℤ}
    {ts ts' : List (TickVars I J)} (hc : Below c c') (H : Run ss dt c ns ts) (H' : Run ss' dt c' ns ts') :
    ∀ (j : ℕ) (_ : j < ns.length) (h1 : j < ts.length) (h2 : j < ts'.length),
      (∀ (l : ℕ) (hl : l < ns.length), l ≤ j → ∀ k : Fin N, pyIndex N ns[l] = .ok k → ∀ i, (A k).acDemand i ≤ 0 ∧ (B k).acDemand i ≤ 0) →
      RowBelow (LogRow.ofTick ts[j]) (LogRow.ofTick ts'[j]) := by
  induction H generalizing c' ts' with
  | nil => intro j hj; simp at hj
  | cons a1 _ ih =>
    cases H' with
    | cons b1 b2 =>
      intro j hj h1 h2 hd
      obtain ⟨k, hk⟩ := runTick_index a1
      have s1 := step_warmer hw hst hv hC Hp Hp' a1 b1 hk (hloc k) (hAB k) (hp k) (fun i => (hd 0 (by simp) (by omega) k hk i).1)
        (fun i => (hd 0 (by simp) (by omega) k hk i).2) hc
      cases j with
      | zero => exact s1.2
      | succ j =>
        exact ih s1.1 b2 j (by simpa using hj) (by simpa using h1) (by simpa using h2)
          fun l hl hlj => hd (l + 1) (by simpa using hl) (by omega)

end

section
variable {I : Type} [Fintype I] [DecidableEq I] {m N : ℕ} {h : House I (Fin m)} {solve : List ℝ → ℝ} {hR : Fin m → ℝ}
  {A B : Fin N → Record I (Fin m)} {hourly dMain dRunUp dRunUpBuild : ℤ} {r1 r2 : CalcResult I m N}

theorem C109_rows_partial (hw : WellFormed h hR (3600 / (hourly : ℝ))) (hst : Storageless h) (hng : ∀ j, h.isGround j = false)
    (hv : ∀ i l, h.vInt i l = 0) (hC : h.cValue = 0) (hru : 0 ≤ dRunUpBuild * hourly * 24)
    (hloc : ∀ k i, 0 ≤ (A k).vLocal i) (hAB : ∀ k, Warmer (A k) (B k)) (hp : ∀ k, RoomForPeople h (3600 / (hourly : ℝ)) (A k))
    (H1 : coreCalc h hR A hourly dMain dRunUp dRunUpBuild = .ok r1) (H2 : coreCalc h hR B hourly dMain dRunUp dRunUpBuild = .ok r2)
    (k : ℕ) (hd1 : NoDemand (fun n => (A n).acDemand) (-(dRunUpBuild * hourly * 24)) k)
    (hd2 : NoDemand (fun n => (B n).acDemand) (-(dRunUpBuild * hourly * 24)) k)
    (hk1 : k < r1.nMain.toNat) (hk2 : k < r2.nMain.toNat) : RowBelow (r1.log ⟨k, hk1⟩) (r2.log ⟨k, hk2⟩) := by
  obtain ⟨gs1, c1, up1, mn1, T1⟩ := coreCalc_ok H1
  obtain ⟨gs2, c2, up2, mn2, T2⟩ := coreCalc_ok H2
  have e1 := start_eq hng T1
  have e2 := start_eq hng T2
  subst e1 e2
  have R1 := T1.runUp.append T1.main
  have R2 := T2.runUp.append T2.main
  have hl2 : up2.length = up1.length := T2.runUp.length_eq.trans T1.runUp.length_eq.symm
  have hu : up1.length = (pyRange (-(dRunUpBuild * hourly * 24)) 0).length := T1.runUp.length_eq
  have hm1 : k < mn1.length := by rw [T1.mn_length]; exact hk1
  have hm2 : k < mn2.length := by rw [T2.mn_length]; exact hk2
  have hm : mn1.length = (pyRange 0 (dMain * hourly * 24)).length := T1.main.length_eq
  have hc : Below (initialConditions I (Fin m)) (initialConditions I (Fin m)) :=
    ⟨fun _ _ => ⟨rfl, rfl⟩, fun _ _ => ⟨rfl, rfl⟩, fun _ => le_rfl, fun _ => le_rfl⟩
  have key := run_warmer hw hst hv hC T1.pre T2.pre hloc hAB hp hc R1 R2 (up1.length + k) (by rw [List.length_append]; omega)
    (by rw [List.length_append]; omega) (by rw [List.length_append]; omega) (by
      intro l hl hle k' hk' i
      have hsp := pyIndex_spec hk'
      have hb : -(dRunUpBuild * hourly * 24) ≤ (pyRange (-(dRunUpBuild * hourly * 24)) 0 ++ pyRange 0 (dMain * hourly * 24))[l]
          ∧ (pyRange (-(dRunUpBuild * hourly * 24)) 0 ++ pyRange 0 (dMain * hourly * 24))[l] ≤ k := by
        rw [List.getElem_append]
        split_ifs with h5
        · rw [pyRange_getElem]
          rw [pyRange_length] at h5
          omega
        · rw [pyRange_getElem]
          rw [pyRange_length] at h5 hu
          rw [pyRange_length]
          omega
      exact ⟨hd1 _ hb.1 hb.2 k' hsp i, hd2 _ hb.1 hb.2 k' hsp i⟩)
  have e1 : (up1 ++ mn1)[up1.length + k]'(by rw [List.length_append]; omega) = mn1[k] := by
    rw [List.getElem_append_right (by omega)]; simp
  have e2 : (up2 ++ mn2)[up1.length + k]'(by rw [List.length_append]; omega) = mn2[k] := by
    rw [List.getElem_append_right (by omega)]; simp [hl2]
  rw [e1, e2] at key
  rw [T1.logged ⟨k, hk1⟩ hm1, T2.logged ⟨k, hk2⟩ hm2]
  exact key

end

section
variable {p m N : ℕ} {h : House (Fin p) (Fin m)} {solve : List ℝ → ℝ}
  {A B : Fin N → Record (Fin p) (Fin m)} {hourly dMain dRunUp dRunUpBuild : ℤ} {r1 r2 : CalcResult (Fin p) m N}

/-- **C109 (partial), the program.** Take a tight house (no leakage) of parts that store no heat, off the ground and without air exchange between
rooms, not too crowded, that is free-running up to row `k`. Warmer outdoor air, more sun on the parts or into the rooms and more heat released
indoors never make any temperature of row `k` lower. -/
theorem C109_program_partial (hw : WellFormed h (getHr solve h.area h.room) (3600 / (hourly : ℝ))) (hst : Storageless h) (hng : ∀ j, h.isGround j = false)
    (hv : ∀ i l, h.vInt i l = 0) (hC : h.cValue = 0) (hru : 0 ≤ dRunUpBuild * hourly * 24)
    (hloc : ∀ k i, 0 ≤ (A k).vLocal i) (hAB : ∀ k, Warmer (A k) (B k)) (hp : ∀ k, RoomForPeople h (3600 / (hourly : ℝ)) (A k))
    (H1 : program solve h A hourly dMain dRunUp dRunUpBuild = .ok r1) (H2 : program solve h B hourly dMain dRunUp dRunUpBuild = .ok r2)
    (k : ℕ) (hd1 : NoDemand (fun n => (A n).acDemand) (-(dRunUpBuild * hourly * 24)) k)
    (hd2 : NoDemand (fun n => (B n).acDemand) (-(dRunUpBuild * hourly * 24)) k)
    (hk1 : k < r1.nMain.toNat) (hk2 : k < r2.nMain.toNat) : RowBelow (r1.log ⟨k, hk1⟩) (r2.log ⟨k, hk2⟩) :=
  C109_rows_partial hw hst hng hv hC hru hloc hAB hp H1 H2 k hd1 hd2 hk1 hk2

end

/-! ## A concrete case -/

/-- The house of panels made tight. -/
noncomputable def exTightPanels : House (Fin 2) (Fin 4) := { exPanels 0 with cValue := 0 }

/-- A day in the house without air conditioning. -/
noncomputable def exFreeDay : Fin 96 → Record (Fin 2) (Fin 4) := fun k => { exDay k with acDemand := fun _ => 0 }

/-- The same day, two degrees warmer and with a lamp of 60 W. -/
noncomputable def exLampDay : Fin 96 → Record (Fin 2) (Fin 4) := fun k =>
  { exFreeDay k with
    thetaO := (exFreeDay k).thetaO + 2
    thetaOSol := fun j => (exFreeDay k).thetaOSol j + 2
    qGen := fun i => (exFreeDay k).qGen i + 60 }

theorem exTightPanels_wellFormed : WellFormed exTightPanels exHR 900 :=
  { exPanels_wellFormed (v := 0) (by norm_num) with }

/-- The hypotheses of `C109_rows_partial` are met by the house of panels with people at home, on a day and on a warmer day with a lamp. -/
example : ∃ r1 r2, coreCalc exTightPanels exHR exFreeDay 4 1 1 1 = .ok r1 ∧ coreCalc exTightPanels exHR exLampDay 4 1 1 1 = .ok r2 ∧
    r1.nMain.toNat = 96 ∧ r2.nMain.toNat = 96 ∧ (∃ k i, 0 < (exFreeDay k).nHum i) ∧
    ∀ (k : ℕ) (h1 : k < r1.nMain.toNat) (h2 : k < r2.nMain.toNat), RowBelow (r1.log ⟨k, h1⟩) (r2.log ⟨k, h2⟩) := by
  have e4 : (3600 / ((4 : ℤ) : ℝ)) = 900 := by norm_num
  have hw : WellFormed exTightPanels exHR (3600 / ((4 : ℤ) : ℝ)) := by rw [e4]; exact exTightPanels_wellFormed
  have hloc : ∀ k i, 0 ≤ (exFreeDay k).vLocal i := fun k i => by fin_cases i <;> norm_num [exFreeDay, exDay]
  have hloc' : ∀ k i, 0 ≤ (exLampDay k).vLocal i := fun k i => by fin_cases i <;> norm_num [exLampDay, exFreeDay, exDay]
  obtain ⟨r1, H1⟩ := C21_program_partial (data := exFreeDay) (dMain := 1) (dRunUp := 1) (dRunUpBuild := 1) hw (fun _ => rfl) (fun _ => rfl)
    hloc (by norm_num) (by norm_num) (by norm_num) le_rfl (by norm_num) (by norm_num)
  obtain ⟨r2, H2⟩ := C21_program_partial (data := exLampDay) (dMain := 1) (dRunUp := 1) (dRunUpBuild := 1) hw (fun _ => rfl) (fun _ => rfl)
    hloc' (by norm_num) (by norm_num) (by norm_num) le_rfl (by norm_num) (by norm_num)
  obtain ⟨_, _, _, _, T1⟩ := coreCalc_ok H1
  obtain ⟨_, _, _, _, T2⟩ := coreCalc_ok H2
  refine ⟨r1, r2, H1, H2, by rw [T1.nMain_eq]; rfl, by rw [T2.nMain_eq]; rfl, ⟨0, 0, ?_⟩, fun k h1 h2 => ?_⟩
  · norm_num [exFreeDay, exDay]
  · refine C109_rows_partial hw ?_ (fun _ => rfl) ?_ rfl (by norm_num) hloc ?_ ?_ H1 H2 k (fun _ _ _ _ _ _ => le_refl _)
      (fun _ _ _ _ _ _ => le_refl _) h1 h2
    · exact ⟨fun _ _ => rfl, fun _ _ => rfl, fun _ => rfl, (exPanels_storageless 0).weights⟩
    · intro i l; fin_cases i <;> fin_cases l <;> simp [exTightPanels, exPanels]
    · intro k
      exact ⟨by simp [exLampDay], by intro j; simp [exLampDay], by intro j; simp [exLampDay], fun _ => le_rfl, rfl, rfl⟩
    · intro k i
      rw [e4]
      fin_cases i <;> norm_num [exTightPanels, exPanels, exHouse, exFreeDay, exDay, airCap]

end HLC
