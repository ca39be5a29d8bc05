import Verif.Spec.Airing
import Verif.Props.Warmer

/-!
# C137: airing brings a house nearer to outdoors
-/

set_option linter.unusedSectionVars false

namespace HLC
open Spec

section
variable {I J : Type} [Fintype I] [DecidableEq I] [Fintype J] [DecidableEq J] {N : ℕ} {h : House I J} {hR : J → ℝ} {dt : ℝ}

/-- Part of the ventilation may be counted as heat released. -/
theorem Averages.vent {v : I → ℝ} {θo : ℝ} {θosol : J → ℝ} {old oldF θr θf : I → ℝ} {θs : J → ℝ} {g f : I → ℝ} {s p : J → ℝ}
    (A : Averages h hR dt v θo θosol old oldF θr θf θs g f s p) (u : I → ℝ) :
    Averages h hR dt u θo θosol old oldF θr θf θs (fun i => g i + airCap * (v i - u i) * (θo - θr i)) f s p where
  room i := by
    rw [A.room i]
    ring
  furniture := A.furniture
  surface := A.surface

/-- The equations of the step do not mention where the air comes from. -/
theorem Averages.refan {w : I → ℝ} {v : I → ℝ} {θo : ℝ} {θosol : J → ℝ} {old oldF θr θf : I → ℝ} {θs : J → ℝ} {g f : I → ℝ} {s p : J → ℝ}
    (A : Averages (refanned h w) hR dt v θo θosol old oldF θr θf θs g f s p) : Averages h hR dt v θo θosol old oldF θr θf θs g f s p :=
  ⟨A.room, A.furniture, A.surface⟩

/-- **C137 (one step).** -/
theorem step_airing {w : I → ℝ} {ss ss' : PreCalc I J N} {n : ℤ} {k : Fin N} {A B : Fin N → Record I J} {c c' : Cond I J} {t t' : TickVars I J}
    (hw : WellFormed h hR dt) (hw' : WellFormed (refanned h w) hR dt) (hst : Storageless h) (hv : ∀ i l, h.vInt i l = 0) (hC : h.cValue = 0)
    (Hp : makePreCalc h hR dt A = .ok ss) (Hp' : makePreCalc (refanned h w) hR dt B = .ok ss') (H : runTick n dt ss c = .ok t)
    (H' : runTick n dt ss' c' = .ok t') (hk : pyIndex N n = .ok k) (hloc : ∀ i, 0 ≤ (A k).vLocal i) (hloc' : ∀ i, 0 ≤ (B k).vLocal i)
    (hAB : SameButAir (A k) (B k)) (hp : RoomForPeople h dt (A k)) (hd : ∀ i, (A k).acDemand i ≤ 0) (hd' : ∀ i, (B k).acDemand i ≤ 0)
    (hcool : ∀ i, AiringCools (A k).thetaO (h.vVentEx i + (A k).vLocal i) (w i + (B k).vLocal i) (t.thetaR i) (t'.thetaR i)) (hc : Below c c') :
    Below t.next t'.next ∧ RowBelow (LogRow.ofTick t) (LogRow.ofTick t') := by
  obtain ⟨a1, a2, SA⟩ := step_averages hw hst hv Hp H hk (fun j m => (hc.emptyA j m).1) (fun j m => (hc.emptyT j m).1)
  have hst' : Storageless (refanned h w) := ⟨hst.1, hst.2, hst.3, hst.4⟩
  obtain ⟨b1, b2, SB⟩ := step_averages hw' hst' hv Hp' H' hk (fun j m => (hc.emptyA j m).2) (fun j m => (hc.emptyT j m).2)
  have hcap : ∀ i, 0 ≤ h.capH i ∧ 0 ≤ h.capC i := fun i => ⟨hw.capH_nonneg i, hw.capC_nonneg i⟩
  obtain ⟨ivs, k1, hi1, hs1, hk1, e1⟩ := step_eqs Hp H
  obtain rfl : k1 = k := Except.ok.inj (hk1.symm.trans hk)
  obtain ⟨ivs', k2, hi2, hs2, hk2, e2⟩ := step_eqs Hp' H'
  obtain rfl : k2 = k1 := Except.ok.inj (hk2.symm.trans hk)
  subst hs1 hs2
  obtain ⟨l1, v1, o1⟩ := no_demand_tight hC hcap hd e1
  obtain ⟨l2, v2, o2⟩ := no_demand_tight (h := refanned h w) hC hcap hd' e2
  replace v2 : ∀ i, t'.vOut i = w i + (B k2).vLocal i := v2
  have SB' := SB.refan
  have hcapA : ∀ i, 0 < h.vRoom i * airCap := fun i => mul_pos (hw.vRoom_pos i) (by unfold airCap; norm_num)
  -- one amount of air for both
  have hu : ∃ u : I → ℝ, (∀ i, 0 ≤ u i) ∧ ∀ i, airCap * (t.vOut i - u i) * ((A k2).thetaO - t.thetaR i)
      ≤ airCap * (t'.vOut i - u i) * ((A k2).thetaO - t'.thetaR i) := by
    have : ∀ i, ∃ u : ℝ, 0 ≤ u ∧ airCap * (t.vOut i - u) * ((A k2).thetaO - t.thetaR i)
      ≤ airCap * (t'.vOut i - u) * ((A k2).thetaO - t'.thetaR i) := by
      intro i
      have ha : (0 : ℝ) ≤ airCap := by unfold airCap; norm_num
      have n1 : 0 ≤ t.vOut i := by rw [v1]; exact add_nonneg (hw.vVentEx_nonneg i) (hloc i)
      have n2 : 0 ≤ t'.vOut i := by rw [v2]; exact add_nonneg (hw'.vVentEx_nonneg i) (hloc' i)
      have hc := hcool i
      rw [← v1, ← v2] at hc
      rcases hc with hc | ⟨hc, hθ | hθ⟩ | ⟨hc, hθ | hθ⟩
      · exact ⟨t.vOut i, n1, by rw [hc]; simp⟩
      · refine ⟨t'.vOut i, n2, ?_⟩
        rw [sub_self, mul_zero, zero_mul]
        exact mul_nonpos_of_nonneg_of_nonpos (mul_nonneg ha (sub_nonneg.2 hc)) (by linarith)
      · refine ⟨t.vOut i, n1, ?_⟩
        rw [sub_self, mul_zero, zero_mul]
        exact mul_nonneg_of_nonpos_of_nonpos (mul_nonpos_of_nonneg_of_nonpos ha (by linarith)) (by linarith)
      · refine ⟨t'.vOut i, n2, ?_⟩
        rw [sub_self, mul_zero, zero_mul]
        exact mul_nonpos_of_nonpos_of_nonneg (mul_nonpos_of_nonneg_of_nonpos ha (by linarith)) (by linarith)
      · refine ⟨t.vOut i, n1, ?_⟩
        rw [sub_self, mul_zero, zero_mul]
        exact mul_nonneg (mul_nonneg ha (sub_nonneg.2 hc)) (by linarith)
    choose u hu using this
    exact ⟨u, fun i => (hu i).1, fun i => (hu i).2⟩
  obtain ⟨u, hu0, hu⟩ := hu
  have D := ((SA.vent u).sub (SB'.vent u)).early (fun i => t'.qHum i - t.qHum i) (fun i => (hcapA i).ne') hw.dt_pos.ne'
  have hq : ∀ i, -(c'.thetaR i - c.thetaR i) ≤ (t'.qHum i - t.qHum i) * dt / (h.vRoom i * airCap) := by
    intro i
    have q1 : t.qHum i = qHumPsn (c.thetaR i) * (A k2).nHum i := by rw [e1.qHum]; rfl
    have q2 : t'.qHum i = qHumPsn (c'.thetaR i) * (A k2).nHum i := by rw [e2.qHum, ← hAB.people]; rfl
    rw [le_div_iff₀ (hcapA i), q1, q2]
    have hs := qHumPsn_slope (hc.rooms i)
    have h1 := mul_le_mul_of_nonneg_right (mul_le_mul_of_nonneg_right hs (hp i).1) hw.dt_pos.le
    have h2 := mul_le_mul_of_nonneg_left (hp i).2 (sub_nonneg.2 (hc.rooms i))
    nlinarith
  have hsun : ∀ j, (refanned h w).qSol (B k2) j = h.qSol (A k2) j := by
    intro j
    rw [show (refanned h w).qSol (B k2) j = h.qSol (B k2) j from rfl]
    simp only [House.qSol, hAB.sun]
  have key := D.floor hw hst.weights (lo := 0) hu0 (by simp [hAB.air]) (fun j => by simp [hAB.parts])
    (fun i => by have := hq i; linarith) (fun i => sub_nonneg.2 (hc.furniture i))
    (fun i => by
      have h1 := hu i
      have h2 : (refanned h w).beta i = h.beta i := rfl
      simp only [l1, l2, hAB.gains, hAB.air, h2]
      linarith)
    (fun i => by rw [hAB.sun]; linarith)
    (fun j => by
      simp only [l1, l2, hsun]
      simp)
    (fun j => by
      have h2 : (refanned h w).kEi j = h.kEi j := rfl
      simp only [h2]
      cases hK : h.kEi j with
      | none => simp
      | some mc =>
        obtain ⟨m, coef⟩ := mc
        simp only [l1, l2, hsun]
        simp)
  have r1 : ∀ i, t.thetaR i ≤ t'.thetaR i := fun i => sub_nonneg.1 (key.1 i)
  have r2 : ∀ i, t.thetaFrt i ≤ t'.thetaFrt i := fun i => sub_nonneg.1 (key.2.1 i)
  have r3 : ∀ j, t.thetaS j ≤ t'.thetaS j := fun j => sub_nonneg.1 (key.2.2 j)
  have r4 : ∀ i, t.thetaMrt i ≤ t'.thetaMrt i := by
    intro i
    rw [e1.thetaMrt, e2.thetaMrt]
    unfold Tick.thetaMrt Matrix.mulVec dotProduct
    refine Finset.sum_le_sum fun j _ => mul_le_mul_of_nonneg_left (r3 j) ?_
    show 0 ≤ h.p i j * h.fMrtHum j
    unfold House.p
    simp only [Matrix.of_apply]
    split_ifs
    · simpa using hw.fMrtHum_nonneg j
    · simp
  refine ⟨⟨fun j m => ⟨a1 j m, b1 j m⟩, fun j m => ⟨a2 j m, b2 j m⟩, r1, r2⟩, ⟨r1, r2, r3, r4, fun i => ?_⟩⟩
  have hm : ∀ j, 0 ≤ h.fMrtHum j := hw.fMrtHum_nonneg
  have hc0 : (0 : ℝ) < hHumC := by unfold hHumC; norm_num
  have hr0 := hHumR_pos
  show t.thetaOt i ≤ t'.thetaOt i
  rw [C13_operative_temperature Hp H i, C13_operative_temperature Hp' H' i]
  refine div_le_div_of_nonneg_right (add_le_add (mul_le_mul_of_nonneg_left (r1 i) hc0.le) (mul_le_mul_of_nonneg_left ?_ hr0.le)) (by linarith)
  exact Finset.sum_le_sum fun j _ => mul_le_mul_of_nonneg_left (r3 j) (hm j)

/-- **C137 (a run).** -/
theorem run_airing {w : I → ℝ} {ss ss' : PreCalc I J N} {A B : Fin N → Record I J}
    (hw : WellFormed h hR dt) (hw' : WellFormed (refanned h w) hR dt) (hst : Storageless h) (hv : ∀ i l, h.vInt i l = 0) (hC : h.cValue = 0)
    (Hp : makePreCalc h hR dt A = .ok ss) (Hp' : makePreCalc (refanned h w) hR dt B = .ok ss') (hloc : ∀ k i, 0 ≤ (A k).vLocal i)
    (hloc' : ∀ k i, 0 ≤ (B k).vLocal i) (hAB : ∀ k, SameButAir (A k) (B k)) (hp : ∀ k, RoomForPeople h dt (A k)) {c c' : Cond I J} {ns : List ℤ}
    {ts ts' : List (TickVars I J)} (hc : Below c c') (H : Run ss dt c ns ts) (H' : Run ss' dt c' ns ts') :
    ∀ (j : ℕ) (_ : j < ns.length) (h1 : j < ts.length) (h2 : j < ts'.length),
      (∀ (l : ℕ) (hl : l < ns.length) (g1 : l < ts.length) (g2 : l < ts'.length), l ≤ j → ∀ k : Fin N, pyIndex N ns[l] = .ok k → ∀ i,
        (A k).acDemand i ≤ 0 ∧ (B k).acDemand i ≤ 0 ∧
        AiringCools (A k).thetaO (h.vVentEx i + (A k).vLocal i) (w i + (B k).vLocal i) (ts[l].thetaR i) (ts'[l].thetaR i)) →
      RowBelow (LogRow.ofTick ts[j]) (LogRow.ofTick ts'[j]) := by
  induction H generalizing c' ts' with
  | nil => intro j hj; simp at hj
  | cons a1 _ ih =>
    cases H' with
    | cons b1 b2 =>
      intro j hj h1 h2 hd
      obtain ⟨k, hk⟩ := runTick_index a1
      have s1 := step_airing hw hw' hst hv hC Hp Hp' a1 b1 hk (hloc k) (hloc' k) (hAB k) (hp k)
        (fun i => (hd 0 (by simp) (by simp) (by simp) (by omega) k hk i).1)
        (fun i => (hd 0 (by simp) (by simp) (by simp) (by omega) k hk i).2.1)
        (fun i => (hd 0 (by simp) (by simp) (by simp) (by omega) k hk i).2.2) hc
      cases j with
      | zero => exact s1.2
      | succ j =>
        exact ih s1.1 b2 j (by simpa using hj) (by simpa using h1) (by simpa using h2)
          fun l hl g1 g2 hlj => hd (l + 1) (by simpa using hl) (by simpa using g1) (by simpa using g2) (by omega)

end

section
variable {I : Type} [Fintype I] [DecidableEq I] {m N : ℕ} {h : House I (Fin m)} {w : I → ℝ} {solve : List ℝ → ℝ} {hR : Fin m → ℝ}
  {A B : Fin N → Record I (Fin m)} {hourly dMain dRunUp dRunUpBuild : ℤ} {r1 r2 : CalcResult I m N}

/-- **C137 (partial), rows.** -/
theorem C137_rows_partial (hw : WellFormed h hR (3600 / (hourly : ℝ))) (hw' : WellFormed (refanned h w) hR (3600 / (hourly : ℝ)))
    (hst : Storageless h) (hng : ∀ j, h.isGround j = false)
    (hv : ∀ i l, h.vInt i l = 0) (hC : h.cValue = 0) (hru : 0 ≤ dRunUpBuild * hourly * 24)
    (hloc : ∀ k i, 0 ≤ (A k).vLocal i ∧ 0 ≤ (B k).vLocal i) (hAB : ∀ k, SameButAir (A k) (B k))
    (hp : ∀ k, RoomForPeople h (3600 / (hourly : ℝ)) (A k))
    (H1 : coreCalc h hR A hourly dMain dRunUp dRunUpBuild = .ok r1) (H2 : coreCalc (refanned h w) hR B hourly dMain dRunUp dRunUpBuild = .ok r2)
    (k : ℕ) (hd1 : NoDemand (fun n => (A n).acDemand) (-(dRunUpBuild * hourly * 24)) k)
    (hd2 : NoDemand (fun n => (B n).acDemand) (-(dRunUpBuild * hourly * 24)) k)
    (hup : ∀ n : ℤ, -(dRunUpBuild * hourly * 24) ≤ n → n < 0 → ∀ k : Fin N, (k : ℤ) = n + N → ∀ i,
      h.vVentEx i + (A k).vLocal i = w i + (B k).vLocal i)
    (hcool : ∀ (l : ℕ) (h1 : l < r1.nMain.toNat) (h2 : l < r2.nMain.toNat) (hN : l < N), l ≤ k → ∀ i,
      AiringCools (A ⟨l, hN⟩).thetaO (h.vVentEx i + (A ⟨l, hN⟩).vLocal i) (w i + (B ⟨l, hN⟩).vLocal i) ((r1.log ⟨l, h1⟩).thetaR i) ((r2.log ⟨l, h2⟩).thetaR i))
    (hk1 : k < r1.nMain.toNat) (hk2 : k < r2.nMain.toNat) : RowBelow (r1.log ⟨k, hk1⟩) (r2.log ⟨k, hk2⟩) := by
  obtain ⟨gs1, c1, up1, mn1, T1⟩ := coreCalc_ok H1
  obtain ⟨gs2, c2, up2, mn2, T2⟩ := coreCalc_ok H2
  have e1 := start_eq hng T1
  have e2 := start_eq (h := refanned h w) hng T2
  subst e1 e2
  have R1 := T1.runUp.append T1.main
  have R2 := T2.runUp.append T2.main
  have hl2 : up2.length = up1.length := T2.runUp.length_eq.trans T1.runUp.length_eq.symm
  have hu : up1.length = (pyRange (-(dRunUpBuild * hourly * 24)) 0).length := T1.runUp.length_eq
  have hm1 : k < mn1.length := by rw [T1.mn_length]; exact hk1
  have hm2 : k < mn2.length := by rw [T2.mn_length]; exact hk2
  have hm : mn1.length = (pyRange 0 (dMain * hourly * 24)).length := T1.main.length_eq
  have hc : Below (initialConditions I (Fin m)) (initialConditions I (Fin m)) :=
    ⟨fun _ _ => ⟨rfl, rfl⟩, fun _ _ => ⟨rfl, rfl⟩, fun _ => le_rfl, fun _ => le_rfl⟩
  have key := run_airing hw hw' hst hv hC T1.pre T2.pre (fun k i => (hloc k i).1) (fun k i => (hloc k i).2) hAB hp hc R1 R2 (up1.length + k)
    (by rw [List.length_append]; omega)
    (by rw [List.length_append]; omega) (by rw [List.length_append]; omega) (by
      intro l hl g1 g2 hle k' hk' i
      have hsp := pyIndex_spec hk'
      have hb : -(dRunUpBuild * hourly * 24) ≤ (pyRange (-(dRunUpBuild * hourly * 24)) 0 ++ pyRange 0 (dMain * hourly * 24))[l]
          ∧ (pyRange (-(dRunUpBuild * hourly * 24)) 0 ++ pyRange 0 (dMain * hourly * 24))[l] ≤ k := by
        rw [List.getElem_append]
        split_ifs with h5
        · rw [pyRange_getElem]
          rw [pyRange_length] at h5
          omega
        · rw [pyRange_getElem]
          rw [pyRange_length] at h5 hu
          rw [pyRange_length]
          omega
      refine ⟨hd1 _ hb.1 hb.2 k' hsp i, hd2 _ hb.1 hb.2 k' hsp i, ?_⟩
      by_cases h5 : l < up1.length
      · left
        have hx : (pyRange (-(dRunUpBuild * hourly * 24)) 0 ++ pyRange 0 (dMain * hourly * 24))[l] = -(dRunUpBuild * hourly * 24) + l := by
          rw [List.getElem_append_left (by omega), pyRange_getElem]
        rw [hx] at hsp hb
        rw [pyRange_length] at hu
        have hn : -(dRunUpBuild * hourly * 24) + (l : ℤ) < 0 := by omega
        exact hup _ hb.1 hn k' (by rcases hsp with h | h <;> omega) i
      · obtain ⟨q, rfl⟩ : ∃ q, l = up1.length + q := ⟨l - up1.length, by omega⟩
        have hx : (pyRange (-(dRunUpBuild * hourly * 24)) 0 ++ pyRange 0 (dMain * hourly * 24))[up1.length + q] = q := by
          rw [List.getElem_append_right (by omega), pyRange_getElem]
          omega
        rw [hx] at hsp
        have hkq : (k' : ℕ) = q := by rcases hsp with h | h <;> omega
        rw [List.length_append] at g1 g2
        have q1 : q < mn1.length := by omega
        have q2 : q < mn2.length := by omega
        have q1' : q < r1.nMain.toNat := by rw [← T1.mn_length]; exact q1
        have q2' : q < r2.nMain.toNat := by rw [← T2.mn_length]; exact q2
        have e1 : (up1 ++ mn1)[up1.length + q]'(by rw [List.length_append]; omega) = mn1[q] := by
          rw [List.getElem_append_right (by omega)]; simp
        have e2 : (up2 ++ mn2)[up1.length + q]'(by rw [List.length_append]; omega) = mn2[q] := by
          rw [List.getElem_append_right (by omega)]; simp [hl2]
        rw [e1, e2]
        have := hcool q q1' q2' (hkq ▸ k'.isLt) (by omega) i
        rw [T1.logged ⟨q, q1'⟩ q1, T2.logged ⟨q, q2'⟩ q2] at this
        have ek : k' = ⟨q, hkq ▸ k'.isLt⟩ := Fin.ext hkq
        rw [ek]
        exact this)
  have e1 : (up1 ++ mn1)[up1.length + k]'(by rw [List.length_append]; omega) = mn1[k] := by
    rw [List.getElem_append_right (by omega)]; simp
  have e2 : (up2 ++ mn2)[up1.length + k]'(by rw [List.length_append]; omega) = mn2[k] := by
    rw [List.getElem_append_right (by omega)]; simp [hl2]
  rw [e1, e2] at key
  rw [T1.logged ⟨k, hk1⟩ hm1, T2.logged ⟨k, hk2⟩ hm2]
  exact key

end

section
variable {p m N : ℕ} {h : House (Fin p) (Fin m)} {w : Fin p → ℝ} {solve : List ℝ → ℝ}
  {A B : Fin N → Record (Fin p) (Fin m)} {hourly dMain dRunUp dRunUpBuild : ℤ} {r1 r2 : CalcResult (Fin p) m N}

/-- **C137 (partial), the program.** Take a tight house (no leakage) of parts that store no heat, off the ground and without air exchange
between rooms, not too crowded, that is free-running up to row `k`, and calculate it with two amounts of ventilation, by fans that run all
the time or by schedule, which are the same during the run-up. If in each room and each row up to `k` the first calculation has at least as
much ventilation while the room is at least as warm as outdoors in one of the two, or at most as much while it is at most as warm, then no
temperature of row `k` is higher in the first. -/
theorem C137_program_partial (hw : WellFormed h (getHr solve h.area h.room) (3600 / (hourly : ℝ)))
    (hw' : WellFormed (refanned h w) (getHr solve h.area h.room) (3600 / (hourly : ℝ))) (hst : Storageless h) (hng : ∀ j, h.isGround j = false)
    (hv : ∀ i l, h.vInt i l = 0) (hC : h.cValue = 0) (hru : 0 ≤ dRunUpBuild * hourly * 24)
    (hloc : ∀ k i, 0 ≤ (A k).vLocal i ∧ 0 ≤ (B k).vLocal i) (hAB : ∀ k, SameButAir (A k) (B k))
    (hp : ∀ k, RoomForPeople h (3600 / (hourly : ℝ)) (A k))
    (H1 : program solve h A hourly dMain dRunUp dRunUpBuild = .ok r1) (H2 : program solve (refanned h w) B hourly dMain dRunUp dRunUpBuild = .ok r2)
    (k : ℕ) (hd1 : NoDemand (fun n => (A n).acDemand) (-(dRunUpBuild * hourly * 24)) k)
    (hd2 : NoDemand (fun n => (B n).acDemand) (-(dRunUpBuild * hourly * 24)) k)
    (hup : ∀ n : ℤ, -(dRunUpBuild * hourly * 24) ≤ n → n < 0 → ∀ k : Fin N, (k : ℤ) = n + N → ∀ i,
      h.vVentEx i + (A k).vLocal i = w i + (B k).vLocal i)
    (hcool : ∀ (l : ℕ) (h1 : l < r1.nMain.toNat) (h2 : l < r2.nMain.toNat) (hN : l < N), l ≤ k → ∀ i,
      AiringCools (A ⟨l, hN⟩).thetaO (h.vVentEx i + (A ⟨l, hN⟩).vLocal i) (w i + (B ⟨l, hN⟩).vLocal i) ((r1.log ⟨l, h1⟩).thetaR i) ((r2.log ⟨l, h2⟩).thetaR i))
    (hk1 : k < r1.nMain.toNat) (hk2 : k < r2.nMain.toNat) : RowBelow (r1.log ⟨k, hk1⟩) (r2.log ⟨k, hk2⟩) :=
  C137_rows_partial hw hw' hst hng hv hC hru hloc hAB hp H1 H2 k hd1 hd2 hup hcool hk1 hk2

end

/-! ## A concrete case -/

/-- A day at 0 degC, with fans in both rooms. -/
noncomputable def exAired : Fin 96 → Record (Fin 2) (Fin 4) := fun k =>
  { exIdle k with
    thetaO := 0
    thetaOSol := fun _ => 0
    vLocal := ![0.02, 0.05] }

/-- The same day with a weaker fan in one room. -/
noncomputable def exLessAired : Fin 96 → Record (Fin 2) (Fin 4) := fun k => { exAired k with vLocal := ![0, 0.05] }

/-- The hypotheses of `C137_rows_partial` are met by a day of the house of panels at 0 degC: the rooms are warmer than outdoors in all rows,
and one calculation has more local ventilation and twice the fans of the other. -/
theorem C137_example : ∃ r1 r2, coreCalc exTightPanels exHR exAired 4 1 1 0 = .ok r1 ∧
    coreCalc (refanned exTightPanels fun i => exTightPanels.vVentEx i / 2) exHR exLessAired 4 1 1 0 = .ok r2 ∧
    r1.nMain.toNat = 96 ∧ r2.nMain.toNat = 96 ∧
    ∀ (k : ℕ) (h1 : k < r1.nMain.toNat) (h2 : k < r2.nMain.toNat), RowBelow (r1.log ⟨k, h1⟩) (r2.log ⟨k, h2⟩) := by
  have e4 : (3600 / ((4 : ℤ) : ℝ)) = 900 := by norm_num
  have hw : WellFormed exTightPanels exHR (3600 / ((4 : ℤ) : ℝ)) := by rw [e4]; exact exTightPanels_wellFormed
  have hw' : WellFormed (refanned exTightPanels fun i => exTightPanels.vVentEx i / 2) exHR (3600 / ((4 : ℤ) : ℝ)) :=
    { hw with vVentEx_nonneg := fun i => div_nonneg (hw.vVentEx_nonneg i) (by norm_num) }
  have hloc : ∀ k i, 0 ≤ (exAired k).vLocal i := fun k i => by fin_cases i <;> norm_num [exAired]
  have hloc' : ∀ k i, 0 ≤ (exLessAired k).vLocal i := fun k i => by fin_cases i <;> norm_num [exLessAired]
  have hst : Storageless exTightPanels := ⟨fun _ _ => rfl, fun _ _ => rfl, fun _ => rfl, (exPanels_storageless 0).weights⟩
  have hv : ∀ i l, exTightPanels.vInt i l = 0 := by
    intro i l; fin_cases i <;> fin_cases l <;> simp [exTightPanels, exPanels]
  obtain ⟨r1, H1⟩ := C21_program_partial (data := exAired) (dMain := 1) (dRunUp := 1) (dRunUpBuild := 0) hw (fun _ => rfl) (fun _ => rfl)
    hloc (by norm_num) (by norm_num) (by norm_num) (by norm_num) (by norm_num) (by norm_num)
  obtain ⟨r2, H2⟩ := C21_program_partial (data := exLessAired) (dMain := 1) (dRunUp := 1) (dRunUpBuild := 0) hw' (fun _ => rfl) (fun _ => rfl)
    hloc' (by norm_num) (by norm_num) (by norm_num) (by norm_num) (by norm_num) (by norm_num)
  obtain ⟨_, _, _, _, T1⟩ := coreCalc_ok H1
  obtain ⟨_, _, _, _, T2⟩ := coreCalc_ok H2
  have warm : ∀ (l : ℕ) (h1 : l < r1.nMain.toNat) (i : Fin 2), 0 ≤ (r1.log ⟨l, h1⟩).thetaR i := fun l h1 i =>
    ((C86_range_partial hw hst (fun _ => rfl) hv H1 (lo := 0) (hi := 15) (by norm_num) (fun k => ⟨⟨le_rfl, fun _ => le_rfl⟩,
      ⟨by norm_num [exAired], fun _ => by norm_num [exAired]⟩, hloc k, ⟨fun _ => rfl, fun _ => rfl, fun _ => rfl, fun _ => le_rfl⟩⟩) ⟨l, h1⟩).1.1 i).1
  refine ⟨r1, r2, H1, H2, by rw [T1.nMain_eq]; rfl, by rw [T2.nMain_eq]; rfl, fun k h1 h2 => ?_⟩
  refine C137_rows_partial hw hw' hst (fun _ => rfl) hv rfl (by norm_num) (fun k i => ⟨hloc k i, hloc' k i⟩)
    (fun k => ⟨rfl, rfl, rfl, rfl, rfl⟩) ?_ H1 H2 k (fun _ _ _ _ _ _ => le_refl _) (fun _ _ _ _ _ _ => le_refl _) (fun n h h' => by omega) ?_ h1 h2
  · intro k i
    rw [e4]
    fin_cases i <;> norm_num [exTightPanels, exPanels, exHouse, exAired, exIdle, airCap]
  · intro l g1 g2 hN _ i
    refine .inr (.inl ⟨?_, .inl (warm l g1 i)⟩)
    have := hw.vVentEx_nonneg i
    have h3 : (exLessAired ⟨l, hN⟩).vLocal i ≤ (exAired ⟨l, hN⟩).vLocal i := by fin_cases i <;> norm_num [exLessAired, exAired]
    have h4 : (fun i => exTightPanels.vVentEx i / 2) i ≤ exTightPanels.vVentEx i := by simp only; linarith
    linarith

end HLC
