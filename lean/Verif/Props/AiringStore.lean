import Verif.Props.Relaxing

/-!
# C137 for houses that store heat
-/

set_option linter.unusedSectionVars false

namespace HLC
open Spec

section
variable {I J : Type} [Fintype I] [DecidableEq I] [Fintype J] [DecidableEq J] {N : ℕ} {h : House I J} {hR : J → ℝ} {dt : ℝ}

/-- **C137 (one step), houses that store heat.** -/
theorem step_aired {w : I → ℝ} {ss ss' : PreCalc I J N} {n : ℤ} {k : Fin N} {A B : Fin N → Record I J} {c c' : Cond I J} {t t' : TickVars I J}
    (hw : WellFormed h hR dt) (hw' : WellFormed (refanned h w) hR dt) (hrx : Relaxing h hR) (hv : ∀ i l, h.vInt i l = 0) (hC : h.cValue = 0)
    (Hp : makePreCalc h hR dt A = .ok ss) (Hp' : makePreCalc (refanned h w) hR dt B = .ok ss') (H : runTick n dt ss c = .ok t)
    (H' : runTick n dt ss' c' = .ok t') (hk : pyIndex N n = .ok k) (hloc : ∀ i, 0 ≤ (A k).vLocal i) (hloc' : ∀ i, 0 ≤ (B k).vLocal i)
    (hAB : SameButAir (A k) (B k)) (hp : RoomForPeople h dt (A k)) (hd : ∀ i, (A k).acDemand i ≤ 0) (hd' : ∀ i, (B k).acDemand i ≤ 0)
    (hcool : ∀ i, AiringCools (A k).thetaO (h.vVentEx i + (A k).vLocal i) (w i + (B k).vLocal i) (t.thetaR i) (t'.thetaR i)) (hc : Leaning h hR c c') :
    Leaning h hR t.next t'.next ∧ RowBelow (LogRow.ofTick t) (LogRow.ofTick t') := by
  have SA := settled_averages hw hrx hv Hp H hk hc.empty
  have hrx' : Relaxing (refanned h w) hR := ⟨hrx.1, hrx.2, hrx.3⟩
  have SB0 := settled_averages hw' hrx' hv Hp' H' hk hc.empty'
  have SB : Averages (settled h) hR dt t'.vOut (B k).thetaO (behind h (B k).thetaOSol t') c'.thetaR c'.thetaFrt t'.thetaR t'.thetaFrt t'.thetaS
      (fun i => (B k).qGen i + t'.qHum i + t'.lc i + h.beta i * t'.lr i) (fun i => (B k).qTrsSol i * 0.5)
      (fun j => h.qSol (B k) j + h.flr j * (1 - h.beta (h.room j)) * t'.lr (h.room j) / h.area j)
      (fun j => match h.kEi j with
        | none => 0
        | some (m, _) => h.qSol (B k) m + h.flr m * ((1 - h.beta (h.room m)) * t'.lr (h.room m)) / h.area j) :=
    ⟨SB0.room, SB0.furniture, SB0.surface⟩
  have hcap : ∀ i, 0 ≤ h.capH i ∧ 0 ≤ h.capC i := fun i => ⟨hw.capH_nonneg i, hw.capC_nonneg i⟩
  obtain ⟨ivs, k1, hi1, hs1, hk1, e1⟩ := step_eqs Hp H
  obtain rfl : k1 = k := Except.ok.inj (hk1.symm.trans hk)
  obtain ⟨ivs', k2, hi2, hs2, hk2, e2⟩ := step_eqs Hp' H'
  obtain rfl : k2 = k1 := Except.ok.inj (hk2.symm.trans hk)
  subst hs1 hs2
  obtain ⟨l1, v1, o1⟩ := no_demand_tight hC hcap hd e1
  obtain ⟨l2, v2, o2⟩ := no_demand_tight (h := refanned h w) hC hcap hd' e2
  replace v2 : ∀ i, t'.vOut i = w i + (B k2).vLocal i := v2
  have hcapA : ∀ i, 0 < h.vRoom i * airCap := fun i => mul_pos (hw.vRoom_pos i) (by unfold airCap; norm_num)
  -- one amount of air for both
  have hu : ∃ u : I → ℝ, (∀ i, 0 ≤ u i) ∧ ∀ i, airCap * (t.vOut i - u i) * ((A k2).thetaO - t.thetaR i)
      ≤ airCap * (t'.vOut i - u i) * ((A k2).thetaO - t'.thetaR i) := by
    have : ∀ i, ∃ u : ℝ, 0 ≤ u ∧ airCap * (t.vOut i - u) * ((A k2).thetaO - t.thetaR i)
      ≤ airCap * (t'.vOut i - u) * ((A k2).thetaO - t'.thetaR i) := by
      intro i
      have ha : (0 : ℝ) ≤ airCap := by unfold airCap; norm_num
      have n1 : 0 ≤ t.vOut i := by rw [v1]; exact add_nonneg (hw.vVentEx_nonneg i) (hloc i)
      have n2 : 0 ≤ t'.vOut i := by rw [v2]; exact add_nonneg (hw'.vVentEx_nonneg i) (hloc' i)
      have hc := hcool i
      rw [← v1, ← v2] at hc
      rcases hc with hc | ⟨hc, hθ | hθ⟩ | ⟨hc, hθ | hθ⟩
      · exact ⟨t.vOut i, n1, by rw [hc]; simp⟩
      · refine ⟨t'.vOut i, n2, ?_⟩
        rw [sub_self, mul_zero, zero_mul]
        exact mul_nonpos_of_nonneg_of_nonpos (mul_nonneg ha (sub_nonneg.2 hc)) (by linarith)
      · refine ⟨t.vOut i, n1, ?_⟩
        rw [sub_self, mul_zero, zero_mul]
        exact mul_nonneg_of_nonpos_of_nonpos (mul_nonpos_of_nonneg_of_nonpos ha (by linarith)) (by linarith)
      · refine ⟨t'.vOut i, n2, ?_⟩
        rw [sub_self, mul_zero, zero_mul]
        exact mul_nonpos_of_nonpos_of_nonneg (mul_nonpos_of_nonneg_of_nonpos ha (by linarith)) (by linarith)
      · refine ⟨t.vOut i, n1, ?_⟩
        rw [sub_self, mul_zero, zero_mul]
        exact mul_nonneg (mul_nonneg ha (sub_nonneg.2 hc)) (by linarith)
    choose u hu using this
    exact ⟨u, fun i => (hu i).1, fun i => (hu i).2⟩
  obtain ⟨u, hu0, hu⟩ := hu
  have D := ((SA.vent u).sub (SB.vent u)).early (fun i => t'.qHum i - t.qHum i) (fun i => (hcapA i).ne') hw.dt_pos.ne'
  have hq : ∀ i, -(c'.thetaR i - c.thetaR i) ≤ (t'.qHum i - t.qHum i) * dt / (h.vRoom i * airCap) := by
    intro i
    have q1 : t.qHum i = qHumPsn (c.thetaR i) * (A k2).nHum i := by rw [e1.qHum]; rfl
    have q2 : t'.qHum i = qHumPsn (c'.thetaR i) * (A k2).nHum i := by rw [e2.qHum, ← hAB.people]; rfl
    rw [le_div_iff₀ (hcapA i), q1, q2]
    have hs := qHumPsn_slope (hc.rooms i)
    have h1 := mul_le_mul_of_nonneg_right (mul_le_mul_of_nonneg_right hs (hp i).1) hw.dt_pos.le
    have h2 := mul_le_mul_of_nonneg_left (hp i).2 (sub_nonneg.2 (hc.rooms i))
    nlinarith
  have hsun : ∀ j, h.qSol (B k2) j = h.qSol (A k2) j := by
    intro j
    simp only [House.qSol, hAB.sun]
  have hsb : ∀ j, (B k2).thetaOSol j = (A k2).thetaOSol j := fun j => congrFun hAB.parts j
  have dA : ∀ j l, t'.dshA j l - t.dshA j l = pendA h c c' j l := by
    intro j l
    rw [e1.dshA, e2.dshA]
    simp only [Tick.dshA, preCalcOf, pendA, refanned]
    ring
  have zT : ∀ j l, ¬ KeepsPast h j → h.phiT1 j l = 0 ∧ h.phiA1 j l = 0 := by
    intro j l hS
    unfold KeepsPast at hS
    push Not at hS
    exact ⟨(hS l).2, (hS l).1⟩
  have dT : ∀ j, h.kEi j = none → ∀ l, t'.dshT j l = t.dshT j l := by
    intro j hK l
    rw [e1.dshT, e2.dshT, e1.thetaRear, e2.thetaRear]
    have g : (refanned h w).kEi j = none := hK
    simp only [Tick.dshT, Tick.thetaRear, preCalcOf, kEi_mulVec, hK, g, hc.rear j hK l]
    have : (refanned h w).thetaDstrb (B k2) j = h.thetaDstrb (A k2) j := by
      show (B k2).thetaOSol j * h.kEo j = (A k2).thetaOSol j * h.kEo j
      rw [hsb j]
    rw [this]
    rfl
  have pend0 : ∀ j, h.kEi j = none → ¬ KeepsPast h j → ∀ l, pendA h c c' j l = 0 := by
    intro j hK hS l
    unfold pendA
    rw [hc.light j hK hS l, (zT j l hS).2]
    ring
  have pendN : ∀ j, h.kEi j = none → 0 ≤ ∑ l, pendA h c c' j l := by
    intro j hK
    by_cases hS : KeepsPast h j
    · exact (hc.heat j hK hS).nonneg (hrx.pulse j hK hS)
    · exact (Finset.sum_eq_zero fun l _ => pend0 j hK hS l).ge
  have bnd : ∀ j, h.kEi j = none → behind h (B k2).thetaOSol t' j - behind h (A k2).thetaOSol t j
      = h.phiT0 j * (h.kEo j * ((B k2).thetaOSol j - (A k2).thetaOSol j)) + ∑ l, pendA h c c' j l := by
    intro j hK
    have : ∑ l, pendA h c c' j l = ∑ l, (t'.dshT j l + t'.dshA j l) - ∑ l, (t.dshT j l + t.dshA j l) := by
      rw [← Finset.sum_sub_distrib]
      refine Finset.sum_congr rfl fun l _ => ?_
      rw [← dA, dT j hK l]
      ring
    rw [this]
    unfold behind
    rw [if_pos hK, if_pos hK]
    ring
  have hbeh : ∀ j, 0 ≤ behind h (B k2).thetaOSol t' j - behind h (A k2).thetaOSol t j := by
    intro j
    by_cases hK : h.kEi j = none
    · rw [bnd j hK]
      exact add_nonneg (mul_nonneg (hw.phiT0_mem j).1 (mul_nonneg (hrx.outdoors j hK) (sub_nonneg.2 (hsb j).ge))) (pendN j hK)
    · unfold behind
      rw [if_neg hK, if_neg hK]
      exact sub_nonneg.2 (hsb j).ge
  have hsrc : ∀ j, 0 ≤ (h.qSol (B k2) j + h.flr j * (1 - h.beta (h.room j)) * t'.lr (h.room j) / h.area j)
      - (h.qSol (A k2) j + h.flr j * (1 - h.beta (h.room j)) * t.lr (h.room j) / h.area j) := by
    intro j
    simp only [l1, l2, hsun]
    simp
  have hwt : ∀ j, (settled h).kEo j + (match (settled h).kEi j with | none => 0 | some (_, coef) => coef) = 1 := by
    intro j
    show (if h.kEi j = none then 1 else h.kEo j) + (match h.kEi j with | none => 0 | some (_, coef) => coef) = 1
    cases hK : h.kEi j with
    | none => simp
    | some mc =>
      obtain ⟨m, coef⟩ := mc
      simpa using (hrx.between j m coef hK).1
  have key := D.floor (settled_wellFormed hw) hwt (lo := 0) hu0 (by simp [hAB.air]) hbeh
    (fun i => by
      have := hq i
      show 0 ≤ c'.thetaR i - c.thetaR i + (t'.qHum i - t.qHum i) * dt / (h.vRoom i * airCap)
      linarith) (fun i => sub_nonneg.2 (hc.furniture i))
    (fun i => by
      have h1 := hu i
      simp only [l1, l2, hAB.gains, hAB.air]
      linarith)
    (fun i => by rw [hAB.sun]; linarith)
    hsrc
    (fun j => by
      cases hK : h.kEi j with
      | none => simp
      | some mc =>
        obtain ⟨m, coef⟩ := mc
        simp only [l1, l2, hsun]
        simp)
  have r1 : ∀ i, t.thetaR i ≤ t'.thetaR i := fun i => sub_nonneg.1 (key.1 i)
  have r2 : ∀ i, t.thetaFrt i ≤ t'.thetaFrt i := fun i => sub_nonneg.1 (key.2.1 i)
  have r3 : ∀ j, t.thetaS j ≤ t'.thetaS j := fun j => sub_nonneg.1 (key.2.2 j)
  have r4 : ∀ i, t.thetaMrt i ≤ t'.thetaMrt i := by
    intro i
    rw [e1.thetaMrt, e2.thetaMrt]
    unfold Tick.thetaMrt Matrix.mulVec dotProduct
    refine Finset.sum_le_sum fun j _ => mul_le_mul_of_nonneg_left (r3 j) ?_
    show 0 ≤ h.p i j * h.fMrtHum j
    unfold House.p
    simp only [Matrix.of_apply]
    split_ifs
    · simpa using hw.fMrtHum_nonneg j
    · simp
  have hkept : ∀ j, h.kEi j = none → KeepsPast h j → KeptHeat h hR j (pendA h t.next t'.next j) := by
    intro j hK hS
    have hH : 0 < h.hC j + hR j := add_pos (hw.hC_pos j) (hw.hR_pos j)
    have f1 := C16_surface_flux Hp H hk j hH.ne'
    have f2 : t'.qSrf j = h.hC j * (t'.thetaR (h.room j) - t'.thetaS j) + hR j * (roomMrt h hR (h.room j) t'.thetaS - t'.thetaS j)
        + h.qSol (B k2) j + h.flr j * (1 - h.beta (h.room j)) * t'.lr (h.room j) / h.area j := C16_surface_flux (h := refanned h w) Hp' H' hk j hH.ne'
    have w1 := SA.surface j
    have w2 := SB.surface j
    have b := bnd j hK
    rw [hsb j, sub_self, mul_zero, mul_zero, zero_add] at b
    have hx : 0 ≤ (t'.qSrf j - t.qSrf j) * pulse h hR j 0 + ∑ l, pendA h c c' j l := by
      have g1 : t.thetaS j = h.phiA0 j * t.qSrf j + behind h (A k2).thetaOSol t j := by
        have := w1
        simp only [settled, hK, if_true, one_mul, add_zero] at this
        rw [f1]
        refine this.trans ?_
        show h.phiA0 j * (h.hC j * (t.thetaR (h.room j) - t.thetaS j) + hR j * (roomMrt h hR (h.room j) t.thetaS - t.thetaS j) + _) + _ = _
        ring
      have g2 : t'.thetaS j = h.phiA0 j * t'.qSrf j + behind h (B k2).thetaOSol t' j := by
        have := w2
        simp only [settled, hK, if_true, one_mul, add_zero] at this
        rw [f2]
        refine this.trans ?_
        show h.phiA0 j * (h.hC j * (t'.thetaR (h.room j) - t'.thetaS j) + hR j * (roomMrt h hR (h.room j) t'.thetaS - t'.thetaS j) + _) + _ = _
        ring
      have hm : 0 ≤ roomMrt h hR (h.room j) t'.thetaS - roomMrt h hR (h.room j) t.thetaS := by
        rw [← roomMrt_sub]
        exact roomMrt_nonneg hw (fun j => sub_nonneg.2 (r3 j)) _
      have e : (t'.qSrf j - t.qSrf j) * pulse h hR j 0 + ∑ l, pendA h c c' j l
          = (h.hC j * (t'.thetaR (h.room j) - t.thetaR (h.room j)) + hR j * (roomMrt h hR (h.room j) t'.thetaS - roomMrt h hR (h.room j) t.thetaS)
            + ((h.qSol (B k2) j + h.flr j * (1 - h.beta (h.room j)) * t'.lr (h.room j) / h.area j)
      - (h.qSol (A k2) j + h.flr j * (1 - h.beta (h.room j)) * t.lr (h.room j) / h.area j))) / (h.hC j + hR j) := by
        rw [eq_div_iff hH.ne', ← b]
        have : (t'.qSrf j - t.qSrf j) * pulse h hR j 0 * (h.hC j + hR j)
            = (t'.qSrf j - t.qSrf j) * (h.phiA0 j * (h.hC j + hR j) + 1) := by
          unfold pulse
          have := hH.ne'
          field_simp
        rw [add_mul, this]
        linear_combination f2 - f1 + (h.hC j + hR j) * (g1 - g2)
      rw [e]
      refine div_nonneg ?_ hH.le
      have a1 := mul_nonneg (hw.hC_pos j).le (sub_nonneg.2 (r1 (h.room j)))
      have a2 := mul_nonneg (hw.hR_pos j).le hm
      have a3 := hsrc j
      linarith
    have := (hc.heat j hK hS).step hx
    have e : pendA h t.next t'.next j = fun l => h.phiA1 j l * (t'.qSrf j - t.qSrf j) + h.ratio j l * pendA h c c' j l := by
      funext l
      rw [← dA]
      rfl
    rw [e]
    exact this
  refine ⟨⟨r1, r2, hkept, fun j hK hS l => ?_, dT, between_empty hrx Hp H hc.empty, between_empty (h := refanned h w) hrx' Hp' H' hc.empty'⟩,
    ⟨r1, r2, r3, r4, fun i => ?_⟩⟩
  · have := dA j l
    rw [pend0 j hK hS l] at this
    exact sub_eq_zero.1 this
  have hm : ∀ j, 0 ≤ h.fMrtHum j := hw.fMrtHum_nonneg
  have hc0 : (0 : ℝ) < hHumC := by unfold hHumC; norm_num
  have hr0 := hHumR_pos
  show t.thetaOt i ≤ t'.thetaOt i
  rw [C13_operative_temperature Hp H i, C13_operative_temperature Hp' H' i]
  refine div_le_div_of_nonneg_right (add_le_add (mul_le_mul_of_nonneg_left (r1 i) hc0.le) (mul_le_mul_of_nonneg_left ?_ hr0.le)) (by linarith)
  exact Finset.sum_le_sum fun j _ => mul_le_mul_of_nonneg_left (r3 j) (hm j)

/-- **C137 (a run), houses that store heat.** -/
theorem run_aired {w : I → ℝ} {ss ss' : PreCalc I J N} {A B : Fin N → Record I J}
    (hw : WellFormed h hR dt) (hw' : WellFormed (refanned h w) hR dt) (hrx : Relaxing h hR) (hv : ∀ i l, h.vInt i l = 0) (hC : h.cValue = 0)
    (Hp : makePreCalc h hR dt A = .ok ss) (Hp' : makePreCalc (refanned h w) hR dt B = .ok ss') (hloc : ∀ k i, 0 ≤ (A k).vLocal i)
    (hloc' : ∀ k i, 0 ≤ (B k).vLocal i) (hAB : ∀ k, SameButAir (A k) (B k)) (hp : ∀ k, RoomForPeople h dt (A k)) {c c' : Cond I J} {ns : List ℤ}
    {ts ts' : List (TickVars I J)} (hc : Leaning h hR c c') (H : Run ss dt c ns ts) (H' : Run ss' dt c' ns ts') :
    ∀ (j : ℕ) (_ : j < ns.length) (h1 : j < ts.length) (h2 : j < ts'.length),
      (∀ (l : ℕ) (hl : l < ns.length) (g1 : l < ts.length) (g2 : l < ts'.length), l ≤ j → ∀ k : Fin N, pyIndex N ns[l] = .ok k → ∀ i,
        (A k).acDemand i ≤ 0 ∧ (B k).acDemand i ≤ 0 ∧
        AiringCools (A k).thetaO (h.vVentEx i + (A k).vLocal i) (w i + (B k).vLocal i) (ts[l].thetaR i) (ts'[l].thetaR i)) →
      RowBelow (LogRow.ofTick ts[j]) (LogRow.ofTick ts'[j]) := by
  induction H generalizing c' ts' with
  | nil => intro j hj; simp at hj
  | cons a1 _ ih =>
    cases H' with
    | cons b1 b2 =>
      intro j hj h1 h2 hd
      obtain ⟨k, hk⟩ := runTick_index a1
      have s1 := step_aired hw hw' hrx hv hC Hp Hp' a1 b1 hk (hloc k) (hloc' k) (hAB k) (hp k)
        (fun i => (hd 0 (by simp) (by simp) (by simp) (by omega) k hk i).1)
        (fun i => (hd 0 (by simp) (by simp) (by simp) (by omega) k hk i).2.1)
        (fun i => (hd 0 (by simp) (by simp) (by simp) (by omega) k hk i).2.2) hc
      cases j with
      | zero => exact s1.2
      | succ j =>
        exact ih s1.1 b2 j (by simpa using hj) (by simpa using h1) (by simpa using h2)
          fun l hl g1 g2 hlj => hd (l + 1) (by simpa using hl) (by simpa using g1) (by simpa using g2) (by omega)

end

section
variable {I : Type} [Fintype I] [DecidableEq I] {m N : ℕ} {h : House I (Fin m)} {w : I → ℝ} {solve : List ℝ → ℝ} {hR : Fin m → ℝ}
  {A B : Fin N → Record I (Fin m)} {hourly dMain dRunUp dRunUpBuild : ℤ} {r1 r2 : CalcResult I m N}

/-- **C137 (partial), houses that store heat.** Take a tight house whose outer parts store heat and take it up evenly, without air
exchange between rooms, not too crowded, that is free-running up to row `k`, and calculate it with two amounts of ventilation, the same during
the run-up. If in each room and row up to `k` the first takes in at least as much air and is not colder than outdoors, or less and is not warmer,
then no temperature of row `k` is higher in the first. -/
theorem C137_storing_rows_partial (hw : WellFormed h hR (3600 / (hourly : ℝ))) (hw' : WellFormed (refanned h w) hR (3600 / (hourly : ℝ)))
    (hrx : Relaxing h hR) (hgr : ∀ j, h.isGround j = true → h.kEi j = none)
    (hv : ∀ i l, h.vInt i l = 0) (hC : h.cValue = 0) (hru : 0 ≤ dRunUpBuild * hourly * 24)
    (hloc : ∀ k i, 0 ≤ (A k).vLocal i ∧ 0 ≤ (B k).vLocal i) (hAB : ∀ k, SameButAir (A k) (B k))
    (hp : ∀ k, RoomForPeople h (3600 / (hourly : ℝ)) (A k))
    (H1 : coreCalc h hR A hourly dMain dRunUp dRunUpBuild = .ok r1) (H2 : coreCalc (refanned h w) hR B hourly dMain dRunUp dRunUpBuild = .ok r2)
    (k : ℕ) (hd1 : NoDemand (fun n => (A n).acDemand) (-(dRunUpBuild * hourly * 24)) k)
    (hd2 : NoDemand (fun n => (B n).acDemand) (-(dRunUpBuild * hourly * 24)) k)
    (hup : ∀ n : ℤ, -(dRunUpBuild * hourly * 24) ≤ n → n < 0 → ∀ k : Fin N, (k : ℤ) = n + N → ∀ i,
      h.vVentEx i + (A k).vLocal i = w i + (B k).vLocal i)
    (hcool : ∀ (l : ℕ) (h1 : l < r1.nMain.toNat) (h2 : l < r2.nMain.toNat) (hN : l < N), l ≤ k → ∀ i,
      AiringCools (A ⟨l, hN⟩).thetaO (h.vVentEx i + (A ⟨l, hN⟩).vLocal i) (w i + (B ⟨l, hN⟩).vLocal i) ((r1.log ⟨l, h1⟩).thetaR i) ((r2.log ⟨l, h2⟩).thetaR i))
    (hk1 : k < r1.nMain.toNat) (hk2 : k < r2.nMain.toNat) : RowBelow (r1.log ⟨k, hk1⟩) (r2.log ⟨k, hk2⟩) := by
  obtain ⟨gs1, c1, up1, mn1, T1⟩ := coreCalc_ok H1
  obtain ⟨gs2, c2, up2, mn2, T2⟩ := coreCalc_ok H2
  obtain rfl := start_same (h := h) (hR := hR) (A := A) (B := B) (hourly := hourly) (h' := refanned h w) rfl (fun _ _ => rfl) (fun _ k => (hAB k).air) T1 T2
  have R1 := T1.runUp.append T1.main
  have R2 := T2.runUp.append T2.main
  have hl2 : up2.length = up1.length := T2.runUp.length_eq.trans T1.runUp.length_eq.symm
  have hu : up1.length = (pyRange (-(dRunUpBuild * hourly * 24)) 0).length := T1.runUp.length_eq
  have hm1 : k < mn1.length := by rw [T1.mn_length]; exact hk1
  have hm2 : k < mn2.length := by rw [T2.mn_length]; exact hk2
  have hm : mn1.length = (pyRange 0 (dMain * hourly * 24)).length := T1.main.length_eq
  have hc : Leaning h hR c2 c2 := Leaning.start _ (start_partitions hgr T1)
  have key := run_aired hw hw' hrx hv hC T1.pre T2.pre (fun k i => (hloc k i).1) (fun k i => (hloc k i).2) hAB hp hc R1 R2 (up1.length + k)
    (by rw [List.length_append]; omega)
    (by rw [List.length_append]; omega) (by rw [List.length_append]; omega) (by
      intro l hl g1 g2 hle k' hk' i
      have hsp := pyIndex_spec hk'
      have hb : -(dRunUpBuild * hourly * 24) ≤ (pyRange (-(dRunUpBuild * hourly * 24)) 0 ++ pyRange 0 (dMain * hourly * 24))[l]
          ∧ (pyRange (-(dRunUpBuild * hourly * 24)) 0 ++ pyRange 0 (dMain * hourly * 24))[l] ≤ k := by
        rw [List.getElem_append]
        split_ifs with h5
        · rw [pyRange_getElem]
          rw [pyRange_length] at h5
          omega
        · rw [pyRange_getElem]
          rw [pyRange_length] at h5 hu
          rw [pyRange_length]
          omega
      refine ⟨hd1 _ hb.1 hb.2 k' hsp i, hd2 _ hb.1 hb.2 k' hsp i, ?_⟩
      by_cases h5 : l < up1.length
      · left
        have hx : (pyRange (-(dRunUpBuild * hourly * 24)) 0 ++ pyRange 0 (dMain * hourly * 24))[l] = -(dRunUpBuild * hourly * 24) + l := by
          rw [List.getElem_append_left (by omega), pyRange_getElem]
        rw [hx] at hsp hb
        rw [pyRange_length] at hu
        have hn : -(dRunUpBuild * hourly * 24) + (l : ℤ) < 0 := by omega
        exact hup _ hb.1 hn k' (by rcases hsp with h | h <;> omega) i
      · obtain ⟨q, rfl⟩ : ∃ q, l = up1.length + q := ⟨l - up1.length, by omega⟩
        have hx : (pyRange (-(dRunUpBuild * hourly * 24)) 0 ++ pyRange 0 (dMain * hourly * 24))[up1.length + q] = q := by
          rw [List.getElem_append_right (by omega), pyRange_getElem]
          omega
        rw [hx] at hsp
        have hkq : (k' : ℕ) = q := by rcases hsp with h | h <;> omega
        rw [List.length_append] at g1 g2
        have q1 : q < mn1.length := by omega
        have q2 : q < mn2.length := by omega
        have q1' : q < r1.nMain.toNat := by rw [← T1.mn_length]; exact q1
        have q2' : q < r2.nMain.toNat := by rw [← T2.mn_length]; exact q2
        have e1 : (up1 ++ mn1)[up1.length + q]'(by rw [List.length_append]; omega) = mn1[q] := by
          rw [List.getElem_append_right (by omega)]; simp
        have e2 : (up2 ++ mn2)[up1.length + q]'(by rw [List.length_append]; omega) = mn2[q] := by
          rw [List.getElem_append_right (by omega)]; simp [hl2]
        rw [e1, e2]
        have := hcool q q1' q2' (hkq ▸ k'.isLt) (by omega) i
        rw [T1.logged ⟨q, q1'⟩ q1, T2.logged ⟨q, q2'⟩ q2] at this
        have ek : k' = ⟨q, hkq ▸ k'.isLt⟩ := Fin.ext hkq
        rw [ek]
        exact this)
  have e1 : (up1 ++ mn1)[up1.length + k]'(by rw [List.length_append]; omega) = mn1[k] := by
    rw [List.getElem_append_right (by omega)]; simp
  have e2 : (up2 ++ mn2)[up1.length + k]'(by rw [List.length_append]; omega) = mn2[k] := by
    rw [List.getElem_append_right (by omega)]; simp [hl2]
  rw [e1, e2] at key
  rw [T1.logged ⟨k, hk1⟩ hm1, T2.logged ⟨k, hk2⟩ hm2]
  exact key

end

section
variable {I J : Type} [Fintype I] [DecidableEq I] [Fintype J] [DecidableEq J] {h : House I J} {hR : J → ℝ}

/-- Houses of parts that store no heat are a special case: the hypotheses of the theorems for houses that store heat are met wherever those of
`C137_rows_partial` and `C138_rows_partial` are, as in `C137_example` and `C138_example`; `exSlab_relaxing` is a house that does store heat. -/
theorem storageless_relaxing (hst : Storageless h) : Relaxing h hR where
  pulse := by
    rintro j - ⟨l, hl⟩
    exact absurd hl (by simp [hst.absorbed j l, hst.transmitted j l])
  outdoors := by
    intro j hK
    have := hst.weights j
    rw [hK] at this
    simp only [add_zero] at this
    rw [this]
    exact zero_le_one
  between := by
    intro j m coef hK
    have := hst.weights j
    rw [hK] at this
    exact ⟨this, hst.steady j, fun l => ⟨hst.absorbed j l, hst.transmitted j l⟩⟩

end

end HLC
