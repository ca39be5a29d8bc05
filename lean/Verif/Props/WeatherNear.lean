import Verif.Props.RangeStore
import Verif.Props.Blend
import Verif.Spec.WeatherNear

/-!
# C135: errors in the weather are not amplified

Two calculations of one house from tables whose temperatures outdoors and behind the parts differ by at most `e`: every temperature of every row
differs by at most `e`. The house may store heat. The proof halves both calculations against a house at rest, at 0 degC and at `e` degC: the step is
affine (`run_blend`), and what is warmer outdoors is nowhere colder indoors (`run_warming`).
-/

set_option linter.unusedSectionVars false

namespace HLC
open Spec

section
variable {I : Type} [Fintype I] [DecidableEq I] [Nonempty I] {m N : ℕ} {h : House I (Fin m)} {hR : Fin m → ℝ}
  {A B : Fin N → Record I (Fin m)} {hourly dMain dRunUp dRunUpBuild : ℤ} {r1 r2 : CalcResult I m N}

/-- The weighted mean of two states, with the modes of the start. -/
noncomputable def mixState (w : ℝ) (c1 c2 : Cond I (Fin m)) : Cond I (Fin m) where
  mode := fun _ => initialMode
  thetaR := fun i => mix w (c1.thetaR i) (c2.thetaR i)
  thetaMrt := fun i => mix w (c1.thetaMrt i) (c2.thetaMrt i)
  xR := fun i => mix w (c1.xR i) (c2.xR i)
  dshA := fun j l => mix w (c1.dshA j l) (c2.dshA j l)
  dshT := fun j l => mix w (c1.dshT j l) (c2.dshT j l)
  qSrf := fun j => mix w (c1.qSrf j) (c2.qSrf j)
  thetaFrt := fun i => mix w (c1.thetaFrt i) (c2.thetaFrt i)
  xFrt := fun i => mix w (c1.xFrt i) (c2.xFrt i)
  thetaEi := fun j => mix w (c1.thetaEi j) (c2.thetaEi j)

theorem mixState_start_le (hrx : Relaxing h hR) (hlt : ∀ j, h.kEi j = none → KeepsPast h j → LetsWarmthThrough h hR j)
    (hrat : ∀ j l, 0 ≤ h.ratio j l ∧ h.ratio j l < 1) {c : Cond I (Fin m)}
    (hc : PartitionsEmpty h c) {e : ℝ} (he : 0 ≤ e) :
    Warming h hR (mixState 0.5 c (restAt h 0)) (mixState 0.5 c (restAt h e)) where
  rooms i := by
    show mix 0.5 (c.thetaR i) 0 ≤ mix 0.5 (c.thetaR i) e
    unfold mix; linarith
  furniture i := by
    show mix 0.5 (c.thetaFrt i) 0 ≤ mix 0.5 (c.thetaFrt i) e
    unfold mix; linarith
  heat j hK hS := by
    have := kept_rest (x := 0.5 * e) (by linarith) (hrx.pulse j hK hS) (hlt j hK hS) (hrat j)
    have e1 : pendA h (mixState 0.5 c (restAt h 0)) (mixState 0.5 c (restAt h e)) j = fun _ => 0 := by
      funext l; simp [pendA, mixState, restAt]
    have e2 : (fun l => (mixState 0.5 c (restAt h e)).dshT j l - (mixState 0.5 c (restAt h 0)).dshT j l)
        = fun l => 0.5 * e * h.phiT1 j l / (1 - h.ratio j l) := by
      funext l
      show mix 0.5 (c.dshT j l) (e * h.phiT1 j l / (1 - h.ratio j l)) - mix 0.5 (c.dshT j l) (0 * h.phiT1 j l / (1 - h.ratio j l)) = _
      unfold mix
      ring
    rw [e1, e2]
    exact this
  light j _ hS l := ⟨rfl, by
    show mix 0.5 (c.dshT j l) (e * h.phiT1 j l / (1 - h.ratio j l)) = mix 0.5 (c.dshT j l) (0 * h.phiT1 j l / (1 - h.ratio j l))
    rw [light_zero hS l]; simp⟩
  empty := fun j hK l => by
    have := restAt_empty hrx 0 j hK l
    have h2 := hc j hK l
    show mix 0.5 (c.dshA j l) _ = 0 ∧ mix 0.5 (c.dshT j l) _ = 0
    rw [this.1, this.2, h2.1, h2.2]
    exact ⟨mix_self _ _, mix_self _ _⟩
  empty' := fun j hK l => by
    have := restAt_empty hrx e j hK l
    have h2 := hc j hK l
    show mix 0.5 (c.dshA j l) _ = 0 ∧ mix 0.5 (c.dshT j l) _ = 0
    rw [this.1, this.2, h2.1, h2.2]
    exact ⟨mix_self _ _, mix_self _ _⟩

/-- One side of `C135_weather_partial`. -/
theorem weather_above (hw : WellFormed h hR (3600 / (hourly : ℝ))) (hr : RadiantWellFormed h) (hrx : Relaxing h hR)
    (hst : SteadyWalls h) (hrat : ∀ j l, 0 ≤ h.ratio j l ∧ h.ratio j l < 1)
    (hlt : ∀ j, h.kEi j = none → KeepsPast h j → LetsWarmthThrough h hR j) (hH : ∀ i, h.isRadHeating i = false)
    (hRC : ∀ i, h.isRadCooling i = false) (hgr : ∀ j, h.isGround j = true → h.kEi j = none)
    (hga : (∃ j, h.isGround j = true) → ∀ k, (B k).thetaO = (A k).thetaO) (hv : ∀ i l, h.vInt i l = 0) (hC : h.cValue = 0)
    (H1 : coreCalc h hR A hourly dMain dRunUp dRunUpBuild = .ok r1) (H2 : coreCalc h hR B hourly dMain dRunUp dRunUpBuild = .ok r2)
    {e : ℝ} (he : 0 ≤ e) (hd : ∀ k, (B k).thetaO ≤ (A k).thetaO + e ∧ (∀ j, (B k).thetaOSol j ≤ (A k).thetaOSol j + e) ∧
      (B k).vLocal = (A k).vLocal ∧ (B k).qGen = (A k).qGen ∧ (B k).qTrsSol = (A k).qTrsSol ∧ (∀ i, 0 ≤ (A k).vLocal i) ∧
      (A k).nHum = (fun _ => 0) ∧ (B k).nHum = (fun _ => 0) ∧ (∀ i, (A k).acDemand i ≤ 0) ∧ ∀ i, (B k).acDemand i ≤ 0)
    (k : ℕ) (hk1 : k < r1.nMain.toNat) (hk2 : k < r2.nMain.toNat) :
    (∀ i, (r2.log ⟨k, hk2⟩).thetaR i ≤ (r1.log ⟨k, hk1⟩).thetaR i + e) ∧ (∀ i, (r2.log ⟨k, hk2⟩).thetaFrt i ≤ (r1.log ⟨k, hk1⟩).thetaFrt i + e) ∧
      ∀ j, (r2.log ⟨k, hk2⟩).thetaS j ≤ (r1.log ⟨k, hk1⟩).thetaS j + e := by
  obtain ⟨gs1, c1, up1, mn1, T1⟩ := coreCalc_ok H1
  obtain ⟨gs2, c2, up2, mn2, T2⟩ := coreCalc_ok H2
  obtain rfl := start_same (A := A) (B := B) (h' := h) rfl (fun _ _ => rfl) hga T1 T2
  have R1 := T1.runUp.append T1.main
  have R2 := T2.runUp.append T2.main
  have hl2 : up2.length = up1.length := T2.runUp.length_eq.trans T1.runUp.length_eq.symm
  have hu : up1.length = (pyRange (-(dRunUpBuild * hourly * 24)) 0).length := T1.runUp.length_eq
  have hm1 : k < mn1.length := by rw [T1.mn_length]; exact hk1
  have hm2 : k < mn2.length := by rw [T2.mn_length]; exact hk2
  have hm : mn1.length = (pyRange 0 (dMain * hourly * 24)).length := T1.main.length_eq
  obtain ⟨ivs, hi1, s1⟩ := makePreCalc_ok T1.pre
  obtain ⟨ivs2, hi2, s2⟩ := makePreCalc_ok T2.pre
  obtain rfl : ivs = ivs2 := Except.ok.inj (hi1.symm.trans hi2)
  have pre : ∀ X : Fin N → Record I (Fin m), makePreCalc h hR (3600 / (hourly : ℝ)) X = .ok (preCalcOf h hR (3600 / (hourly : ℝ)) X ivs) := by
    intro X
    have : ∃ ss, makePreCalc h hR (3600 / (hourly : ℝ)) X = .ok ss := by
      unfold makePreCalc
      rw [ax_inv hw]
      exact ⟨_, rfl⟩
    obtain ⟨ss, hss⟩ := this
    obtain ⟨iv, hi, hs⟩ := makePreCalc_ok hss
    obtain rfl : iv = ivs := Except.ok.inj (hi.symm.trans hi1)
    rw [hss, hs]
  rw [s1] at R1
  rw [s2] at R2
  have hq : ∀ τ (X : Fin N → Record I (Fin m)) n, Quiet τ (evenly τ X n) := fun τ X n =>
    { outdoor := rfl, solAir := fun _ => rfl, noGain := fun _ => rfl, noPeople := fun _ => rfl, noSun := fun _ => rfl, noDemand := fun _ => rfl }
  have legal : ∀ c, (c.mode = fun _ => initialMode) → ∀ i, Legal ((c : Cond I (Fin m)).mode i) := fun c hc i => by
    rw [hc]; simp [Legal, initialMode]
  have hlB : ∀ k i, 0 ≤ (B k).vLocal i := fun k i => by rw [(hd k).2.2.1]; exact (hd k).2.2.2.2.2.1 i
  have hlA : ∀ k i, 0 ≤ (A k).vLocal i := fun k => (hd k).2.2.2.2.2.1
  -- the two houses at rest, and the two blended calculations
  obtain ⟨z, Z⟩ := run_beside hw hH hRC (B := evenly 0 B) (c' := restAt h 0) hlB (pre _) R2 (legal _ rfl)
  obtain ⟨y, Y⟩ := run_beside hw hH hRC (B := evenly e A) (c' := restAt h e) hlA (pre _) R1 (legal _ rfl)
  obtain ⟨p, P⟩ := run_beside hw hH hRC (B := fun n => blend 0.5 (B n) (evenly 0 B n)) (c' := mixState 0.5 c2 (restAt h 0))
    hlB (pre _) R2 (legal _ rfl)
  obtain ⟨q, Q⟩ := run_beside hw hH hRC (B := fun n => blend 0.5 (A n) (evenly e A n)) (c' := mixState 0.5 c2 (restAt h e))
    hlA (pre _) R1 (legal _ rfl)
  have hj : up1.length + k < (pyRange (-(dRunUpBuild * hourly * 24)) 0 ++ pyRange 0 (dMain * hourly * 24)).length := by
    rw [List.length_append]; omega
  have j1 : up1.length + k < (up1 ++ mn1).length := by rw [List.length_append]; omega
  have j2 : up1.length + k < (up2 ++ mn2).length := by rw [List.length_append]; omega
  have jz : up1.length + k < z.length := by rw [Z.length_eq]; exact hj
  have jy : up1.length + k < y.length := by rw [Y.length_eq]; exact hj
  have jp : up1.length + k < p.length := by rw [P.length_eq]; exact hj
  have jq : up1.length + k < q.length := by rw [Q.length_eq]; exact hj
  have hcap : ∀ i, 0 ≤ h.capH i ∧ 0 ≤ h.capC i := fun i => ⟨hw.capH_nonneg i, hw.capC_nonneg i⟩
  have bp := run_blend (w := 0.5) (A := B) (B := evenly 0 B) hcap hC (fun _ => rfl) (fun k => (hd k).2.2.2.2.2.2.2.1) (fun _ => rfl) (c3 := mixState 0.5 c2 (restAt h 0))
    (by constructor <;> rfl) R2 Z P (up1.length + k) hj j2 jz jp (fun _ _ _ k' _ i => ⟨(hd k').2.2.2.2.2.2.2.2.2 i, le_rfl⟩)
  have bq := run_blend (w := 0.5) (A := A) (B := evenly e A) hcap hC (fun _ => rfl) (fun k => (hd k).2.2.2.2.2.2.1) (fun _ => rfl) (c3 := mixState 0.5 c2 (restAt h e))
    (by constructor <;> rfl) R1 Y Q (up1.length + k) hj j1 jy jq (fun _ _ _ k' _ i => ⟨(hd k').2.2.2.2.2.2.2.2.1 i, le_rfl⟩)
  have zr := C22_forever_partial hw hst hv (pre _) (hq 0 B) Z (restAt_atRest 0) _ (List.getElem_mem jz)
  have yr := C22_forever_partial hw hst hv (pre _) (hq e A) Y (restAt_atRest e) _ (List.getElem_mem jy)
  have hlt' : ∀ j, KeepsPast h j → LetsWarmthThrough h hR j := by
    intro j hS
    cases hK : h.kEi j with
    | none => exact hlt j hK hS
    | some mc =>
      obtain ⟨l, hl⟩ := hS
      have := (hrx.between j mc.1 mc.2 hK).2.2 l
      exact absurd hl (by simp [this.1, this.2])
  have key := run_warming hw hr hrx hv (pre _) (pre _) (A := fun n => blend 0.5 (B n) (evenly 0 B n)) (B := fun n => blend 0.5 (A n) (evenly e A n)) hlB
    (fun n => by
      obtain ⟨g1, g2, g3, g4, g5, -, g7, g8, -⟩ := hd n
      refine ⟨?_, fun j => ?_, fun i => ?_, fun i => ?_, g3.symm, ?_⟩
      · show mix 0.5 (B n).thetaO 0 ≤ mix 0.5 (A n).thetaO e
        unfold mix; linarith
      · have := g2 j
        show mix 0.5 ((B n).thetaOSol j) 0 ≤ mix 0.5 ((A n).thetaOSol j) e
        unfold mix; linarith
      · show mix 0.5 ((B n).qGen i) 0 ≤ mix 0.5 ((A n).qGen i) 0
        rw [g4]
      · show mix 0.5 ((B n).qTrsSol i) 0 ≤ mix 0.5 ((A n).qTrsSol i) 0
        rw [g5]
      · show (A n).nHum = (B n).nHum
        rw [g7, g8]) (fun n j hS => .inl (hlt' j hS)) (fun n i => by
      show 0 ≤ (B n).nHum i ∧ 4 * (B n).nHum i * _ ≤ _
      rw [(hd n).2.2.2.2.2.2.2.1]
      refine ⟨le_rfl, ?_⟩
      rw [mul_zero, zero_mul]
      exact mul_nonneg (hw.vRoom_pos i).le (by unfold airCap; norm_num)) (mixState_start_le hrx hlt hrat (start_partitions hgr T1) he) P Q (up1.length + k) hj jp jq (by
      intro l hl g1 g2 _ k' hk'
      obtain ⟨d1, b1⟩ := run_at P l hl g1
      obtain ⟨d2, b2⟩ := run_at Q l hl g2
      intro i
      have q1 := quiet_row hw hC (pre _) b1 hk' (hd k').2.2.2.2.2.2.2.2.2 i
      have q2 := quiet_row hw hC (pre _) b2 hk' (hd k').2.2.2.2.2.2.2.2.1 i
      exact ⟨(q1.1.trans q2.1.symm).le, (q1.2.1.trans q2.2.1.symm).le, .inl (q1.2.2.trans q2.2.2.symm)⟩)
  rw [bp, bq] at key
  have l1 : r1.log ⟨k, hk1⟩ = LogRow.ofTick ((up1 ++ mn1)[up1.length + k]'j1) := by
    rw [T1.logged ⟨k, hk1⟩ hm1, List.getElem_append_right (by omega)]; simp
  have l2 : r2.log ⟨k, hk2⟩ = LogRow.ofTick ((up2 ++ mn2)[up1.length + k]'j2) := by
    rw [T2.logged ⟨k, hk2⟩ hm2, List.getElem_append_right (by omega)]; simp [hl2]
  rw [l1, l2]
  refine ⟨fun i => ?_, fun i => ?_, fun j => ?_⟩
  · have a := key.rooms i
    have b := zr.1.room i
    have c := yr.1.room i
    simp only [blendRow, mix, LogRow.ofTick, TickVars.next] at a b c ⊢
    rw [b, c] at a
    linarith
  · have a := key.furniture i
    have b := zr.1.furniture i
    have c := yr.1.furniture i
    simp only [blendRow, mix, LogRow.ofTick, TickVars.next] at a b c ⊢
    rw [b, c] at a
    linarith
  · have a := key.surfaces j
    have b := zr.2 j
    have c := yr.2 j
    simp only [blendRow, mix, LogRow.ofTick] at a b c ⊢
    rw [b, c] at a
    linarith

/-- C135 with the constant one, for errors in the weather: two calculations of one tight house without radiant parts,
whose parts may store heat and may lie on the ground if the two tables have the same outdoor air, from tables that differ by at most `e` in the temperatures outdoors and behind the parts, give room, furniture and surface
temperatures that differ by at most `e` in every row. Partial: no people, no
demand; missing are errors in the gains, leakage, storing partitions, air exchanged between rooms. -/
theorem C135_weather_partial (hw : WellFormed h hR (3600 / (hourly : ℝ))) (hr : RadiantWellFormed h) (hrx : Relaxing h hR)
    (hst : SteadyWalls h) (hrat : ∀ j l, 0 ≤ h.ratio j l ∧ h.ratio j l < 1)
    (hlt : ∀ j, h.kEi j = none → KeepsPast h j → LetsWarmthThrough h hR j) (hH : ∀ i, h.isRadHeating i = false)
    (hRC : ∀ i, h.isRadCooling i = false) (hgr : ∀ j, h.isGround j = true → h.kEi j = none)
    (hga : (∃ j, h.isGround j = true) → ∀ k, (B k).thetaO = (A k).thetaO) (hv : ∀ i l, h.vInt i l = 0) (hC : h.cValue = 0)
    (H1 : coreCalc h hR A hourly dMain dRunUp dRunUpBuild = .ok r1) (H2 : coreCalc h hR B hourly dMain dRunUp dRunUpBuild = .ok r2)
    {e : ℝ} (hd : ∀ k, WeatherWithin e (A k) (B k)) (k : ℕ) (hk1 : k < r1.nMain.toNat) (hk2 : k < r2.nMain.toNat) :
    (∀ i, |(r2.log ⟨k, hk2⟩).thetaR i - (r1.log ⟨k, hk1⟩).thetaR i| ≤ e) ∧
      (∀ i, |(r2.log ⟨k, hk2⟩).thetaFrt i - (r1.log ⟨k, hk1⟩).thetaFrt i| ≤ e) ∧
      ∀ j, |(r2.log ⟨k, hk2⟩).thetaS j - (r1.log ⟨k, hk1⟩).thetaS j| ≤ e := by
  have he : 0 ≤ e := by
    have hN : 0 < N := by
      obtain ⟨gs1, c1, up1, mn1, T1⟩ := coreCalc_ok H1
      have hm1 : k < mn1.length := by rw [T1.mn_length]; exact hk1
      have hj : k < (pyRange 0 (dMain * hourly * 24)).length := by rw [← T1.main.length_eq]; exact hm1
      obtain ⟨_, b⟩ := run_at T1.main k hj hm1
      obtain ⟨n, _⟩ := runTick_index b
      exact n.pos
    exact (abs_nonneg _).trans (hd ⟨0, hN⟩).outdoor
  have up := weather_above hw hr hrx hst hrat hlt hH hRC hgr hga hv hC H1 H2 he (fun k => by
    have d := hd k
    exact ⟨by linarith [(abs_le.1 d.outdoor).2], fun j => by linarith [(abs_le.1 (d.behind j)).2], d.ventilation, d.gains, d.sun, d.blowsIn,
      funext fun i => (d.noPeople i).1, funext fun i => (d.noPeople i).2, fun i => (d.noDemand i).1, fun i => (d.noDemand i).2⟩) k hk1 hk2
  have dn := weather_above hw hr hrx hst hrat hlt hH hRC hgr (fun hx k => (hga hx k).symm) hv hC H2 H1 he (fun k => by
    have d := hd k
    exact ⟨by linarith [(abs_le.1 d.outdoor).1], fun j => by linarith [(abs_le.1 (d.behind j)).1], d.ventilation.symm, d.gains.symm, d.sun.symm,
      fun i => by rw [d.ventilation]; exact d.blowsIn i,
      funext fun i => (d.noPeople i).2, funext fun i => (d.noPeople i).1, fun i => (d.noDemand i).2, fun i => (d.noDemand i).1⟩) k hk2 hk1
  exact ⟨fun i => abs_le.2 ⟨by linarith [dn.1 i], by linarith [up.1 i]⟩, fun i => abs_le.2 ⟨by linarith [dn.2.1 i], by linarith [up.2.1 i]⟩,
    fun j => abs_le.2 ⟨by linarith [dn.2.2 j], by linarith [up.2.2 j]⟩⟩

/-- `C135_weather_partial` for the mean radiant and operative temperatures, where the radiant weights of each room sum to one. -/
theorem C135_weather_means_partial (hw : WellFormed h hR (3600 / (hourly : ℝ))) (hr : RadiantWellFormed h) (hrx : Relaxing h hR)
    (hst : SteadyWalls h) (hrat : ∀ j l, 0 ≤ h.ratio j l ∧ h.ratio j l < 1)
    (hlt : ∀ j, h.kEi j = none → KeepsPast h j → LetsWarmthThrough h hR j) (hH : ∀ i, h.isRadHeating i = false)
    (hRC : ∀ i, h.isRadCooling i = false) (hgr : ∀ j, h.isGround j = true → h.kEi j = none)
    (hga : (∃ j, h.isGround j = true) → ∀ k, (B k).thetaO = (A k).thetaO) (hv : ∀ i l, h.vInt i l = 0) (hC : h.cValue = 0)
    (hsum : ∀ i, ∑ j ∈ surfaces h i, h.fMrtHum j = 1)
    (H1 : coreCalc h hR A hourly dMain dRunUp dRunUpBuild = .ok r1) (H2 : coreCalc h hR B hourly dMain dRunUp dRunUpBuild = .ok r2)
    {e : ℝ} (hd : ∀ k, WeatherWithin e (A k) (B k)) (k : ℕ) (hk1 : k < r1.nMain.toNat) (hk2 : k < r2.nMain.toNat) (i : I) :
    |(r2.log ⟨k, hk2⟩).thetaMrt i - (r1.log ⟨k, hk1⟩).thetaMrt i| ≤ e ∧ |(r2.log ⟨k, hk2⟩).thetaOt i - (r1.log ⟨k, hk1⟩).thetaOt i| ≤ e := by
  obtain ⟨n1, -, n3⟩ := C135_weather_partial hw hr hrx hst hrat hlt hH hRC hgr hga hv hC H1 H2 hd k hk1 hk2
  obtain ⟨a1, b1, -⟩ := C13_program H1 ⟨k, hk1⟩ i
  obtain ⟨a2, b2, -⟩ := C13_program H2 ⟨k, hk2⟩ i
  have hc0 : (0 : ℝ) < hHumC := by unfold hHumC; norm_num
  have hr0 := hHumR_pos
  have key : |∑ j ∈ surfaces h i, h.fMrtHum j * (r2.log ⟨k, hk2⟩).thetaS j - ∑ j ∈ surfaces h i, h.fMrtHum j * (r1.log ⟨k, hk1⟩).thetaS j| ≤ e := by
    rw [← Finset.sum_sub_distrib]
    calc _ ≤ ∑ j ∈ surfaces h i, |h.fMrtHum j * (r2.log ⟨k, hk2⟩).thetaS j - h.fMrtHum j * (r1.log ⟨k, hk1⟩).thetaS j| := Finset.abs_sum_le_sum_abs _ _
      _ ≤ ∑ j ∈ surfaces h i, h.fMrtHum j * e := Finset.sum_le_sum fun j _ => by
        rw [← mul_sub, abs_mul, abs_of_nonneg (hw.fMrtHum_nonneg j)]
        exact mul_le_mul_of_nonneg_left (n3 j) (hw.fMrtHum_nonneg j)
      _ = e := by rw [← Finset.sum_mul, hsum, one_mul]
  refine ⟨by rw [b1, b2]; exact key, ?_⟩
  rw [a1, a2]
  have p := abs_le.1 (n1 i)
  have q := abs_le.1 key
  rw [← sub_div, abs_le, le_div_iff₀ (by linarith), div_le_iff₀ (by linarith)]
  have p1 := mul_le_mul_of_nonneg_left p.1 hc0.le
  have p2 := mul_le_mul_of_nonneg_left p.2 hc0.le
  have q1 := mul_le_mul_of_nonneg_left q.1 hr0.le
  have q2 := mul_le_mul_of_nonneg_left q.2 hr0.le
  constructor <;> linarith

end

/-- The same day as `exSwing`, measured half a degree too warm in the morning and a degree too cold in the afternoon. -/
noncomputable def exSwingOff : Fin 96 → Record (Fin 2) (Fin 4) := fun k =>
  { exSwing k with thetaO := if k.1 < 48 then -4.5 else 19, thetaOSol := fun _ => if k.1 < 48 then -4.5 else 19 }

/-- The hypotheses of `C135_weather_partial` are met by a house with a floor slab that stores heat: after a run-up of a day, no temperature of the
two days differs by more than a degree. -/
theorem C135_weather_example : ∃ r r', coreCalc exSlabUp exHR exSwing 4 1 1 1 = .ok r ∧ coreCalc exSlabUp exHR exSwingOff 4 1 1 1 = .ok r' ∧
    r.nMain.toNat = 96 ∧ r'.nMain.toNat = 96 ∧ KeepsPast exSlabUp 3 ∧
    ∀ k hk hk', (∀ i, |(r'.log ⟨k, hk'⟩).thetaR i - (r.log ⟨k, hk⟩).thetaR i| ≤ 1) ∧
      (∀ j, |(r'.log ⟨k, hk'⟩).thetaS j - (r.log ⟨k, hk⟩).thetaS j| ≤ 1) ∧
      ∀ i, |(r'.log ⟨k, hk'⟩).thetaMrt i - (r.log ⟨k, hk⟩).thetaMrt i| ≤ 1 ∧ |(r'.log ⟨k, hk'⟩).thetaOt i - (r.log ⟨k, hk⟩).thetaOt i| ≤ 1 := by
  have e4 : (3600 / ((4 : ℤ) : ℝ)) = 900 := by norm_num
  have hw : WellFormed exSlabUp exHR (3600 / ((4 : ℤ) : ℝ)) := by rw [e4]; exact { exSlab_wellFormed with }
  have hloc : ∀ k i, 0 ≤ (exSwing k).vLocal i := fun k i => by fin_cases i <;> norm_num [exSwing, exAired]
  obtain ⟨r, H⟩ := C21_program_partial (data := exSwing) (dMain := 1) (dRunUp := 1) (dRunUpBuild := 1) hw (fun _ => rfl) (fun _ => rfl)
    hloc (by norm_num) (by norm_num) (by norm_num) le_rfl (by norm_num) (by norm_num)
  obtain ⟨r', H'⟩ := C21_program_partial (data := exSwingOff) (dMain := 1) (dRunUp := 1) (dRunUpBuild := 1) hw (fun _ => rfl) (fun _ => rfl)
    hloc (by norm_num) (by norm_num) (by norm_num) le_rfl (by norm_num) (by norm_num)
  obtain ⟨_, _, _, _, T⟩ := coreCalc_ok H
  obtain ⟨_, _, _, _, T'⟩ := coreCalc_ok H'
  refine ⟨r, r', H, H', by rw [T.nMain_eq]; rfl, by rw [T'.nMain_eq]; rfl, ⟨0, .inl (show (0.02 : ℝ) ≠ 0 by norm_num)⟩, fun k hk hk' => ?_⟩
  have near : ∀ k : Fin 96, |(if k.1 < 48 then (-4.5 : ℝ) else 19) - (if k.1 < 48 then (-5 : ℝ) else 20)| ≤ 1 := by
    intro k
    rw [abs_le]
    split_ifs <;> norm_num
  have hr : RadiantWellFormed exSlabUp := by
    constructor
    · intro i; fin_cases i <;> norm_num [exSlabUp, exSlab, exPanels, exHouse]
    · intro j; fin_cases j <;> norm_num [exSlabUp, exSlab, exPanels, exHouse]
  have hrx : Relaxing exSlabUp exHR := ⟨exSlab_relaxing.pulse, exSlab_relaxing.outdoors, exSlab_relaxing.between⟩
  have hrat : ∀ j l, 0 ≤ exSlabUp.ratio j l ∧ exSlabUp.ratio j l < 1 := by
    intro j l; norm_num [exSlabUp, exSlab, exPanels, exHouse]
  have hlt : ∀ j, exSlabUp.kEi j = none → KeepsPast exSlabUp j → LetsWarmthThrough exSlabUp exHR j := by
    intro j _ hS
    have hj : j = 3 := by
      obtain ⟨l, hl⟩ := hS
      fin_cases j <;> simp [exSlabUp, exSlab] at hl ⊢
    subst hj
    exact exSlab_letsThrough
  have hv : ∀ i l, exSlabUp.vInt i l = 0 := by
    intro i l; fin_cases i <;> fin_cases l <;> simp [exSlabUp, exSlab, exPanels]
  have hd : ∀ k, WeatherWithin 1 (exSwing k) (exSwingOff k) := fun k =>
    ⟨near k, fun _ => near k, rfl, rfl, rfl, hloc k, fun _ => ⟨rfl, rfl⟩, fun _ => ⟨le_rfl, le_rfl⟩⟩
  have hsum : ∀ i, ∑ j ∈ surfaces exSlabUp i, exSlabUp.fMrtHum j = 1 := by
    intro i
    rw [surfaces, Finset.sum_filter, Fin.sum_univ_four]
    have f : exSlabUp.room 0 = 0 ∧ exSlabUp.room 1 = 0 ∧ exSlabUp.room 2 = 1 ∧ exSlabUp.room 3 = 1 := ⟨rfl, rfl, rfl, rfl⟩
    have g : exSlabUp.fMrtHum 0 = 0.5 ∧ exSlabUp.fMrtHum 1 = 0.5 ∧ exSlabUp.fMrtHum 2 = 0.3 ∧ exSlabUp.fMrtHum 3 = 0.7 := ⟨rfl, rfl, rfl, rfl⟩
    rw [f.1, f.2.1, f.2.2.1, f.2.2.2, g.1, g.2.1, g.2.2.1, g.2.2.2]
    fin_cases i <;> norm_num
  have n := C135_weather_partial hw hr hrx exSlabUp_steady hrat hlt (fun _ => rfl) (fun _ => rfl) (fun _ hg => nomatch hg)
    (fun hx => nomatch hx.choose_spec) hv rfl H H' hd k hk hk'
  exact ⟨n.1, n.2.2, C135_weather_means_partial hw hr hrx exSlabUp_steady hrat hlt (fun _ => rfl) (fun _ => rfl) (fun _ hg => nomatch hg)
    (fun hx => nomatch hx.choose_spec) hv rfl hsum H H' hd k hk hk'⟩

end HLC
