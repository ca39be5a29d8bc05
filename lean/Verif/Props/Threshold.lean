import Verif.Props.Supplied
import Verif.Props.InexactAir
import Verif.Spec.DataNear

/-!
# C134, C135: with demand, an error of any size decides whether the windows are opened
-/

set_option linter.unusedSectionVars false

namespace HLC
open Spec

section
variable {hR : Fin 1 → ℝ} {ss : PreCalc (Fin 1) (Fin 1) 96} {c : Cond (Fin 1) (Fin 1)} {t0 t1 : TickVars (Fin 1) (Fin 1)} {g : Fin 96 → ℝ} {δ : ℝ}

/-- The room of `exFrost` with a little less heat before the frost: the windows stay closed. -/
theorem closed_frost (hr : ∀ j, 0 < hR j) (Hp : makePreCalc (exPane 0.4) hR 900 (exRecord frostAir g frostDemand) = .ok ss)
    (a0 : runTick 0 900 ss c = .ok t0) (a1 : runTick 1 900 ss t0.next = .ok t1) (hc : Empty c) (hx : ∀ i, c.xR i = startHumidity)
    (hf : ∀ i, c.xFrt i = startHumidity) (hg : 40.2 * c.thetaR 0 + g 0 = 40.2 * 15 + frostGain 0 - δ) (hg1 : g 1 = frostGain 1) (h0 : 0 < δ)
    (h1 : δ ≤ 64.76 * overT) : 15 ≤ t1.thetaR 0 := by
  have hr0 : (0 : ℝ) ≤ 0.4 := by norm_num
  have k0 : pyIndex 96 0 = .ok (0 : Fin 96) := rfl
  have k1 : pyIndex 96 1 = .ok (1 : Fin 96) := rfl
  have hz := overT_pos
  have h15 := mild_gt
  have hd0 : frostDemand 0 = 0 := by simp [frostDemand]
  have hd1 : frostDemand 1 = 1 := by simp [frostDemand]
  have o0 : frostAir 0 = mildT := by simp [frostAir]
  have o1 : frostAir 1 = -20 := by simp [frostAir]
  have f0 : frostGain 0 = 64.76 * overT + 40.2 * (mildT - 15) := by simp [frostGain]
  have f1 : frostGain 1 = 12.06 * (mildT + 20) := by simp [frostGain]
  have hm0 : (t0.ot 0).mode = .stopClose := by
    have h := (pane_mode Hp a0 k0 hx).1
    rw [hd0] at h
    simp only [getOperationMode, gt_iff_lt, lt_irrefl, if_false] at h
    exact (Except.ok.inj h).symm
  have l0 := pane_off Hp a0 (.inl hm0)
  obtain ⟨b0, b1, -, b3⟩ := pane_step hr hr0 Hp a0 k0 hc
  obtain ⟨u, v⟩ := pane_humid hr hr0 Hp a0 k0 l0.ge hx hf
  rw [l0, hm0, o0, if_neg (by decide)] at b3
  rw [f0] at hg
  obtain ⟨y, hy⟩ : ∃ y, t0.thetaR 0 = mildT + y := ⟨t0.thetaR 0 - mildT, by ring⟩
  have e0 : t0.thetaMrt 0 = mildT + y / 2 := by rw [hy] at b1; linarith
  rw [hy, e0] at b3
  have hy1 : 64.76 * y = 64.76 * overT - δ := by linarith
  have hy0 : 0 ≤ y := by linarith
  have hlt : y < overT := by linarith
  have hpm : getHHumAndPmv coldP (mildT + y) (mildT + y / 2) cloMiddle < 0 := by
    have hn := over_neutral
    rw [pmv_formula, ot_half] at hn ⊢
    have hn := (mul_eq_zero.1 hn).resolve_left pmvK_mem.1.ne'
    have hcl : cloFactor cloMiddle (hHumR + hHumC) = midG := rfl
    rw [hcl] at hn ⊢
    obtain ⟨g1, -⟩ := mid_bounds
    obtain ⟨w1, -⟩ := halfW_mem
    have hw : 0 < midG * (halfW * (overT - y)) := mul_pos (by linarith) (mul_pos (by linarith) (by linarith))
    refine mul_neg_of_pos_of_neg pmvK_mem.1 ?_
    linarith
  have hm1 : (t1.ot 0).mode = .stopClose := by
    have h := (pane_mode Hp a1 k1 u).1
    have n1 : t0.next.mode 0 = .stopClose := hm0
    have n2 : t0.next.thetaR 0 = mildT + y := hy
    have n3 : t0.next.thetaMrt 0 = mildT + y / 2 := e0
    have hot : getThetaOt hHumR hHumC (mildT + y / 2) (mildT + y) ≤ 34 := by
      rw [ot_half]
      obtain ⟨w1, -⟩ := halfW_mem
      have : halfW * y ≤ halfW * overT := mul_le_mul_of_nonneg_left hlt.le (by linarith)
      linarith [over_ot]
    rw [hd1, n1, n2, n3, mild_modes (by linarith) (by linarith) hot hpm] at h
    exact (Except.ok.inj h).symm
  have l1 := pane_off Hp a1 (.inl hm1)
  obtain ⟨-, d1, -, d3⟩ := pane_step hr hr0 Hp a1 k1 b0
  have n2 : t0.next.thetaR 0 = mildT + y := hy
  rw [l1, hm1, n2, hg1, f1, o1, if_neg (by decide)] at d3
  linarith

/-- The room of `exFrost` itself: the windows are opened. -/
theorem open_frost (hr : ∀ j, 0 < hR j) {r : CalcResult (Fin 1) 1 96} (H : coreCalc (exPane 0.4) hR exFrost 4 1 0 0 = .ok r) (k : Fin r.nMain.toNat)
    (hk : k.1 = 1) : (r.log k).thetaR 0 ≤ 8 := by
  have hr0 : (0 : ℝ) ≤ 0.4 := by norm_num
  have k1 : pyIndex 96 1 = .ok (1 : Fin 96) := rfl
  have h25 := mild_le
  have h31 := over_le
  have g1 : frostGain 1 = 12.06 * (mildT + 20) := by simp [frostGain]
  have o1 : frostAir 1 = -20 := by simp [frostAir]
  obtain ⟨t0, t1, t2, Hp, a0, a1, a2, hlog⟩ := three_steps H
  obtain ⟨m0, m1, m2, m3, m4, m5⟩ := first_hot hr hr0 Hp a0
  have hm := (thick_heated hr H k).1 hk
  have hl := (hlog k).2.1 hk
  rw [hl] at hm ⊢
  have hm1 : (t1.ot 0).mode = .stopOpen := Option.some.inj hm
  have l1 := pane_off Hp a1 (.inr hm1)
  obtain ⟨b0, b1, -, b3⟩ := pane_step hr hr0 Hp a1 k1 m0
  have y0 : t0.next.thetaR 0 = mildT + overT := by linarith
  rw [l1, y0, hm1, g1, o1, if_pos rfl] at b3
  show t1.thetaR 0 ≤ 8
  linarith

theorem frost_completes (hr : ∀ j, 0 < hR j) (air g dm : Fin 96 → ℝ) : ∃ r, coreCalc (exPane 0.4) hR (exRecord air g dm) 4 1 0 0 = .ok r := by
  have hdt : (3600 / ((4 : ℤ) : ℝ)) = 900 := by norm_num
  exact C21_program_partial (h := exPane 0.4) (hR := hR) (data := exRecord air g dm) (hourly := 4) (dMain := 1) (dRunUp := 0) (dRunUpBuild := 0)
    (by rw [hdt]; exact exPane_wellFormed hr (by norm_num)) (fun _ => rfl) (fun _ => rfl) (fun _ _ => le_rfl) (by norm_num) (by norm_num) (by norm_num)
    (by norm_num) (by norm_num) (by norm_num)

/-- **C135 is false with demand.** However small `ε` is, there are two days of gains that differ by at most `ε` in every row, and in nothing else, after
which the results of a house differ by 7 K in a row: the program decides by a threshold whether the windows are opened in the frost. -/
theorem C135_demand_violated (hr : ∀ j, 0 < hR j) {ε : ℝ} (hε : 0 < ε) : ∃ D r r', coreCalc (exPane 0.4) hR exFrost 4 1 0 0 = .ok r ∧
    coreCalc (exPane 0.4) hR D 4 1 0 0 = .ok r' ∧ (∀ k, DataNear ε (exFrost k) (D k) ∧ MoistDataNear 0 (exFrost k) (D k) ∧
      (D k).acDemand = (exFrost k).acDemand) ∧ r.nMain.toNat = 96 ∧ r'.nMain.toNat = 96 ∧
    ∀ k k', k.1 = 1 → k'.1 = 1 → 7 ≤ (r'.log k').thetaR 0 - (r.log k).thetaR 0 := by
  have hz := overT_pos
  have hδ : 0 < min ε (64.76 * overT) := lt_min hε (by linarith)
  have hδ1 := min_le_left ε (64.76 * overT)
  have hδ2 := min_le_right ε (64.76 * overT)
  generalize min ε (64.76 * overT) = δ at hδ hδ1 hδ2
  obtain ⟨r, H⟩ := frost_completes hr frostAir frostGain frostDemand
  obtain ⟨r', H'⟩ := frost_completes hr frostAir (fun k => if k = 0 then frostGain 0 - δ else frostGain k) frostDemand
  obtain ⟨_, _, _, _, T⟩ := coreCalc_ok H
  obtain ⟨_, _, _, _, T'⟩ := coreCalc_ok H'
  refine ⟨_, r, r', H, H', fun k => ⟨⟨?_, fun j => ?_, fun i => ?_, fun i => ?_, rfl, rfl⟩, ⟨?_, fun i => ?_⟩, rfl⟩, by rw [T.nMain_eq]; rfl,
    by rw [T'.nMain_eq]; rfl, fun k k' hk hk' => ?_⟩
  · simpa [exFrost, exRecord] using hε.le
  · simpa [exFrost, exRecord] using hε.le
  · simp only [exFrost, exRecord]
    split_ifs with h
    · subst h
      rw [sub_sub_cancel_left, abs_neg, abs_of_pos hδ]
      exact hδ1
    · simpa using hε.le
  · simpa [exFrost, exRecord] using hε.le
  · simp [exFrost, exRecord]
  · simp [exFrost, exRecord]
  · have h8 := open_frost hr H k hk
    obtain ⟨t0, t1, t2, Hp, a0, a1, a2, hlog⟩ := three_steps H'
    rw [(hlog k').2.1 hk']
    have := closed_frost (δ := δ) hr Hp a0 a1 ⟨fun _ _ => rfl, fun _ _ => rfl⟩ (fun _ => startHumidity_eq) (fun _ => startHumidity_eq)
      (by
        have h15 : (initialConditions (Fin 1) (Fin 1)).thetaR 0 = 15 := rfl
        simp only [h15, if_true]
        ring)
      (by simp) hδ hδ2
    show 7 ≤ t1.thetaR 0 - _
    linarith

/-- **C134 is false with demand.** However small `ε` is: if the temperature of the room is off by at most `ε` at the start and all steps are exact, the
second row is off by 7 K. -/
theorem C134_demand_violated (hr : ∀ j, 0 < hR j) : ∃ r, coreCalc (exPane 0.4) hR exFrost 4 1 0 0 = .ok r ∧ r.nMain = 96 ∧ ∀ ε : ℝ, 0 < ε →
    ∃ c c' rows, updateByGround r.ss.isGround (initialConditions (Fin 1) (Fin 1)) r.ground = .ok c ∧ Rounded ε 0 c c' ∧
      Inexact r.ss (3600 / ((4 : ℤ) : ℝ)) ε 0 c' (pyRange (-(0 * 4 * 24)) (1 * 4 * 24)) rows ∧
      ∀ (hk : 1 < r.nMain.toNat) (hk' : 1 < rows.length), 7 ≤ rows[1].thetaR 0 - (r.log ⟨1, hk⟩).thetaR 0 := by
  obtain ⟨r, H⟩ := frost_completes hr frostAir frostGain frostDemand
  obtain ⟨gs, c, up, mn, T⟩ := coreCalc_ok H
  refine ⟨r, H, by rw [T.nMain_eq]; norm_num, fun ε hε => ?_⟩
  have hdt : (3600 / ((4 : ℤ) : ℝ)) = 900 := by norm_num
  have hc0 := start_eq (fun _ => rfl) T
  subst hc0
  have hz := overT_pos
  have hδ : 0 < min (40.2 * ε) (64.76 * overT) := lt_min (by linarith) (by linarith)
  have hδ1 := min_le_left (40.2 * ε) (64.76 * overT)
  have hδ2 := min_le_right (40.2 * ε) (64.76 * overT)
  generalize min (40.2 * ε) (64.76 * overT) = δ at hδ hδ1 hδ2
  obtain ⟨c', hc'⟩ : ∃ c' : Cond (Fin 1) (Fin 1), c' = { initialConditions (Fin 1) (Fin 1) with thetaR := fun _ => 15 - δ / 40.2 } := ⟨_, rfl⟩
  have hcc : Rounded ε 0 (initialConditions (Fin 1) (Fin 1)) c' := by
    subst hc'
    refine ⟨⟨fun i => ?_, fun i => ?_, fun j => ?_, fun j l => ?_, fun j l => ?_⟩, ⟨fun i => ?_, fun i => ?_⟩, fun _ _ h => h, fun _ _ h => h⟩
    · have h15 : (initialConditions (Fin 1) (Fin 1)).thetaR i = 15 := rfl
      rw [h15, sub_sub_cancel_left, abs_neg, abs_of_pos (by positivity), div_le_iff₀ (by norm_num)]
      linarith
    all_goals simp [hε.le]
  have hl0 : ∀ i, Legal (c'.mode i) := by
    subst hc'
    exact fun i => initial_legal (m := 1) i
  obtain ⟨ts', R', -⟩ := run_exists (ss := r.ss) (dt := 3600 / ((4 : ℤ) : ℝ)) (P := fun c => ∀ i, Legal (c.mode i)) (c := c')
    (ns := pyRange (-(0 * 4 * 24)) (1 * 4 * 24)) hl0 (by
      intro n hn c hc
      rw [mem_pyRange] at hn
      obtain ⟨ss', t, Hp', ht⟩ := C21_step_completes_partial (data := exFrost) (n := n) (h := exPane 0.4) (hR := hR) (dt := 3600 / ((4 : ℤ) : ℝ))
        (by rw [hdt]; exact exPane_wellFormed hr (by norm_num)) (fun _ => rfl) (fun _ => rfl)
        (by intro k i; norm_num [exFrost, exRecord]) (fun i => legal_iff_ne.mp (hc i)) ⟨by push_cast; omega, by push_cast; omega⟩
      obtain rfl : ss' = r.ss := Except.ok.inj (Hp'.symm.trans T.pre)
      obtain ⟨k, hk⟩ := runTick_index ht
      exact ⟨t, ht, fun i => (step_mode T.pre ht hk hc i).1⟩)
  refine ⟨_, c', ts'.map LogRow.ofTick, T.start, hcc, R'.inexact hε.le le_rfl, fun hk hk' => ?_⟩
  have h8 := open_frost hr H ⟨1, hk⟩ rfl
  have Hp := T.pre
  have z3 : pyRange (-((0 : ℤ) * 4 * 24)) ((1 : ℤ) * 4 * 24) = 0 :: 1 :: pyRange 2 96 := by decide
  rw [hdt] at Hp R'
  rw [z3] at R'
  cases R' with
  | cons a0 R' =>
    cases R' with
    | cons a1 R' =>
      rename_i t0 t1 ts
      have := closed_frost (δ := δ) hr Hp a0 a1 (by subst hc'; exact ⟨fun _ _ => rfl, fun _ _ => rfl⟩) (by subst hc'; exact fun _ => startHumidity_eq)
        (by subst hc'; exact fun _ => startHumidity_eq)
        (by
          have h15 : c'.thetaR 0 = 15 - δ / 40.2 := by rw [hc']
          rw [h15]
          ring)
        rfl hδ hδ2
      show 7 ≤ t1.thetaR 0 - _
      linarith

end
end HLC
