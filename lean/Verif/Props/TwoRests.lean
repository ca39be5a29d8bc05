import Verif.Props.Threshold

/-!
# C110, C111: with demand, one house under constant data can rest at two temperatures
-/

set_option linter.unusedSectionVars false

namespace HLC
open Spec

/-- Outdoor air that keeps the room at `mildT + 1.02 overT` with open windows. -/
noncomputable def restAir : ℝ := mildT + 72.8 / 60.3 * 1.02 * overT

/-- How far the room is above `mildT` with closed windows. -/
noncomputable def restLow : ℝ := 12.06 / 24.56 * (72.8 / 60.3 * 1.02) * overT

/-- How far it is above it with open windows. -/
noncomputable def restHigh : ℝ := 1.02 * overT

/-- The records of a time with constant weather and demand. -/
noncomputable def exRestData : Fin 96 → Record (Fin 1) (Fin 1) := exRecord (fun _ => restAir) (fun _ => 0) fun _ => 1

/-- The room at rest, `y` above `mildT`. -/
structure Resting (m : OpMode) (y : ℝ) (c : Cond (Fin 1) (Fin 1)) : Prop where
  empty : Empty c
  humid : ∀ i, c.xR i = startHumidity
  furniture : ∀ i, c.xFrt i = startHumidity
  air : c.thetaR 0 = mildT + y
  radiant : c.thetaMrt 0 = mildT + y / 2
  mode : c.mode 0 = m

/-- A state with the room at rest. -/
noncomputable def restState (m : OpMode) (y : ℝ) : Cond (Fin 1) (Fin 1) :=
  { initialConditions (Fin 1) (Fin 1) with
    thetaR := fun _ => mildT + y
    thetaMrt := fun _ => mildT + y / 2
    mode := fun _ => m }

theorem rest_pmv {y : ℝ} : getHHumAndPmv coldP (mildT + y) (mildT + y / 2) cloMiddle = pmvK * ((0.08141 + midG * halfW) * (y - overT)) := by
  have hn := over_neutral
  rw [pmv_formula, ot_half] at hn ⊢
  have hn := (mul_eq_zero.1 hn).resolve_left pmvK_mem.1.ne'
  have hcl : cloFactor cloMiddle (hHumR + hHumC) = midG := rfl
  rw [hcl] at hn ⊢
  congr 1
  linarith

theorem rest_heavy {y : ℝ} (h0 : 0 ≤ y) : -0.7 < heavyPmv (mildT + y) (mildT + y / 2) := by
  have h := heavyPmv_sub mildT mildT (mildT + y) (mildT + y / 2)
  rw [mild_pmv] at h
  have hC0 := hHumC_pos
  have hR0 := hHumR_pos
  have : 0 ≤ pmvK * (0.0014 * 58.15 * (mildT + y - mildT) + pmvG * ((hHumR * (mildT + y / 2 - mildT) + hHumC * (mildT + y - mildT)) / (hHumR + hHumC))) := by
    refine mul_nonneg pmvK_mem.1.le (add_nonneg (by nlinarith) (mul_nonneg pmvG_mem.1.le (div_nonneg ?_ (by linarith))))
    exact add_nonneg (mul_nonneg hR0.le (by linarith)) (mul_nonneg hC0.le (by linarith))
  linarith

theorem rest_ot {y : ℝ} (h1 : y ≤ restHigh) : getThetaOt hHumR hHumC (mildT + y / 2) (mildT + y) ≤ 34 := by
  rw [ot_half]
  obtain ⟨w1, w2⟩ := halfW_mem
  have h31 := over_le
  have h15 := mild_gt
  have hz := overT_pos
  have ho := over_ot
  unfold restHigh at h1
  have : halfW * y ≤ halfW * (1.02 * overT) := mul_le_mul_of_nonneg_left h1 (by linarith)
  have : halfW * overT ≤ 0.76 * overT := mul_le_mul_of_nonneg_right w2 hz.le
  linarith

section
variable {hR : Fin 1 → ℝ} {ss : PreCalc (Fin 1) (Fin 1) 96} {c : Cond (Fin 1) (Fin 1)} {t : TickVars (Fin 1) (Fin 1)} {n : ℤ}

/-- With closed windows the room stays cool. -/
theorem closed_rests (hr : ∀ j, 0 < hR j) (Hp : makePreCalc (exPane 0.4) hR 900 exRestData = .ok ss) (H : runTick n 900 ss c = .ok t)
    (hc : Resting .stopClose restLow c) : Resting .stopClose restLow t.next := by
  have hr0 : (0 : ℝ) ≤ 0.4 := by norm_num
  obtain ⟨k, hk⟩ := runTick_index H
  have hz := overT_pos
  have hy : 0 ≤ restLow := by unfold restLow; positivity
  have hlt : restLow < overT := by unfold restLow; linarith
  have hm : (t.ot 0).mode = .stopClose := by
    have h := (pane_mode Hp H hk hc.humid).1
    have hneg : getHHumAndPmv coldP (mildT + restLow) (mildT + restLow / 2) cloMiddle < 0 := by
      rw [rest_pmv]
      obtain ⟨g1, -⟩ := mid_bounds
      obtain ⟨w1, -⟩ := halfW_mem
      have : 0 < 0.08141 + midG * halfW := by nlinarith
      exact mul_neg_of_pos_of_neg pmvK_mem.1 (mul_neg_of_pos_of_neg this (by linarith))
    rw [hc.mode, hc.air, hc.radiant, mild_modes (by linarith) (by linarith) (rest_ot (by unfold restHigh; linarith)) hneg] at h
    exact (Except.ok.inj h).symm
  have hl := pane_off Hp H (.inl hm)
  obtain ⟨b0, b1, -, b3⟩ := pane_step hr hr0 Hp H hk hc.empty
  obtain ⟨u, v⟩ := pane_humid hr hr0 Hp H hk hl.ge hc.humid hc.furniture
  rw [hl, hm, hc.air, if_neg (by decide)] at b3
  have e : t.thetaR 0 = mildT + restLow := by
    unfold restAir restLow at *
    linarith
  refine ⟨b0, u, v, e, ?_, hm⟩
  show t.thetaMrt 0 = _
  linarith

/-- With open windows it stays warm. -/
theorem open_rests (hr : ∀ j, 0 < hR j) (Hp : makePreCalc (exPane 0.4) hR 900 exRestData = .ok ss) (H : runTick n 900 ss c = .ok t)
    (hc : Resting .stopOpen restHigh c) : Resting .stopOpen restHigh t.next := by
  have hr0 : (0 : ℝ) ≤ 0.4 := by norm_num
  obtain ⟨k, hk⟩ := runTick_index H
  have hz := overT_pos
  have hy : 0 ≤ restHigh := by unfold restHigh; positivity
  have hm : (t.ot 0).mode = .stopOpen := by
    have h := (pane_mode Hp H hk hc.humid).1
    obtain ⟨g1, g2⟩ := mid_bounds
    obtain ⟨w1, w2⟩ := halfW_mem
    have h31 := over_le
    have h15 := mild_gt
    have hp : 0 < 0.08141 + midG * halfW := by nlinarith
    have hq : 0.08141 + midG * halfW ≤ 3.7 := by nlinarith
    have hd : restHigh - overT = 0.02 * overT := by unfold restHigh; ring
    have hpos : 0 < getHHumAndPmv coldP (mildT + restHigh) (mildT + restHigh / 2) cloMiddle := by
      rw [rest_pmv, hd]
      exact mul_pos pmvK_mem.1 (mul_pos hp (by linarith))
    have hlt : getHHumAndPmv coldP (mildT + restHigh) (mildT + restHigh / 2) cloMiddle < 0.7 := by
      rw [rest_pmv, hd]
      have h1 : (0.08141 + midG * halfW) * (0.02 * overT) ≤ 3.7 * 0.32 := mul_le_mul hq (by linarith) (by linarith) (by norm_num)
      obtain ⟨k1, k2⟩ := pmvK_mem
      have : pmvK * ((0.08141 + midG * halfW) * (0.02 * overT)) ≤ pmvK * (3.7 * 0.32) := mul_le_mul_of_nonneg_left h1 k1.le
      linarith
    obtain ⟨o1, -⟩ := C03_clothing_order coldP (mildT + restHigh) (mildT + restHigh / 2) (by linarith [rest_ot (le_refl restHigh)])
    have hlight : getHHumAndPmv coldP (mildT + restHigh) (mildT + restHigh / 2) cloLight < 0.7 := lt_of_le_of_lt o1 hlt
    have hh := rest_heavy hy
    rw [hc.mode, hc.air, hc.radiant] at h
    simp only [getOperationMode, gt_iff_lt, zero_lt_one, if_true, ge_iff_le, if_neg (not_le.2 hlight), if_neg (not_le.2 hh), if_neg (not_le.2 hpos)] at h
    exact (Except.ok.inj h).symm
  have hl := pane_off Hp H (.inr hm)
  obtain ⟨b0, b1, -, b3⟩ := pane_step hr hr0 Hp H hk hc.empty
  obtain ⟨u, v⟩ := pane_humid hr hr0 Hp H hk hl.ge hc.humid hc.furniture
  rw [hl, hm, hc.air, if_pos rfl] at b3
  have e : t.thetaR 0 = mildT + restHigh := by
    unfold restAir restHigh at *
    linarith
  refine ⟨b0, u, v, e, ?_, hm⟩
  show t.thetaMrt 0 = _
  linarith

/-- Steps from a state of rest, of any number. -/
theorem rest_run {m : OpMode} {y : ℝ} (hr : ∀ j, 0 < hR j) (Hp : makePreCalc (exPane 0.4) hR 900 exRestData = .ok ss) (hm : Legal m)
    (hs : ∀ {n : ℤ} {c : Cond (Fin 1) (Fin 1)} {t : TickVars (Fin 1) (Fin 1)}, runTick n 900 ss c = .ok t → Resting m y c → Resting m y t.next) :
    ∀ (ns : List ℤ) (c : Cond (Fin 1) (Fin 1)), (∀ n ∈ ns, -96 ≤ n ∧ n < 96) → Resting m y c →
      ∃ ts, Run ss 900 c ns ts ∧ ∀ t ∈ ts, Resting m y t.next := by
  intro ns
  induction ns with
  | nil => exact fun c _ _ => ⟨[], .nil c, fun t ht => absurd ht (List.not_mem_nil)⟩
  | cons n ns ih =>
    intro c hn hc
    have hl : ∀ i, Legal (c.mode i) := fun i => by rw [Subsingleton.elim i 0, hc.mode]; exact hm
    obtain ⟨ss', t, Hp', ht⟩ := C21_step_completes_partial (data := exRestData) (n := n) (c := c) (h := exPane 0.4) (hR := hR) (dt := 900)
      (exPane_wellFormed hr (by norm_num)) (fun _ => rfl) (fun _ => rfl) (by intro k i; norm_num [exRestData, exRecord])
      (fun i => legal_iff_ne.mp (hl i)) (by have := hn n List.mem_cons_self; exact ⟨by push_cast; omega, by push_cast; omega⟩)
    obtain rfl : ss' = ss := Except.ok.inj (Hp'.symm.trans Hp)
    obtain ⟨ts, R, hR'⟩ := ih t.next (fun n h => hn n (List.mem_cons_of_mem _ h)) (hs ht hc)
    refine ⟨t :: ts, .cons ht R, fun t' h => ?_⟩
    rcases List.mem_cons.1 h with rfl | h
    · exact hs ht hc
    · exact hR' _ h

/-- **C110 and C111 are false with demand.** There are a house, constant data, two states and a `δ > 0` such that calculations from the two states, of any
length, never come closer than `δ`: with closed windows the room stays cool, with open windows warm, and nothing makes the program change the windows. -/
theorem C110_demand_violated (hr : ∀ j, 0 < hR j) : ∃ (data : Fin 96 → Record (Fin 1) (Fin 1)) (ss : PreCalc (Fin 1) (Fin 1) 96)
    (c c' : Cond (Fin 1) (Fin 1)) (δ : ℝ), makePreCalc (exPane 0.4) hR 900 data = .ok ss ∧ (∀ k l, data k = data l) ∧ 0 < δ ∧
    c.thetaR 0 + δ = c'.thetaR 0 ∧ ∀ ns : List ℤ, (∀ n ∈ ns, -96 ≤ n ∧ n < 96) → ∃ ts ts', Run ss 900 c ns ts ∧ Run ss 900 c' ns ts' ∧
      (∀ t ∈ ts, (t.ot 0).mode = .stopClose ∧ t.thetaR 0 = c.thetaR 0) ∧ ∀ t ∈ ts', (t.ot 0).mode = .stopOpen ∧ t.thetaR 0 = c'.thetaR 0 := by
  have hz := overT_pos
  obtain ⟨r, H⟩ := frost_completes hr (fun _ => restAir) (fun _ => 0) fun _ => 1
  obtain ⟨gs, c0, up, mn, T⟩ := coreCalc_ok H
  have Hp := T.pre
  rw [show (3600 / ((4 : ℤ) : ℝ)) = 900 by norm_num] at Hp
  have hst : ∀ (m : OpMode) (y : ℝ), Resting m y (restState m y) := fun m y =>
    ⟨⟨fun _ _ => rfl, fun _ _ => rfl⟩, fun _ => startHumidity_eq, fun _ => startHumidity_eq, rfl, rfl, rfl⟩
  refine ⟨exRestData, r.ss, restState .stopClose restLow, restState .stopOpen restHigh, restHigh - restLow, Hp, fun _ _ => rfl, by unfold restHigh restLow; linarith,
    (by show mildT + restLow + _ = mildT + restHigh; ring), fun ns hn => ?_⟩
  obtain ⟨ts, R, h⟩ := rest_run hr Hp (m := .stopClose) (legal_iff_ne.mpr (by decide)) (fun H hc => closed_rests hr Hp H hc) ns _ hn (hst _ _)
  obtain ⟨ts', R', h'⟩ := rest_run hr Hp (m := .stopOpen) (legal_iff_ne.mpr (by decide)) (fun H hc => open_rests hr Hp H hc) ns _ hn (hst _ _)
  exact ⟨ts, ts', R, R', fun t ht => ⟨(h t ht).mode, (h t ht).air⟩, fun t ht => ⟨(h' t ht).mode, (h' t ht).air⟩⟩

end
end HLC
