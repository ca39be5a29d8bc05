import Verif.Props.LeakCold
import Verif.Spec.Airing

/-!
# C137: with leakage, airing one room can make another warmer
-/

namespace HLC
open Spec

/-- The data of the two flats with outdoor air of 0 degC, the parts at 15 degC, and `u` m3/s of outdoor air in room 1 by local ventilation. -/
noncomputable def exAiryPair (u : ℝ) : Fin 96 → Record (Fin 2) (Fin 2) := fun k => { exDuoData 0 k with thetaO := 0, vLocal := ![0, u] }

/-- One step. -/
theorem exAiryPair_step {c u : ℝ} {hR : Fin 2 → ℝ} (hr : ∀ j, 0 < hR j) {ss : PreCalc (Fin 2) (Fin 2) 96} {n : ℤ} {s : Cond (Fin 2) (Fin 2)}
    {t : TickVars (Fin 2) (Fin 2)} (Hp : makePreCalc (exDuo c 0) hR 900 (exAiryPair u) = .ok ss) (Ht : runTick n 900 ss s = .ok t) (i : Fin 2) :
    t.vOut i = 0.01 + (![0, u] : Fin 2 → ℝ) i + infiltrationRate 1 "balanced" c |(s.thetaR 0 + s.thetaR 1) / 2 - 0| * 30 / 3600 ∧
    (30 * airCap / 900 + 25 + airCap * t.vOut i) * t.thetaR i
      = 30 * airCap / 900 * s.thetaR i + 375 := by
  obtain ⟨ivs, k, hi, hs, hk, E⟩ := step_eqs Hp Ht
  have hnd := no_demand E (by intro i; rw [hs]; simp [preCalcOf, exAiryPair, exDuoData]) (by intro i; rw [hs]; norm_num [preCalcOf, exDuo])
  have hS : ∀ j, t.thetaS j = 15 := by
    intro j
    have hh : (exDuo c 0).hI hR j ≠ 0 := by
      have := hr j
      norm_num [exDuo, House.hI]
      linarith
    have hw := C17_wall_equation_partial Hp Ht hk j hh (by simp [exDuo])
    have h1 : ∀ m, t.dshA j m = 0 := by
      intro m; rw [E.dshA, hs]; simp [Tick.dshA, preCalcOf, exDuo]
    have h2 : ∀ m, t.dshT j m = 0 := by
      intro m; rw [E.dshT, hs]; simp [Tick.dshT, preCalcOf, exDuo]
    simp only [h1, h2] at hw
    rw [hw]
    simp [exDuo, rearTemp, exAiryPair, exDuoData]
  constructor
  · have hl := E.vLeak
    have hn : t.vNtrl i = 0 := by
      rw [E.vNtrl]; simp [Tick.vNtrl, (hnd i).1]
    rw [E.vOut]
    rw [hs] at hl ⊢
    simp only [preCalcOf, exDuo, exAiryPair] at hl
    rw [C36_formula _ _ _ _ _ _ (by norm_num) (Or.inl rfl) (Or.inl rfl)] at hl
    have hl := congrFun (Except.ok.inj hl) i
    have hm : meanTemp (fun _ : Fin 2 => (30 : ℝ)) s.thetaR = (s.thetaR 0 + s.thetaR 1) / 2 := by
      simp only [meanTemp, Fin.sum_univ_two]
      ring
    rw [hm] at hl
    simp only [Tick.vOut, preCalcOf, House.vMec, hn, ← hl, exAiryPair, exDuoData, exDuo]
    ring
  · have h14 := C14_balance_as_coded Hp Ht hk i (by norm_num [exDuo])
    have hq : t.qHum i = 0 := by rw [E.qHum, hs]; simp [Tick.qHum, preCalcOf, exAiryPair, exDuoData]
    rw [hq, (hnd i).2.1, (hnd i).2.2] at h14
    simp only [convection, exDuo_surfaces, Finset.sum_singleton, hS] at h14
    have hz : ∑ l, (exDuo c 0).vInt i l * t.thetaR l = 0 := by
      refine Finset.sum_eq_zero fun l _ => ?_
      fin_cases i <;> fin_cases l <;> simp [exDuo]
    rw [hz] at h14
    have hq0 : (exAiryPair u k).qGen i = 0 := by fin_cases i <;> rfl
    rw [hq0] at h14
    simp only [exDuo, exDuoData, exAiryPair] at h14 ⊢
    norm_num at h14 ⊢
    linarith

theorem exAiryPair_completes {u : ℝ} (hu : 0 ≤ u) {hR : Fin 2 → ℝ} (hr : ∀ j, 0 < hR j) : ∃ r, coreCalc (exDuo 2 0) hR (exAiryPair u) 4 1 0 0 = .ok r := by
  apply C21_program_partial
  · have := exDuo_wellFormed (c := 2) (w := 0) le_rfl (by norm_num) hr
    norm_num at this ⊢
    exact this
  · exact fun _ => rfl
  · exact fun _ => rfl
  · intro k i; fin_cases i <;> simp [exAiryPair, hu]
  all_goals norm_num

/-- **C137 (violated by leakage).** In a house with leakage (where all other hypotheses of C137 hold): it is 0 degC outside and all rooms are warmer; taking
in more outdoor air in one room makes the room next to it, with which it has no connection, warmer than without, since the infiltration of every room follows
the mean temperature of all rooms. -/
theorem C137_leak_violated : ∃ (h : House (Fin 2) (Fin 2)) (A B : Fin 96 → Record (Fin 2) (Fin 2)) (hR : Fin 2 → ℝ) (r1 r2 : CalcResult (Fin 2) 2 96),
    WellFormed h hR 900 ∧ Storageless h ∧ (∀ j, h.isGround j = false) ∧ (∀ i l, h.vInt i l = 0) ∧ (∀ k, SameButAir (A k) (B k)) ∧
    (∀ k i, 0 ≤ (B k).vLocal i ∧ (B k).vLocal i ≤ (A k).vLocal i) ∧
    (∀ k, RoomForPeople h 900 (A k)) ∧ (∀ k i, (A k).acDemand i = 0 ∧ (B k).acDemand i = 0) ∧
    coreCalc h hR A 4 1 0 0 = .ok r1 ∧ coreCalc h hR B 4 1 0 0 = .ok r2 ∧ (∀ k, (A k).thetaO = 0) ∧
    (∀ (k1 : Fin r1.nMain.toNat) (k2 : Fin r2.nMain.toNat) (i : Fin 2), (k1 : ℕ) ≤ 1 → (k2 : ℕ) ≤ 1 → 0 < (r1.log k1).thetaR i ∧ 0 < (r2.log k2).thetaR i) ∧
    ∃ (k1 : Fin r1.nMain.toNat) (k2 : Fin r2.nMain.toNat), (k1 : ℕ) = 1 ∧ (k2 : ℕ) = 1 ∧ (r2.log k2).thetaR 0 < (r1.log k1).thetaR 0 := by
  have hr : ∀ j : Fin 2, (0 : ℝ) < (fun _ => 5) j := fun _ => by norm_num
  obtain ⟨r1, H1⟩ := exAiryPair_completes (u := 0.05) (by norm_num) hr
  obtain ⟨r2, H2⟩ := exAiryPair_completes (u := 0) le_rfl hr
  -- the first two rows
  have rows : ∀ (q : ℝ) (r : CalcResult (Fin 2) 2 96), coreCalc (exDuo 2 0) (fun _ => 5) (exAiryPair q) 4 1 0 0 = .ok r →
      ∃ (k0 k : Fin r.nMain.toNat) (t t' : TickVars (Fin 2) (Fin 2)) (s : Cond (Fin 2) (Fin 2)), (k0 : ℕ) = 0 ∧ (k : ℕ) = 1 ∧
        r.log k0 = LogRow.ofTick t ∧ r.log k = LogRow.ofTick t' ∧
        makePreCalc (exDuo 2 0) (fun _ => 5) 900 (exAiryPair q) = .ok r.ss ∧ runTick 0 900 r.ss s = .ok t ∧ runTick 1 900 r.ss t.next = .ok t' ∧
        s.thetaR = fun _ => 15 := by
    intro q r H
    obtain ⟨gs, c0, up, mn, T⟩ := coreCalc_ok H
    have e4 : (3600 / ((4 : ℤ) : ℝ)) = 900 := by norm_num
    have hn : r.nMain.toNat = 96 := by rw [T.nMain_eq]; rfl
    have e0 := start_eq (fun _ => rfl) T
    have hup : up = [] := by have := T.runUp.length_eq; simpa [pyRange] using this
    have hm := T.main
    have hp := T.pre
    rw [hup, e0, e4] at hm
    rw [e4] at hp
    have hl : mn.length = 96 := by rw [T.mn_length, hn]
    have hl' := hm.length_eq
    refine ⟨⟨0, by omega⟩, ⟨1, by omega⟩, mn[0], mn[1], initialConditions (Fin 2) (Fin 2), rfl, rfl, T.logged _ (by rw [hl]; norm_num),
      T.logged _ (by rw [hl]; norm_num), hp, ?_, ?_, rfl⟩
    · have hns : (pyRange 0 (1 * 4 * 24))[0]? = some 0 := by
        rw [List.getElem?_eq_getElem (by omega), pyRange_getElem]; simp
      generalize pyRange 0 (1 * 4 * 24) = ns at hm hl' hns
      cases hm with
      | nil => simp at hl
      | cons a _ =>
        simp only [List.getElem?_cons_zero, Option.some.injEq] at hns
        subst hns
        exact a
    · have := run_pair hm 0 (by omega) (by omega)
      rw [pyRange_getElem] at this
      simpa using this
  have hcap : (0 : ℝ) < airCap := by norm_num [airCap]
  have hrate : ∀ d : ℝ, 0 ≤ infiltrationRate 1 "balanced" 2 d := fun d => le_max_right _ _
  -- a step keeps the rooms above outdoors
  have keep : ∀ (u : ℝ), 0 ≤ u → ∀ (ss : PreCalc (Fin 2) (Fin 2) 96) (n : ℤ) (s : Cond (Fin 2) (Fin 2)) (t : TickVars (Fin 2) (Fin 2)),
      makePreCalc (exDuo 2 0) (fun _ => 5) 900 (exAiryPair u) = .ok ss → runTick n 900 ss s = .ok t → (∀ i, 0 < s.thetaR i) →
      ∀ i, 0 < t.vOut i ∧ 0 < t.thetaR i := by
    intro u hu ss n s t Hp Ht hs i
    obtain ⟨ev, eb⟩ := exAiryPair_step hr Hp Ht i
    have hv : 0 < t.vOut i := by
      have h1 := hrate |(s.thetaR 0 + s.thetaR 1) / 2 - 0|
      have h2 : 0 ≤ (![0, u] : Fin 2 → ℝ) i := by fin_cases i <;> simp [hu]
      rw [ev]
      positivity
    refine ⟨hv, pos_of_mul_pos_right (a := 30 * airCap / 900 + 25 + airCap * t.vOut i) ?_ (by positivity)⟩
    rw [eb]
    have := hs i
    positivity
  obtain ⟨j1, k1, a, a', s, hj1, hk1, fl, el, Hp, Ha, Ha', es⟩ := rows 0.05 r1 H1
  obtain ⟨j2, k2, b, b', s', hj2, hk2, fl', el', Hp', Hb, Hb', es'⟩ := rows 0 r2 H2
  have pa := keep 0.05 (by norm_num) _ _ _ _ Hp Ha (by intro i; rw [es]; norm_num)
  have pa' := keep 0.05 (by norm_num) _ _ _ _ Hp Ha' (fun i => (pa i).2)
  have pb := keep 0 le_rfl _ _ _ _ Hp' Hb (by intro i; rw [es']; norm_num)
  have pb' := keep 0 le_rfl _ _ _ _ Hp' Hb' (fun i => (pb i).2)
  refine ⟨exDuo 2 0, exAiryPair 0.05, exAiryPair 0, fun _ => 5, r1, r2, exDuo_wellFormed le_rfl (by norm_num) hr, ?_, fun _ => rfl, ?_,
    fun _ => ⟨rfl, rfl, rfl, rfl, rfl⟩, ?_, ?_, fun _ _ => ⟨rfl, rfl⟩, H1, H2, fun _ => rfl, ?_, k1, k2, hk1, hk2, ?_⟩
  · exact ⟨fun _ _ => rfl, fun _ _ => rfl, fun _ => rfl, by intro j; simp [exDuo]⟩
  · intro i l; fin_cases i <;> fin_cases l <;> simp [exDuo]
  · intro k i; fin_cases i <;> norm_num [exAiryPair]
  · intro k i; fin_cases i <;> norm_num [exAiryPair, exDuoData, exDuo, airCap]
  · intro l1 l2 i h1 h2
    constructor
    · rcases Nat.le_one_iff_eq_zero_or_eq_one.1 h1 with h | h
      · rw [Fin.ext (h.trans hj1.symm), fl]
        exact (pa i).2
      · rw [Fin.ext (h.trans hk1.symm), el]
        exact (pa' i).2
    · rcases Nat.le_one_iff_eq_zero_or_eq_one.1 h2 with h | h
      · rw [Fin.ext (h.trans hj2.symm), fl']
        exact (pb i).2
      · rw [Fin.ext (h.trans hk2.symm), el']
        exact (pb' i).2
  rw [el, el']
  show b'.thetaR 0 < a'.thetaR 0
  -- the first step
  have a0 := exAiryPair_step hr Hp Ha
  have b0 := exAiryPair_step hr Hp' Hb
  simp only [es, es'] at a0 b0
  have hv0 : b.vOut 0 = a.vOut 0 := (b0 0).1.trans (a0 0).1.symm
  have hv1 : b.vOut 1 < a.vOut 1 := by
    rw [(b0 1).1, (a0 1).1]
    simp only [Matrix.cons_val_one, Matrix.cons_val_fin_one]
    linarith
  have hpos : ∀ i, 0 < 30 * airCap / 900 + 25 + airCap * a.vOut i := fun i => by
    have := (pa i).1
    positivity
  have z0 : b.thetaR 0 = a.thetaR 0 := by
    have e1 := (a0 0).2
    have e2 := (b0 0).2
    rw [hv0] at e2
    exact mul_left_cancel₀ (hpos 0).ne' (e2.trans e1.symm)
  have z1 : a.thetaR 1 < b.thetaR 1 := by
    have e1 := (a0 1).2
    have e2 := (b0 1).2
    refine lt_of_mul_lt_mul_left ?_ (hpos 1).le
    rw [e1, ← e2]
    refine mul_lt_mul_of_pos_right ?_ (pb 1).2
    have := mul_lt_mul_of_pos_left hv1 hcap
    linarith
  -- the second step
  have a1 := exAiryPair_step hr Hp Ha' 0
  have b1 := exAiryPair_step hr Hp' Hb' 0
  have na : a.next.thetaR = a.thetaR := rfl
  have nb : b.next.thetaR = b.thetaR := rfl
  rw [na] at a1
  rw [nb] at b1
  obtain ⟨va, ea⟩ := a1
  obtain ⟨vb, eb⟩ := b1
  have m0 : |(a.thetaR 0 + a.thetaR 1) / 2 - (0 : ℝ)| < |(b.thetaR 0 + b.thetaR 1) / 2 - 0| := by
    have := (pa 0).2
    have := (pa 1).2
    rw [sub_zero, sub_zero, abs_of_pos (by linarith), abs_of_pos (by linarith)]
    linarith
  rw [rate_balanced _ _ (by norm_num)] at va vb
  have hs := Real.sqrt_lt_sqrt (abs_nonneg _) m0
  have hlt : a'.vOut 0 < b'.vOut 0 := by
    rw [va, vb]
    simp only [Matrix.cons_val_zero]
    linarith
  rw [z0] at eb
  have hpa := (pa' 0).1
  refine lt_of_mul_lt_mul_left (a := 30 * airCap / 900 + 25 + airCap * a'.vOut 0) ?_ (by positivity)
  rw [ea, ← eb]
  refine mul_lt_mul_of_pos_right ?_ (pb' 0).2
  have := mul_lt_mul_of_pos_left hlt hcap
  linarith

end HLC
