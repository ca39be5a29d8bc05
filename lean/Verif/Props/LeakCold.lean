import Verif.Props.Flat
import Verif.Props.Warmer
import Verif.Spec.Passive

/-!
# C109, C110: leakage breaks the order and the fading of temperatures
-/

namespace HLC
open Spec

/-- The data of the two flats with outdoor air of `θ` degC, the parts at 15 degC, and `q` W in room 1. -/
noncomputable def exDraught (θ q : ℝ) : Fin 96 → Record (Fin 2) (Fin 2) := fun k => { exDuoData q k with thetaO := θ }

/-- One step of the two flats. -/
theorem exDraught_step {c θ q : ℝ} {hR : Fin 2 → ℝ} (hr : ∀ j, 0 < hR j) {ss : PreCalc (Fin 2) (Fin 2) 96} {n : ℤ} {s : Cond (Fin 2) (Fin 2)}
    {t : TickVars (Fin 2) (Fin 2)} (Hp : makePreCalc (exDuo c 0) hR 900 (exDraught θ q) = .ok ss) (Ht : runTick n 900 ss s = .ok t) (i : Fin 2) :
    t.vOut i = 0.01 + infiltrationRate 1 "balanced" c |(s.thetaR 0 + s.thetaR 1) / 2 - θ| * 30 / 3600 ∧
    (30 * airCap / 900 + 25 + airCap * t.vOut i) * t.thetaR i
      = 30 * airCap / 900 * s.thetaR i + 375 + airCap * t.vOut i * θ + (![0, q] : Fin 2 → ℝ) i := by
  obtain ⟨ivs, k, hi, hs, hk, E⟩ := step_eqs Hp Ht
  have hnd := no_demand E (by intro i; rw [hs]; simp [preCalcOf, exDraught, exDuoData]) (by intro i; rw [hs]; norm_num [preCalcOf, exDuo])
  have hS : ∀ j, t.thetaS j = 15 := by
    intro j
    have hh : (exDuo c 0).hI hR j ≠ 0 := by
      have := hr j
      norm_num [exDuo, House.hI]
      linarith
    have hw := C17_wall_equation_partial Hp Ht hk j hh (by simp [exDuo])
    have h1 : ∀ m, t.dshA j m = 0 := by
      intro m; rw [E.dshA, hs]; simp [Tick.dshA, preCalcOf, exDuo]
    have h2 : ∀ m, t.dshT j m = 0 := by
      intro m; rw [E.dshT, hs]; simp [Tick.dshT, preCalcOf, exDuo]
    simp only [h1, h2] at hw
    rw [hw]
    simp [exDuo, rearTemp, exDraught, exDuoData]
  constructor
  · have hl := E.vLeak
    have hn : t.vNtrl i = 0 := by
      rw [E.vNtrl]; simp [Tick.vNtrl, (hnd i).1]
    rw [E.vOut]
    rw [hs] at hl ⊢
    simp only [preCalcOf, exDuo, exDraught] at hl
    rw [C36_formula _ _ _ _ _ _ (by norm_num) (Or.inl rfl) (Or.inl rfl)] at hl
    have hl := congrFun (Except.ok.inj hl) i
    have hm : meanTemp (fun _ : Fin 2 => (30 : ℝ)) s.thetaR = (s.thetaR 0 + s.thetaR 1) / 2 := by
      simp only [meanTemp, Fin.sum_univ_two]
      ring
    rw [hm] at hl
    simp only [Tick.vOut, preCalcOf, House.vMec, hn, ← hl, exDraught, exDuoData, exDuo]
    ring
  · have h14 := C14_balance_as_coded Hp Ht hk i (by norm_num [exDuo])
    have hq : t.qHum i = 0 := by rw [E.qHum, hs]; simp [Tick.qHum, preCalcOf, exDraught, exDuoData]
    rw [hq, (hnd i).2.1, (hnd i).2.2] at h14
    simp only [convection, exDuo_surfaces, Finset.sum_singleton, hS] at h14
    have hz : ∑ l, (exDuo c 0).vInt i l * t.thetaR l = 0 := by
      refine Finset.sum_eq_zero fun l _ => ?_
      fin_cases i <;> fin_cases l <;> simp [exDuo]
    rw [hz] at h14
    simp only [exDuo, exDuoData, exDraught] at h14 ⊢
    norm_num at h14 ⊢
    linarith

theorem rate_balanced (c d : ℝ) (hc : 0 ≤ c) : infiltrationRate 1 "balanced" c d = 0.022 * (c * √d) := by
  have : 0 ≤ (0.022 : ℝ) * (c * √d) := by positivity
  simp only [infiltrationRate, if_true, sub_zero, String.reduceEq, reduceIte]
  exact max_eq_left this

theorem exDraught_completes {θ q : ℝ} {hR : Fin 2 → ℝ} (hr : ∀ j, 0 < hR j) :
    ∃ r, coreCalc (exDuo 2 0) hR (exDraught θ q) 4 1 0 0 = .ok r := by
  apply C21_program_partial
  · have := exDuo_wellFormed (c := 2) (w := 0) le_rfl (by norm_num) hr
    norm_num at this ⊢
    exact this
  · exact fun _ => rfl
  · exact fun _ => rfl
  · intro k i; norm_num [exDraught, exDuoData]
  all_goals norm_num

/-- **C109 (violated by leakage).** In a house with leakage (where all other hypotheses of C109 hold): a lamp in one room makes the room next to it,
with which it has no connection, colder than without the lamp, since the infiltration of every room follows the mean temperature of all rooms. -/
theorem C109_leak_violated : ∃ (h : House (Fin 2) (Fin 2)) (A B : Fin 96 → Record (Fin 2) (Fin 2)) (hR : Fin 2 → ℝ) (r1 r2 : CalcResult (Fin 2) 2 96),
    WellFormed h hR 900 ∧ Storageless h ∧ (∀ j, h.isGround j = false) ∧ (∀ i l, h.vInt i l = 0) ∧ (∀ k, Warmer (A k) (B k)) ∧
    (∀ k, RoomForPeople h 900 (A k)) ∧ (∀ k i, (A k).acDemand i = 0 ∧ (B k).acDemand i = 0) ∧
    coreCalc h hR A 4 1 0 0 = .ok r1 ∧ coreCalc h hR B 4 1 0 0 = .ok r2 ∧
    ∃ (k1 : Fin r1.nMain.toNat) (k2 : Fin r2.nMain.toNat), (k1 : ℕ) = 1 ∧ (k2 : ℕ) = 1 ∧ (r2.log k2).thetaR 0 < (r1.log k1).thetaR 0 := by
  have hr : ∀ j : Fin 2, (0 : ℝ) < (fun _ => 5) j := fun _ => by norm_num
  obtain ⟨r1, H1⟩ := exDraught_completes (θ := 0) (q := 0) hr
  obtain ⟨r2, H2⟩ := exDraught_completes (θ := 0) (q := 100) hr
  refine ⟨exDuo 2 0, exDraught 0 0, exDraught 0 100, fun _ => 5, r1, r2, exDuo_wellFormed le_rfl (by norm_num) hr, ?_, fun _ => rfl, ?_, ?_, ?_,
    fun _ _ => ⟨rfl, rfl⟩, H1, H2, ?_⟩
  · exact ⟨fun _ _ => rfl, fun _ _ => rfl, fun _ => rfl, by intro j; simp [exDuo]⟩
  · intro i l; fin_cases i <;> fin_cases l <;> simp [exDuo]
  · intro k
    refine ⟨le_rfl, fun _ => le_rfl, fun i => ?_, fun _ => le_rfl, rfl, rfl⟩
    fin_cases i <;> norm_num [exDraught, exDuoData]
  · intro k i; norm_num [exDraught, exDuoData, exDuo, airCap]
  -- the first two rows
  have rows : ∀ (q : ℝ) (r : CalcResult (Fin 2) 2 96), coreCalc (exDuo 2 0) (fun _ => 5) (exDraught 0 q) 4 1 0 0 = .ok r →
      ∃ (k : Fin r.nMain.toNat) (t t' : TickVars (Fin 2) (Fin 2)) (s : Cond (Fin 2) (Fin 2)), (k : ℕ) = 1 ∧ r.log k = LogRow.ofTick t' ∧
        makePreCalc (exDuo 2 0) (fun _ => 5) 900 (exDraught 0 q) = .ok r.ss ∧ runTick 0 900 r.ss s = .ok t ∧ runTick 1 900 r.ss t.next = .ok t' ∧
        s.thetaR = fun _ => 15 := by
    intro q r H
    obtain ⟨gs, c0, up, mn, T⟩ := coreCalc_ok H
    have e4 : (3600 / ((4 : ℤ) : ℝ)) = 900 := by norm_num
    have hn : r.nMain.toNat = 96 := by rw [T.nMain_eq]; rfl
    have e0 := start_eq (fun _ => rfl) T
    have hup : up = [] := by have := T.runUp.length_eq; simpa [pyRange] using this
    have hm := T.main
    have hp := T.pre
    rw [hup, e0, e4] at hm
    rw [e4] at hp
    have hl : mn.length = 96 := by rw [T.mn_length, hn]
    have hl' := hm.length_eq
    refine ⟨⟨1, by omega⟩, mn[0], mn[1], initialConditions (Fin 2) (Fin 2), rfl, T.logged _ (by rw [hl]; norm_num), hp, ?_, ?_, rfl⟩
    · have hns : (pyRange 0 (1 * 4 * 24))[0]? = some 0 := by
        rw [List.getElem?_eq_getElem (by omega), pyRange_getElem]; simp
      generalize pyRange 0 (1 * 4 * 24) = ns at hm hl' hns
      cases hm with
      | nil => simp at hl
      | cons a _ =>
        simp only [List.getElem?_cons_zero, Option.some.injEq] at hns
        subst hns
        exact a
    · have := run_pair hm 0 (by omega) (by omega)
      rw [pyRange_getElem] at this
      simpa using this
  obtain ⟨k1, a, a', s, hk1, el, Hp, Ha, Ha', es⟩ := rows 0 r1 H1
  obtain ⟨k2, b, b', s', hk2, el', Hp', Hb, Hb', es'⟩ := rows 100 r2 H2
  refine ⟨k1, k2, hk1, hk2, ?_⟩
  rw [el, el']
  show b'.thetaR 0 < a'.thetaR 0
  have hcap : (0 : ℝ) < airCap := by norm_num [airCap]
  have hrate : ∀ d : ℝ, 0 ≤ infiltrationRate 1 "balanced" 2 d := fun d => le_max_right _ _
  -- the first step
  have a0 := exDraught_step hr Hp Ha
  have b0 := exDraught_step hr Hp' Hb
  simp only [es, es'] at a0 b0
  have hv : ∀ i, b.vOut i = a.vOut i := fun i => (b0 i).1.trans (a0 i).1.symm
  have hpos : ∀ i, 0 < 30 * airCap / 900 + 25 + airCap * a.vOut i := fun i => by
    have : 0 ≤ a.vOut i := by rw [(a0 i).1]; have := hrate |(15 + 15) / 2 - (0 : ℝ)|; positivity
    positivity
  have z0 : b.thetaR 0 = a.thetaR 0 := by
    have e1 := (a0 0).2
    have e2 := (b0 0).2
    rw [hv] at e2
    refine mul_left_cancel₀ (hpos 0).ne' (e2.trans (e1.trans ?_).symm)
    simp
  have z1 : a.thetaR 1 < b.thetaR 1 := by
    have e1 := (a0 1).2
    have e2 := (b0 1).2
    rw [hv] at e2
    refine lt_of_mul_lt_mul_left ?_ (hpos 1).le
    rw [e1, e2]
    simp
  have p0 : ∀ i, 0 < a.thetaR i := fun i => by
    have e1 := (a0 i).2
    refine pos_of_mul_pos_right ?_ (hpos i).le
    rw [e1]
    have : (![0, 0] : Fin 2 → ℝ) i = 0 := by fin_cases i <;> rfl
    rw [this]
    simp only [mul_zero, add_zero]
    positivity
  -- the second step
  have a1 := exDraught_step hr Hp Ha' 0
  have b1 := exDraught_step hr Hp' Hb' 0
  have na : a.next.thetaR = a.thetaR := rfl
  have nb : b.next.thetaR = b.thetaR := rfl
  rw [na] at a1
  rw [nb] at b1
  obtain ⟨va, ea⟩ := a1
  obtain ⟨vb, eb⟩ := b1
  have m0 : |(a.thetaR 0 + a.thetaR 1) / 2 - (0 : ℝ)| < |(b.thetaR 0 + b.thetaR 1) / 2 - 0| := by
    have := p0 0
    have := p0 1
    rw [sub_zero, sub_zero, abs_of_pos (by linarith), abs_of_pos (by linarith)]
    linarith
  rw [rate_balanced _ _ (by norm_num)] at va vb
  have hs := Real.sqrt_lt_sqrt (abs_nonneg _) m0
  have hlt : a'.vOut 0 < b'.vOut 0 := by rw [va, vb]; linarith
  have hpa : 0 < a'.vOut 0 := by rw [va]; positivity
  have hpb : 0 < b'.vOut 0 := hpa.trans hlt
  rw [z0] at eb
  simp only [mul_zero, add_zero, Matrix.cons_val_zero] at ea eb
  have : 0 < 30 * airCap / 900 * a.thetaR 0 + 375 := by have := p0 0; positivity
  have hb' : 0 < b'.thetaR 0 := by
    refine pos_of_mul_pos_right (a := 30 * airCap / 900 + 25 + airCap * b'.vOut 0) ?_ (by positivity)
    rw [eb]; exact this
  refine lt_of_mul_lt_mul_left (a := 30 * airCap / 900 + 25 + airCap * a'.vOut 0) ?_ (by positivity)
  rw [ea, ← eb]
  refine mul_lt_mul_of_pos_right ?_ hb'
  have := mul_lt_mul_of_pos_left hlt hcap
  linarith

/-- 15 degC outside; `q` W in room 0, from which air goes to room 1. -/
noncomputable def exUpstream (q : ℝ) : Fin 96 → Record (Fin 2) (Fin 2) := fun k => { exDuoData 0 k with qGen := ![q, 0] }

/-- **C109 (violated by air between rooms).** In a tight house in which air goes from room 0 to room 1 (where all other hypotheses of C109 hold), a lamp
in room 0 makes room 1 colder than without the lamp, already in the first row: the air carries its heat with the wrong sign. -/
theorem C109_air_violated : ∃ (h : House (Fin 2) (Fin 2)) (A B : Fin 96 → Record (Fin 2) (Fin 2)) (hR : Fin 2 → ℝ) (r1 r2 : CalcResult (Fin 2) 2 96),
    WellFormed h hR 900 ∧ Storageless h ∧ (∀ j, h.isGround j = false) ∧ h.cValue = 0 ∧ 0 < h.vInt 1 0 ∧ (∀ k, Warmer (A k) (B k)) ∧
    (∀ k, RoomForPeople h 900 (A k)) ∧ (∀ k i, (A k).acDemand i = 0 ∧ (B k).acDemand i = 0) ∧
    coreCalc h hR A 4 1 0 0 = .ok r1 ∧ coreCalc h hR B 4 1 0 0 = .ok r2 ∧
    ∃ (k1 : Fin r1.nMain.toNat) (k2 : Fin r2.nMain.toNat), (k1 : ℕ) = 0 ∧ (k2 : ℕ) = 0 ∧ (r2.log k2).thetaR 1 < (r1.log k1).thetaR 1 := by
  have hr : ∀ j : Fin 2, (0 : ℝ) < (fun _ => 5) j := fun _ => by norm_num
  have hw := exDuo_wellFormed (c := 0) (w := 0.001) (by norm_num) (by norm_num) hr
  have comp : ∀ q, ∃ r, coreCalc (exDuo 0 0.001) (fun _ => 5) (exUpstream q) 4 1 0 0 = .ok r := by
    intro q
    apply C21_program_partial
    · norm_num at hw ⊢
      exact hw
    · exact fun _ => rfl
    · exact fun _ => rfl
    · intro k i; norm_num [exUpstream, exDuoData]
    all_goals norm_num
  obtain ⟨r1, H1⟩ := comp 0
  obtain ⟨r2, H2⟩ := comp 100
  refine ⟨exDuo 0 0.001, exUpstream 0, exUpstream 100, fun _ => 5, r1, r2, hw, ?_, fun _ => rfl, rfl, ?_, ?_, ?_,
    fun _ _ => ⟨rfl, rfl⟩, H1, H2, ?_⟩
  · exact ⟨fun _ _ => rfl, fun _ _ => rfl, fun _ => rfl, by intro j; simp [exDuo]⟩
  · norm_num [exDuo]
  · intro k
    refine ⟨le_rfl, fun _ => le_rfl, fun i => ?_, fun _ => le_rfl, rfl, rfl⟩
    fin_cases i <;> norm_num [exUpstream, exDuoData]
  · intro k i; norm_num [exUpstream, exDuoData, exDuo, airCap]
  have row : ∀ (q : ℝ) (r : CalcResult (Fin 2) 2 96), coreCalc (exDuo 0 0.001) (fun _ => 5) (exUpstream q) 4 1 0 0 = .ok r →
      ∃ (k : Fin r.nMain.toNat), (k : ℕ) = 0 ∧ (30 * airCap / 900 + 25 + airCap * 0.01) * ((r.log k).thetaR 0 - 15) = q ∧
        (30 * airCap / 900 + 25 + airCap * 0.01) * ((r.log k).thetaR 1 - 15) = -(airCap * 0.001 * (r.log k).thetaR 0) := by
    intro q r H
    have hn : r.nMain = 96 := by
      obtain ⟨gs, c0, up, mn, T⟩ := coreCalc_ok H
      rw [T.nMain_eq]; norm_num
    have hk0 : 0 < r.nMain.toNat := by rw [hn]; norm_num
    refine ⟨⟨0, hk0⟩, rfl, ?_⟩
    obtain ⟨c0, t, Hp, Ht, el, c1, -⟩ := first_step H (fun _ => rfl)
    rw [el hk0]
    obtain ⟨ivs, k, hi, hs, hk, E⟩ := step_eqs Hp Ht
    have hnd := no_demand E (by intro i; rw [hs]; simp [preCalcOf, exUpstream, exDuoData]) (by intro i; rw [hs]; norm_num [preCalcOf, exDuo])
    have hv : ∀ i, t.vOut i = 0.01 := by
      intro i
      have E' := E
      rw [hs] at E'
      rw [(no_demand_tight rfl (fun i => ⟨hw.capH_nonneg i, hw.capC_nonneg i⟩) (by intro i; simp [exUpstream, exDuoData]) E').2.1 i]
      norm_num [exUpstream, exDuoData, exDuo]
    have hS : ∀ j, t.thetaS j = 15 := by
      intro j
      have hh : (exDuo 0 0.001).hI (fun _ => 5) j ≠ 0 := by norm_num [exDuo, House.hI]
      have hw := C17_wall_equation_partial Hp Ht hk j hh (by simp [exDuo])
      have h1 : ∀ m, t.dshA j m = 0 := by
        intro m; rw [E.dshA, hs]; simp [Tick.dshA, preCalcOf, exDuo]
      have h2 : ∀ m, t.dshT j m = 0 := by
        intro m; rw [E.dshT, hs]; simp [Tick.dshT, preCalcOf, exDuo]
      simp only [h1, h2] at hw
      rw [hw]
      simp [exDuo, rearTemp, exUpstream, exDuoData]
    have hb : ∀ i, (30 * airCap / 900 + 25 + airCap * 0.01) * (t.thetaR i - 15)
        = (exUpstream q 0).qGen i - airCap * ∑ l, (exDuo 0 0.001).vInt i l * t.thetaR l := by
      intro i
      have h14 := C14_balance_as_coded Hp Ht hk i (by norm_num [exDuo])
      have hq : t.qHum i = 0 := by rw [E.qHum, hs]; simp [Tick.qHum, preCalcOf, exUpstream, exDuoData]
      rw [hq, (hnd i).2.1, (hnd i).2.2, hv, c1] at h14
      simp only [convection, exDuo_surfaces, Finset.sum_singleton, hS] at h14
      generalize ∑ l, (exDuo 0 0.001).vInt i l * t.thetaR l = x at h14 ⊢
      simp only [exDuo, exDuoData, exUpstream] at h14 ⊢
      norm_num at h14 ⊢
      linarith
    have b0 := hb 0
    have b1 := hb 1
    simp only [Fin.sum_univ_two, exDuo, exUpstream, Matrix.cons_val_zero, Matrix.cons_val_one] at b0 b1
    constructor
    · show _ * (t.thetaR 0 - 15) = q
      linarith
    · show _ * (t.thetaR 1 - 15) = -(airCap * 0.001 * t.thetaR 0)
      linarith
  obtain ⟨k1, hk1, a0, a1⟩ := row 0 r1 H1
  obtain ⟨k2, hk2, b0, b1⟩ := row 100 r2 H2
  refine ⟨k1, k2, hk1, hk2, ?_⟩
  simp only [airCap] at a0 a1 b0 b1
  nlinarith

/-- The state of the two flats with rooms at `a` and `b` degC and everything else as at the start. -/
noncomputable def exApart (a b : ℝ) : Cond (Fin 2) (Fin 2) := { initialConditions (Fin 2) (Fin 2) with thetaR := ![a, b] }

/-- **C110 (violated by leakage).** In a house with leakage (where all other hypotheses of C110 hold) no constant bounds what one step makes of a
difference of temperatures: for every factor `K` there are two states, as close to each other as one likes, whose rooms differ `K` times as much
after one step. (One room is warmer than outdoors, the other colder, and the mean is about that of outdoors.) -/
theorem C110_leak_violated : ∃ (h : House (Fin 2) (Fin 2)) (A : Fin 96 → Record (Fin 2) (Fin 2)) (hR : Fin 2 → ℝ),
    WellFormed h hR 900 ∧ Storageless h ∧ (∀ i l, h.vInt i l = 0) ∧ (∀ k i, 0.01 ≤ h.vVentEx i + (A k).vLocal i) ∧
    (∀ k, RoomForPeople h 900 (A k)) ∧ (∀ k i, (A k).acDemand i = 0) ∧
    ∀ K δ : ℝ, 0 < δ → ∃ (M : ℝ) (c c' : Cond (Fin 2) (Fin 2)) (ss : PreCalc (Fin 2) (Fin 2) 96) (t t' : TickVars (Fin 2) (Fin 2)),
      0 < M ∧ M < δ ∧ StateNear M c c' ∧ makePreCalc h hR 900 A = .ok ss ∧ runTick 0 900 ss c = .ok t ∧ runTick 0 900 ss c' = .ok t' ∧
      K * M < |t'.thetaR 0 - t.thetaR 0| := by
  have hr : ∀ j : Fin 2, (0 : ℝ) < (fun _ => 5) j := fun _ => by norm_num
  have hw := exDuo_wellFormed (c := 2) (w := 0) le_rfl (by norm_num) hr
  refine ⟨exDuo 2 0, exDraught 15 0, fun _ => 5, hw, ?_, ?_, ?_, ?_, fun _ _ => rfl, ?_⟩
  · exact ⟨fun _ _ => rfl, fun _ _ => rfl, fun _ => rfl, by intro j; simp [exDuo]⟩
  · intro i l; fin_cases i <;> fin_cases l <;> simp [exDuo]
  · intro k i; norm_num [exDraught, exDuoData, exDuo]
  · intro k i; norm_num [exDraught, exDuoData, exDuo, airCap]
  intro K δ hδ
  have step : ∀ a b, ∃ ss t, makePreCalc (exDuo 2 0) (fun _ => 5) 900 (exDraught 15 0) = .ok ss ∧ runTick 0 900 ss (exApart a b) = .ok t := by
    intro a b
    refine C21_step_completes_partial hw (fun _ => rfl) (fun _ => rfl) ?_ ?_ ⟨by norm_num, by norm_num⟩
    · intro k i; norm_num [exDraught, exDuoData]
    · intro i; simp [exApart, initialConditions, initialMode]
  have two : ∀ ε : ℝ, ∃ ss t t', makePreCalc (exDuo 2 0) (fun _ => 5) 900 (exDraught 15 0) = .ok ss ∧ runTick 0 900 ss (exApart 25 5) = .ok t ∧
      runTick 0 900 ss (exApart (25 + ε) (5 + ε)) = .ok t' := by
    intro ε
    obtain ⟨ss, t, h1, h2⟩ := step 25 5
    obtain ⟨ss', t', h1', h2'⟩ := step (25 + ε) (5 + ε)
    obtain rfl := Except.ok.inj (h1.symm.trans h1')
    exact ⟨ss, t, t', h1, h2, h2'⟩
  -- the square root of the difference
  obtain ⟨x, hx0, hx1, hxδ, hxK⟩ : ∃ x : ℝ, 0 < x ∧ x < 1 ∧ x < δ ∧ (|K| + 1) * x < 0.0001 := by
    refine ⟨min (min (1 / 2) (δ / 2)) (0.00005 / (|K| + 1)), ?_, ?_, ?_, ?_⟩
    · have : 0 < |K| + 1 := by positivity
      exact lt_min (lt_min (by norm_num) (by linarith)) (by positivity)
    · exact lt_of_le_of_lt ((min_le_left _ _).trans (min_le_left _ _)) (by norm_num)
    · exact lt_of_le_of_lt ((min_le_left _ _).trans (min_le_right _ _)) (by linarith)
    · have hK : 0 < |K| + 1 := by positivity
      have := mul_le_mul_of_nonneg_left (min_le_right (min (1 / 2) (δ / 2)) (0.00005 / (|K| + 1))) hK.le
      rw [mul_div_cancel₀ _ hK.ne'] at this
      refine lt_of_le_of_lt this (by norm_num)
  obtain ⟨ss, t, t', Hp, Ht, Ht'⟩ := two (x ^ 2)
  have hxx : x ^ 2 < x := by nlinarith
  refine ⟨x ^ 2, exApart 25 5, exApart (25 + x ^ 2) (5 + x ^ 2), ss, t, t', by positivity, by linarith, ?_, Hp, Ht, Ht', ?_⟩
  · refine ⟨fun i => ?_, fun i => ?_, fun j => ?_, fun j l => ?_, fun j l => ?_⟩
    · fin_cases i <;> simp [exApart]
    all_goals simp [exApart]; positivity
  obtain ⟨v1, e1⟩ := exDraught_step hr Hp Ht 0
  obtain ⟨v2, e2⟩ := exDraught_step hr Hp Ht' 0
  rw [rate_balanced _ _ (by norm_num)] at v1 v2
  have w1 : t.vOut 0 = 0.01 := by
    rw [v1]; norm_num [exApart]
  have w2 : t'.vOut 0 = 0.01 + 0.044 * x / 120 := by
    rw [v2, show |((exApart (25 + x ^ 2) (5 + x ^ 2)).thetaR 0 + (exApart (25 + x ^ 2) (5 + x ^ 2)).thetaR 1) / 2 - 15| = x ^ 2 by
      simp only [exApart, Matrix.cons_val_zero, Matrix.cons_val_one]
      rw [show (25 + x ^ 2 + (5 + x ^ 2)) / 2 - 15 = x ^ 2 by ring, abs_of_nonneg (by positivity)], Real.sqrt_sq hx0.le]
    ring
  rw [w1] at e1
  rw [w2] at e2
  simp only [exApart, Matrix.cons_val_zero, airCap] at e1 e2
  generalize t.thetaR 0 = u at *
  generalize t'.thetaR 0 = u' at *
  have hxs : x < 0.0001 := by nlinarith [abs_nonneg K]
  have hu' : 20 < u' := by nlinarith
  have key : 77.26 * (u - u') = 0.4422 * x * (u' - 15) - 40.2 * x ^ 2 := by
    norm_num at e1 e2 ⊢
    linarith
  have hd : 0.02 * x < u - u' := by nlinarith
  have hKx : K * x < 0.0001 := by nlinarith [le_abs_self K]
  refine lt_of_lt_of_le ?_ (neg_le_abs _)
  nlinarith

end HLC
