import Verif.Props.LeakCold

/-!
# C86, C110: rooms that exchange air drive each other apart
-/

namespace HLC
open Spec

/-- Two rooms of 30 m3, tight, with 36 m3/h of outdoor air each, that exchange 108 m3/h of air in both directions. -/
noncomputable def exSwap : House (Fin 2) (Fin 2) :=
  { exDuo 0 0 with
    area := fun _ => 1
    vInt := ![![0, 0.03], ![0.03, 0]] }

theorem exSwap_surfaces (i : Fin 2) : surfaces exSwap i = {i} := exDuo_surfaces 0 0 i

theorem exSwap_wellFormed {hR : Fin 2 → ℝ} (hr : ∀ j, 0 < hR j) : WellFormed exSwap hR 900 :=
  { exDuo_wellFormed (c := 0) (w := 0) le_rfl (by norm_num) hr with
    area_pos := by intro j; norm_num [exSwap]
    fMrtHum_sum := by intro i; rw [exSwap_surfaces]; simp [exSwap, exDuo]
    vInt_nonneg := by intro i l; fin_cases i <;> fin_cases l <;> norm_num [exSwap]
    vInt_lt := by intro i; fin_cases i <;> norm_num [exSwap, exDuo] }

/-- 15 degC outside and behind the parts; `q` W in room 0. -/
noncomputable def exSwapData (q : ℝ) : Fin 96 → Record (Fin 2) (Fin 2) := exUpstream q

/-- One step of the difference of the rooms. -/
theorem exSwap_step {q : ℝ} {ss : PreCalc (Fin 2) (Fin 2) 96} {n : ℤ} {s : Cond (Fin 2) (Fin 2)}
    {t : TickVars (Fin 2) (Fin 2)} (Hp : makePreCalc exSwap (fun _ => 5) 900 (exSwapData q) = .ok ss) (Ht : runTick n 900 ss s = .ok t) :
    18.58 * (t.thetaR 0 - t.thetaR 1) = 40.2 * (s.thetaR 0 - s.thetaR 1) + q := by
  have hw := exSwap_wellFormed (hR := fun _ => 5) (fun _ => by norm_num)
  obtain ⟨ivs, k, hi, hs, hk, E⟩ := step_eqs Hp Ht
  have hnd := no_demand E (by intro i; rw [hs]; simp [preCalcOf, exSwapData, exUpstream, exDuoData])
    (by intro i; rw [hs]; norm_num [preCalcOf, exSwap, exDuo])
  have hv : ∀ i, t.vOut i = 0.01 := by
    intro i
    have E' := E
    rw [hs] at E'
    rw [(no_demand_tight rfl (fun i => ⟨hw.capH_nonneg i, hw.capC_nonneg i⟩) (by intro i; simp [exSwapData, exUpstream, exDuoData]) E').2.1 i]
    norm_num [exSwapData, exUpstream, exDuoData, exSwap, exDuo]
  have hS : ∀ j, t.thetaS j = 15 := by
    intro j
    have hh : exSwap.hI (fun _ => 5) j ≠ 0 := by norm_num [exSwap, exDuo, House.hI]
    have hw := C17_wall_equation_partial Hp Ht hk j hh (by simp [exSwap, exDuo])
    have h1 : ∀ m, t.dshA j m = 0 := by
      intro m; rw [E.dshA, hs]; simp [Tick.dshA, preCalcOf, exSwap, exDuo]
    have h2 : ∀ m, t.dshT j m = 0 := by
      intro m; rw [E.dshT, hs]; simp [Tick.dshT, preCalcOf, exSwap, exDuo]
    simp only [h1, h2] at hw
    rw [hw]
    simp [exSwap, exDuo, rearTemp, exSwapData, exUpstream, exDuoData]
  have hb : ∀ i, 54.76 * (t.thetaR i - 15) = 40.2 * (s.thetaR i - 15) + (exSwapData q 0).qGen i - 1206 * ∑ l, exSwap.vInt i l * t.thetaR l := by
    intro i
    have h14 := C14_balance_as_coded Hp Ht hk i (by norm_num [exSwap, exDuo])
    have hq : t.qHum i = 0 := by rw [E.qHum, hs]; simp [Tick.qHum, preCalcOf, exSwapData, exUpstream, exDuoData]
    rw [hq, (hnd i).2.1, (hnd i).2.2, hv] at h14
    simp only [convection, exSwap_surfaces, Finset.sum_singleton, hS] at h14
    generalize ∑ l, exSwap.vInt i l * t.thetaR l = x at h14 ⊢
    simp only [exSwap, exDuo, exDuoData, exUpstream, exSwapData, airCap] at h14 ⊢
    norm_num at h14 ⊢
    linarith
  have b0 := hb 0
  have b1 := hb 1
  simp only [Fin.sum_univ_two, exSwap, exSwapData, exUpstream, Matrix.cons_val_zero, Matrix.cons_val_one] at b0 b1
  linarith

theorem exSwap_completes (q : ℝ) : ∃ r, coreCalc exSwap (fun _ => 5) (exSwapData q) 4 1 0 0 = .ok r := by
  apply C21_program_partial
  · have := exSwap_wellFormed (hR := fun _ => 5) (fun _ => by norm_num)
    norm_num at this ⊢
    exact this
  · exact fun _ => rfl
  · exact fun _ => rfl
  · intro k i; norm_num [exSwapData, exUpstream, exDuoData]
  all_goals norm_num

/-- **C86 (violated by air between rooms).** Two rooms that exchange air in both directions, at 15 degC outside and from a start at 15 degC, with a lamp of
1 W in one of them: in every row their temperatures differ by more than twice as much as in the row before, so that after a day they are more than
10^26 degrees apart. -/
theorem C86_air_violated : ∃ r, coreCalc exSwap (fun _ => 5) (exSwapData 1) 4 1 0 0 = .ok r ∧ r.nMain = 96 ∧
    (∀ k, (exSwapData 1 k).thetaO = 15 ∧ (∀ j, (exSwapData 1 k).thetaOSol j = 15) ∧ ∀ i, (exSwapData 1 k).acDemand i = 0 ∧ (exSwapData 1 k).qGen i ≤ 1) ∧
    (∀ (k : ℕ) (hk : k < r.nMain.toNat), 2 ^ k / 20 < (r.log ⟨k, hk⟩).thetaR 0 - (r.log ⟨k, hk⟩).thetaR 1) ∧
    ∀ hk : 95 < r.nMain.toNat, 10 ^ 26 < (r.log ⟨95, hk⟩).thetaR 0 - (r.log ⟨95, hk⟩).thetaR 1 := by
  obtain ⟨r, H⟩ := exSwap_completes 1
  have hn : r.nMain = 96 := by
    obtain ⟨gs, c0, up, mn, T⟩ := coreCalc_ok H
    rw [T.nMain_eq]; norm_num
  have key : ∀ (k : ℕ) (hk : k < r.nMain.toNat), 2 ^ k / 20 < (r.log ⟨k, hk⟩).thetaR 0 - (r.log ⟨k, hk⟩).thetaR 1 := by
    intro k
    induction k with
    | zero =>
      intro hk
      obtain ⟨c0, t, Hp, Ht, el, c1, -⟩ := first_step H (fun _ => rfl)
      rw [el hk]
      have := exSwap_step Hp Ht
      rw [c1] at this
      show (2 : ℝ) ^ 0 / 20 < t.thetaR 0 - t.thetaR 1
      norm_num at this ⊢
      linarith
    | succ k ih =>
      intro hk
      have ih := ih (by omega)
      obtain ⟨n, t, t', -, -, Hp, Ht, e0, e1⟩ := logged_pair H k hk
      have e4 : (3600 / ((4 : ℤ) : ℝ)) = 900 := by norm_num
      rw [e4] at Hp Ht
      rw [e0] at ih
      rw [e1]
      have := exSwap_step Hp Ht
      have ih : (2 : ℝ) ^ k / 20 < t.thetaR 0 - t.thetaR 1 := ih
      have this : 18.58 * (t'.thetaR 0 - t'.thetaR 1) = 40.2 * (t.thetaR 0 - t.thetaR 1) + 1 := this
      show (2 : ℝ) ^ (k + 1) / 20 < t'.thetaR 0 - t'.thetaR 1
      have : (0 : ℝ) < 2 ^ k := by positivity
      rw [pow_succ]
      linarith
  refine ⟨r, H, hn, ?_, key, fun hk => lt_trans (by norm_num) (key 95 hk)⟩
  intro k
  refine ⟨rfl, fun _ => rfl, fun i => ⟨rfl, ?_⟩⟩
  fin_cases i <;> norm_num [exSwapData, exUpstream]

/-- **C110 (violated by air between rooms).** In the same house, with the same data, the difference of two runs from states whose rooms are apart by
different amounts grows by more than the factor two in every step. -/
theorem C110_air_violated {ss : PreCalc (Fin 2) (Fin 2) 96} (Hp : makePreCalc exSwap (fun _ => 5) 900 (exSwapData 0) = .ok ss)
    {c c' : Cond (Fin 2) (Fin 2)} {ns : List ℤ} {ts ts' : List (TickVars (Fin 2) (Fin 2))} (H : Run ss 900 c ns ts) (H' : Run ss 900 c' ns ts') :
    ∀ (j : ℕ) (h1 : j < ts.length) (h2 : j < ts'.length),
      2 ^ (j + 1) * |(c'.thetaR 0 - c'.thetaR 1) - (c.thetaR 0 - c.thetaR 1)|
        ≤ |(ts'[j].thetaR 0 - ts'[j].thetaR 1) - (ts[j].thetaR 0 - ts[j].thetaR 1)| := by
  induction H generalizing c' ts' with
  | nil => intro j h1; simp at h1
  | @cons c n ns t ts a1 _ ih =>
    cases H' with
    | @cons _ _ _ t' ts' b1 b2 =>
      have hs : 2 * |(c'.thetaR 0 - c'.thetaR 1) - (c.thetaR 0 - c.thetaR 1)| ≤ |(t'.thetaR 0 - t'.thetaR 1) - (t.thetaR 0 - t.thetaR 1)| := by
        have s1 := exSwap_step Hp a1
        have s2 := exSwap_step Hp b1
        have e : (t'.thetaR 0 - t'.thetaR 1) - (t.thetaR 0 - t.thetaR 1)
            = 40.2 / 18.58 * ((c'.thetaR 0 - c'.thetaR 1) - (c.thetaR 0 - c.thetaR 1)) := by linarith
        rw [e, abs_mul]
        refine mul_le_mul_of_nonneg_right ?_ (abs_nonneg _)
        norm_num
      intro j h1 h2
      cases j with
      | zero => simpa using hs
      | succ j =>
        have := ih b2 j (by simpa using h1) (by simpa using h2)
        simp only [List.getElem_cons_succ]
        refine le_trans ?_ this
        rw [pow_succ 2 (j + 1), mul_assoc]
        exact mul_le_mul_of_nonneg_left hs (by positivity)

/-- Both runs exist from all states in which nothing is going on. -/
example : ∃ ss t t', makePreCalc exSwap (fun _ => 5) 900 (exSwapData 0) = .ok ss ∧ Run ss 900 (exApart 15 15) [0] [t] ∧ Run ss 900 (exApart 16 15) [0] [t'] := by
  have step : ∀ a b, ∃ ss t, makePreCalc exSwap (fun _ => 5) 900 (exSwapData 0) = .ok ss ∧ runTick 0 900 ss (exApart a b) = .ok t := by
    intro a b
    refine C21_step_completes_partial (exSwap_wellFormed fun _ => by norm_num) (fun _ => rfl) (fun _ => rfl) ?_ ?_ ⟨by norm_num, by norm_num⟩
    · intro k i; norm_num [exSwapData, exUpstream, exDuoData]
    · intro i; simp [exApart, initialConditions, initialMode]
  obtain ⟨ss, t, h1, h2⟩ := step 15 15
  obtain ⟨ss', t', h1', h2'⟩ := step 16 15
  obtain rfl := Except.ok.inj (h1.symm.trans h1')
  exact ⟨ss, t, t', h1, .cons h2 (.nil _), .cons h2' (.nil _)⟩

end HLC
