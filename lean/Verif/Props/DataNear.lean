import Verif.Props.Inexact
import Verif.Props.Renumber
import Verif.Spec.DataNear
import Verif.Lemmas.Forced

/-!
# C135: errors in the weather and in the gains are not amplified
-/

set_option linter.unusedSectionVars false

namespace HLC
open Spec

section
variable {I J : Type} [Fintype I] [DecidableEq I] [Fintype J] [DecidableEq J] {N : ℕ} {h : House I J} {hR : J → ℝ} {dt : ℝ}

/-- Rows of calculations under two sets of data whose temperatures agree also agree in the means. -/
theorem near_row_two (hw : WellFormed h hR dt) {ss ss' : PreCalc I J N} {A A' : Fin N → Record I J} (Hp : makePreCalc h hR dt A = .ok ss)
    (Hp' : makePreCalc h hR dt A' = .ok ss') {n1 n2 : ℤ} {c1 c2 : Cond I J} {t t' : TickVars I J} (H1 : runTick n1 dt ss c1 = .ok t)
    (H2 : runTick n2 dt ss' c2 = .ok t') {X : ℝ} (hX : 0 ≤ X)
    (r1 : ∀ i, |t'.thetaR i - t.thetaR i| ≤ X) (r2 : ∀ i, |t'.thetaFrt i - t.thetaFrt i| ≤ X) (r3 : ∀ j, |t'.thetaS j - t.thetaS j| ≤ X) :
    RowNear X (LogRow.ofTick t) (LogRow.ofTick t') := by
  obtain ⟨ivs, k1, hi1, hs1, hk1, e1⟩ := step_eqs Hp H1
  obtain ⟨ivs', k2, hi2, hs2, hk2, e2⟩ := step_eqs Hp' H2
  have mean : ∀ i, |∑ j ∈ surfaces h i, h.fMrtHum j * t'.thetaS j - ∑ j ∈ surfaces h i, h.fMrtHum j * t.thetaS j| ≤ X := by
    intro i
    rw [← Finset.sum_sub_distrib]
    calc |∑ j ∈ surfaces h i, (h.fMrtHum j * t'.thetaS j - h.fMrtHum j * t.thetaS j)|
        ≤ ∑ j ∈ surfaces h i, |h.fMrtHum j * t'.thetaS j - h.fMrtHum j * t.thetaS j| := Finset.abs_sum_le_sum_abs _ _
      _ ≤ ∑ j ∈ surfaces h i, h.fMrtHum j * X := Finset.sum_le_sum fun j _ => by
          rw [← mul_sub, abs_mul, abs_of_nonneg (hw.fMrtHum_nonneg j)]
          exact mul_le_mul_of_nonneg_left (r3 j) (hw.fMrtHum_nonneg j)
      _ ≤ X := by rw [← Finset.sum_mul]; exact mul_le_of_le_one_left hX (hw.fMrtHum_sum i)
  have m1 : ∀ i, t.thetaMrt i = ∑ j ∈ surfaces h i, h.fMrtHum j * t.thetaS j := fun i => by
    rw [e1.thetaMrt, hs1]; exact fMrtHum_mulVec h _ i
  have m2 : ∀ i, t'.thetaMrt i = ∑ j ∈ surfaces h i, h.fMrtHum j * t'.thetaS j := fun i => by
    rw [e2.thetaMrt, hs2]; exact fMrtHum_mulVec h _ i
  refine ⟨r1, r2, r3, fun i => ?_, fun i => ?_⟩
  · show |t'.thetaMrt i - t.thetaMrt i| ≤ _
    rw [m1, m2]
    exact mean i
  · show |t'.thetaOt i - t.thetaOt i| ≤ _
    have hc0 : (0 : ℝ) < hHumC := by unfold hHumC; norm_num
    have hr0 := hHumR_pos
    rw [C13_operative_temperature Hp H1 i, C13_operative_temperature Hp' H2 i, ← sub_div, abs_div, abs_of_pos (a := hHumC + hHumR) (by linarith),
      div_le_iff₀ (by linarith)]
    have a1 := r1 i
    have a2 := mean i
    generalize (∑ j ∈ surfaces h i, h.fMrtHum j * t.thetaS j) = x at *
    generalize (∑ j ∈ surfaces h i, h.fMrtHum j * t'.thetaS j) = y at *
    rw [abs_le] at a1 a2 ⊢
    constructor <;> nlinarith

/-- The difference of two steps of a tight house without demand from the same state under different data. -/
theorem step_forced {ss ss' : PreCalc I J N} {n : ℤ} {k : Fin N} {A A' : Fin N → Record I J} {c : Cond I J} {t t' : TickVars I J} {w : I → ℝ}
    (hw : WellFormed h hR dt) (hpt : Partitions h hR) (hC : h.cValue = 0)
    (Hp : makePreCalc h hR dt A = .ok ss) (Hp' : makePreCalc h hR dt A' = .ok ss') (H : runTick n dt ss c = .ok t) (H' : runTick n dt ss' c = .ok t')
    (hk : pyIndex N n = .ok k) (hvent : ∀ i, w i + (∑ l, h.vInt i l + ∑ l, h.vInt l i) / 2 ≤ h.vVentEx i + (A k).vLocal i)
    (hd : ∀ i, (A k).acDemand i ≤ 0) (hd' : ∀ i, (A' k).acDemand i ≤ 0) {ε : ℝ} (hn : DataNear ε (A k) (A' k)) :
    ∃ F : Forced h hR dt w, F.ε = ε ∧ (F.d = fun i => t'.thetaR i - t.thetaR i) ∧ (F.f = fun i => t'.thetaFrt i - t.thetaFrt i) ∧
      (F.s = fun j => t'.thetaS j - t.thetaS j) ∧ (F.q = fun j => t'.qSrf j - t.qSrf j) ∧ (∀ j l, t'.dshA j l = t.dshA j l) ∧
      ∀ j l, |t'.dshT j l - t.dshT j l| ≤ |h.phiT1 j l * h.kEo j| * ε := by
  have hcap : ∀ i, 0 ≤ h.capH i ∧ 0 ≤ h.capC i := fun i => ⟨hw.capH_nonneg i, hw.capC_nonneg i⟩
  obtain ⟨ivs, k1, hi1, hs1, hk1, e1⟩ := step_eqs Hp H
  obtain rfl : k1 = k := Except.ok.inj (hk1.symm.trans hk)
  obtain ⟨ivs', k2, hi2, hs2, hk2, e2⟩ := step_eqs Hp' H'
  obtain rfl : k2 = k1 := Except.ok.inj (hk2.symm.trans hk)
  have e1' := e1
  have e2' := e2
  rw [hs1] at e1'
  rw [hs2] at e2'
  obtain ⟨l1, v1, o1⟩ := no_demand_tight hC hcap hd e1'
  obtain ⟨l2, v2, o2⟩ := no_demand_tight hC hcap hd' e2'
  have hH : ∀ j, h.hC j + hR j ≠ 0 := fun j => (add_pos (hw.hC_pos j) (hw.hR_pos j)).ne'
  have hfrt : ∀ i, h.cSh i + dt * h.gSh i ≠ 0 := fun i => frt_ne hw.dt_pos (hw.cSh_nonneg i) (hw.gSh_nonneg i) (hw.frtSh_pos i)
  have hq : ∀ i, t'.qHum i = t.qHum i := fun i => by
    rw [e1'.qHum, e2'.qHum]
    show qHumPsn (c.thetaR i) * (A' k2).nHum i = qHumPsn (c.thetaR i) * (A k2).nHum i
    rw [hn.people]
  have dA : ∀ j l, t'.dshA j l = t.dshA j l := fun j l => by
    rw [e1'.dshA, e2'.dshA]
    rfl
  have dT : ∀ j l, t'.dshT j l - t.dshT j l = h.phiT1 j l * h.kEo j * ((A' k2).thetaOSol j - (A k2).thetaOSol j) := fun j l => by
    rw [e1'.dshT, e2'.dshT, e1'.thetaRear, e2'.thetaRear]
    simp only [Tick.dshT, Tick.thetaRear, preCalcOf, House.thetaDstrb]
    ring
  have dT0 : ∀ j, h.kEi j ≠ none → ∀ l, t'.dshT j l = t.dshT j l := fun j hK l => by
    obtain ⟨⟨m, coef⟩, hK'⟩ := Option.ne_none_iff_exists'.1 hK
    have := dT j l
    rw [((hpt.steady j m coef hK').2 l).2] at this
    linarith
  refine ⟨{
    ε := ε
    o := (A' k2).thetaO - (A k2).thetaO
    gain := fun i => (A' k2).qGen i - (A k2).qGen i
    sun := fun i => (A' k2).qTrsSol i - (A k2).qTrsSol i
    rear := fun j => (A' k2).thetaOSol j - (A k2).thetaOSol j
    d := fun i => t'.thetaR i - t.thetaR i
    f := fun i => t'.thetaFrt i - t.thetaFrt i
    v := t.vOut
    s := fun j => t'.thetaS j - t.thetaS j
    q := fun j => t'.qSrf j - t.qSrf j
    o_le := hn.outdoor
    gain_le := hn.gains
    sun_le := hn.sun
    rear_le := hn.behind
    room := ?_
    furniture := ?_
    flux := ?_
    wall := ?_
    vent := ?_ }, rfl, rfl, rfl, rfl, rfl, dA, ?_⟩
  · intro i
    have b1 := C14_balance_as_coded Hp H hk i (hfrt i)
    have b2 := C14_balance_as_coded Hp' H' hk i (hfrt i)
    simp only [mul_zero, l1, l2, add_zero, hq] at b1 b2
    rw [v2, hn.ventilation, ← v1] at b2
    have hcv : convection h i (t'.thetaR i - t.thetaR i) (fun j => t'.thetaS j - t.thetaS j)
        = convection h i (t'.thetaR i) t'.thetaS - convection h i (t.thetaR i) t.thetaS := by
      unfold convection
      rw [← Finset.sum_sub_distrib]
      exact Finset.sum_congr rfl fun j _ => by ring
    have h3 : ∑ l, h.vInt i l * (t'.thetaR l - t.thetaR l) = ∑ l, h.vInt i l * t'.thetaR l - ∑ l, h.vInt i l * t.thetaR l := by
      rw [← Finset.sum_sub_distrib]
      exact Finset.sum_congr rfl fun l _ => by ring
    rw [hcv, h3]
    linear_combination b2 - b1
  · intro i
    have b1 := C15_furniture_heat Hp H hk i (hfrt i)
    have b2 := C15_furniture_heat Hp' H' hk i (hfrt i)
    linear_combination b2 - b1
  · intro j
    have b1 := C16_surface_flux Hp H hk j (hH j)
    have b2 := C16_surface_flux Hp' H' hk j (hH j)
    simp only [l1, l2, mul_zero, zero_div, add_zero] at b1 b2
    have hz : (∑ i, h.p i j * (((A' k2).qTrsSol i - (A k2).qTrsSol i) / h.aSrfAbs i)) * ind (h.solarAbs j) * (1 - House.rSolFnt)
        = h.qSol (A' k2) j - h.qSol (A k2) j := by
      have : ∑ i, h.p i j * (((A' k2).qTrsSol i - (A k2).qTrsSol i) / h.aSrfAbs i)
          = ∑ i, h.p i j * ((A' k2).qTrsSol i / h.aSrfAbs i) - ∑ i, h.p i j * ((A k2).qTrsSol i / h.aSrfAbs i) := by
        rw [← Finset.sum_sub_distrib]
        exact Finset.sum_congr rfl fun i _ => by ring
      rw [this]
      unfold House.qSol
      ring
    simp only [roomMrt_sub]
    rw [hz]
    linear_combination b2 - b1
  · intro j
    have hm : ∀ m coef, h.kEi j = some (m, coef) → h.hC m = h.hC j ∧ hR m = hR j ∧ h.area m = h.area j := hpt.films j
    have b1 := C17_wall_equation_partial Hp H hk j (hH j) hm
    have b2 := C17_wall_equation_partial Hp' H' hk j (hH j) hm
    have hs : ∑ l, (t'.dshT j l + t'.dshA j l) - ∑ l, (t.dshT j l + t.dshA j l)
        = (∑ l, h.phiT1 j l) * (h.kEo j * ((A' k2).thetaOSol j - (A k2).thetaOSol j)) := by
      rw [← Finset.sum_sub_distrib, Finset.sum_mul]
      exact Finset.sum_congr rfl fun l _ => by rw [dA]; linear_combination dT j l
    unfold rearTemp at b1 b2
    cases hK : h.kEi j with
    | none =>
      rw [hK] at b1 b2
      simp only [] at b1 b2 ⊢
      linear_combination b2 - b1 + hs
    | some mc =>
      obtain ⟨m, coef⟩ := mc
      have hc1 := (hpt.side j m coef hK).1
      have ht := (hpt.steady j m coef hK).1
      rw [hK] at b1 b2
      simp only [] at b1 b2 ⊢
      rw [ht, hc1] at b1 b2
      rw [ht]
      have q1 : t.thetaEi m = t.thetaS m + t.qSrf m / (h.hC m + hR m) := by
        rw [e1'.qSrf]; simp only [Tick.qSrf, preCalcOf]; rw [mul_div_cancel_right₀ _ (hH m)]; ring
      have q2 : t'.thetaEi m = t'.thetaS m + t'.qSrf m / (h.hC m + hR m) := by
        rw [e2'.qSrf]; simp only [Tick.qSrf, preCalcOf]; rw [mul_div_cancel_right₀ _ (hH m)]; ring
      rw [q1] at b1
      rw [q2] at b2
      rw [sub_div]
      linear_combination b2 - b1 + hs
  · intro i
    rw [v1]
    exact hvent i
  · intro j l
    rw [dT, abs_mul]
    exact mul_le_mul_of_nonneg_left (hn.behind j) (abs_nonneg _)

/-- One step from the same state under data that agree up to `ε`. -/
theorem step_data {w : I → ℝ} (hw : WellFormed h hR dt) (hP : Passive h hR) (hpt : Partitions h hR)
    (hC : h.cValue = 0) (hw0 : ∀ i, 0 ≤ w i) (hg : ∀ i, 0 < h.gSh i) (hl : LosesHeat h w) :
    ∃ K : ℝ, 0 ≤ K ∧ ∀ {N : ℕ} {ss ss' : PreCalc I J N} {A A' : Fin N → Record I J} (_ : makePreCalc h hR dt A = .ok ss)
      (_ : makePreCalc h hR dt A' = .ok ss') {n : ℤ} {k : Fin N} (_ : pyIndex N n = .ok k)
      (_ : ∀ i, w i + (∑ l, h.vInt i l + ∑ l, h.vInt l i) / 2 ≤ h.vVentEx i + (A k).vLocal i)
      (_ : ∀ i, (A k).acDemand i ≤ 0) (_ : ∀ i, (A' k).acDemand i ≤ 0) {ε : ℝ} (_ : 0 ≤ ε) (_ : DataNear ε (A k) (A' k)) {c : Cond I J}
      {t t' : TickVars I J} (_ : runTick n dt ss c = .ok t) (_ : runTick n dt ss' c = .ok t'),
      RowNear (K * ε) (LogRow.ofTick t) (LogRow.ofTick t') ∧ StateNear (K * ε) t.next t'.next := by
  obtain ⟨K, hK, HK⟩ := Forced.answers (w := w) hw hP hpt hw0 hg hl
  have hS : 0 ≤ ∑ j, ∑ l, |h.phiT1 j l * h.kEo j| := Finset.sum_nonneg fun j _ => Finset.sum_nonneg fun l _ => abs_nonneg _
  refine ⟨K + ∑ j, ∑ l, |h.phiT1 j l * h.kEo j|, by positivity, ?_⟩
  intro N ss ss' A A' Hp Hp' n k hk hvent hd hd' ε hε hn c t t' H H'
  obtain ⟨F, f1, f2, f3, f4, f5, f6, f7⟩ := step_forced hw hpt hC Hp Hp' H H' hk hvent hd hd' hn
  obtain ⟨a1, a2, a3, a4⟩ := HK F
  rw [f1] at a1 a2 a3 a4
  rw [f2] at a1
  rw [f3] at a2
  rw [f4] at a3
  rw [f5] at a4
  have hle : K * ε ≤ (K + ∑ j, ∑ l, |h.phiT1 j l * h.kEo j|) * ε := mul_le_mul_of_nonneg_right (by linarith) hε
  refine ⟨near_row_two hw Hp Hp' H H' (by positivity) (fun i => (a1 i).trans hle) (fun i => (a2 i).trans hle) (fun j => (a3 j).trans hle),
    fun i => (a1 i).trans hle, fun i => (a2 i).trans hle, fun j => (a4 j).trans hle, fun j l => ?_, fun j l => ?_⟩
  · show |t'.dshA j l - t.dshA j l| ≤ _
    rw [f6, sub_self, abs_zero]
    positivity
  · refine (f7 j l).trans (mul_le_mul_of_nonneg_right ?_ hε)
    have s1 := Finset.single_le_sum (f := fun l => |h.phiT1 j l * h.kEo j|) (fun l _ => abs_nonneg _) (Finset.mem_univ l)
    have s2 := Finset.single_le_sum (f := fun j => ∑ l, |h.phiT1 j l * h.kEo j|) (fun j _ => Finset.sum_nonneg fun l _ => abs_nonneg _)
      (Finset.mem_univ j)
    exact (s1.trans s2).trans (by linarith)

/-- **C135 (partial), any start.** One constant for the house: over any number of steps and from any two states that agree up to `M`, the rows of two
calculations whose weather and gains agree up to `ε` in every step agree up to `C (ε + M)`. The house is tight, free-running and without radiant heating;
its outer parts may store heat, its partitions do not; the rooms exchange at most twice the air that they get from outdoors.
Missing: humidities, leakage, more air between rooms, partitions that store heat, rooms with demand. -/
theorem C135_runs_partial [Nonempty I] {w : I → ℝ} (hw : WellFormed h hR dt) (hP : Passive h hR) (hpt : Partitions h hR)
    (hC : h.cValue = 0) (hw0 : ∀ i, 0 ≤ w i) (hg : ∀ i, 0 < h.gSh i) (hl : LosesHeat h w) (hrh : ∀ i, h.isRadHeating i = false)
    (hrc : ∀ i, h.isRadCooling i = false) :
    ∃ C : ℝ, 0 ≤ C ∧ ∀ {N : ℕ} {ss ss' : PreCalc I J N} {A A' : Fin N → Record I J} (_ : makePreCalc h hR dt A = .ok ss)
      (_ : makePreCalc h hR dt A' = .ok ss')
      (_ : ∀ k i, w i + (∑ l, h.vInt i l + ∑ l, h.vInt l i) / 2 ≤ h.vVentEx i + (A k).vLocal i) (_ : ∀ k i, 0 ≤ (A k).vLocal i)
      (_ : ∀ k, RoomForPeople h dt (A k)) {ε M : ℝ} (_ : 0 ≤ ε) (_ : ∀ k, DataNear ε (A k) (A' k)) {c c' : Cond I J} (_ : PartitionsEmpty h c)
      (_ : PartitionsEmpty h c') (_ : 0 ≤ M) (_ : StateNear M c c') (_ : ∀ i, c'.mode i ≠ .heatingAndCooling) {ns : List ℤ} {ts ts' : List (TickVars I J)}
      (_ : Run ss dt c ns ts) (_ : Run ss' dt c' ns ts') (j : ℕ) (_ : j < ns.length) (h1 : j < ts.length) (h2 : j < ts'.length)
      (_ : ∀ (l : ℕ) (hl : l < ns.length), l ≤ j → ∀ k : Fin N, pyIndex N ns[l] = .ok k → ∀ i, (A k).acDemand i ≤ 0 ∧ (A' k).acDemand i ≤ 0),
      RowNear (C * (ε + M)) (LogRow.ofTick ts[j]) (LogRow.ofTick ts'[j]) := by
  obtain ⟨C, Near, hC0, h0, HS⟩ := exists_bound hw hP hpt hC hw0 hg hl
  obtain ⟨K, hK, HK⟩ := step_data (w := w) hw hP hpt hC hw0 hg hl
  refine ⟨(C + 1) * (K + 1), by positivity, ?_⟩
  intro N ss ss' A A' Hp Hp' hvent hloc hp ε M hε hn c c' hc hc' hM hcc hm ns ts ts' H H'
  have hE : Near ((K + 1) * (ε + M)) c c' := h0 (by positivity) (hcc.mono (by nlinarith [mul_nonneg hK hM, mul_nonneg hK hε]))
  clear hcc
  have hKε : K * ε ≤ (K + 1) * (ε + M) := by nlinarith [mul_nonneg hK hM]
  induction H generalizing c' ts' with
  | nil => intro j hj; simp at hj
  | cons a1 a2 ih =>
    rename_i c n ns t ts
    cases H' with
    | cons b1 b2 =>
      rename_i t' ts'
      intro j hj h1 h2 hd
      obtain ⟨k, hk⟩ := runTick_index a1
      have hd0 := hd 0 (by simp) (by omega) k hk
      obtain ⟨ss0, t0, Hp0, ht0⟩ := C21_step_completes_partial (data := A) (n := n) (c := c') hw hrh hrc hloc hm (by have := pyIndex_spec hk; have := k.2; constructor <;> omega)
      obtain rfl : ss0 = ss := Except.ok.inj (Hp0.symm.trans Hp)
      obtain ⟨r1, r2⟩ := HK Hp Hp' hk (hvent k) (fun i => (hd0 i).1) (fun i => (hd0 i).2) hε (hn k) ht0 b1
      obtain ⟨s1, s2⟩ := HS Hp hk (hvent k) (hp k) (fun i => (hd0 i).1) hc hc' (by positivity) hE a1 ht0 (r2.mono hKε)
      cases j with
      | zero =>
        refine (s1.trans r1).mono ?_
        nlinarith
      | succ j =>
        exact ih (held_empty hpt Hp a1 hc) (held_empty hpt Hp' b1 hc')
          (fun i => legal_iff_ne.1 (step_mode Hp' b1 hk (fun i => legal_iff_ne.2 (hm i)) i).1) b2 s2 j (by simpa using hj) (by simpa using h1)
          (by simpa using h2) fun l hl hlj => hd (l + 1) (by simpa using hl) (by omega)

end

/-! ## The ground -/

/-- Two run-ups of the same walls under different outdoor air. -/
theorem ground_rel {N : ℕ} {g g' : PreCalcGround N} {P : GroundWall → GroundCell → GroundCell → Prop}
    (step : ∀ w k a b, P w a b → P w (groundStep w (g.thetaO k) g.thetaOAve a) (groundStep w (g'.thetaO k) g'.thetaOAve b)) {ns : List ℤ}
    {G G' : GroundWall → GroundCell} (h0 : ∀ w, P w (G w) (G' w)) {gc gc' : List GroundCell}
    (H : ns.foldlM (groundTick g) (g.walls.map G) = .ok gc) (H' : ns.foldlM (groundTick g') (g'.walls.map G') = .ok gc') :
    ∃ K K' : GroundWall → GroundCell, gc = g.walls.map K ∧ gc' = g'.walls.map K' ∧ ∀ w, P w (K w) (K' w) := by
  induction ns generalizing G G' with
  | nil =>
    cases H
    cases H'
    exact ⟨G, G', rfl, rfl, h0⟩
  | cons n ns ih =>
    rw [List.foldlM_cons] at H H'
    cases hk : pyIndex N n with
    | error x => simp [groundTick, hk, bind, Except.bind] at H
    | ok k =>
      have s1 : groundTick g (g.walls.map G) n = .ok (g.walls.map fun w => groundStep w (g.thetaO k) g.thetaOAve (G w)) := by
        simp only [groundTick, hk, bind, Except.bind, zipWith_map_self]
      have s2 : groundTick g' (g'.walls.map G') n = .ok (g'.walls.map fun w => groundStep w (g'.thetaO k) g'.thetaOAve (G' w)) := by
        simp only [groundTick, hk, bind, Except.bind, zipWith_map_self]
      rw [s1] at H
      rw [s2] at H'
      exact ih (fun w => step w k _ _ (h0 w)) H H'

section
variable {I : Type} [Fintype I] [DecidableEq I] {m : ℕ} {h : House I (Fin m)} {hR : Fin m → ℝ}

/-- What a wall of the ground will hold of a difference in the next step. -/
def groundPend (h : House I (Fin m)) (j : Fin m) (a b : GroundCell) (l : Fin 12) : ℝ :=
  h.phiA1 j l * (b.qSrf - a.qSrf) + h.ratio j l * (b.dshA l - a.dshA l)

/-- The work of a source is bounded. -/
theorem source_work {e ε q u : ℝ} (he : 0 < e) (hu2 : |u| ≤ 2 * ε) : q * u - e / 2 * q ^ 2 ≤ 2 / e * ε ^ 2 := by
  have h1 : u ^ 2 ≤ (2 * ε) ^ 2 := sq_le_sq.2 (hu2.trans (le_abs_self _))
  have h2 : q * u - e / 2 * q ^ 2 ≤ u ^ 2 / (2 * e) := by
    rw [le_div_iff₀ (by positivity)]
    nlinarith [sq_nonneg (e * q - u)]
  have h3 : u ^ 2 / (2 * e) ≤ (2 * ε) ^ 2 / (2 * e) := div_le_div_of_nonneg_right h1 (by positivity)
  have h4 : (2 * ε) ^ 2 / (2 * e) = 2 / e * ε ^ 2 := by field_simp
  linarith

/-- Balance of the energy of a wall of the ground. -/
theorem ground_energy {v v' s s' q2 qu e δ κ R Q G E : ℝ} (hδ : 0 < δ) (hκ : 0 ≤ κ) (hR0 : 0 ≤ R) (hR1 : R < 1) (hE : 0 ≤ E)
    (v1 : v' + e * q2 ≤ v + qu) (n2 : δ * s' ≤ δ * ((1 + R) / 2 * s + Q * q2)) (n3 : δ * Q * q2 ≤ e / 2 * q2) (n4 : qu - e / 2 * q2 ≤ 2 / e * E)
    (n5 : v ≤ κ * s) (hG : 2 / e * (κ + δ) ≤ δ * ((1 - R) / 2) * G) (i1 : v + δ * s ≤ G * E) : v' + δ * s' ≤ G * E := by
  have hE' : v' + δ * s' ≤ v + δ * s - δ * ((1 - R) / 2) * s + 2 / e * E := by linarith
  have hs : v + δ * s ≤ (κ + δ) * s := by linarith
  have hG2 := mul_le_mul_of_nonneg_right hG hE
  have hc : 0 < κ + δ := by linarith
  have hr0 : 0 < δ * ((1 - R) / 2) := mul_pos hδ (by linarith)
  have hr1 : δ * ((1 - R) / 2) ≤ κ + δ := by nlinarith
  refine le_of_mul_le_mul_left ?_ hc
  generalize δ * ((1 - R) / 2) = r at *
  generalize δ * s = ds at *
  generalize δ * s' = ds' at *
  have k1 := mul_le_mul_of_nonneg_left hE' hc.le
  have k2 := mul_le_mul_of_nonneg_left hs hr0.le
  have k3 := mul_le_mul_of_nonneg_left i1 (sub_nonneg.2 hr1)
  linarith

/-- The ground run-up does not amplify errors in the outdoor air. -/
theorem ground_near {dt : ℝ} (hw : WellFormed h hR dt) (hP : Passive h hR) (hgr : ∀ j, h.isGround j = true → h.kEi j = none) :
    ∃ K : ℝ, 0 ≤ K ∧ ∃ Inv : ℝ → Fin m → GroundCell → GroundCell → Prop, (∀ ε j, 0 ≤ ε → Inv ε j ⟨fun _ => 0, 0⟩ ⟨fun _ => 0, 0⟩) ∧
      (∀ ε j a b, Inv ε j a b → |b.qSrf - a.qSrf| ≤ K * ε ∧ ∀ l, |b.dshA l - a.dshA l| ≤ K * ε) ∧
      ∀ ε j a b o o' v v', 0 ≤ ε → h.isGround j = true → |o' - o| ≤ ε → |v' - v| ≤ ε → Inv ε j a b →
        Inv ε j (groundStep ⟨h.ratio j, h.phiA0 j, h.phiA1 j, hR j, h.hC j⟩ o v a) (groundStep ⟨h.ratio j, h.phiA0 j, h.phiA1 j, hR j, h.hC j⟩ o' v' b) := by
  obtain ⟨V, e, κ, hV⟩ := exists_stores hP
  obtain ⟨R, hR0, hR1, hRle⟩ := exists_ratio hP
  have he := hV.e_pos
  have hκ := hV.κ_nonneg
  -- decay of what is held
  obtain ⟨η, hη, hηR⟩ : ∃ η : ℝ, 0 < η ∧ (1 + η) * R ≤ (1 + R) / 2 := ⟨(1 - R) / 2, by linarith, by nlinarith⟩
  have hμ : 0 < 1 + 1 / η := by positivity
  obtain ⟨Q, hQ0, hQ⟩ : ∃ Q : ℝ, 0 ≤ Q ∧ ∀ j, ∑ l, (1 + 1 / η) * h.phiA1 j l ^ 2 ≤ Q := by
    refine ⟨∑ j, ∑ l, (1 + 1 / η) * h.phiA1 j l ^ 2, ?_, fun j => ?_⟩
    · exact Finset.sum_nonneg fun j _ => Finset.sum_nonneg fun l _ => by positivity
    · exact Finset.single_le_sum (f := fun j => ∑ l, (1 + 1 / η) * h.phiA1 j l ^ 2) (fun j _ => Finset.sum_nonneg fun l _ => by positivity)
        (Finset.mem_univ j)
  obtain ⟨δ, hδ, hδQ⟩ : ∃ δ : ℝ, 0 < δ ∧ δ * Q ≤ e / 2 := by
    refine ⟨e / (2 * (Q + 1)), by positivity, ?_⟩
    rw [div_mul_eq_mul_div, div_le_iff₀ (by positivity)]
    nlinarith
  obtain ⟨G, hG0, hG⟩ : ∃ G : ℝ, 0 ≤ G ∧ (2 / e) * (κ + δ) ≤ δ * ((1 - R) / 2) * G := by
    have h1 : 0 < δ * ((1 - R) / 2) := mul_pos hδ (by linarith)
    refine ⟨(2 / e) * (κ + δ) / (δ * ((1 - R) / 2)), by positivity, le_of_eq ?_⟩
    rw [mul_div_cancel₀ _ h1.ne']
  -- a bound on the films
  obtain ⟨B, hB0, hB⟩ : ∃ B : ℝ, 0 ≤ B ∧ ∀ j, hR j + h.hC j ≤ B := by
    refine ⟨∑ j, (hR j + h.hC j), Finset.sum_nonneg fun j _ => (add_pos (hw.hR_pos j) (hw.hC_pos j)).le, fun j => ?_⟩
    exact Finset.single_le_sum (f := fun j => hR j + h.hC j) (fun j _ => (add_pos (hw.hR_pos j) (hw.hC_pos j)).le) (Finset.mem_univ j)
  have hS : 0 ≤ √(G / δ) := Real.sqrt_nonneg _
  refine ⟨√(G / δ) + B * (2 + 12 * √(G / δ)), by positivity, fun ε j a b =>
    V j (groundPend h j a b) + δ * ∑ l, groundPend h j a b l ^ 2 ≤ G * ε ^ 2 ∧
      |b.qSrf - a.qSrf| ≤ B * (2 + 12 * √(G / δ)) * ε ∧ (∀ l, |b.dshA l - a.dshA l| ≤ √(G / δ) * ε), ?_, ?_, ?_⟩
  · intro ε j hε
    have e0 : groundPend h j ⟨fun _ => 0, 0⟩ ⟨fun _ => 0, 0⟩ = fun _ => 0 := by funext l; simp [groundPend]
    refine ⟨?_, ?_, fun l => ?_⟩
    · have := hV.le j (fun _ => 0)
      rw [e0]
      simp at this ⊢
      have h2 : 0 ≤ G * ε ^ 2 := by positivity
      linarith
    · simp
      positivity
    · simp
      positivity
  · rintro ε j a b ⟨i1, i2, i3⟩
    have hε : 0 ≤ √(G / δ) * ε := (abs_nonneg _).trans (i3 0)
    have hε' : 0 ≤ B * (2 + 12 * √(G / δ)) * ε := (abs_nonneg _).trans i2
    exact ⟨by rw [add_mul]; linarith, fun l => by rw [add_mul]; linarith [i3 l]⟩
  · rintro ε j a b o o' v v' hε hj ho hv ⟨i1, -, -⟩
    have hK := hgr j hj
    set X := groundPend h j a b with hX
    have hh : 0 < hR j + h.hC j := add_pos (hw.hR_pos j) (hw.hC_pos j)
    have hA := hw.phiA0_nonneg j
    have hden : 0 < 1 + h.phiA0 j * (hR j + h.hC j) := by positivity
    set W : GroundWall := ⟨h.ratio j, h.phiA0 j, h.phiA1 j, hR j, h.hC j⟩ with hW
    set u := o' - o - (v' - v) with hu
    have hu2 : |u| ≤ 2 * ε := by
      rw [hu]
      rw [abs_le] at *
      constructor <;> linarith [ho.1, ho.2, hv.1, hv.2]
    have dX : ∀ l, (groundStep W o' v' b).dshA l - (groundStep W o v a).dshA l = X l := fun l => by
      simp only [groundStep, groundDshA, hX, hW, groundPend]
      ring
    have sX : ∑ l, groundDshA W b l - ∑ l, groundDshA W a l = ∑ l, X l := by
      rw [← Finset.sum_sub_distrib]
      exact Finset.sum_congr rfl fun l _ => dX l
    -- the flow
    have hq : (groundStep W o' v' b).qSrf - (groundStep W o v a).qSrf = (hR j + h.hC j) * (u - ∑ l, X l) / (1 + h.phiA0 j * (hR j + h.hC j)) := by
      simp only [groundStep, groundThetaS, hW]
      rw [← hW, eq_div_iff hden.ne', ← sX, hu]
      field_simp
      ring
    set q := (groundStep W o' v' b).qSrf - (groundStep W o v a).qSrf with hqd
    have hqu : h.phiA0 j * q + ∑ l, X l + 1 / (h.hC j + hR j) * q = u := by
      rw [eq_div_iff hden.ne'] at hq
      have h2 : h.hC j + hR j ≠ 0 := by linarith
      field_simp
      linear_combination hq
    have hsum : 0 ≤ ∑ l, X l ^ 2 := Finset.sum_nonneg fun l _ => sq_nonneg _
    have hXsq : ∑ l, X l ^ 2 ≤ G / δ * ε ^ 2 := by
      have := hV.nonneg j X
      rw [div_mul_eq_mul_div, le_div_iff₀ hδ]
      linarith
    have hXl : ∀ l, |X l| ≤ √(G / δ) * ε := fun l => by
      refine abs_le_of_sq_le_sq ?_ (by positivity)
      rw [mul_pow, Real.sq_sqrt (by positivity)]
      exact (Finset.single_le_sum (f := fun l => X l ^ 2) (fun l _ => sq_nonneg _) (Finset.mem_univ l)).trans hXsq
    refine ⟨?_, ?_, fun l => ?_⟩
    · have eN : groundPend h j (groundStep W o v a) (groundStep W o' v' b) = fun l => h.phiA1 j l * q + h.ratio j l * X l := by
        funext l
        unfold groundPend
        rw [dX]
      rw [eN]
      have v1 := hV.step j X q hK
      rw [hqu] at v1
      have n1 : ∑ l, (h.phiA1 j l * q + h.ratio j l * X l) ^ 2 ≤ (1 + R) / 2 * ∑ l, X l ^ 2 + Q * q ^ 2 := by
        have t1 : ∀ l, (h.phiA1 j l * q + h.ratio j l * X l) ^ 2 ≤ (1 + R) / 2 * X l ^ 2 + (1 + 1 / η) * h.phiA1 j l ^ 2 * q ^ 2 := fun l => by
          have a1 := sq_add_le hη (h.ratio j l * X l) (h.phiA1 j l * q)
          have r0 := (hP.ratio j l).1
          have r1 := hRle j l
          have a2 : (1 + η) * (h.ratio j l * X l) ^ 2 ≤ (1 + R) / 2 * X l ^ 2 := by
            have : h.ratio j l ^ 2 ≤ R := by nlinarith [(hP.ratio j l).2]
            have h3 : (1 + η) * h.ratio j l ^ 2 ≤ (1 + R) / 2 := (mul_le_mul_of_nonneg_left this (by linarith)).trans hηR
            rw [mul_pow, ← mul_assoc]
            exact mul_le_mul_of_nonneg_right h3 (sq_nonneg _)
          rw [add_comm (h.phiA1 j l * q)]
          refine a1.trans (add_le_add a2 (le_of_eq ?_))
          ring
        refine (Finset.sum_le_sum fun l _ => t1 l).trans ?_
        rw [Finset.sum_add_distrib, ← Finset.mul_sum, ← Finset.sum_mul]
        exact add_le_add le_rfl (mul_le_mul_of_nonneg_right (hQ j) (sq_nonneg _))
      have n2 := mul_le_mul_of_nonneg_left n1 hδ.le
      have n3 := mul_le_mul_of_nonneg_right hδQ (sq_nonneg q)
      exact ground_energy hδ hκ hR0 hR1 (sq_nonneg ε) v1 n2 n3 (source_work he hu2) (hV.le j X) hG i1
    · rw [hq, abs_div, abs_of_pos hden, div_le_iff₀ hden, abs_mul, abs_of_pos hh]
      have h1 : |u - ∑ l, X l| ≤ (2 + 12 * √(G / δ)) * ε := by
        have a1 : |∑ l, X l| ≤ 12 * (√(G / δ) * ε) := by
          refine (Finset.abs_sum_le_sum_abs _ _).trans ((Finset.sum_le_sum fun l _ => hXl l).trans (le_of_eq ?_))
          simp
        have := abs_sub u (∑ l, X l)
        linarith
      have h2 : (hR j + h.hC j) * |u - ∑ l, X l| ≤ B * ((2 + 12 * √(G / δ)) * ε) :=
        mul_le_mul (hB j) h1 (abs_nonneg _) hB0
      have h3 : 0 ≤ B * (2 + 12 * √(G / δ)) * ε := by positivity
      have h4 : 1 ≤ 1 + h.phiA0 j * (hR j + h.hC j) := le_add_of_nonneg_right (mul_nonneg hA hh.le)
      exact h2.trans ((le_of_eq (mul_assoc _ _ _).symm).trans (le_mul_of_one_le_right h3 h4))
    · rw [dX]
      exact hXl l

theorem abs_ave {N : ℕ} {x y : Fin N → ℝ} {ε : ℝ} (hε : 0 ≤ ε) (H : ∀ k, |y k - x k| ≤ ε) : |(∑ k, y k) / N - (∑ k, x k) / N| ≤ ε := by
  rcases Nat.eq_zero_or_pos N with rfl | hN
  · simpa using hε
  have hN' : (0 : ℝ) < N := by exact_mod_cast hN
  rw [← sub_div, abs_div, abs_of_pos hN', div_le_iff₀ hN', ← Finset.sum_sub_distrib]
  refine (Finset.abs_sum_le_sum_abs _ _).trans ((Finset.sum_le_sum fun k _ => H k).trans (le_of_eq ?_))
  simp [mul_comm]

/-- The starts of two calculations under data that agree up to `ε`. -/
theorem start_near {hourly : ℤ} (hw : WellFormed h hR (3600 / (hourly : ℝ))) (hP : Passive h hR)
    (hgr : ∀ j, h.isGround j = true → h.kEi j = none) :
    ∃ K : ℝ, 0 ≤ K ∧ ∀ {N : ℕ} {A A' : Fin N → Record I (Fin m)} {dMain dRunUp dBuild : ℤ} {r r' : CalcResult I m N} {ε : ℝ} {c c' : Cond I (Fin m)}
      (_ : 0 ≤ ε) (_ : ∀ k, DataNear ε (A k) (A' k)) (_ : coreCalc h hR A hourly dMain dRunUp dBuild = .ok r)
      (_ : coreCalc h hR A' hourly dMain dRunUp dBuild = .ok r')
      (_ : updateByGround r.ss.isGround (initialConditions I (Fin m)) r.ground = .ok c)
      (_ : updateByGround r'.ss.isGround (initialConditions I (Fin m)) r'.ground = .ok c'), StateNear (K * ε) c c' := by
  obtain ⟨K, hK, Inv, i0, i1, i2⟩ := ground_near hw hP hgr
  refine ⟨K, hK, ?_⟩
  intro N A A' dMain dRunUp dBuild r r' ε c c' hε hn H H' hs hs'
  obtain ⟨gs, c0, up, mn, T⟩ := coreCalc_ok H
  obtain ⟨gs', c0', up', mn', T'⟩ := coreCalc_ok H'
  obtain ⟨ivs, hi, hss⟩ := makePreCalc_ok T.pre
  obtain ⟨ivs', hi', hss'⟩ := makePreCalc_ok T'.pre
  have f1 := groundRun_fold T.ground
  have f2 := groundRun_fold T'.ground
  rw [← T.ground_last, initialGround_walls] at f1
  rw [← T'.ground_last, initialGround_walls] at f2
  have w1 : ∀ j, groundWallOf r.ss j = ⟨h.ratio j, h.phiA0 j, h.phiA1 j, hR j, h.hC j⟩ := fun j => by rw [hss]; rfl
  have w2 : ∀ j, groundWallOf r'.ss j = ⟨h.ratio j, h.phiA0 j, h.phiA1 j, hR j, h.hC j⟩ := fun j => by rw [hss']; rfl
  have g1 : r.ss.isGround = h.isGround := by rw [hss]; rfl
  have g2 : r'.ss.isGround = h.isGround := by rw [hss']; rfl
  obtain ⟨G, G', e1, e2, HG⟩ := ground_rel (g := makePreCalcGround r.ss) (g' := makePreCalcGround r'.ss)
    (P := fun w a b => ∀ j, h.isGround j = true → w = ⟨h.ratio j, h.phiA0 j, h.phiA1 j, hR j, h.hC j⟩ → Inv ε j a b)
    (by
      intro w k a b hab j hj hwj
      rw [hwj]
      refine i2 ε j a b _ _ _ _ hε hj ?_ ?_ (hab j hj hwj)
      · rw [hss, hss']
        exact (hn k).outdoor
      · rw [hss, hss']
        exact abs_ave hε fun k => (hn k).outdoor)
    (fun w j _ _ => i0 ε j hε) f1 f2
  rw [e1, updateByGround_walls] at hs
  rw [e2, updateByGround_walls] at hs'
  cases hs
  cases hs'
  have hKε : 0 ≤ K * ε := by positivity
  refine ⟨fun i => by simpa using hKε, fun i => by simpa using hKε, fun j => ?_, fun j l => ?_, fun j l => by simpa using hKε⟩
  · simp only [g1, g2, w1, w2]
    by_cases hj : h.isGround j = true
    · simp only [hj, if_true]
      exact (i1 ε j _ _ (HG _ j hj rfl)).1
    · simp only [hj]
      simpa using hKε
  · simp only [g1, g2, w1, w2]
    by_cases hj : h.isGround j = true
    · simp only [hj, if_true]
      exact (i1 ε j _ _ (HG _ j hj rfl)).2 l
    · simp only [hj]
      simpa using hKε

/-- **C135 (partial).** One constant for the house: whatever the data and the number of days, if the weather and the gains of two calculations agree up
to `ε` in every step then the temperatures that they write agree up to `C ε`, as long as no room has had demand. This includes the run-up of the ground. -/
theorem C135_rows_partial [Nonempty I] {hourly : ℤ} {w : I → ℝ} (hw : WellFormed h hR (3600 / (hourly : ℝ))) (hP : Passive h hR) (hpt : Partitions h hR)
    (hgr : ∀ j, h.isGround j = true → h.kEi j = none) (hC : h.cValue = 0) (hw0 : ∀ i, 0 ≤ w i)
    (hg : ∀ i, 0 < h.gSh i) (hl : LosesHeat h w) (hrh : ∀ i, h.isRadHeating i = false) (hrc : ∀ i, h.isRadCooling i = false) :
    ∃ C : ℝ, 0 ≤ C ∧ ∀ {N : ℕ} {A A' : Fin N → Record I (Fin m)} {dMain dRunUp dBuild : ℤ} {r r' : CalcResult I m N} {ε : ℝ}
      (_ : ∀ k i, w i + (∑ l, h.vInt i l + ∑ l, h.vInt l i) / 2 ≤ h.vVentEx i + (A k).vLocal i) (_ : ∀ k i, 0 ≤ (A k).vLocal i)
      (_ : ∀ k, RoomForPeople h (3600 / (hourly : ℝ)) (A k)) (_ : 0 ≤ dBuild * hourly * 24) (_ : 0 ≤ ε) (_ : ∀ k, DataNear ε (A k) (A' k))
      (_ : coreCalc h hR A hourly dMain dRunUp dBuild = .ok r) (_ : coreCalc h hR A' hourly dMain dRunUp dBuild = .ok r')
      (k : ℕ) (_ : NoDemand (fun n => (A n).acDemand) (-(dBuild * hourly * 24)) k) (_ : NoDemand (fun n => (A' n).acDemand) (-(dBuild * hourly * 24)) k)
      (hk : k < r.nMain.toNat) (hk' : k < r'.nMain.toNat), RowNear (C * ε) (r.log ⟨k, hk⟩) (r'.log ⟨k, hk'⟩) := by
  obtain ⟨C, hC0, HC⟩ := C135_runs_partial (w := w) hw hP hpt hC hw0 hg hl hrh hrc
  obtain ⟨K, hK, HK⟩ := start_near hw hP hgr
  refine ⟨C * (1 + K), by positivity, ?_⟩
  intro N A A' dMain dRunUp dBuild r r' ε hvent hloc hp h0 hε hn H H' k hd hd' hk hk'
  obtain ⟨gs, c, up, mn, T⟩ := coreCalc_ok H
  obtain ⟨gs', c', up', mn', T'⟩ := coreCalc_ok H'
  obtain ⟨_, ts, Hp, hc, R, h1, h2, e, D⟩ := calc_row hgr h0 H T.start k hd hk
  obtain ⟨_, ts', Hp', hc', R', h1', h2', e', D'⟩ := calc_row hgr h0 H' T'.start k hd' hk'
  have hm : ∀ i, c'.mode i ≠ .heatingAndCooling := by
    intro i
    have hs := T'.start
    unfold updateByGround at hs
    simp only [bind, Except.bind] at hs
    split at hs
    · cases hs
    split at hs
    · cases hs
    cases hs
    exact legal_iff_ne.1 (initial_legal (m := m) i)
  rw [e, e']
  have := HC Hp Hp' hvent hloc hp hε hn hc hc' (by positivity) (HK hε hn H H' T.start T'.start) hm R R' _ h2 h1 h1'
    (fun l hl hle k' hk' i => ⟨D l hl hle k' hk' i, D' l hl hle k' hk' i⟩)
  have e1 : C * (ε + K * ε) = C * (1 + K) * ε := by ring
  rwa [e1] at this

end

end HLC
