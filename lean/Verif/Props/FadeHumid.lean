import Verif.Props.Humid
import Verif.Props.Daily
import Verif.Spec.FadeHumid

/-!
# C113: the moisture of the past fades away
-/

namespace HLC

set_option linter.unusedSectionVars false

open Spec

section
variable {I J : Type} [Fintype I] [DecidableEq I] [Fintype J] [DecidableEq J] {N : ℕ} {h : House I J} {hR : J → ℝ}
  {dt : ℝ} {A : Fin N → Record I J} {ss : PreCalc I J N}

/-- kg/(kg K): what a difference of temperatures does to the humidity by way of the people, at most. -/
noncomputable def peopleMoist : ℝ := airCap / (1.2 * lWtr)

theorem peopleMoist_pos : 0 < peopleMoist := by unfold peopleMoist airCap lWtr; norm_num

theorem qHumPsn_near (x y : ℝ) : |qHumPsn y - qHumPsn x| ≤ 4 * |y - x| := by
  have mono : ∀ {x y : ℝ}, x ≤ y → qHumPsn y ≤ qHumPsn x := fun {x y} h => by
    unfold qHumPsn
    exact min_le_min_right _ (by linarith)
  rcases le_total x y with h1 | h1
  · have := qHumPsn_slope h1
    have := mono h1
    rw [abs_of_nonneg (sub_nonneg.2 h1), abs_le]
    constructor <;> linarith
  · have := qHumPsn_slope h1
    have := mono h1
    rw [abs_of_nonpos (sub_nonpos.2 h1), abs_le]
    constructor <;> linarith

/-- The moisture balance of a free-running, tight room, solved for what the step adds. -/
theorem free_moist (hw : WellFormed h hR dt) (hC : h.cValue = 0) (Hp : makePreCalc h hR dt A = .ok ss) {n : ℤ} {k : Fin N} {c : Cond I J}
    {t : TickVars I J} (H : runTick n dt ss c = .ok t) (hk : pyIndex N n = .ok k) (hd : ∀ i, (A k).acDemand i ≤ 0) (i : I) :
    (moistHold h dt i + 1.2 * (h.vVentEx i + (A k).vLocal i)) * t.xR i
      = h.vRoom i * 1.2 / dt * c.xR i + h.gLh i * h.cLh i / (h.cLh i + dt * h.gLh i) * c.xFrt i
        + 1.2 * (h.vVentEx i + (A k).vLocal i) * (A k).xO + 1.2 * ∑ l, h.vInt i l * t.xR l + (A k).xGen i
        + (119 - qHumPsn (c.thetaR i)) / lWtr * (A k).nHum i := by
  have hcap : ∀ i, 0 ≤ h.capH i ∧ 0 ≤ h.capC i := fun i => ⟨hw.capH_nonneg i, hw.capC_nonneg i⟩
  have hne := lh_ne hw i
  have e := C18_balance_as_coded Hp H hk i hne
  have hfr := C15_furniture_moisture Hp H i hne
  rw [(step_no_demand Hp H hk hcap (hd i)).2.2, zero_div, add_zero] at e
  have hx : t.vOut i = h.vVentEx i + (A k).vLocal i ∧ t.xHum i = (119 - qHumPsn (c.thetaR i)) / lWtr * (A k).nHum i := by
    obtain ⟨ivs, k', -, hs, hk', E⟩ := step_eqs Hp H
    have : k' = k := Except.ok.inj (hk'.symm.trans hk)
    subst this
    subst hs
    exact ⟨(no_demand_tight hC hcap hd E).2.1 i, by rw [E.xHum]; rfl⟩
  rw [hx.1, hx.2] at e
  have e2 : h.gLh i * (t.xFrt i - t.xR i) = h.gLh i * h.cLh i / (h.cLh i + dt * h.gLh i) * (c.xFrt i - t.xR i) := by
    rw [div_mul_eq_mul_div, eq_div_iff hne]
    linear_combination h.gLh i * hfr
  rw [e2] at e
  have e3 : 1.2 * h.vRoom i * (t.xR i - c.xR i) / dt = h.vRoom i * 1.2 / dt * (t.xR i - c.xR i) := by ring
  rw [e3] at e
  unfold moistHold
  linear_combination e

/-- One step: what is left of a difference. -/
theorem step_moist_fade {u : I → ℝ} {ρ σ : ℝ} (hw : WellFormed h hR dt) (hC : h.cValue = 0) (hF : MoistFading h dt u ρ σ)
    (Hp : makePreCalc h hR dt A = .ok ss) {n : ℤ} {k : Fin N} {c c' : Cond I J} {t t' : TickVars I J} (H : runTick n dt ss c = .ok t)
    (H' : runTick n dt ss c' = .ok t') (hk : pyIndex N n = .ok k) (hd : ∀ i, (A k).acDemand i ≤ 0)
    (hu : ∀ i, 0 ≤ u i ∧ u i + ∑ l, h.vInt i l ≤ h.vVentEx i + (A k).vLocal i) (hp : RoomForPeople h dt (A k)) {X D : ℝ} (hX : 0 ≤ X) (hD : 0 ≤ D)
    (hx : HumidNear X c c') (hθ : ∀ i, |c'.thetaR i - c.thetaR i| ≤ D) : HumidNear (σ * X + peopleMoist * D) t.next t'.next := by
  have hdt := hw.dt_pos
  have hκ := peopleMoist_pos
  have hroom : ∀ i, |t'.xR i - t.xR i| ≤ ρ * X + peopleMoist * D := by
    rcases isEmpty_or_nonempty I with hI | hI
    · exact fun i => (hI.false i).elim
    obtain ⟨i, hi⟩ := Finite.exists_max fun i => |t'.xR i - t.xR i|
    suffices hs : |t'.xR i - t.xR i| ≤ ρ * X + peopleMoist * D from fun l => (hi l).trans hs
    have e := free_moist hw hC Hp H hk hd i
    have e' := free_moist hw hC Hp H' hk hd i
    have hV := hw.vRoom_pos i
    have ha : 0 < h.vRoom i * 1.2 / dt := by positivity
    have hne : 0 < h.cLh i + dt * h.gLh i := lt_of_le_of_ne (add_nonneg (hw.cLh_nonneg i) (mul_nonneg hdt.le (hw.gLh_nonneg i))) (lh_ne hw i).symm
    have hb : 0 ≤ h.gLh i * h.cLh i / (h.cLh i + dt * h.gLh i) := div_nonneg (mul_nonneg (hw.gLh_nonneg i) (hw.cLh_nonneg i)) hne.le
    have hhold : moistHold h dt i = h.vRoom i * 1.2 / dt + h.gLh i * h.cLh i / (h.cLh i + dt * h.gLh i) := rfl
    have hSum : 0 ≤ ∑ l, h.vInt i l := Finset.sum_nonneg fun l _ => hw.vInt_nonneg i l
    have hr := hF.rooms i
    set a := h.vRoom i * 1.2 / dt with hadef
    set b := h.gLh i * h.cLh i / (h.cLh i + dt * h.gLh i)
    set v := h.vVentEx i + (A k).vLocal i
    set S := ∑ l, h.vInt i l
    obtain ⟨hu0, hu1⟩ := hu i
    have ediff : (moistHold h dt i + 1.2 * v) * (t'.xR i - t.xR i) = a * (c'.xR i - c.xR i) + b * (c'.xFrt i - c.xFrt i)
        + 1.2 * ∑ l, h.vInt i l * (t'.xR l - t.xR l) + (qHumPsn (c.thetaR i) - qHumPsn (c'.thetaR i)) / lWtr * (A k).nHum i := by
      have es : ∑ l, h.vInt i l * (t'.xR l - t.xR l) = ∑ l, h.vInt i l * t'.xR l - ∑ l, h.vInt i l * t.xR l := by
        rw [← Finset.sum_sub_distrib]
        exact Finset.sum_congr rfl fun l _ => by ring
      rw [es]
      linear_combination e' - e
    have m1 : |∑ l, h.vInt i l * (t'.xR l - t.xR l)| ≤ S * |t'.xR i - t.xR i| := by
      refine (Finset.abs_sum_le_sum_abs _ _).trans ?_
      rw [Finset.sum_mul]
      refine Finset.sum_le_sum fun l _ => ?_
      rw [abs_mul, abs_of_nonneg (hw.vInt_nonneg i l)]
      exact mul_le_mul_of_nonneg_left (hi l) (hw.vInt_nonneg i l)
    have m2 : |(qHumPsn (c.thetaR i) - qHumPsn (c'.thetaR i)) / lWtr * (A k).nHum i| ≤ a * (peopleMoist * D) := by
      have q1 : |qHumPsn (c.thetaR i) - qHumPsn (c'.thetaR i)| ≤ 4 * D := by
        rw [abs_sub_comm]
        exact (qHumPsn_near _ _).trans (by linarith [hθ i])
      obtain ⟨p0, p1⟩ := hp i
      rw [abs_mul, abs_div, abs_of_pos lWtr_pos, abs_of_nonneg p0]
      have q2 : a * (peopleMoist * D) = h.vRoom i * airCap / dt * D / lWtr := by
        rw [hadef]
        unfold peopleMoist
        have := lWtr_pos.ne'
        have := hdt.ne'
        field_simp
      rw [q2, div_mul_eq_mul_div]
      refine div_le_div_of_nonneg_right ?_ lWtr_pos.le
      calc |qHumPsn (c.thetaR i) - qHumPsn (c'.thetaR i)| * (A k).nHum i ≤ 4 * D * (A k).nHum i := mul_le_mul_of_nonneg_right q1 p0
        _ = 4 * (A k).nHum i * D := by ring
        _ ≤ h.vRoom i * airCap / dt * D := mul_le_mul_of_nonneg_right (by rw [le_div_iff₀ hdt]; exact p1) hD
    have hpos : 0 < moistHold h dt i + 1.2 * v := by rw [hhold]; linarith
    have main : (moistHold h dt i + 1.2 * v) * |t'.xR i - t.xR i| ≤ (a + b) * X + 1.2 * (S * |t'.xR i - t.xR i|) + a * (peopleMoist * D) := by
      rw [← abs_of_pos hpos, ← abs_mul, ediff]
      refine (abs_add_le _ _).trans (add_le_add ((abs_add_le _ _).trans (add_le_add ((abs_add_le _ _).trans ?_) ?_)) m2)
      · rw [abs_mul, abs_mul, abs_of_pos ha, abs_of_nonneg hb, add_mul]
        exact add_le_add (mul_le_mul_of_nonneg_left (hx.rooms i) ha.le) (mul_le_mul_of_nonneg_left (hx.furniture i) hb)
      · rw [abs_mul, abs_of_pos (by norm_num : (0 : ℝ) < 1.2)]
        exact mul_le_mul_of_nonneg_left m1 (by norm_num)
    set m := |t'.xR i - t.xR i|
    have hm : 0 ≤ m := abs_nonneg _
    have f1 : (a + b + 1.2 * u i) * m ≤ (a + b) * X + a * (peopleMoist * D) := by
      have := mul_le_mul_of_nonneg_right hu1 hm
      rw [hhold] at main
      linarith
    have f2 : (a + b) * X ≤ ρ * (a + b + 1.2 * u i) * X := mul_le_mul_of_nonneg_right (by rw [hhold] at hr; exact hr) hX
    have f3 : a * (peopleMoist * D) ≤ (a + b + 1.2 * u i) * (peopleMoist * D) :=
      mul_le_mul_of_nonneg_right (by linarith) (mul_nonneg hκ.le hD)
    have f4 : 0 < a + b + 1.2 * u i := by linarith
    refine le_of_mul_le_mul_left ?_ f4
    linarith
  have hor := mul_le_mul_of_nonneg_right hF.order hX
  refine ⟨fun i => (hroom i).trans (by linarith), fun i => ?_⟩
  show |t'.xFrt i - t.xFrt i| ≤ _
  have hne : 0 < h.cLh i + dt * h.gLh i := lt_of_le_of_ne (add_nonneg (hw.cLh_nonneg i) (mul_nonneg hdt.le (hw.gLh_nonneg i))) (lh_ne hw i).symm
  have e := C15_furniture_moisture Hp H i hne.ne'
  have e' := C15_furniture_moisture Hp H' i hne.ne'
  have ediff : (h.cLh i + dt * h.gLh i) * (t'.xFrt i - t.xFrt i) = h.cLh i * (c'.xFrt i - c.xFrt i) + dt * h.gLh i * (t'.xR i - t.xR i) := by
    linear_combination e' - e
  have hg : 0 ≤ dt * h.gLh i := mul_nonneg hdt.le (hw.gLh_nonneg i)
  refine le_of_mul_le_mul_left ?_ hne
  rw [← abs_of_pos hne, ← abs_mul, ediff, abs_of_pos hne]
  refine (abs_add_le _ _).trans ?_
  rw [abs_mul, abs_mul, abs_of_nonneg (hw.cLh_nonneg i), abs_of_nonneg hg]
  have f1 := mul_le_mul_of_nonneg_left (hx.furniture i) (hw.cLh_nonneg i)
  have f2 := mul_le_mul_of_nonneg_left (hroom i) hg
  have f3 := mul_le_mul_of_nonneg_right (hF.furniture i) hX
  have f4 : dt * h.gLh i * (peopleMoist * D) ≤ (h.cLh i + dt * h.gLh i) * (peopleMoist * D) :=
    mul_le_mul_of_nonneg_right (by linarith [hw.cLh_nonneg i]) (mul_nonneg hκ.le hD)
  linarith

/-- Finitely many numbers below one have a bound below one. -/
theorem below_one {f : I → ℝ} (h0 : ∀ i, 0 ≤ f i) (h1 : ∀ i, f i < 1) : ∃ ρ, 0 ≤ ρ ∧ ρ < 1 ∧ ∀ i, f i ≤ ρ := by
  rcases isEmpty_or_nonempty I with hI | hI
  · exact ⟨0, le_rfl, one_pos, fun i => (hI.false i).elim⟩
  obtain ⟨i, hi⟩ := Finite.exists_max f
  exact ⟨f i, h0 i, h1 i, hi⟩

/-- Factors below one exist where every room takes in more outdoor air than air of other rooms and its furniture exchanges moisture with its air. -/
theorem moistFading_exists {u : I → ℝ} (hw : WellFormed h hR dt) (hu : ∀ i, 0 < u i) (hg : ∀ i, 0 < h.gLh i) :
    ∃ ρ σ, σ < 1 ∧ MoistFading h dt u ρ σ := by
  have hdt := hw.dt_pos
  have hne : ∀ i, 0 < h.cLh i + dt * h.gLh i := fun i => add_pos_of_nonneg_of_pos (hw.cLh_nonneg i) (mul_pos hdt (hg i))
  have hh : ∀ i, 0 < moistHold h dt i := fun i => by
    have hV := hw.vRoom_pos i
    have ha : 0 < h.vRoom i * 1.2 / dt := by positivity
    have hb : 0 ≤ h.gLh i * h.cLh i / (h.cLh i + dt * h.gLh i) := div_nonneg (mul_nonneg (hg i).le (hw.cLh_nonneg i)) (hne i).le
    unfold moistHold
    linarith
  have hp : ∀ i, 0 < moistHold h dt i + 1.2 * u i := fun i => by linarith [hh i, hu i]
  obtain ⟨ρ, hρ0, hρ1, hρ⟩ := below_one (f := fun i => moistHold h dt i / (moistHold h dt i + 1.2 * u i)) (fun i => (div_pos (hh i) (hp i)).le)
    (fun i => by rw [div_lt_one (hp i)]; linarith [hu i])
  obtain ⟨σ, hσ0, hσ1, hσ⟩ := below_one (f := fun i => (h.cLh i + dt * h.gLh i * ρ) / (h.cLh i + dt * h.gLh i))
    (fun i => div_nonneg (add_nonneg (hw.cLh_nonneg i) (mul_nonneg (mul_pos hdt (hg i)).le hρ0)) (hne i).le)
    (fun i => by rw [div_lt_one (hne i)]; have := mul_lt_mul_of_pos_left hρ1 (mul_pos hdt (hg i)); linarith)
  refine ⟨ρ, max ρ σ, max_lt hρ1 hσ1, hρ0, fun i => ?_, le_max_left _ _, fun i => ?_⟩
  · exact (div_le_iff₀ (hp i)).1 (hρ i)
  · refine ((div_le_iff₀ (hne i)).1 (hσ i)).trans ?_
    exact mul_le_mul_of_nonneg_right (le_max_right _ _) (hne i).le

/-- Two histories whose temperatures approach each other at the rate `τ`. -/
theorem run_moist_fade {u : I → ℝ} {ρ σ τ : ℝ} (hw : WellFormed h hR dt) (hC : h.cValue = 0) (hF : MoistFading h dt u ρ σ) (hσ : σ ≤ τ)
    (Hp : makePreCalc h hR dt A = .ok ss) (hu : ∀ k i, 0 ≤ u i ∧ u i + ∑ l, h.vInt i l ≤ h.vVentEx i + (A k).vLocal i)
    (hp : ∀ k, RoomForPeople h dt (A k)) {ns : List ℤ} : ∀ {c c' : Cond I J} {ts ts' : List (TickVars I J)} {P D : ℝ} (_ : 0 ≤ P) (_ : 0 ≤ D)
    (_ : peopleMoist * D ≤ P * (τ - σ)) (_ : HumidNear P c c') (_ : ∀ i, |c'.thetaR i - c.thetaR i| ≤ D) (_ : Run ss dt c ns ts)
    (_ : Run ss dt c' ns ts') (j : ℕ) (_ : j < ns.length) (h1 : j < ts.length) (h2 : j < ts'.length)
    (_ : ∀ (l : ℕ) (hl : l < ns.length), l ≤ j → ∀ k : Fin N, pyIndex N ns[l] = .ok k → ∀ i, (A k).acDemand i ≤ 0)
    (_ : ∀ (l : ℕ) (h3 : l < ts.length) (h4 : l < ts'.length), l < j → ∀ i, |ts'[l].thetaR i - ts[l].thetaR i| ≤ D * τ ^ (l + 1)),
    HumidNear (P * τ ^ (j + 1)) ts[j].next ts'[j].next := by
  have hτ0 : 0 ≤ τ := hF.nonneg.trans (hF.order.trans hσ)
  induction ns with
  | nil => intro c c' ts ts' P D _ _ _ _ _ _ _ j hj; exact absurd hj (by simp)
  | cons n ns ih =>
    intro c c' ts ts' P D hP hD hκ hn hθ H H' j hj h1 h2 hd hT
    cases H with
    | cons Ht Hr =>
      cases H' with
      | cons Ht' Hr' =>
        obtain ⟨k, hk⟩ := runTick_index Ht
        have s := step_moist_fade hw hC hF Hp Ht Ht' hk (hd 0 (by simp) (Nat.zero_le _) k hk) (hu k) (hp k) hP hD hn hθ
        have hle : σ * P + peopleMoist * D ≤ P * τ := by linarith
        have s' := (⟨fun i => (s.rooms i).trans hle, fun i => (s.furniture i).trans hle⟩ : HumidNear (P * τ) _ _)
        cases j with
        | zero => simpa using s'
        | succ j =>
          have := ih (P := P * τ) (D := D * τ) (mul_nonneg hP hτ0) (mul_nonneg hD hτ0)
            (by have := mul_le_mul_of_nonneg_right hκ hτ0; linarith) s'
            (by intro i; have := hT 0 (by simp) (by simp) (by omega) i; rw [zero_add, pow_one] at this; exact this) Hr Hr' j (by simpa using hj) (by simpa using h1) (by simpa using h2)
            (by intro l hl hle; exact hd (l + 1) (by simpa using hl) (by omega))
            (by
              intro l h3 h4 hlj i
              have := hT (l + 1) (by simpa using h3) (by simpa using h4) (by omega) i
              have e : D * τ * τ ^ (l + 1) = D * τ ^ (l + 1 + 1) := by ring
              rw [e]
              exact this)
          have e : P * τ * τ ^ (j + 1) = P * τ ^ (j + 1 + 1) := by ring
          rw [e] at this
          exact this

theorem Spec.RowHumidNear.mono {D D' : ℝ} {a b : LogRow I J} (hD : D ≤ D') (H : RowHumidNear D a b) : RowHumidNear D' a b :=
  ⟨fun i => (H.rooms i).trans hD, fun i => (H.furniture i).trans hD⟩

/-- **C113 (partial), any start.** One constant and one rate for the house: under any data (the same for both), the humidities of any two histories
from states whose temperatures agree up to `M` and whose humidities agree up to `X` agree up to `(X + C M) τ ^ j` after `j + 1` steps. The house is
as in `C110_storing_runs_partial`; in addition every room takes in more outdoor air than air of other rooms, and its furniture exchanges moisture with
its air. -/
theorem C113_runs_partial {w u : I → ℝ} (hw : WellFormed h hR dt) (hP : Passive h hR) (hpt : Partitions h hR) (hC : h.cValue = 0)
    (hw0 : ∀ i, 0 ≤ w i) (hg : ∀ i, 0 < h.gSh i) (hl : LosesHeat h w) (hu : ∀ i, 0 < u i) (hgl : ∀ i, 0 < h.gLh i) :
    ∃ C τ : ℝ, 0 ≤ C ∧ 0 ≤ τ ∧ τ < 1 ∧ ∀ {N : ℕ} {ss : PreCalc I J N} {A : Fin N → Record I J} (_ : makePreCalc h hR dt A = .ok ss)
      (_ : ∀ k i, w i + (∑ l, h.vInt i l + ∑ l, h.vInt l i) / 2 ≤ h.vVentEx i + (A k).vLocal i)
      (_ : ∀ k i, u i + ∑ l, h.vInt i l ≤ h.vVentEx i + (A k).vLocal i) (_ : ∀ k, RoomForPeople h dt (A k)) {c c' : Cond I J}
      (_ : PartitionsEmpty h c) (_ : PartitionsEmpty h c') {M X : ℝ} (_ : 0 ≤ M) (_ : 0 ≤ X) (_ : StateNear M c c') (_ : HumidNear X c c') {ns : List ℤ}
      {ts ts' : List (TickVars I J)} (_ : Run ss dt c ns ts) (_ : Run ss dt c' ns ts') (j : ℕ) (_ : j < ns.length) (h1 : j < ts.length)
      (h2 : j < ts'.length) (_ : ∀ (l : ℕ) (hl : l < ns.length), l ≤ j → ∀ k : Fin N, pyIndex N ns[l] = .ok k → ∀ i, (A k).acDemand i ≤ 0),
      RowHumidNear ((X + C * M) * τ ^ j) (LogRow.ofTick ts[j]) (LogRow.ofTick ts'[j]) := by
  obtain ⟨C, σT, hC0, hσ0, hσ1, HR⟩ := C110_storing_runs_partial hw hP hpt hC hw0 hg hl
  obtain ⟨ρ, σ, hσX, hF⟩ := moistFading_exists (u := u) hw hu hgl
  have hκ := peopleMoist_pos
  obtain ⟨τ, hτ1, hTτ, hXτ⟩ : ∃ τ, τ < 1 ∧ σT ≤ τ ∧ σ < τ :=
    ⟨(1 + max σT σ) / 2, by linarith [max_lt hσ1 hσX], by linarith [max_lt hσ1 hσX, le_max_left σT σ], by linarith [max_lt hσ1 hσX, le_max_right σT σ]⟩
  have hτ0 : 0 < τ := lt_of_le_of_lt (hF.nonneg.trans hF.order) hXτ
  have hδ : 0 < τ - σ := by linarith
  have hD1 : 0 ≤ max 1 (C / τ) := le_trans zero_le_one (le_max_left _ _)
  refine ⟨peopleMoist * max 1 (C / τ) / (τ - σ), τ, by positivity, hτ0.le, hτ1, ?_⟩
  intro N ss A Hp hvent hvent' hp c c' hc hc' M X hM hX hn hx ns ts ts' H H' j hj h1 h2 hd
  have hPX : X ≤ X + peopleMoist * max 1 (C / τ) / (τ - σ) * M := by
    have : 0 ≤ peopleMoist * max 1 (C / τ) / (τ - σ) * M := by positivity
    linarith
  have key := run_moist_fade (τ := τ) (P := X + peopleMoist * max 1 (C / τ) / (τ - σ) * M) (D := max 1 (C / τ) * M) hw hC hF hXτ.le Hp
    (fun k i => ⟨(hu i).le, hvent' k i⟩) hp (by linarith) (by positivity) ?_ ⟨fun i => (hx.rooms i).trans hPX, fun i => (hx.furniture i).trans hPX⟩
    (fun i => (hn.rooms i).trans (le_mul_of_one_le_left hM (le_max_left _ _))) H H' j hj h1 h2 hd ?_
  · have hle : (X + peopleMoist * max 1 (C / τ) / (τ - σ) * M) * τ ^ (j + 1) ≤ (X + peopleMoist * max 1 (C / τ) / (τ - σ) * M) * τ ^ j :=
      mul_le_mul_of_nonneg_left (pow_le_pow_of_le_one hτ0.le hτ1.le (Nat.le_succ j)) (by linarith)
    exact ⟨fun i => (key.rooms i).trans hle, fun i => (key.furniture i).trans hle⟩
  · have e : peopleMoist * max 1 (C / τ) / (τ - σ) * M * (τ - σ) = peopleMoist * (max 1 (C / τ) * M) := by
      rw [div_mul_eq_mul_div, div_mul_cancel₀ _ hδ.ne']
      ring
    rw [add_mul, e]
    have := mul_nonneg hX hδ.le
    linarith
  · intro l h3 h4 hlj i
    have hl3 : l < ns.length := by rw [← H.length_eq]; exact h3
    have r := (HR Hp hvent hp hc hc' hM hn H H' l hl3 h3 h4 fun l' hl' hle' => hd l' hl' (by omega)).rooms i
    refine r.trans ?_
    have a1 : C ≤ max 1 (C / τ) * τ := by
      have := mul_le_mul_of_nonneg_right (le_max_right 1 (C / τ)) hτ0.le
      rwa [div_mul_cancel₀ _ hτ0.ne'] at this
    have a2 : σT ^ l ≤ τ ^ l := pow_le_pow_left₀ hσ0 hTτ l
    calc C * σT ^ l * M ≤ max 1 (C / τ) * τ * τ ^ l * M :=
          mul_le_mul_of_nonneg_right (mul_le_mul a1 a2 (pow_nonneg hσ0 _) (mul_nonneg hD1 hτ0.le)) hM
      _ = max 1 (C / τ) * M * τ ^ (l + 1) := by ring

/-- What a room without any exchange of air stores of moisture. -/
theorem sealed_step (hw : WellFormed h hR dt) (hC : h.cValue = 0) (Hp : makePreCalc h hR dt A = .ok ss) {n : ℤ} {k : Fin N} {c c' : Cond I J}
    {t t' : TickVars I J} (H : runTick n dt ss c = .ok t) (H' : runTick n dt ss c' = .ok t') (hk : pyIndex N n = .ok k)
    (hd : ∀ i, (A k).acDemand i ≤ 0) (i : I) (hs : h.vVentEx i + (A k).vLocal i = 0) (hv : ∀ l, h.vInt i l = 0) (hp : (A k).nHum i = 0) :
    1.2 * h.vRoom i * (t'.xR i - t.xR i) + h.cLh i * (t'.xFrt i - t.xFrt i)
      = 1.2 * h.vRoom i * (c'.xR i - c.xR i) + h.cLh i * (c'.xFrt i - c.xFrt i) := by
  have hdt := hw.dt_pos.ne'
  have hne := lh_ne hw i
  have e := free_moist hw hC Hp H hk hd i
  have e' := free_moist hw hC Hp H' hk hd i
  simp only [hs, hv, hp, moistHold, zero_mul, mul_zero, Finset.sum_const_zero, add_zero] at e e'
  have f := C15_furniture_moisture Hp H i hne
  have f' := C15_furniture_moisture Hp H' i hne
  generalize hS : h.cLh i + dt * h.gLh i = S at *
  have e2 : (h.vRoom i * 1.2 * S + dt * (h.gLh i * h.cLh i)) * (t'.xR i - t.xR i)
      = h.vRoom i * 1.2 * S * (c'.xR i - c.xR i) + dt * (h.gLh i * h.cLh i) * (c'.xFrt i - c.xFrt i) := by
    have q1 : h.vRoom i * 1.2 / dt * dt = h.vRoom i * 1.2 := div_mul_cancel₀ _ hdt
    have q2 : h.gLh i * h.cLh i / S * S = h.gLh i * h.cLh i := div_mul_cancel₀ _ hne
    generalize h.vRoom i * 1.2 / dt = a at *
    generalize h.gLh i * h.cLh i / S = b at *
    rw [← q1, ← q2]
    linear_combination dt * S * (e' - e)
  refine mul_left_cancel₀ hne ?_
  subst hS
  linear_combination e2 + h.cLh i * (f' - f)

/-- **C113 (a room without air).** A room that exchanges no air at all keeps every difference of moisture for ever: two histories (with the same data
and any temperatures) that begin with humidities `δ` apart in its air and in its furniture never come closer than `δ`, in its air or in its
furniture. -/
theorem C113_sealed (hw : WellFormed h hR dt) (hC : h.cValue = 0) (Hp : makePreCalc h hR dt A = .ok ss) {i : I}
    (hs : ∀ k, h.vVentEx i + (A k).vLocal i = 0) (hv : ∀ l, h.vInt i l = 0) (hp : ∀ k, (A k).nHum i = 0) (hd : ∀ k i, (A k).acDemand i ≤ 0) {δ : ℝ}
    {c c' : Cond I J} (hr : c'.xR i - c.xR i = δ) (hf : c'.xFrt i - c.xFrt i = δ) {ns : List ℤ} {ts ts' : List (TickVars I J)} (H : Run ss dt c ns ts)
    (H' : Run ss dt c' ns ts') (j : ℕ) (h1 : j < ts.length) (h2 : j < ts'.length) : δ ≤ ts'[j].xR i - ts[j].xR i ∨ δ ≤ ts'[j].xFrt i - ts[j].xFrt i := by
  have key : ∀ {c c' : Cond I J} {ts ts' : List (TickVars I J)} (_ : Run ss dt c ns ts) (_ : Run ss dt c' ns ts') (j : ℕ) (h1 : j < ts.length)
      (h2 : j < ts'.length), 1.2 * h.vRoom i * (ts'[j].xR i - ts[j].xR i) + h.cLh i * (ts'[j].xFrt i - ts[j].xFrt i)
        = 1.2 * h.vRoom i * (c'.xR i - c.xR i) + h.cLh i * (c'.xFrt i - c.xFrt i) := by
    clear hr hf H H' h1 h2
    induction ns with
    | nil => intro c c' ts ts' H H' j h1; cases H; exact absurd h1 (by simp)
    | cons n ns ih =>
      intro c c' ts ts' H H' j h1 h2
      cases H with
      | cons Ht Hr =>
        cases H' with
        | cons Ht' Hr' =>
          obtain ⟨k, hk⟩ := runTick_index Ht
          have s := sealed_step hw hC Hp Ht Ht' hk (hd k) i (hs k) hv (hp k)
          cases j with
          | zero => exact s
          | succ j => exact (ih Hr Hr' j (by simpa using h1) (by simpa using h2)).trans s
  have e := key H H' j h1 h2
  rw [hr, hf] at e
  by_contra hcon
  push Not at hcon
  have hV := hw.vRoom_pos i
  have a1 := mul_lt_mul_of_pos_left hcon.1 (by positivity : 0 < 1.2 * h.vRoom i)
  have a2 := mul_le_mul_of_nonneg_left hcon.2.le (hw.cLh_nonneg i)
  linarith

end

section
variable {I : Type} [Fintype I] [DecidableEq I] {m : ℕ} {h : House I (Fin m)} {hR : Fin m → ℝ}

/-- A calculation with a long run-up, as a continuation of its first steps by the steps of one with a short run-up. -/
theorem aligned {N : ℕ} {A : Fin N → Record I (Fin m)} {hourly dMain dRunUp1 dRunUp2 d1 d2 : ℤ} {r1 r2 : CalcResult I m N}
    {gs1 gs2 : List (List GroundCell)} {c1 c2 : Cond I (Fin m)} {up1 mn1 up2 mn2 : List (TickVars I (Fin m))}
    (T1 : CalcTrace h hR A hourly dMain dRunUp1 d1 r1 gs1 c1 up1 mn1) (T2 : CalcTrace h hR A hourly dMain dRunUp2 d2 r2 gs2 c2 up2 mn2)
    (h0 : 0 ≤ d1 * hourly * 24) (h12 : d1 * hourly * 24 ≤ d2 * hourly * 24) :
    ∃ pre rest, Run r2.ss (3600 / (hourly : ℝ)) c2 (pyRange (-(d2 * hourly * 24)) (-(d1 * hourly * 24))) pre ∧ up2 ++ mn2 = pre ++ rest ∧
      Run r1.ss (3600 / (hourly : ℝ)) c1 (pyRange (-(d1 * hourly * 24)) (dMain * hourly * 24)) (up1 ++ mn1) ∧
      Run r1.ss (3600 / (hourly : ℝ)) (after c2 pre) (pyRange (-(d1 * hourly * 24)) (dMain * hourly * 24)) rest ∧
      ∀ (k : ℕ) (hk1 : k < r1.nMain.toNat) (hk2 : k < r2.nMain.toNat), ∃ (h3 : (d1 * hourly * 24).toNat + k < (up1 ++ mn1).length)
        (h4 : (d1 * hourly * 24).toNat + k < rest.length), r1.log ⟨k, hk1⟩ = LogRow.ofTick (up1 ++ mn1)[(d1 * hourly * 24).toNat + k] ∧
          r2.log ⟨k, hk2⟩ = LogRow.ofTick rest[(d1 * hourly * 24).toNat + k] := by
  have hss : r2.ss = r1.ss := Except.ok.inj (T2.pre.symm.trans T1.pre)
  have hM0 : 0 ≤ dMain * hourly * 24 := by rw [← T1.nMain_eq]; exact T1.nMain_nonneg
  have R1 := T1.runUp.append T1.main
  have R2 := T2.runUp.append T2.main
  rw [pyRange_append (by omega) hM0] at R1 R2
  rw [← pyRange_append (b := -(d1 * hourly * 24)) (by omega) (by omega)] at R2
  obtain ⟨pre, rest, e, Rp, Rr⟩ := R2.split
  have lp : pre.length = (d2 * hourly * 24 - d1 * hourly * 24).toNat := by rw [Rp.length_eq, pyRange_length]; congr 1; ring
  have lr : rest.length = (dMain * hourly * 24 + d1 * hourly * 24).toNat := by rw [Rr.length_eq, pyRange_length]; congr 1; ring
  have l1 : up1.length = (d1 * hourly * 24).toNat := by rw [T1.runUp.length_eq, pyRange_length]; congr 1; ring
  have l2 : up2.length = (d2 * hourly * 24).toNat := by rw [T2.runUp.length_eq, pyRange_length]; congr 1; ring
  have lm1 : mn1.length = (dMain * hourly * 24).toNat := by rw [T1.main.length_eq, pyRange_length]; congr 1; ring
  rw [hss] at Rr
  refine ⟨pre, rest, Rp, e, R1, Rr, fun k hk1 hk2 => ?_⟩
  have hm1 : k < mn1.length := by rw [T1.mn_length]; exact hk1
  have hm2 : k < mn2.length := by rw [T2.mn_length]; exact hk2
  have a1 : (d1 * hourly * 24).toNat + k < (up1 ++ mn1).length := by rw [List.length_append]; omega
  have a2 : (d1 * hourly * 24).toNat + k < rest.length := by omega
  refine ⟨a1, a2, ?_, ?_⟩
  · rw [T1.logged ⟨k, hk1⟩ hm1]
    congr 1
    have h3 : (up1 ++ mn1)[(d1 * hourly * 24).toNat + k]? = some mn1[k] := by
      rw [List.getElem?_append_right (by omega)]
      simp [l1, List.getElem?_eq_getElem hm1]
    rw [List.getElem?_eq_getElem a1] at h3
    exact (Option.some.inj h3).symm
  · rw [T2.logged ⟨k, hk2⟩ hm2]
    congr 1
    have h3 : (up2 ++ mn2)[up2.length + k]? = some mn2[k] := by
      rw [List.getElem?_append_right (by omega)]; simp [List.getElem?_eq_getElem hm2]
    rw [e, List.getElem?_append_right (by omega), show up2.length + k - pre.length = (d1 * hourly * 24).toNat + k by omega,
      List.getElem?_eq_getElem a2] at h3
    exact (Option.some.inj h3).symm

/-- **C113 (partial), run-ups.** One constant and one rate for the house: whatever the data, the humidities in the rows of two calculations with run-ups
of different lengths agree up to `C τ ^ (steps since the shorter one began)` times the difference of the states at that moment. -/
theorem C113_rows_partial {hourly : ℤ} {w u : I → ℝ} (hw : WellFormed h hR (3600 / (hourly : ℝ))) (hP : Passive h hR) (hpt : Partitions h hR)
    (hgr : ∀ j, h.isGround j = true → h.kEi j = none) (hC : h.cValue = 0) (hw0 : ∀ i, 0 ≤ w i)
    (hg : ∀ i, 0 < h.gSh i) (hl : LosesHeat h w) (hu : ∀ i, 0 < u i) (hgl : ∀ i, 0 < h.gLh i) :
    ∃ C τ : ℝ, 0 ≤ C ∧ 0 ≤ τ ∧ τ < 1 ∧ ∀ {N : ℕ} {A : Fin N → Record I (Fin m)} {dMain dRunUp1 dRunUp2 d1 d2 : ℤ} {r1 r2 : CalcResult I m N} {D : ℝ}
      (_ : ∀ k i, w i + (∑ l, h.vInt i l + ∑ l, h.vInt l i) / 2 ≤ h.vVentEx i + (A k).vLocal i)
      (_ : ∀ k i, u i + ∑ l, h.vInt i l ≤ h.vVentEx i + (A k).vLocal i) (_ : ∀ k, RoomForPeople h (3600 / (hourly : ℝ)) (A k))
      (_ : 0 ≤ d1 * hourly * 24) (_ : d1 * hourly * 24 ≤ d2 * hourly * 24) (_ : coreCalc h hR A hourly dMain dRunUp1 d1 = .ok r1)
      (_ : coreCalc h hR A hourly dMain dRunUp2 d2 = .ok r2) (_ : 0 ≤ D)
      (_ : ∀ c c', updateByGround r1.ss.isGround (initialConditions I (Fin m)) r1.ground = .ok c → StateOf r2 hourly dMain d2 c' →
        StateNear D c c' ∧ HumidNear D c c')
      (k : ℕ) (_ : NoDemand (fun n => (A n).acDemand) (-(d1 * hourly * 24)) k) (hk1 : k < r1.nMain.toNat) (hk2 : k < r2.nMain.toNat),
      RowHumidNear (C * τ ^ ((d1 * hourly * 24).toNat + k) * D) (r1.log ⟨k, hk1⟩) (r2.log ⟨k, hk2⟩) := by
  obtain ⟨C, τ, hC0, hτ0, hτ1, HR⟩ := C113_runs_partial hw hP hpt hC hw0 hg hl hu hgl
  refine ⟨1 + C, τ, by linarith, hτ0, hτ1, ?_⟩
  intro N A dMain dRunUp1 dRunUp2 d1 d2 r1 r2 D hvent hvent' hp h0 h12 H1 H2 hD hnear k hd hk1 hk2
  obtain ⟨gs1, c1, up1, mn1, T1⟩ := coreCalc_ok H1
  obtain ⟨gs2, c2, up2, mn2, T2⟩ := coreCalc_ok H2
  obtain ⟨pre, rest, Rp, e, R1, Rr, hlog⟩ := aligned T1 T2 h0 h12
  have hall : ∀ t ∈ up2 ++ mn2, StepOf r2 hourly dMain d2 t := fun t ht => ⟨_, _, T2.start, T2.runUp.append T2.main, ht⟩
  have hinv : PartitionsEmpty h (after c2 pre) ∧ StateOf r2 hourly dMain d2 (after c2 pre) := by
    refine (Rp.invariant (P := fun c => PartitionsEmpty h c ∧ StateOf r2 hourly dMain d2 c) (Q := fun _ t => t ∈ pre)
      ⟨start_partitions hgr T2, Or.inl T2.start⟩ ?_ ?_).1
    · intro n _ c t hc ht hq
      exact ⟨held_empty hpt T2.pre ht hc.1, Or.inr ⟨t, hall t (by rw [e]; simp [hq]), rfl⟩⟩
    · intro p hp
      exact (List.of_mem_zip hp).2
  obtain ⟨h3, h4, e1, e2⟩ := hlog k hk1 hk2
  obtain ⟨n1, n2⟩ := hnear _ _ T1.start hinv.2
  rw [e1, e2]
  refine (HR T1.pre hvent hvent' hp (start_partitions hgr T1) hinv.1 hD hD n1 n2 R1 Rr _ (by rw [← R1.length_eq]; exact h3) h3 h4 ?_).mono
    (le_of_eq (by ring))
  intro l hl hle k' hk' i
  have hsp := pyIndex_spec hk'
  rw [pyRange_getElem] at hsp
  exact hd _ (by omega) (by omega) k' hsp i

/-- **C113 (partial), repeated data.** While the records repeat after `q` steps, the humidities in a row and in the row `q` steps later agree up to
`C τ ^ (steps since the start)` times the difference of the start from the states of the calculation. -/
theorem C113_repeats_partial {hourly : ℤ} {w u : I → ℝ} (hw : WellFormed h hR (3600 / (hourly : ℝ))) (hP : Passive h hR) (hpt : Partitions h hR)
    (hgr : ∀ j, h.isGround j = true → h.kEi j = none) (hC : h.cValue = 0) (hw0 : ∀ i, 0 ≤ w i) (hg : ∀ i, 0 < h.gSh i) (hl : LosesHeat h w)
    (hu : ∀ i, 0 < u i) (hgl : ∀ i, 0 < h.gLh i) :
    ∃ C τ : ℝ, 0 ≤ C ∧ 0 ≤ τ ∧ τ < 1 ∧ ∀ {N : ℕ} {A : Fin N → Record I (Fin m)} {dMain dRunUp d : ℤ} {r : CalcResult I m N} {D : ℝ} {q : ℕ}
      (_ : ∀ k i, w i + (∑ l, h.vInt i l + ∑ l, h.vInt l i) / 2 ≤ h.vVentEx i + (A k).vLocal i)
      (_ : ∀ k i, u i + ∑ l, h.vInt i l ≤ h.vVentEx i + (A k).vLocal i)
      (_ : ∀ k, RoomForPeople h (3600 / (hourly : ℝ)) (A k)) (_ : 0 ≤ d * hourly * 24)
      (_ : coreCalc h hR A hourly dMain dRunUp d = .ok r) (_ : Repeats A q (-(d * hourly * 24)) (dMain * hourly * 24)) (_ : 0 ≤ D)
      (_ : ∀ c c', updateByGround r.ss.isGround (initialConditions I (Fin m)) r.ground = .ok c → StateOf r hourly dMain d c' →
        StateNear D c c' ∧ HumidNear D c c')
      (k : ℕ) (_ : NoDemand (fun n => (A n).acDemand) (-(d * hourly * 24)) k) (h1 : k < r.nMain.toNat) (h2 : k + q < r.nMain.toNat),
      RowHumidNear (C * τ ^ ((d * hourly * 24).toNat + k) * D) (r.log ⟨k, h1⟩) (r.log ⟨k + q, h2⟩) := by
  obtain ⟨C, τ, hC0, hτ0, hτ1, HR⟩ := C113_runs_partial hw hP hpt hC hw0 hg hl hu hgl
  refine ⟨1 + C, τ, by linarith, hτ0, hτ1, ?_⟩
  intro N A dMain dRunUp d r D q hvent hvent' hp h0 H hrep hD hnear k hd h1 h2
  obtain ⟨gs, c0, up, mn, T⟩ := coreCalc_ok H
  have hn := T.nMain_eq
  obtain ⟨front, pre, rest, F, P, e, S, hlog⟩ := shifted T h0 (q := q) (by omega) hrep
  have hall : ∀ t ∈ up ++ mn, StepOf r hourly dMain d t := fun t ht => ⟨_, _, T.start, T.runUp.append T.main, ht⟩
  have hinv : PartitionsEmpty h (after c0 pre) ∧ StateOf r hourly dMain d (after c0 pre) := by
    refine (P.invariant (P := fun c => PartitionsEmpty h c ∧ StateOf r hourly dMain d c) (Q := fun _ t => t ∈ pre)
      ⟨start_partitions hgr T, Or.inl T.start⟩ ?_ ?_).1
    · intro n _ c t hc ht hq
      exact ⟨held_empty hpt T.pre ht hc.1, Or.inr ⟨t, hall t (by rw [e]; simp [hq]), rfl⟩⟩
    · intro p hp
      exact (List.of_mem_zip hp).2
  obtain ⟨h3, h4, e1, e2⟩ := hlog k h1 h2
  obtain ⟨n1, n2⟩ := hnear _ _ T.start hinv.2
  rw [e1, e2]
  refine (HR T.pre hvent hvent' hp (start_partitions hgr T) hinv.1 hD hD n1 n2 F S _ (by rw [← F.length_eq]; exact h3) h3 h4 ?_).mono
    (le_of_eq (by ring))
  intro l hl hle k' hk' i
  have hsp := pyIndex_spec hk'
  rw [pyRange_getElem] at hsp
  exact hd _ (by omega) (by omega) k' hsp i

end

section
variable {I J : Type} [Fintype I] [DecidableEq I] [Fintype J] [DecidableEq J] {N : ℕ} {h : House I J} {hR : J → ℝ} {dt : ℝ}

theorem humid_near_exists (c c' : Cond I J) : ∃ X, 0 ≤ X ∧ HumidNear X c c' := by
  have n1 : 0 ≤ ∑ i, |c'.xR i - c.xR i| := Finset.sum_nonneg fun _ _ => abs_nonneg _
  have n2 : 0 ≤ ∑ i, |c'.xFrt i - c.xFrt i| := Finset.sum_nonneg fun _ _ => abs_nonneg _
  refine ⟨∑ i, |c'.xR i - c.xR i| + ∑ i, |c'.xFrt i - c.xFrt i|, by positivity, fun i => ?_, fun i => ?_⟩
  · have := Finset.single_le_sum (f := fun i => |c'.xR i - c.xR i|) (fun _ _ => abs_nonneg _) (Finset.mem_univ i); linarith
  · have := Finset.single_le_sum (f := fun i => |c'.xFrt i - c.xFrt i|) (fun _ _ => abs_nonneg _) (Finset.mem_univ i); linarith

/-- **C113 (partial), the cycle.** There is a rate, and for every day of data one cycle of humidities, so that from any start the humidities of
repeated days approach this cycle at that rate. -/
theorem C113_settles_partial {w u : I → ℝ} (hw : WellFormed h hR dt) (hP : Passive h hR) (hpt : Partitions h hR) (hC : h.cValue = 0)
    (hw0 : ∀ i, 0 ≤ w i) (hg : ∀ i, 0 < h.gSh i) (hl : LosesHeat h w) (hu : ∀ i, 0 < u i) (hgl : ∀ i, 0 < h.gLh i) :
    ∃ τ : ℝ, 0 ≤ τ ∧ τ < 1 ∧ ∀ {N : ℕ} {ss : PreCalc I J N} {A : Fin N → Record I J} (_ : makePreCalc h hR dt A = .ok ss)
      (_ : ∀ k i, w i + (∑ l, h.vInt i l + ∑ l, h.vInt l i) / 2 ≤ h.vVentEx i + (A k).vLocal i)
      (_ : ∀ k i, u i + ∑ l, h.vInt i l ≤ h.vVentEx i + (A k).vLocal i) (_ : ∀ k, RoomForPeople h dt (A k))
      (_ : ∀ k i, (A k).acDemand i ≤ 0) (ns : List ℤ) (_ : ns ≠ []),
      ∃ L : ℕ → LogRow I J, ∀ st day, Days ss dt ns st day → PartitionsEmpty h (st 0) →
        ∃ K, ∀ e j (hj : j < (day e).length), RowHumidNear (K * τ ^ (e * ns.length)) (L j) (LogRow.ofTick (day e)[j]) := by
  obtain ⟨C, σ, hC0, hσ0, hσ1, HR⟩ := C113_runs_partial hw hP hpt hC hw0 hg hl hu hgl
  refine ⟨σ, hσ0, hσ1, ?_⟩
  intro N ss A Hp hvent hvent' hp hd ns hns
  have hq : 0 < ns.length := List.length_pos_iff.2 hns
  have hr0 : 0 ≤ σ ^ ns.length := pow_nonneg hσ0 _
  have hr1 : σ ^ ns.length < 1 := pow_lt_one₀ hσ0 hσ1 (by omega)
  have two : ∀ {st st' : ℕ → Cond I J} {day day' : ℕ → List (TickVars I J)} (a a' : ℕ), Days ss dt ns st day → Days ss dt ns st' day' →
      PartitionsEmpty h (st a) → PartitionsEmpty h (st' a') → ∃ D, 0 ≤ D ∧ ∀ e j (h1 : j < (day (a + e)).length) (h2 : j < (day' (a' + e)).length),
        RowHumidNear (D * (σ ^ ns.length) ^ e) (LogRow.ofTick (day (a + e))[j]) (LogRow.ofTick (day' (a' + e))[j]) := by
    intro st st' day day' a a' H H' hc hc'
    obtain ⟨M, hM, hn⟩ := near_exists (st a) (st' a')
    obtain ⟨X, hX, hx⟩ := humid_near_exists (st a) (st' a')
    have hD : 0 ≤ X + C * M := by positivity
    refine ⟨X + C * M, hD, fun e j h1 h2 => ?_⟩
    have R := (H.runs a (e + 1)).1
    have R' := (H'.runs a' (e + 1)).1
    obtain ⟨b1, g1⟩ := List.getElem?_eq_some_iff.1 (H.at a e j h1)
    obtain ⟨b2, g2⟩ := List.getElem?_eq_some_iff.1 (H'.at a' e j h2)
    have key := HR Hp hvent hvent' hp hc hc' hM hX hn hx R R' (e * ns.length + j) (by rw [← R.length_eq]; exact b1) b1 b2 fun _ _ _ k _ => hd k
    rw [g1, g2] at key
    refine key.mono ?_
    rw [← pow_mul, mul_comm ns.length e, pow_add]
    have h1 : σ ^ (e * ns.length) * σ ^ j ≤ σ ^ (e * ns.length) * 1 :=
      mul_le_mul_of_nonneg_left (pow_le_one₀ hσ0 hσ1.le) (pow_nonneg hσ0 _)
    have h2 := mul_le_mul_of_nonneg_left h1 hD
    linarith
  by_cases hex : ∃ st day, Days ss dt ns st day ∧ PartitionsEmpty h (st 0)
  · obtain ⟨st, day, H, hc⟩ := hex
    have hc1 : PartitionsEmpty h (st 1) := by
      rw [H.next 0]
      exact ((H.run 0).invariant (P := PartitionsEmpty h) (Q := fun _ _ => True) hc (fun n _ c t hc ht _ => held_empty hpt Hp ht hc)
        fun _ _ => trivial).1
    have hlen : ∀ e, (day e).length = ns.length := fun e => (H.run e).length_eq
    obtain ⟨D, hD, near⟩ := two 0 1 H H hc hc1
    have lim : ∀ (f : LogRow I J → ℝ) (j : ℕ), (∀ (M : ℝ) a b, RowHumidNear M a b → |f b - f a| ≤ M) →
        ∃ l, ∀ e (hj : j < (day e).length), |f (LogRow.ofTick (day e)[j]) - l| ≤ D / (1 - σ ^ ns.length) * (σ ^ ns.length) ^ e := by
      intro f j hf
      by_cases hj : j < ns.length
      · obtain ⟨l, hl⟩ := geometric_limit (x := fun e => f (LogRow.ofTick ((day e)[j]'(by rw [hlen]; exact hj)))) (K := D) hr1 (by
          intro e
          have := hf _ _ _ (near e j (by rw [hlen]; exact hj) (by rw [hlen]; exact hj))
          simp only [zero_add, add_comm 1 e] at this
          exact this)
        exact ⟨l, fun e _ => hl e⟩
      · exact ⟨0, fun e he => absurd (by rw [hlen] at he; exact he) hj⟩
    choose l1 hl1 using fun j i => lim (fun r => r.xR i) j fun M a b hab => hab.rooms i
    choose l2 hl2 using fun j i => lim (fun r => r.xFrt i) j fun M a b hab => hab.furniture i
    refine ⟨fun j => { LogRow.empty I J with xR := l1 j, xFrt := l2 j }, ?_⟩
    intro st' day' H' hc'
    obtain ⟨D', hD', near'⟩ := two 0 0 H H' hc hc'
    refine ⟨D' + D / (1 - σ ^ ns.length), fun e j hj => ?_⟩
    have hj0 : j < (day e).length := by rw [hlen, ← (H'.run e).length_eq]; exact hj
    have n := near' e j (by simpa using hj0) (by simpa using hj)
    simp only [zero_add] at n
    rw [mul_comm e, pow_mul]
    have tri : ∀ {x y l : ℝ}, |y - x| ≤ D' * (σ ^ ns.length) ^ e → |x - l| ≤ D / (1 - σ ^ ns.length) * (σ ^ ns.length) ^ e →
        |y - l| ≤ (D' + D / (1 - σ ^ ns.length)) * (σ ^ ns.length) ^ e := by
      intro x y l a b
      rw [add_mul]
      exact (abs_sub_le y x l).trans (add_le_add a b)
    exact ⟨fun i => tri (n.1 i) (hl1 j i e hj0), fun i => tri (n.2 i) (hl2 j i e hj0)⟩
  · exact ⟨fun _ => LogRow.empty I J, fun st day H hc => absurd ⟨st, day, H, hc⟩ hex⟩

end

/-! ## Concrete cases -/

theorem Spec.HumidNear.mono {I J : Type} {X X' : ℝ} {c c' : Cond I J} (hX : X ≤ X') (H : HumidNear X c c') : HumidNear X' c c' :=
  ⟨fun i => (H.rooms i).trans hX, fun i => (H.furniture i).trans hX⟩

theorem humid_near_list {I J : Type} [Fintype I] [DecidableEq I] [Fintype J] [DecidableEq J] (c : Cond I J) (cs : List (Cond I J)) : ∃ X, 0 ≤ X ∧ ∀ c' ∈ cs, HumidNear X c c' := by
  induction cs with
  | nil => exact ⟨0, le_rfl, by simp⟩
  | cons a as ih =>
    obtain ⟨X1, h1, H1⟩ := humid_near_exists c a
    obtain ⟨X2, h2, H2⟩ := ih
    refine ⟨max X1 X2, h1.trans (le_max_left _ _), fun c' hc' => ?_⟩
    rcases List.mem_cons.1 hc' with rfl | h
    · exact H1.mono (le_max_left _ _)
    · exact (H2 c' h).mono (le_max_right _ _)

/-- Any two calculations have a bound of the kind that `C113_rows_partial` asks for. -/
theorem states_humid_near {I : Type} [Fintype I] [DecidableEq I] {m N : ℕ} {h : House I (Fin m)} {hR : Fin m → ℝ} {A : Fin N → Record I (Fin m)}
    {hourly dMain dRunUp1 dRunUp2 d1 d2 : ℤ} {r1 r2 : CalcResult I m N} (H1 : coreCalc h hR A hourly dMain dRunUp1 d1 = .ok r1)
    (H2 : coreCalc h hR A hourly dMain dRunUp2 d2 = .ok r2) :
    ∃ D, 0 ≤ D ∧ ∀ c c', updateByGround r1.ss.isGround (initialConditions I (Fin m)) r1.ground = .ok c → StateOf r2 hourly dMain d2 c' →
      StateNear D c c' ∧ HumidNear D c c' := by
  obtain ⟨gs1, c1, up1, mn1, T1⟩ := coreCalc_ok H1
  obtain ⟨gs2, c2, up2, mn2, T2⟩ := coreCalc_ok H2
  obtain ⟨D, hD, HD⟩ := states_near H1 H2
  obtain ⟨X, hX, HX⟩ := humid_near_list c1 (c2 :: (up2 ++ mn2).map TickVars.next)
  refine ⟨max D X, hD.trans (le_max_left _ _), fun c c' hc hc' => ⟨(HD c c' hc hc').mono (le_max_left _ _), ?_⟩⟩
  obtain rfl : c1 = c := Except.ok.inj (T1.start.symm.trans hc)
  refine (HX c' ?_).mono (le_max_right _ _)
  rcases hc' with hc' | ⟨t, ⟨c3, ts, h3, R3, ht⟩, rfl⟩
  · obtain rfl : c2 = c' := Except.ok.inj (T2.start.symm.trans hc')
    simp
  · obtain rfl : c2 = c3 := Except.ok.inj (T2.start.symm.trans h3)
    have := R3.unique (T2.runUp.append T2.main)
    subst this
    exact List.mem_cons_of_mem _ (List.mem_map_of_mem ht)

/-- Two equal days on which both rooms get more air from outdoors than from each other. -/
noncomputable def exAiry : Fin 192 → Record (Fin 2) (Fin 4) := fun k => { exTwoDays k with vLocal := ![0, 0.03] }

theorem exStore_loses : LosesHeat exStore fun _ => 0 := by
  intro i
  right
  fin_cases i
  · exact ⟨0, rfl, rfl⟩
  · exact ⟨3, rfl, rfl⟩

/-- The hypotheses of `C113_rows_partial` and `C113_repeats_partial` are met by two equal days of the house that stores heat. -/
example : ∃ C τ : ℝ, 0 ≤ C ∧ 0 ≤ τ ∧ τ < 1 ∧ ∃ r1 r2, coreCalc exStore exHR exAiry 4 2 2 0 = .ok r1 ∧ coreCalc exStore exHR exAiry 4 2 2 1 = .ok r2 ∧
    r1.nMain.toNat = 192 ∧ r2.nMain.toNat = 192 ∧ ∃ D,
      (∀ k (h1 : k < r1.nMain.toNat) (h2 : k < r2.nMain.toNat), RowHumidNear (C * τ ^ k * D) (r1.log ⟨k, h1⟩) (r2.log ⟨k, h2⟩)) ∧
      ∀ k (h1 : k < r1.nMain.toNat) (h2 : k + 96 < r1.nMain.toNat), RowHumidNear (C * τ ^ k * D) (r1.log ⟨k, h1⟩) (r1.log ⟨k + 96, h2⟩) := by
  have e4 : (3600 / ((4 : ℤ) : ℝ)) = 900 := by norm_num
  have hw : WellFormed exStore exHR (3600 / ((4 : ℤ) : ℝ)) := by rw [e4]; exact exStore_wellFormed
  have hloc : ∀ k i, 0 ≤ (exAiry k).vLocal i := fun k i => by fin_cases i <;> norm_num [exAiry]
  obtain ⟨r1, H1⟩ := C21_program_partial (data := exAiry) (dMain := 2) (dRunUp := 2) (dRunUpBuild := 0) hw (fun _ => rfl) (fun _ => rfl)
    hloc (by norm_num) (by norm_num) (by norm_num) (by norm_num) (by norm_num) (by norm_num)
  obtain ⟨r2, H2⟩ := C21_program_partial (data := exAiry) (dMain := 2) (dRunUp := 2) (dRunUpBuild := 1) hw (fun _ => rfl) (fun _ => rfl)
    hloc (by norm_num) (by norm_num) (by norm_num) (by norm_num) (by norm_num) (by norm_num)
  obtain ⟨_, _, _, _, T1⟩ := coreCalc_ok H1
  obtain ⟨_, _, _, _, T2⟩ := coreCalc_ok H2
  obtain ⟨D, hD, HD⟩ := states_humid_near H1 H2
  obtain ⟨D', hD', HD'⟩ := states_humid_near H1 H1
  have hgl : ∀ i, 0 < exStore.gLh i := by intro i; fin_cases i <;> norm_num [exStore, exHouse]
  have hg : ∀ i, 0 < exStore.gSh i := by intro i; fin_cases i <;> norm_num [exStore, exHouse]
  have hgr : ∀ j, exStore.isGround j = true → exStore.kEi j = none := by intro j; fin_cases j <;> simp [exStore]
  have hp : ∀ k, RoomForPeople exStore (3600 / ((4 : ℤ) : ℝ)) (exAiry k) := by
    intro k i
    rw [e4]
    fin_cases i <;> norm_num [exStore, exHouse, exAiry, exTwoDays, exDay, airCap]
  have v1 : ∀ k i, 0 + (∑ l, exStore.vInt i l + ∑ l, exStore.vInt l i) / 2 ≤ exStore.vVentEx i + (exAiry k).vLocal i := fun k i => by
    fin_cases i <;> norm_num [exStore, exHouse, exAiry, Fin.sum_univ_two]
  have v2 : ∀ k i, 0.01 + ∑ l, exStore.vInt i l ≤ exStore.vVentEx i + (exAiry k).vLocal i := fun k i => by
    fin_cases i <;> norm_num [exStore, exHouse, exAiry, Fin.sum_univ_two]
  obtain ⟨C, σ, hC0, hσ0, hσ1, HR⟩ := C113_rows_partial (hourly := 4) (w := fun _ => 0) (u := fun _ => 0.01) hw exStore_passive exStore_partitions
    hgr rfl (fun _ => le_rfl) hg exStore_loses (fun _ => by norm_num) hgl
  obtain ⟨C', σ', hC0', hσ0', hσ1', HR'⟩ := C113_repeats_partial (hourly := 4) (w := fun _ => 0) (u := fun _ => 0.01) hw exStore_passive
    exStore_partitions hgr rfl (fun _ => le_rfl) hg exStore_loses (fun _ => by norm_num) hgl
  have hmax : 0 ≤ max D D' := hD.trans (le_max_left _ _)
  refine ⟨max C C', max σ σ', hC0.trans (le_max_left _ _), hσ0.trans (le_max_left _ _), max_lt hσ1 hσ1', r1, r2, H1, H2, by rw [T1.nMain_eq]; rfl,
    by rw [T2.nMain_eq]; rfl, max D D', fun k h1 h2 => ?_, fun k h1 h2 => ?_⟩
  · have := HR v1 v2 hp (by norm_num) (by norm_num) H1 H2 hD HD k (fun _ _ _ _ _ _ => le_rfl) h1 h2
    refine this.mono ?_
    rw [show ((0 * 4 * 24 : ℤ).toNat + k) = k by simp]
    gcongr <;> apply le_max_left
  · have := HR' v1 v2 hp (by norm_num) H1 (q := 96) (by
      intro n h0 h1 k k' hk hk'
      have := exTwoDays_repeats n (by simpa using h0) (by simpa using h1) k k' hk hk'
      simp only [exAiry, this]) hD' HD' k (fun _ _ _ _ _ _ => le_rfl) h1 h2
    refine this.mono ?_
    rw [show ((0 * 4 * 24 : ℤ).toNat + k) = k by simp]
    gcongr <;> apply le_max_right

/-- The hypotheses of `C113_settles_partial` are met by the house that stores heat, whose days repeat for ever from the start of the program. -/
example : ∃ (τ : ℝ) (ss : PreCalc (Fin 2) (Fin 4) 192) (L : ℕ → LogRow (Fin 2) (Fin 4)) (st : ℕ → Cond (Fin 2) (Fin 4)) (day : ℕ → List (TickVars (Fin 2) (Fin 4)))
    (K : ℝ), τ < 1 ∧ makePreCalc exStore exHR 900 exAiry = .ok ss ∧ Days ss 900 (pyRange 0 96) st day ∧ st 0 = initialConditions (Fin 2) (Fin 4) ∧
      ∀ e j (hj : j < (day e).length), RowHumidNear (K * τ ^ (e * 96)) (L j) (LogRow.ofTick (day e)[j]) := by
  have hloc : ∀ k i, 0 ≤ (exAiry k).vLocal i := fun k i => by fin_cases i <;> norm_num [exAiry]
  obtain ⟨ss, Hp⟩ : ∃ ss, makePreCalc exStore exHR 900 exAiry = .ok ss := by
    unfold makePreCalc
    rw [ax_inv exStore_wellFormed]
    exact ⟨_, rfl⟩
  obtain ⟨st, day, HD, h0⟩ := days_exist (ss := ss) (dt := 900) (P := fun c => ∀ i, Legal (c.mode i)) (ns := pyRange 0 96) (by
    intro n hn c hc
    rw [mem_pyRange] at hn
    obtain ⟨ss', t, Hp', ht⟩ := C21_step_completes_partial (n := n) exStore_wellFormed (fun _ => rfl) (fun _ => rfl) hloc (c := c)
      (fun i => by rcases hc i with h | h | h | h <;> rw [h] <;> simp) ⟨by omega, by omega⟩
    have : ss' = ss := Except.ok.inj (Hp'.symm.trans Hp)
    subst this
    obtain ⟨k, hk⟩ := runTick_index ht
    exact ⟨t, ht, fun i => (step_mode Hp ht hk hc i).1⟩) (initialConditions (Fin 2) (Fin 4)) initial_legal
  obtain ⟨σ, hσ0, hσ1, HS⟩ := C113_settles_partial (w := fun _ => 0) (u := fun _ => 0.01) exStore_wellFormed exStore_passive exStore_partitions rfl
    (fun _ => le_rfl) (by intro i; fin_cases i <;> norm_num [exStore, exHouse]) exStore_loses (fun _ => by norm_num)
    (by intro i; fin_cases i <;> norm_num [exStore, exHouse])
  obtain ⟨L, HL⟩ := HS Hp (fun k i => by fin_cases i <;> norm_num [exStore, exHouse, exAiry, Fin.sum_univ_two])
    (fun k i => by fin_cases i <;> norm_num [exStore, exHouse, exAiry, Fin.sum_univ_two])
    (fun k i => by fin_cases i <;> norm_num [exStore, exHouse, exAiry, exTwoDays, exDay, airCap]) (fun _ _ => le_rfl) (pyRange 0 96)
    (by intro h; have := congrArg List.length h; simp [pyRange_length] at this)
  obtain ⟨K, hK⟩ := HL st day HD (by rw [h0]; exact fun _ _ _ => ⟨rfl, rfl⟩)
  refine ⟨σ, ss, L, st, day, K, hσ1, Hp, HD, h0, fun e j hj => ?_⟩
  have := hK e j hj
  rwa [pyRange_length] at this

/-- The house that stores heat, without any exchange of air. -/
noncomputable def exSealed : House (Fin 2) (Fin 4) := { exStore with vVentEx := 0, vInt := 0 }

theorem exSealed_wellFormed : WellFormed exSealed exHR 900 :=
  { exStore_wellFormed with
    vInt_nonneg := fun i l => by simp [exSealed]
    vInt_lt := fun i => by simpa [exSealed] using exStore_wellFormed.vRoom_pos i
    vVentEx_nonneg := fun i => by simp [exSealed] }

/-- The start of the program, damper by 1 g/kg. -/
noncomputable def exDamper : Cond (Fin 2) (Fin 4) :=
  { initialConditions (Fin 2) (Fin 4) with
    xR := fun i => (initialConditions (Fin 2) (Fin 4)).xR i + 0.001
    xFrt := fun i => (initialConditions (Fin 2) (Fin 4)).xFrt i + 0.001 }

/-- The hypotheses of `C113_sealed` are met by a house without air exchange, from the start of the program and from a damper start, for any
number of days. -/
example (d : ℕ) : ∃ (ss : PreCalc (Fin 2) (Fin 4) 96) (ts ts' : List (TickVars (Fin 2) (Fin 4))), makePreCalc exSealed exHR 900 exMild = .ok ss ∧
    Run ss 900 (initialConditions (Fin 2) (Fin 4)) (List.replicate d (pyRange 0 96)).flatten ts ∧
    Run ss 900 exDamper (List.replicate d (pyRange 0 96)).flatten ts' ∧ ts.length = d * 96 ∧
    ∀ j (h1 : j < ts.length) (h2 : j < ts'.length), (0.001 : ℝ) ≤ ts'[j].xR 0 - ts[j].xR 0 ∨ (0.001 : ℝ) ≤ ts'[j].xFrt 0 - ts[j].xFrt 0 := by
  obtain ⟨ss, Hp⟩ : ∃ ss, makePreCalc exSealed exHR 900 exMild = .ok ss := by
    unfold makePreCalc
    rw [ax_inv exSealed_wellFormed]
    exact ⟨_, rfl⟩
  have hstep : ∀ n ∈ (List.replicate d (pyRange 0 96)).flatten, ∀ c : Cond (Fin 2) (Fin 4), (∀ i, Legal (c.mode i)) →
      ∃ t, runTick n 900 ss c = .ok t ∧ ∀ i, Legal (t.next.mode i) := by
    intro n hn c hc
    obtain ⟨l, hl, hn⟩ := List.mem_flatten.1 hn
    rw [(List.mem_replicate.1 hl).2, mem_pyRange] at hn
    obtain ⟨ss', t, Hp', ht⟩ := C21_step_completes_partial (n := n) (data := exMild) exSealed_wellFormed (fun _ => rfl) (fun _ => rfl) (fun _ _ => le_rfl)
      (c := c) (fun i => by rcases hc i with h | h | h | h <;> rw [h] <;> simp) ⟨by omega, by omega⟩
    have : ss' = ss := Except.ok.inj (Hp'.symm.trans Hp)
    subst this
    obtain ⟨k, hk⟩ := runTick_index ht
    exact ⟨t, ht, fun i => (step_mode Hp ht hk hc i).1⟩
  obtain ⟨ts, R, -⟩ := run_exists (c := initialConditions (Fin 2) (Fin 4)) initial_legal hstep
  obtain ⟨ts', R', -⟩ := run_exists (c := exDamper) (P := fun c => ∀ i, Legal (c.mode i)) (initial_legal (m := 4)) hstep
  refine ⟨ss, ts, ts', Hp, R, R', by rw [R.length_eq]; simp [pyRange_length], fun j h1 h2 => ?_⟩
  refine C113_sealed (i := 0) (δ := 0.001) exSealed_wellFormed rfl Hp (fun k => ?_) (fun l => rfl) (fun _ => rfl) (fun _ _ => le_rfl) ?_ ?_ R R' j
    h1 h2
  · simp [exSealed, exMild]
  · simp [exDamper]
  · simp [exDamper]

end HLC
