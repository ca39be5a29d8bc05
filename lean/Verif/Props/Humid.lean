import Verif.Props.Range
import Verif.Props.Warmer
import Verif.Spec.Humid

/-!
# C112: no humidity leaves the range of what drives it
-/

namespace HLC

set_option linter.unusedSectionVars false

open Spec

section
variable {I J : Type} [Fintype I] [DecidableEq I] [Fintype J] [DecidableEq J] {N : ℕ} {h : House I J} {hR : J → ℝ}
  {dt : ℝ} {data : Fin N → Record I J} {ss : PreCalc I J N} {n : ℤ} {k : Fin N} {c : Cond I J} {t : TickVars I J}

/-- The furniture is between its past and the room. -/
theorem frt_floor {a g x y z lo : ℝ} (hd : 0 < dt) (ha : 0 ≤ a) (hg : 0 ≤ g) (hag : 0 < a + g) (hz : a * (z - x) = dt * (g * (y - z)))
    (hx : lo ≤ x) (hy : lo ≤ y) : lo ≤ z := by
  have h0 : 0 < a + dt * g := by
    rcases hg.eq_or_lt with h1 | h1
    · rw [← h1] at hag ⊢; linarith
    · have := mul_pos hd h1; linarith
  have h1 : 0 ≤ a * (x - lo) := mul_nonneg ha (by linarith)
  have h2 : 0 ≤ dt * g * (y - lo) := mul_nonneg (mul_nonneg hd.le hg) (by linarith)
  have h3 : 0 ≤ (a + dt * g) * (z - lo) := by linarith
  have := nonneg_of_mul_nonneg_right h3 h0
  linarith

/-- What the furniture gives to the room, in terms of its past. -/
theorem frt_gives {a g x y z : ℝ} (hd : 0 < dt) (ha : 0 ≤ a) (hg : 0 ≤ g) (hag : 0 < a + g) (hz : a * (z - x) = dt * (g * (y - z))) :
    ∃ q, 0 ≤ q ∧ g * (z - y) = q * (x - y) := by
  have h0 : 0 < a + dt * g := by
    rcases hg.eq_or_lt with h1 | h1
    · rw [← h1] at hag ⊢; linarith
    · have := mul_pos hd h1; linarith
  refine ⟨g * a / (a + dt * g), div_nonneg (mul_nonneg hg ha) h0.le, ?_⟩
  rw [div_mul_eq_mul_div, eq_div_iff h0.ne']
  linear_combination g * hz

theorem xHum_nonneg (Hp : makePreCalc h hR dt data = .ok ss) (H : runTick n dt ss c = .ok t) (hk : pyIndex N n = .ok k)
    (hn : ∀ i, 0 ≤ (data k).nHum i) (i : I) : 0 ≤ t.xHum i := by
  obtain ⟨ivs, k', -, hs, hk', e⟩ := step_eqs Hp H
  have : k' = k := Except.ok.inj (hk'.symm.trans hk)
  subst this
  subst hs
  rw [e.xHum]
  exact mul_nonneg (xHumPsn_nonneg _) (hn i)

theorem xHum_zero (Hp : makePreCalc h hR dt data = .ok ss) (H : runTick n dt ss c = .ok t) (hk : pyIndex N n = .ok k)
    (hn : ∀ i, (data k).nHum i = 0) (i : I) : t.xHum i = 0 := by
  obtain ⟨ivs, k', -, hs, hk', e⟩ := step_eqs Hp H
  have : k' = k := Except.ok.inj (hk'.symm.trans hk)
  subst this
  subst hs
  rw [e.xHum]
  show _ * (data k').nHum i = 0
  rw [hn, mul_zero]

theorem vOut_nonneg' (hw : WellFormed h hR dt) (Hp : makePreCalc h hR dt data = .ok ss) (H : runTick n dt ss c = .ok t) (hk : pyIndex N n = .ok k)
    (hl : ∀ i, 0 ≤ (data k).vLocal i) (i : I) : 0 ≤ t.vOut i := by
  obtain ⟨ivs, k', -, hs, hk', e⟩ := step_eqs Hp H
  have : k' = k := Except.ok.inj (hk'.symm.trans hk)
  subst this
  subst hs
  exact vOut_nonneg hw hl e i

theorem lh_ne (hw : WellFormed h hR dt) (i : I) : h.cLh i + dt * h.gLh i ≠ 0 := by
  have h1 := hw.cLh_nonneg i
  have h2 := hw.gLh_nonneg i
  have h3 := hw.frtLh_pos i
  have h4 := hw.dt_pos
  rcases h2.eq_or_lt with h5 | h5
  · rw [← h5] at h3 ⊢; exact (by linarith : 0 < h.cLh i + dt * 0).ne'
  · have := mul_pos h4 h5; exact (by linarith : 0 < h.cLh i + dt * h.gLh i).ne'

/-- One step, upper bound. -/
theorem step_humid_ceiling (hw : WellFormed h hR dt) (hv : ∀ i l, h.vInt i l = 0) (Hp : makePreCalc h hR dt data = .ok ss)
    (H : runTick n dt ss c = .ok t) (hk : pyIndex N n = .ok k) {hi : ℝ} (hl : ∀ i, 0 ≤ (data k).vLocal i) (hm : NoMoisture (data k))
    (ho : (data k).xO ≤ hi) (hx : ∀ i, c.xR i ≤ hi) (hxf : ∀ i, c.xFrt i ≤ hi) : (∀ i, t.xR i ≤ hi) ∧ ∀ i, t.xFrt i ≤ hi := by
  have hfr := fun i => C15_furniture_moisture Hp H i (lh_ne hw i)
  have key : ∀ i, t.xR i ≤ hi := by
    intro i
    have e := C18_balance_as_coded Hp H hk i (lh_ne hw i)
    simp only [hv, zero_mul, Finset.sum_const_zero, mul_zero, add_zero, hm.generated i, xHum_zero Hp H hk hm.people i] at e
    have hL : t.lCl i ≤ 0 := C20_only_removes_partial hw Hp H hk hl i (Or.inl fun l _ => hv i l)
    obtain ⟨q, hq, eq⟩ := frt_gives hw.dt_pos (hw.cLh_nonneg i) (hw.gLh_nonneg i) (hw.frtLh_pos i) (hfr i)
    rw [eq] at e
    have hV : 0 < 1.2 * h.vRoom i / dt := div_pos (mul_pos (by norm_num) (hw.vRoom_pos i)) hw.dt_pos
    have hvo := vOut_nonneg' hw Hp H hk hl i
    by_contra hc
    push Not at hc
    have h1 : 0 < 1.2 * h.vRoom i / dt * (t.xR i - c.xR i) := mul_pos hV (by linarith [hx i])
    have h2 : 1.2 * t.vOut i * ((data k).xO - t.xR i) ≤ 0 := mul_nonpos_of_nonneg_of_nonpos (mul_nonneg (by norm_num) hvo) (by linarith)
    have h3 : q * (c.xFrt i - t.xR i) ≤ 0 := mul_nonpos_of_nonneg_of_nonpos hq (by linarith [hxf i])
    have h4 : t.lCl i / lWtr ≤ 0 := div_nonpos_of_nonpos_of_nonneg hL lWtr_pos.le
    have h5 : 1.2 * h.vRoom i / dt * (t.xR i - c.xR i) = 1.2 * h.vRoom i * (t.xR i - c.xR i) / dt := by ring
    linarith
  refine ⟨key, fun i => ?_⟩
  have := frt_floor (lo := -hi) (x := -c.xFrt i) (y := -t.xR i) (z := -t.xFrt i) hw.dt_pos (hw.cLh_nonneg i) (hw.gLh_nonneg i) (hw.frtLh_pos i)
    (by linarith [hfr i]) (by linarith [hxf i]) (by linarith [key i])
  linarith

/-- One step, lower bound, and what the air from other rooms adds to it. -/
theorem step_humid_floor (hw : WellFormed h hR dt) (Hp : makePreCalc h hR dt data = .ok ss)
    (H : runTick n dt ss c = .ok t) (hk : pyIndex N n = .ok k) {lo : ℝ} (h0 : 0 ≤ lo) (hd : MoistRecord (data k)) (hdry : ∀ i, t.lCl i = 0)
    (ho : lo ≤ (data k).xO) (hx : ∀ i, lo ≤ c.xR i) (hxf : ∀ i, lo ≤ c.xFrt i) :
    (∀ i, lo ≤ t.xR i) ∧ (∀ i, lo ≤ t.xFrt i) ∧ ∀ i, 0 < lo → 0 < ∑ l, h.vInt i l → lo < t.xR i := by
  have hfr := fun i => C15_furniture_moisture Hp H i (lh_ne hw i)
  have hvo := vOut_nonneg' hw Hp H hk hd.localVent
  have bal : ∀ i, ∃ q, 0 ≤ q ∧ 1.2 * h.vRoom i / dt * (t.xR i - c.xR i) = 1.2 * t.vOut i * ((data k).xO - t.xR i) + 1.2 * ∑ l, h.vInt i l * t.xR l
      + q * (c.xFrt i - t.xR i) + (data k).xGen i + t.xHum i := by
    intro i
    have e := C18_balance_as_coded Hp H hk i (lh_ne hw i)
    obtain ⟨q, hq, eq⟩ := frt_gives hw.dt_pos (hw.cLh_nonneg i) (hw.gLh_nonneg i) (hw.frtLh_pos i) (hfr i)
    rw [eq, hdry i, zero_div, add_zero] at e
    exact ⟨q, hq, by rw [← e]; ring⟩
  have key : ∀ i, lo ≤ t.xR i := by
    rcases isEmpty_or_nonempty I with hI | hI
    · exact fun i => (hI.false i).elim
    obtain ⟨i, hi⟩ := Finite.exists_min t.xR
    suffices hs : lo ≤ t.xR i from fun l => hs.trans (hi l)
    by_contra hc
    push Not at hc
    obtain ⟨q, hq, e⟩ := bal i
    have hV : 0 < 1.2 * h.vRoom i / dt := div_pos (mul_pos (by norm_num) (hw.vRoom_pos i)) hw.dt_pos
    have h2 : 0 ≤ 1.2 * t.vOut i * ((data k).xO - t.xR i) := mul_nonneg (mul_nonneg (by norm_num) (hvo i)) (by linarith)
    have h3 : 0 ≤ q * (c.xFrt i - t.xR i) := mul_nonneg hq (by linarith [hxf i])
    have h4 := hd.generated i
    have h5 := xHum_nonneg Hp H hk hd.people i
    have h6 : (∑ l, h.vInt i l) * t.xR i ≤ ∑ l, h.vInt i l * t.xR l := by
      rw [Finset.sum_mul]
      exact Finset.sum_le_sum fun l _ => mul_le_mul_of_nonneg_left (hi l) (hw.vInt_nonneg i l)
    rcases le_or_gt 0 (t.xR i) with hp | hp
    · have h7 : 0 ≤ (∑ l, h.vInt i l) * t.xR i := mul_nonneg (Finset.sum_nonneg fun l _ => hw.vInt_nonneg i l) hp
      have h1 : 1.2 * h.vRoom i / dt * (t.xR i - c.xR i) < 0 := mul_neg_of_pos_of_neg hV (by linarith [hx i])
      linarith
    · have h7 : ∑ l, h.vInt i l < h.vRoom i / dt := by rw [lt_div_iff₀ hw.dt_pos]; exact hw.vInt_lt i
      have h8 : h.vRoom i / dt * t.xR i < (∑ l, h.vInt i l) * t.xR i := mul_lt_mul_of_neg_right h7 hp
      have h1 : 1.2 * h.vRoom i / dt * (t.xR i - c.xR i) ≤ 1.2 * h.vRoom i / dt * t.xR i :=
        mul_le_mul_of_nonneg_left (by linarith [hx i]) hV.le
      have h9 : 1.2 * h.vRoom i / dt * t.xR i = 1.2 * (h.vRoom i / dt * t.xR i) := by ring
      linarith
  refine ⟨key, fun i => frt_floor hw.dt_pos (hw.cLh_nonneg i) (hw.gLh_nonneg i) (hw.frtLh_pos i) (hfr i) (hxf i) (key i), fun i hlo hin => ?_⟩
  by_contra hc
  push Not at hc
  obtain ⟨q, hq, e⟩ := bal i
  have hV : 0 < 1.2 * h.vRoom i / dt := div_pos (mul_pos (by norm_num) (hw.vRoom_pos i)) hw.dt_pos
  have h1 : 1.2 * h.vRoom i / dt * (t.xR i - c.xR i) ≤ 0 := mul_nonpos_of_nonneg_of_nonpos hV.le (by linarith [hx i])
  have h2 : 0 ≤ 1.2 * t.vOut i * ((data k).xO - t.xR i) := mul_nonneg (mul_nonneg (by norm_num) (hvo i)) (by linarith)
  have h3 : 0 ≤ q * (c.xFrt i - t.xR i) := mul_nonneg hq (by linarith [hxf i])
  have h4 := hd.generated i
  have h5 := xHum_nonneg Hp H hk hd.people i
  have h6 : (∑ l, h.vInt i l) * lo ≤ ∑ l, h.vInt i l * t.xR l := by
    rw [Finset.sum_mul]
    exact Finset.sum_le_sum fun l _ => mul_le_mul_of_nonneg_left (key l) (hw.vInt_nonneg i l)
  have := mul_pos hin hlo
  linarith

/-- The moisture of a room without outdoor air, with its furniture, grows by at least what the air from other rooms brings at humidity `lo`. -/
theorem step_humid_grows (hw : WellFormed h hR dt) (hC : h.cValue = 0) (Hp : makePreCalc h hR dt data = .ok ss)
    (H : runTick n dt ss c = .ok t) (hk : pyIndex N n = .ok k) {lo : ℝ} (hd : MoistRecord (data k)) (hdem : ∀ i, (data k).acDemand i ≤ 0)
    {i : I} (hout : h.vVentEx i + (data k).vLocal i = 0) (hx : ∀ i, lo ≤ t.xR i) :
    1.2 * h.vRoom i * c.xR i + h.cLh i * c.xFrt i + dt * (1.2 * (∑ l, h.vInt i l) * lo) ≤ 1.2 * h.vRoom i * t.xR i + h.cLh i * t.xFrt i := by
  have hfr := C15_furniture_moisture Hp H i (lh_ne hw i)
  have e := C18_balance_as_coded Hp H hk i (lh_ne hw i)
  have hcap : ∀ i, 0 ≤ h.capH i ∧ 0 ≤ h.capC i := fun i => ⟨hw.capH_nonneg i, hw.capC_nonneg i⟩
  have hvo : t.vOut i = 0 := by
    obtain ⟨ivs, k', -, hs, hk', E⟩ := step_eqs Hp H
    have : k' = k := Except.ok.inj (hk'.symm.trans hk)
    subst this
    subst hs
    rw [(no_demand_tight hC hcap hdem E).2.1 i, hout]
  rw [hvo, (step_no_demand Hp H hk hcap (hdem i)).2.2, div_eq_iff hw.dt_pos.ne'] at e
  have h4 := mul_nonneg hw.dt_pos.le (hd.generated i)
  have h5 := mul_nonneg hw.dt_pos.le (xHum_nonneg Hp H hk hd.people i)
  have h6 : (∑ l, h.vInt i l) * lo ≤ ∑ l, h.vInt i l * t.xR l := by
    rw [Finset.sum_mul]
    exact Finset.sum_le_sum fun l _ => mul_le_mul_of_nonneg_left (hx l) (hw.vInt_nonneg i l)
  have h7 := mul_le_mul_of_nonneg_left h6 hw.dt_pos.le
  simp only [mul_zero, zero_mul, zero_add, zero_div, add_zero] at e
  linarith

/-- Along a run without demand. -/
theorem run_humid_grows (hw : WellFormed h hR dt) (hC : h.cValue = 0) (Hp : makePreCalc h hR dt data = .ok ss) {lo : ℝ} (h0 : 0 ≤ lo)
    (hd : ∀ k, MoistRecord (data k)) (hdem : ∀ k i, (data k).acDemand i ≤ 0) (ho : ∀ k, lo ≤ (data k).xO)
    {i : I} (hout : ∀ k, h.vVentEx i + (data k).vLocal i = 0) {ns : List ℤ} {ts : List (TickVars I J)} (H : Run ss dt c ns ts)
    (hx : ∀ i, lo ≤ c.xR i) (hxf : ∀ i, lo ≤ c.xFrt i) :
    1.2 * h.vRoom i * c.xR i + h.cLh i * c.xFrt i + ts.length * (dt * (1.2 * (∑ l, h.vInt i l) * lo))
      ≤ 1.2 * h.vRoom i * (after c ts).xR i + h.cLh i * (after c ts).xFrt i := by
  have hcap : ∀ i, 0 ≤ h.capH i ∧ 0 ≤ h.capC i := fun i => ⟨hw.capH_nonneg i, hw.capC_nonneg i⟩
  induction H with
  | nil c => simp [after]
  | cons h1 _ ih =>
    obtain ⟨k, hk⟩ := runTick_index h1
    obtain ⟨f1, f2, -⟩ := step_humid_floor hw Hp h1 hk h0 (hd k) (fun i => (step_no_demand Hp h1 hk hcap (hdem k i)).2.2) (ho k) hx hxf
    have g := step_humid_grows hw hC Hp h1 hk (hd k) (hdem k) (hout k) f1
    have := ih f1 f2
    simp only [after, List.length_cons, Nat.cast_add, Nat.cast_one]
    simp only [TickVars.next] at this ⊢
    linarith

/-- **C112 (violated), without bound.** A room that gets its air from other rooms only, and from nowhere else, becomes ever more humid: the calculation
lets moisture in with this air and none out. For every bound there is a number of steps after which the room or its furniture is above it. -/
theorem C112_unbounded_violated (hw : WellFormed h hR dt) (hC : h.cValue = 0) (Hp : makePreCalc h hR dt data = .ok ss) {lo : ℝ} (h0 : 0 < lo)
    (hd : ∀ k, MoistRecord (data k)) (hdem : ∀ k i, (data k).acDemand i ≤ 0) (ho : ∀ k, lo ≤ (data k).xO) {i : I} (hin : 0 < ∑ l, h.vInt i l)
    (hout : ∀ k, h.vVentEx i + (data k).vLocal i = 0) (hx : ∀ i, lo ≤ c.xR i) (hxf : ∀ i, lo ≤ c.xFrt i) (B : ℝ) :
    ∃ K : ℕ, ∀ ns ts, Run ss dt c ns ts → K ≤ ns.length → B < (after c ts).xR i ∨ B < (after c ts).xFrt i := by
  have hV : 0 < 1.2 * h.vRoom i := mul_pos (by norm_num) (hw.vRoom_pos i)
  have hq : 0 < dt * (1.2 * (∑ l, h.vInt i l) * lo) := mul_pos hw.dt_pos (mul_pos (mul_pos (by norm_num) hin) h0)
  obtain ⟨K, hK⟩ := exists_nat_gt ((1.2 * h.vRoom i + h.cLh i) * B / (dt * (1.2 * (∑ l, h.vInt i l) * lo)))
  refine ⟨K, fun ns ts H hn => ?_⟩
  by_contra hc
  push Not at hc
  have g := run_humid_grows hw hC Hp h0.le hd hdem ho hout H hx hxf
  rw [H.length_eq] at g
  rw [div_lt_iff₀ hq] at hK
  have h1 : (K : ℝ) * (dt * (1.2 * (∑ l, h.vInt i l) * lo)) ≤ ns.length * (dt * (1.2 * (∑ l, h.vInt i l) * lo)) :=
    mul_le_mul_of_nonneg_right (by exact_mod_cast hn) hq.le
  have h2 := mul_le_mul_of_nonneg_left hc.1 hV.le
  have h3 := mul_le_mul_of_nonneg_left hc.2 (hw.cLh_nonneg i)
  have h4 : 0 ≤ 1.2 * h.vRoom i * c.xR i := mul_nonneg hV.le (h0.le.trans (hx i))
  have h5 : 0 ≤ h.cLh i * c.xFrt i := mul_nonneg (hw.cLh_nonneg i) (h0.le.trans (hxf i))
  linarith

end

section
variable {I : Type} [Fintype I] [DecidableEq I] {m N : ℕ} {h : House I (Fin m)} {hR : Fin m → ℝ} {data : Fin N → Record I (Fin m)}
  {hourly dMain dRunUp dRunUpBuild : ℤ} {r : CalcResult I m N}

theorem startHumidity_eq : getX (getPvs 20 * 0.4) = startHumidity := by
  unfold getX startHumidity getF
  rw [mul_comm (getPvs 20)]

theorem startHumidity_pos : 0 < startHumidity := by rw [← startHumidity_eq]; exact initial_humidity_pos

/-- Rows of the log inherit what every step preserves of the humidities. -/
theorem log_humid (H : coreCalc h hR data hourly dMain dRunUp dRunUpBuild = .ok r) {P : ℝ → Prop} (h0 : P startHumidity)
    (hs : ∀ n c t k, (∀ i, P (c.xR i)) → (∀ i, P (c.xFrt i)) → runTick n (3600 / (hourly : ℝ)) r.ss c = .ok t → pyIndex N n = .ok k →
      StepOf r hourly dMain dRunUpBuild t → (∀ i, P (t.xR i)) ∧ ∀ i, P (t.xFrt i)) (k : Fin r.nMain.toNat) :
    ∃ n c t, (∀ i, P (c.xR i)) ∧ (∀ i, P (c.xFrt i)) ∧ runTick n (3600 / (hourly : ℝ)) r.ss c = .ok t ∧ StepOf r hourly dMain dRunUpBuild t ∧
      r.log k = LogRow.ofTick t := by
  obtain ⟨gs, c0, up, mn, T⟩ := coreCalc_ok H
  have hk : (k : ℕ) < mn.length := by rw [T.mn_length]; exact k.isLt
  obtain ⟨-, e1, e2⟩ := updateByGround_fields T.start
  have hrun := T.runUp.append T.main
  have hst : ∀ t ∈ up ++ mn, StepOf r hourly dMain dRunUpBuild t := fun t ht => ⟨c0, _, T.start, hrun, ht⟩
  have key : ∀ {c : Cond I (Fin m)} {ns : List ℤ} {ts : List (TickVars I (Fin m))}, Run r.ss (3600 / (hourly : ℝ)) c ns ts →
      (∀ t ∈ ts, StepOf r hourly dMain dRunUpBuild t) → (∀ i, P (c.xR i)) → (∀ i, P (c.xFrt i)) →
      ∀ t ∈ ts, ∃ n c', (∀ i, P (c'.xR i)) ∧ (∀ i, P (c'.xFrt i)) ∧ runTick n (3600 / (hourly : ℝ)) r.ss c' = .ok t := by
    intro c ns ts hr
    induction hr with
    | nil => intro _ _ _ t ht; simp at ht
    | cons h1 _ ih =>
      intro hst hx hxf t' ht
      obtain ⟨k, hk⟩ := runTick_index h1
      obtain ⟨a, b⟩ := hs _ _ _ k hx hxf h1 hk (hst _ (by simp))
      rcases List.mem_cons.1 ht with rfl | ht
      · exact ⟨_, _, hx, hxf, h1⟩
      · exact ih (fun t ht => hst t (by simp [ht])) a b t' ht
  have hm : mn[(k : ℕ)] ∈ up ++ mn := List.mem_append_right _ (List.getElem_mem hk)
  obtain ⟨n, c', a, b, h1⟩ := key hrun hst (fun i => by rw [e1]; show P (getX (getPvs 20 * 0.4)); rwa [startHumidity_eq])
    (fun i => by rw [e2]; show P (getX (getPvs 20 * 0.4)); rwa [startHumidity_eq])
    mn[(k : ℕ)] hm
  exact ⟨n, c', _, a, b, h1, hst _ hm, T.logged k hk⟩

/-- **C112 (upper bound, partial: no air flow between rooms).** Without moisture sources no humidity of the results is above the highest of the outdoor
humidities and the humidity at the start, whatever the house, the temperatures, heating and cooling. -/
theorem C112_ceiling_partial (hw : WellFormed h hR (3600 / (hourly : ℝ))) (hv : ∀ i l, h.vInt i l = 0)
    (H : coreCalc h hR data hourly dMain dRunUp dRunUpBuild = .ok r) {hi : ℝ} (h0 : startHumidity ≤ hi)
    (hd : ∀ k, (data k).xO ≤ hi ∧ (∀ i, 0 ≤ (data k).vLocal i) ∧ NoMoisture (data k)) (k : Fin r.nMain.toNat) :
    RowHumid (· ≤ hi) (r.log k) := by
  have hpre : makePreCalc h hR (3600 / (hourly : ℝ)) data = .ok r.ss := by obtain ⟨gs, c0, up, mn, T⟩ := coreCalc_ok H; exact T.pre
  have step : ∀ n c t k, (∀ i, c.xR i ≤ hi) → (∀ i, c.xFrt i ≤ hi) → runTick n (3600 / (hourly : ℝ)) r.ss c = .ok t → pyIndex N n = .ok k →
      (∀ i, t.xR i ≤ hi) ∧ ∀ i, t.xFrt i ≤ hi := fun n c t k hx hxf ht hk =>
    step_humid_ceiling hw hv hpre ht hk (hd k).2.1 (hd k).2.2 (hd k).1 hx hxf
  obtain ⟨n, c, t, a, b, ht, -, el⟩ := log_humid H (P := (· ≤ hi)) h0 (fun n c t k hx hxf ht hk _ => step n c t k hx hxf ht hk) k
  obtain ⟨k', hk'⟩ := runTick_index ht
  rw [el]
  exact step n c t k' a b ht hk'

/-- **C112 (lower bound).** While no room is cooled, no humidity of the results is below the lowest of the outdoor humidities and the humidity at the
start, with any moisture sources and air flows between rooms. -/
theorem C112_floor (hw : WellFormed h hR (3600 / (hourly : ℝ))) (H : coreCalc h hR data hourly dMain dRunUp dRunUpBuild = .ok r) {lo : ℝ}
    (hlo : 0 ≤ lo) (h0 : lo ≤ startHumidity) (hd : ∀ k, lo ≤ (data k).xO ∧ MoistRecord (data k))
    (hcool : ∀ t, StepOf r hourly dMain dRunUpBuild t → ∀ i, 0 ≤ t.lc i) (k : Fin r.nMain.toNat) : RowHumid (lo ≤ ·) (r.log k) := by
  have hpre : makePreCalc h hR (3600 / (hourly : ℝ)) data = .ok r.ss := by obtain ⟨gs, c0, up, mn, T⟩ := coreCalc_ok H; exact T.pre
  have step : ∀ n c t k, (∀ i, lo ≤ c.xR i) → (∀ i, lo ≤ c.xFrt i) → runTick n (3600 / (hourly : ℝ)) r.ss c = .ok t → pyIndex N n = .ok k →
      StepOf r hourly dMain dRunUpBuild t → (∀ i, lo ≤ t.xR i) ∧ ∀ i, lo ≤ t.xFrt i := fun n c t k hx hxf ht hk hst =>
    have := step_humid_floor hw hpre ht hk hlo (hd k).2 (fun i => C20_only_when_cooled hpre ht i (by linarith [hcool t hst i])) (hd k).1 hx hxf
    ⟨this.1, this.2.1⟩
  obtain ⟨n, c, t, a, b, ht, hst, el⟩ := log_humid H (P := (lo ≤ ·)) h0 step k
  obtain ⟨k', hk'⟩ := runTick_index ht
  rw [el]
  exact step n c t k' a b ht hk' hst

/-- **C112 (violated) by air flow between rooms.** With the humidity of the start outdoors as well, no sources and no cooling, every row of the results
has every room that gets air from another room above this humidity. -/
theorem C112_inflow_violated (hw : WellFormed h hR (3600 / (hourly : ℝ))) (H : coreCalc h hR data hourly dMain dRunUp dRunUpBuild = .ok r)
    (hd : ∀ k, (data k).xO = startHumidity ∧ NoMoisture (data k) ∧ (∀ i, 0 ≤ (data k).vLocal i))
    (hcool : ∀ t, StepOf r hourly dMain dRunUpBuild t → ∀ i, 0 ≤ t.lc i) {i : I} (hin : 0 < ∑ l, h.vInt i l) (k : Fin r.nMain.toNat) :
    startHumidity < (r.log k).xR i := by
  have hpre : makePreCalc h hR (3600 / (hourly : ℝ)) data = .ok r.ss := by obtain ⟨gs, c0, up, mn, T⟩ := coreCalc_ok H; exact T.pre
  have hm : ∀ k, MoistRecord (data k) := fun k =>
    ⟨by rw [(hd k).1]; exact startHumidity_pos.le, fun i => ((hd k).2.1.generated i).ge, fun i => ((hd k).2.1.people i).ge, (hd k).2.2⟩
  have step := fun n c t k (hx : ∀ i, startHumidity ≤ c.xR i) (hxf : ∀ i, startHumidity ≤ c.xFrt i) (ht : runTick n (3600 / (hourly : ℝ)) r.ss c = .ok t)
      (hk : pyIndex N n = .ok k) (hst : StepOf r hourly dMain dRunUpBuild t) =>
    step_humid_floor hw hpre ht hk startHumidity_pos.le (hm k) (fun i => C20_only_when_cooled hpre ht i (by linarith [hcool t hst i])) (hd k).1.ge hx hxf
  obtain ⟨n, c, t, a, b, ht, hst, el⟩ := log_humid H (P := (startHumidity ≤ ·)) le_rfl
    (fun n c t k hx hxf ht hk hst => ⟨(step n c t k hx hxf ht hk hst).1, (step n c t k hx hxf ht hk hst).2.1⟩) k
  obtain ⟨k', hk'⟩ := runTick_index ht
  rw [el]
  exact (step n c t k' a b ht hk' hst).2.2 i startHumidity_pos hin

end

/-! ## Concrete cases -/

/-- A day without sources, with the humidity of the start outdoors. -/
noncomputable def exMild : Fin 96 → Record (Fin 2) (Fin 4) := fun k => { exIdle k with xO := startHumidity, xGen := fun _ => 0, vLocal := fun _ => 0 }

/-- The hypotheses of C112 are met by a day of the house of panels, without and with air flow from room 0 to room 1. -/
example (v : ℝ) (hv : v = 0 ∨ v = 0.01) : ∃ r, coreCalc (exPanels v) exHR exMild 4 1 1 1 = .ok r ∧ r.nMain.toNat = 96 ∧
    WellFormed (exPanels v) exHR (3600 / ((4 : ℤ) : ℝ)) ∧ (v = 0 → ∀ i l, (exPanels v).vInt i l = 0) ∧ (v = 0.01 → 0 < ∑ l, (exPanels v).vInt 1 l) ∧
    (∀ k, (exMild k).xO = startHumidity ∧ NoMoisture (exMild k) ∧ (∀ i, 0 ≤ (exMild k).vLocal i)) ∧ (∀ k, MoistRecord (exMild k)) ∧
    (∀ t, StepOf r 4 1 1 t → ∀ i, 0 ≤ t.lc i) := by
  have e4 : (3600 / ((4 : ℤ) : ℝ)) = 900 := by norm_num
  have hw : WellFormed (exPanels v) exHR (3600 / ((4 : ℤ) : ℝ)) := by rw [e4]; exact exPanels_wellFormed (by rcases hv with rfl | rfl <;> norm_num)
  obtain ⟨r, hr⟩ := C21_program_partial (data := exMild) (dMain := 1) (dRunUp := 1) (dRunUpBuild := 1) hw (fun _ => rfl) (fun _ => rfl)
    (fun _ _ => le_rfl) (by norm_num) (by norm_num) (by norm_num) le_rfl (by norm_num) (by norm_num)
  obtain ⟨gs, c0, up, mn, T⟩ := coreCalc_ok hr
  refine ⟨r, hr, by rw [T.nMain_eq]; rfl, hw, ?_, ?_, fun k => ⟨rfl, ⟨fun _ => rfl, fun _ => rfl⟩, fun _ => le_rfl⟩,
    fun k => ⟨startHumidity_pos.le, fun _ => le_rfl, fun _ => le_rfl, fun _ => le_rfl⟩, ?_⟩
  · rintro rfl i l
    fin_cases i <;> fin_cases l <;> simp [exPanels]
  · rintro rfl
    simp [exPanels, Fin.sum_univ_two]
    norm_num
  · rintro t ⟨c, ts, -, hrun, ht⟩ i
    obtain ⟨p, hp, e⟩ := List.mem_iff_getElem.mp ht
    obtain ⟨c', h1⟩ := run_at hrun p (by rw [← hrun.length_eq]; exact hp) hp
    rw [e] at h1
    obtain ⟨k, hk⟩ := runTick_index h1
    exact (step_no_demand T.pre h1 hk (fun i => ⟨hw.capH_nonneg i, hw.capC_nonneg i⟩) (i := i) le_rfl).1.ge

/-- The house of panels with tight walls, where room 1 gets all its air from room 0. -/
noncomputable def exStuffy : House (Fin 2) (Fin 4) := { exPanels 0.01 with cValue := 0 }

theorem exStuffy_wellFormed : WellFormed exStuffy exHR 900 :=
  { exPanels_wellFormed (v := 0.01) (by norm_num) with }

/-- The hypotheses of `C112_unbounded_violated` are met, and there are runs of any length. -/
example (B : ℝ) : ∃ ss ns ts, makePreCalc exStuffy exHR 900 exMild = .ok ss ∧ Run ss 900 (initialConditions (Fin 2) (Fin 4)) ns ts ∧
    (B < (after (initialConditions (Fin 2) (Fin 4)) ts).xR 1 ∨ B < (after (initialConditions (Fin 2) (Fin 4)) ts).xFrt 1) := by
  have hw := exStuffy_wellFormed
  obtain ⟨ss, -, Hp, -⟩ := C21_step_completes_partial (c := initialConditions (Fin 2) (Fin 4)) (data := exMild) (n := 0) hw
    (fun _ => rfl) (fun _ => rfl) (fun _ _ => le_rfl) (fun i => by simp [initialConditions, initialMode]) (by norm_num)
  have hx : (initialConditions (Fin 2) (Fin 4)).xR = fun _ => startHumidity := by
    funext i; show getX (getPvs 20 * 0.4) = _; rw [startHumidity_eq]
  have hxf : (initialConditions (Fin 2) (Fin 4)).xFrt = fun _ => startHumidity := by
    funext i; show getX (getPvs 20 * 0.4) = _; rw [startHumidity_eq]
  obtain ⟨K, hK⟩ := C112_unbounded_violated (c := initialConditions (Fin 2) (Fin 4)) (i := 1) hw rfl Hp startHumidity_pos
    (fun k => ⟨startHumidity_pos.le, fun _ => le_rfl, fun _ => le_rfl, fun _ => le_rfl⟩) (fun _ _ => le_rfl) (fun _ => le_rfl)
    (by simp [exStuffy, exPanels, Fin.sum_univ_two]; norm_num) (fun k => by simp [exStuffy, exPanels, exHouse, exMild])
    (fun i => by rw [hx]) (fun i => by rw [hxf]) B
  obtain ⟨ts, H, -⟩ := run_exists (ss := ss) (dt := 900) (P := fun c => ∀ i, Legal (c.mode i)) (ns := List.replicate K 0)
    (c := initialConditions (Fin 2) (Fin 4)) initial_legal (fun n hn c hc => by
      have hn : n = 0 := List.eq_of_mem_replicate hn
      subst hn
      obtain ⟨ss', t, Hp', ht⟩ := C21_step_completes_partial (c := c) (data := exMild) (n := 0) hw
        (fun _ => rfl) (fun _ => rfl) (fun _ _ => le_rfl) (fun i h => by have := hc i; rw [h] at this; simp [Legal] at this) (by norm_num)
      cases Hp'.symm.trans Hp
      obtain ⟨k, hk⟩ := runTick_index ht
      exact ⟨t, ht, fun i => (step_mode Hp ht hk hc i).1⟩)
  exact ⟨ss, _, ts, Hp, H, hK _ _ H (by simp)⟩

end HLC
