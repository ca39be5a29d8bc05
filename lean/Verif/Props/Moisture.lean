import Verif.Props.Balance
import Verif.Props.Psychro
import Verif.Props.Equilibrium
import Verif.Lemmas.Run
import Verif.Spec.Moisture

/-!
# C19, C20, C18 (violated): humidity and dehumidification
-/

namespace HLC

set_option linter.unusedSectionVars false

variable {I J : Type} [Fintype I] [DecidableEq I] [Fintype J] [DecidableEq J] {N : ℕ}

open Spec

variable {h : House I J} {hR : J → ℝ} {dt : ℝ} {data : Fin N → Record I J} {ss : PreCalc I J N} {n : ℤ} {k : Fin N}
  {c : Cond I J} {t : TickVars I J}

theorem rhoAir_pos : (0 : ℝ) < rhoAir := by unfold rhoAir; norm_num

theorem lWtr_pos : (0 : ℝ) < lWtr := by unfold lWtr; norm_num

theorem xHumPsn_nonneg (θ : ℝ) : 0 ≤ xHumPsn θ := by
  unfold xHumPsn qHumPsn
  apply div_nonneg _ lWtr_pos.le
  have := min_le_right (63 - 4 * (θ - 24)) 119
  linarith

theorem getVac_pos {s : RacSpec} (h1 : s.qMin < s.qMax) (h2 : s.vMax * s.qMin ≤ s.vMin * s.qMax) (hf : s.vMin < s.vMax) {q : ℝ}
    (hq : 0 < q) : (s.vMax - s.vMin) / (s.qMax - s.qMin) * q ≤ 60 * getVac s q ∧ 0 < getVac s q := by
  have hd : 0 < s.qMax - s.qMin := by linarith
  have e : 60 * getVac s q = (s.vMin * s.qMax - s.vMax * s.qMin) / (s.qMax - s.qMin) + (s.vMax - s.vMin) / (s.qMax - s.qMin) * q := by
    unfold getVac; field_simp; ring
  have h3 : 0 ≤ (s.vMin * s.qMax - s.vMax * s.qMin) / (s.qMax - s.qMin) := div_nonneg (by linarith) hd.le
  have h4 : 0 < (s.vMax - s.vMin) / (s.qMax - s.qMin) * q := mul_pos (div_pos (by linarith) hd) hq
  constructor <;> linarith

/-- The coil cools the air by at most 100 K. -/
theorem coil_drop {s : RacSpec} (h1 : s.qMin < s.qMax) (h2 : s.vMax * s.qMin ≤ s.vMin * s.qMax) (hv : FanKeepsUp s)
    {q : ℝ} (hq : 0 < q) : 0 ≤ q / (cAir * rhoAir * getVac s q * (1 - bypass)) ∧
      q / (cAir * rhoAir * getVac s q * (1 - bypass)) ≤ 100 := by
  have hc : cAir * rhoAir * getVac s q * (1 - bypass) = 1206 * 0.8 * getVac s q := by
    unfold cAir rhoAir bypass; ring
  unfold FanKeepsUp at hv
  have hf : s.vMin < s.vMax := by
    have : 0 < 100 * (1206 * 0.8) * (s.vMax - s.vMin) := by linarith
    nlinarith
  obtain ⟨h3, h4⟩ := getVac_pos h1 h2 hf hq
  rw [hc]
  have hd : 0 < s.qMax - s.qMin := by linarith
  refine ⟨by positivity, ?_⟩
  rw [div_le_iff₀ (by positivity)]
  have h5 : 60 * q ≤ 100 * (1206 * 0.8) * ((s.vMax - s.vMin) / (s.qMax - s.qMin) * q) := by
    have e : 100 * (1206 * 0.8) * ((s.vMax - s.vMin) / (s.qMax - s.qMin) * q)
        = (100 * (1206 * 0.8) * (s.vMax - s.vMin)) * q / (s.qMax - s.qMin) := by ring
    rw [e, le_div_iff₀ hd]
    nlinarith
  nlinarith

/-- The saturation humidity at the coil outlet is non-negative for ordinary room temperatures. -/
theorem xeOut_nonneg {s : RacSpec} (h1 : s.qMin < s.qMax) (h2 : s.vMax * s.qMin ≤ s.vMin * s.qMax) (hv : FanKeepsUp s)
    {q θ : ℝ} (hq : 0 < q) (hθ : -150 < θ ∧ θ ≤ 90) : 0 ≤ getXeOut q θ (getVac s q) := by
  unfold getXeOut
  obtain ⟨d1, d2⟩ := coil_drop h1 h2 hv hq
  set d := q / (cAir * rhoAir * getVac s q * (1 - bypass)) with hd
  have a1 : -273.15 < θ - d := by norm_num; linarith [hθ.1]
  have a2 : θ - d ≤ 90 := by linarith [hθ.2]
  have := pvs_lt_atm a1 a2
  have h0 := C54_saturation_positive (θ - d)
  unfold getX getF
  apply div_nonneg <;> linarith

/-- Outside-air flow is non-negative on well-formed houses. -/
theorem vOut_nonneg (hw : WellFormed h hR dt) {ivs : Matrix J J ℝ} (hl : ∀ i, 0 ≤ (data k).vLocal i)
    (e : TickEqs (preCalcOf h hR dt data ivs) dt k c t) (i : I) : 0 ≤ t.vOut i := by
  have h1 := infiltration_nonneg e.vLeak i (hw.vRoom_pos i).le
  have h2 : 0 ≤ t.vNtrl i := by
    rw [e.vNtrl]; unfold Tick.vNtrl; split_ifs
    · exact hw.vNtrl_nonneg i
    · exact le_rfl
  have h3 : 0 ≤ (preCalcOf h hR dt data ivs).vMec k i := add_nonneg (hw.vVentEx_nonneg i) (hl i)
  rw [e.vOut]; unfold Tick.vOut
  linarith

/-- What the coil does in one room of a completed step: nothing, or it blows air of humidity `xe` into the room. -/
theorem rac_cases (h : House I J) (lc θ x : ℝ) (i : I) :
    ((getDehumidCoeff lc θ (h.rac i) x).brmx = 0 ∧ (getDehumidCoeff lc θ (h.rac i) x).brxc = 0) ∨
    (lc < -0.001 ∧ ∃ xe, xe = getXeOut (-lc) θ (getVac (h.rac i) (-lc)) ∧ xe ≤ x ∧
      (getDehumidCoeff lc θ (h.rac i) x).brxc = (getDehumidCoeff lc θ (h.rac i) x).brmx * xe) := by
  by_cases hq : -lc > 0.001
  · by_cases hx : getXeOut (-lc) θ (getVac (h.rac i) (-lc)) > x
    · left
      unfold getDehumidCoeff
      simp [hq, hx]
    · right
      refine ⟨by linarith, _, rfl, not_lt.mp hx, ?_⟩
      unfold getDehumidCoeff
      simp [hq, hx]
  · left
    unfold getDehumidCoeff
    simp [hq]

/-- **C19 (one step).** On a well-formed house, with non-negative outdoor humidity, moisture gains and previous humidities, and with
room temperatures between -150 and 90 degC where the air conditioner cools, no room and no furniture humidity becomes negative, and a
positive room (and furniture) humidity stays positive. -/
theorem C19_step (hw : WellFormed h hR dt) (hfan : ∀ i, FanKeepsUp (h.rac i))
    (Hp : makePreCalc h hR dt data = .ok ss) (H : runTick n dt ss c = .ok t) (hk : pyIndex N n = .ok k)
    (hd : MoistRecord (data k)) (hx : ∀ i, 0 ≤ c.xR i) (hxf : ∀ i, 0 ≤ c.xFrt i)
    (hθ : ∀ i, t.lc i < -0.001 → -150 < t.thetaR i ∧ t.thetaR i ≤ 90) :
    (∀ i, 0 ≤ t.xR i) ∧ (∀ i, 0 ≤ t.xFrt i) ∧ (∀ i, 0 ≤ t.xNonDh i) ∧
    ∀ i, 0 < c.xR i → 0 < t.xR i ∧ (0 < c.xFrt i → 0 < t.xFrt i) := by
  obtain ⟨ivs, k', hi, hs, hk', e⟩ := step_eqs Hp H
  have : k' = k := Except.ok.inj (hk'.symm.trans hk)
  subst this
  subst hs
  have hvo := vOut_nonneg hw hd.localVent e
  have hb' : ∀ i, 0 ≤ t.brxcNonDh i ∧ (0 < c.xR i → 0 < t.brxcNonDh i) := by
    intro i
    rw [e.brxcNonDh]
    have a1 : 0 ≤ h.vRoom i / dt * c.xR i := mul_nonneg (div_nonneg (hw.vRoom_pos i).le hw.dt_pos.le) (hx i)
    have a2 : 0 ≤ t.vOut i * (data k').xO := mul_nonneg (hvo i) hd.outdoor
    have a3 := mul_nonneg (latent_nonneg hw i) (hxf i)
    have a4 : 0 ≤ t.xHum i := by
      rw [e.xHum]; exact mul_nonneg (xHumPsn_nonneg _) (hd.people i)
    have a5 := mul_nonneg rhoAir_pos.le (add_nonneg a1 a2)
    have a6 := hd.generated i
    simp only [Tick.brxcNonDh, preCalcOf]
    refine ⟨by linarith, fun hpos => ?_⟩
    have a7 : 0 < h.vRoom i / dt * c.xR i := mul_pos (div_pos (hw.vRoom_pos i) hw.dt_pos) hpos
    have a8 : 0 < rhoAir * (h.vRoom i / dt * c.xR i + t.vOut i * (data k').xO) := mul_pos rhoAir_pos (by linarith)
    linarith
  have hb : ∀ i, 0 ≤ t.brxcNonDh i := fun i => (hb' i).1
  have z0 : ZDominant t.brmxNonDh := by
    have := brmx_zdominant (data := data) (ivs := ivs) hw hvo (r := fun _ => 0) (fun _ => le_rfl)
    rw [e.brmxNonDh]
    have e0 : (Matrix.diagonal fun _ : I => (0 : ℝ)) = 0 := Matrix.diagonal_zero
    rw [e0, add_zero] at this
    exact this
  have hnon : ∀ i, 0 ≤ t.xNonDh i := z0.nonneg fun i _ => by rw [e.xNonDh.2]; exact hb i
  have hr0 : ∀ i, 0 ≤ (t.rac i).brmx := fun i => by rw [e.rac]; exact rac_brmx_nonneg hw _ _ _ i
  have hrx : ∀ i, 0 ≤ (t.rac i).brxc := by
    intro i
    have hr := hr0 i
    rw [e.rac] at hr ⊢
    simp only [Tick.rac, preCalcOf] at hr ⊢
    rcases rac_cases h (t.lc i) (t.thetaR i) (t.xNonDh i) i with ⟨-, h2⟩ | ⟨hl, xe, hxe, -, h2⟩
    · rw [h2]
    · rw [h2]
      apply mul_nonneg hr
      rw [hxe]
      exact xeOut_nonneg (hw.rac_q i) (hw.rac_fan i) (hfan i) (by norm_num at hl ⊢; linarith) (hθ i hl)
  have z1 : ZDominant (Tick.brmx t.brmxNonDh t.rac) := by
    have := brmx_zdominant (data := data) (ivs := ivs) hw hvo (r := fun i => (t.rac i).brmx) hr0
    rw [Tick.brmx, e.brmxNonDh]
    exact this
  have hxR : ∀ i, 0 ≤ t.xR i := z1.nonneg fun i _ => by
    rw [e.xR.2]; exact add_nonneg (hb i) (hrx i)
  have hxF : ∀ i, t.xFrt i = (h.cLh i * c.xFrt i + dt * h.gLh i * t.xR i) / (h.cLh i + dt * h.gLh i) := by
    intro i
    rw [e.xFrt]
    rfl
  refine ⟨hxR, ?_, hnon, ?_⟩
  · intro i
    rw [hxF]
    apply div_nonneg
    · exact add_nonneg (mul_nonneg (hw.cLh_nonneg i) (hxf i))
        (mul_nonneg (mul_nonneg hw.dt_pos.le (hw.gLh_nonneg i)) (hxR i))
    · exact add_nonneg (hw.cLh_nonneg i) (mul_nonneg hw.dt_pos.le (hw.gLh_nonneg i))
  · intro i hxi
    have hpos : 0 < t.xR i := by
      rcases lt_or_eq_of_le (hxR i) with h1 | h1
      · exact h1
      exfalso
      have h2 : (Tick.brmx t.brmxNonDh t.rac).mulVec t.xR i = t.brxcNonDh i + (t.rac i).brxc := congrFun e.xR.2 i
      have h3 : (Tick.brmx t.brmxNonDh t.rac).mulVec t.xR i ≤ 0 := by
        simp only [Matrix.mulVec, dotProduct]
        apply Finset.sum_nonpos
        intro l _
        by_cases hil : i = l
        · subst hil; rw [← h1]; simp
        · exact mul_nonpos_of_nonpos_of_nonneg (z1.offDiag i l hil) (hxR l)
      have := (hb' i).2 hxi
      have := hrx i
      linarith
    refine ⟨hpos, fun hxfi => ?_⟩
    rw [hxF]
    have g1 := hw.cLh_nonneg i
    have g2 := mul_nonneg hw.dt_pos.le (hw.gLh_nonneg i)
    rcases lt_or_eq_of_le g1 with g3 | g3
    · have := mul_pos g3 hxfi
      have := mul_nonneg g2 hpos.le
      apply div_pos <;> linarith
    · have g4 : 0 < h.gLh i := by have := hw.frtLh_pos i; linarith
      have g5 := mul_pos hw.dt_pos g4
      have := mul_pos g5 hpos
      have := mul_nonneg g1 hxfi.le
      apply div_pos <;> linarith

/-- Existence of the record read by a completed step. -/
theorem runTick_index (H : runTick n dt ss c = .ok t) : ∃ k, pyIndex N n = .ok k := by
  obtain ⟨k, hk, -⟩ := runTick_ok H
  exact ⟨k, hk⟩

/-- **C19.** Humidities never become negative, for ever: along any run of any length, starting from non-negative humidities, every room
and furniture humidity after every step is non-negative. -/
theorem C19_humidity_nonneg (hw : WellFormed h hR dt) (hfan : ∀ i, FanKeepsUp (h.rac i))
    (Hp : makePreCalc h hR dt data = .ok ss) (hd : ∀ k, MoistRecord (data k))
    {ns : List ℤ} {ts : List (TickVars I J)} (H : Run ss dt c ns ts) (hx : ∀ i, 0 ≤ c.xR i) (hxf : ∀ i, 0 ≤ c.xFrt i)
    (hθ : ∀ t ∈ ts, ∀ i, t.lc i < -0.001 → -150 < t.thetaR i ∧ t.thetaR i ≤ 90) :
    ∀ t ∈ ts, ∀ i, 0 ≤ t.xR i ∧ 0 ≤ t.xFrt i := by
  have := (Run.invariant (P := fun c => ∀ i, 0 ≤ c.xR i ∧ 0 ≤ c.xFrt i)
    (Q := fun _ t => ∀ i, t.lc i < -0.001 → -150 < t.thetaR i ∧ t.thetaR i ≤ 90) H (fun i => ⟨hx i, hxf i⟩)
    (fun n _ c t hc ht hq => ?_) (fun p hp => hθ p.2 (List.of_mem_zip hp).2)).2
  · exact this
  · obtain ⟨k, hk⟩ := runTick_index ht
    obtain ⟨a, b, -⟩ := C19_step hw hfan Hp ht hk (hd k) (fun i => (hc i).1) (fun i => (hc i).2) hq
    exact fun i => ⟨a i, b i⟩

/-- **C19 (strict).** Along any run from positive humidities every room and furniture humidity stays positive. -/
theorem C19_humidity_pos (hw : WellFormed h hR dt) (hfan : ∀ i, FanKeepsUp (h.rac i))
    (Hp : makePreCalc h hR dt data = .ok ss) (hd : ∀ k, MoistRecord (data k))
    {ns : List ℤ} {ts : List (TickVars I J)} (H : Run ss dt c ns ts) (hx : ∀ i, 0 < c.xR i) (hxf : ∀ i, 0 < c.xFrt i)
    (hθ : ∀ t ∈ ts, ∀ i, t.lc i < -0.001 → -150 < t.thetaR i ∧ t.thetaR i ≤ 90) :
    ∀ t ∈ ts, ∀ i, 0 < t.xR i ∧ 0 < t.xFrt i := by
  have := (Run.invariant (P := fun c => ∀ i, 0 < c.xR i ∧ 0 < c.xFrt i)
    (Q := fun _ t => ∀ i, t.lc i < -0.001 → -150 < t.thetaR i ∧ t.thetaR i ≤ 90) H (fun i => ⟨hx i, hxf i⟩)
    (fun n _ c t hc ht hq => ?_) (fun p hp => hθ p.2 (List.of_mem_zip hp).2)).2
  · exact this
  · obtain ⟨k, hk⟩ := runTick_index ht
    obtain ⟨-, -, -, a⟩ := C19_step hw hfan Hp ht hk (hd k) (fun i => (hc i).1.le) (fun i => (hc i).2.le) hq
    exact fun i => ⟨(a i (hc i).1).1, (a i (hc i).1).2 (hc i).2⟩

/-- The program's initial humidity is positive. -/
theorem initial_humidity_pos : 0 < getX (getPvs 20 * 0.4) := by
  have h1 := C54_saturation_positive 20
  have h2 := pvs_lt_atm (θ := 20) (by norm_num) (by norm_num)
  unfold getX getF
  apply div_pos <;> linarith

/-- **C20 (no coil without convective cooling).** The latent load is zero in a room whose convective load is not below -0.001 W. -/
theorem C20_only_when_cooled (Hp : makePreCalc h hR dt data = .ok ss) (H : runTick n dt ss c = .ok t) (i : I)
    (hl : -0.001 ≤ t.lc i) : t.lCl i = 0 := by
  obtain ⟨ivs, k', hi, hs, hk', e⟩ := step_eqs Hp H
  rw [e.lCl]
  simp only [Tick.lCl, Matrix.mulVec_diagonal]
  have hr : (t.rac i).brmx = 0 ∧ (t.rac i).brxc = 0 := by
    rw [e.rac]
    simp only [Tick.rac, getDehumidCoeff]
    have hq : ¬ (-t.lc i > 0.001) := by linarith
    simp [hq]
  rw [hr.1, hr.2]
  simp

/-- **C20 (partial).** The latent load of a room is never positive if no air comes in from other rooms, or if no other room is
convectively cooled in this step. Missing: cooled rooms with inflow from other cooled rooms, where it fails (`C20_violated`). -/
theorem C20_only_removes_partial (hw : WellFormed h hR dt)
    (Hp : makePreCalc h hR dt data = .ok ss) (H : runTick n dt ss c = .ok t) (hk : pyIndex N n = .ok k)
    (hd : ∀ i, 0 ≤ (data k).vLocal i) (i : I)
    (hone : (∀ l, l ≠ i → h.vInt i l = 0) ∨ (∀ l, l ≠ i → -0.001 ≤ t.lc l)) : t.lCl i ≤ 0 := by
  obtain ⟨ivs, k', hi, hs, hk', e⟩ := step_eqs Hp H
  have : k' = k := Except.ok.inj (hk'.symm.trans hk)
  subst this
  subst hs
  have hvo := vOut_nonneg hw hd e
  have hr0 : ∀ i, 0 ≤ (t.rac i).brmx := fun i => by rw [e.rac]; exact rac_brmx_nonneg hw _ _ _ i
  rw [e.lCl]
  simp only [Tick.lCl, Matrix.mulVec_diagonal]
  have hcase := rac_cases h (t.lc i) (t.thetaR i) (t.xNonDh i) i
  have hrac : t.rac i = getDehumidCoeff (t.lc i) (t.thetaR i) (h.rac i) (t.xNonDh i) := by rw [e.rac]; rfl
  rw [← hrac] at hcase
  rcases hcase with ⟨h1, h2⟩ | ⟨-, xe, -, hxe, h2⟩
  · rw [h1, h2]; simp
  rw [h2]
  have hfac : ∀ y : ℝ, -((t.rac i).brmx * y - (t.rac i).brmx * xe) * lWtr = -(((t.rac i).brmx * (y - xe)) * lWtr) := by
    intro y; ring
  rw [hfac]
  have key : xe ≤ t.xR i ∨ (t.rac i).brmx = 0 := by
    have hsys : ∀ l, t.brmxNonDh.mulVec (fun a => t.xNonDh a - t.xR a) l = (t.rac l).brmx * t.xR l - (t.rac l).brxc := by
      intro l
      have a1 := congrFun e.xNonDh.2 l
      have a2 := congrFun e.xR.2 l
      simp only [Tick.brmx, Tick.brxc, Matrix.add_mulVec, Pi.add_apply, Matrix.mulVec_diagonal] at a2
      have a3 : t.brmxNonDh.mulVec (fun a => t.xNonDh a - t.xR a) l = t.brmxNonDh.mulVec t.xNonDh l - t.brmxNonDh.mulVec t.xR l := by
        have : (fun a => t.xNonDh a - t.xR a) = t.xNonDh - t.xR := rfl
        rw [this, Matrix.mulVec_sub, Pi.sub_apply]
      rw [a3]; linarith
    have z0 : ZDominant t.brmxNonDh := by
      have := brmx_zdominant (data := data) (ivs := ivs) hw hvo (r := fun _ => 0) (fun _ => le_rfl)
      rw [e.brmxNonDh]
      have e0 : (Matrix.diagonal fun _ : I => (0 : ℝ)) = 0 := Matrix.diagonal_zero
      rw [e0, add_zero] at this
      exact this
    rcases hone with hone | hone
    · -- row `i` is diagonal
      left
      have hrow := hsys i
      have hoff : ∀ l, l ≠ i → t.brmxNonDh i l = 0 := by
        intro l hl
        rw [e.brmxNonDh]
        simp [Tick.brmxNonDh, preCalcOf, Ne.symm hl, hone l hl]
      have hdiag : t.brmxNonDh.mulVec (fun a => t.xNonDh a - t.xR a) i = t.brmxNonDh i i * (t.xNonDh i - t.xR i) := by
        simp only [Matrix.mulVec, dotProduct]
        rw [Finset.sum_eq_single i]
        · intro l _ hl; rw [hoff l hl]; ring
        · intro hn; exact absurd (Finset.mem_univ i) hn
      have hpos : 0 < t.brmxNonDh i i := by
        have := z0.rowSum i
        rw [Finset.sum_eq_single i] at this
        · exact this
        · intro l _ hl; exact hoff l hl
        · intro hn; exact absurd (Finset.mem_univ i) hn
      rw [hdiag, h2] at hrow
      by_contra hlt
      push Not at hlt
      have b1 : 0 < t.brmxNonDh i i * (t.xNonDh i - t.xR i) := mul_pos hpos (by linarith)
      have b2 : (t.rac i).brmx * (t.xR i - xe) ≤ 0 := mul_nonpos_of_nonneg_of_nonpos (hr0 i) (by linarith)
      linarith
    · -- no other coil works
      left
      by_contra hlt
      push Not at hlt
      have hoth : ∀ l, l ≠ i → (t.rac l).brmx = 0 ∧ (t.rac l).brxc = 0 := by
        intro l hl
        rw [e.rac]
        simp only [Tick.rac, getDehumidCoeff]
        have hq : ¬ (-t.lc l > 0.001) := by have := hone l hl; linarith
        simp [hq]
      have hd0 : ∀ l, 0 ≤ (fun a => t.xR a - t.xNonDh a) l := by
        apply z0.nonneg
        intro l _
        have a3 : t.brmxNonDh.mulVec (fun a => t.xR a - t.xNonDh a) l = -((t.rac l).brmx * t.xR l - (t.rac l).brxc) := by
          rw [← hsys l]
          have : (fun a => t.xR a - t.xNonDh a) = -(fun a => t.xNonDh a - t.xR a) := by funext a; simp
          rw [this, Matrix.mulVec_neg, Pi.neg_apply]
        rw [a3]
        by_cases hl : l = i
        · subst hl
          rw [h2]
          have : (t.rac l).brmx * (t.xR l - xe) ≤ 0 := mul_nonpos_of_nonneg_of_nonpos (hr0 l) (by linarith)
          linarith
        · rw [(hoth l hl).1, (hoth l hl).2]; simp
      have := hd0 i
      simp only at this
      linarith
  rcases key with hk | hk
  · have := mul_nonneg (mul_nonneg (hr0 i) (sub_nonneg.mpr hk)) lWtr_pos.le
    linarith
  · rw [hk]; simp

/-- **C18 (violated).** On every well-formed house, in every room with inflow from other rooms whose humidity was positive, every
step without convective cooling violates the physical vapour balance. -/
theorem C18_violated (hw : WellFormed h hR dt)
    (Hp : makePreCalc h hR dt data = .ok ss) (H : runTick n dt ss c = .ok t) (hk : pyIndex N n = .ok k)
    (hd : MoistRecord (data k)) (hx : ∀ i, 0 ≤ c.xR i) (hxf : ∀ i, 0 ≤ c.xFrt i) (hl : ∀ i, -0.001 ≤ t.lc i)
    (i : I) (hv : 0 < ∑ l, h.vInt i l) (hxi : 0 < c.xR i) :
    1.2 * h.vRoom i * (t.xR i - c.xR i) / dt
      ≠ 1.2 * t.vOut i * ((data k).xO - t.xR i) + interRoomVapour h i t.xR
        + h.gLh i * (t.xFrt i - t.xR i) + (data k).xGen i + t.xHum i + t.lCl i / 2501000 := by
  have hne : h.cLh i + dt * h.gLh i ≠ 0 := by
    have h1 := hw.cLh_nonneg i
    have h2 := hw.gLh_nonneg i
    have h3 := hw.frtLh_pos i
    have h4 := hw.dt_pos
    rcases lt_or_eq_of_le h1 with h5 | h5
    · have := mul_nonneg h4.le h2; exact ne_of_gt (by linarith)
    · have : 0 < h.gLh i := by linarith
      have := mul_pos h4 this; exact ne_of_gt (by linarith)
  rw [Ne, C18_residual Hp H hk i hne]
  obtain ⟨ivs, k', hi, hs, hk', e⟩ := step_eqs Hp H
  have : k' = k := Except.ok.inj (hk'.symm.trans hk)
  subst this
  subst hs
  have hvo := vOut_nonneg hw hd.localVent e
  have hoth : ∀ l, (t.rac l).brmx = 0 ∧ (t.rac l).brxc = 0 := by
    intro l
    rw [e.rac]
    simp only [Tick.rac, getDehumidCoeff]
    have hq : ¬ (-t.lc l > 0.001) := by have := hl l; linarith
    simp [hq]
  have hb : ∀ i, 0 ≤ t.brxcNonDh i ∧ (0 < c.xR i → 0 < t.brxcNonDh i) := by
    intro i
    rw [e.brxcNonDh]
    have a1 : 0 ≤ h.vRoom i / dt * c.xR i := mul_nonneg (div_nonneg (hw.vRoom_pos i).le hw.dt_pos.le) (hx i)
    have a2 : 0 ≤ t.vOut i * (data k').xO := mul_nonneg (hvo i) hd.outdoor
    have a3 := mul_nonneg (latent_nonneg hw i) (hxf i)
    have a4 : 0 ≤ t.xHum i := by
      rw [e.xHum]; exact mul_nonneg (xHumPsn_nonneg _) (hd.people i)
    have a5 := mul_nonneg rhoAir_pos.le (add_nonneg a1 a2)
    have a6 := hd.generated i
    simp only [Tick.brxcNonDh, preCalcOf]
    refine ⟨by linarith, fun hpos => ?_⟩
    have a7 : 0 < h.vRoom i / dt * c.xR i := mul_pos (div_pos (hw.vRoom_pos i) hw.dt_pos) hpos
    have a8 : 0 < rhoAir * (h.vRoom i / dt * c.xR i + t.vOut i * (data k').xO) := mul_pos rhoAir_pos (by linarith)
    linarith
  have z1 : ZDominant (Tick.brmx t.brmxNonDh t.rac) := by
    have := brmx_zdominant (data := data) (ivs := ivs) hw hvo (r := fun i => (t.rac i).brmx) (fun i => by rw [(hoth i).1])
    rw [Tick.brmx, e.brmxNonDh]
    exact this
  have hxR : ∀ i, 0 ≤ t.xR i := z1.nonneg fun i _ => by
    rw [e.xR.2]; simp only [Tick.brxc, (hoth i).2, add_zero]; exact (hb i).1
  have hpos : 0 < t.xR i := by
    rcases lt_or_eq_of_le (hxR i) with h1 | h1
    · exact h1
    exfalso
    have h2 := congrFun e.xR.2 i
    simp only [Tick.brxc, (hoth i).2, add_zero] at h2
    have h3 : (Tick.brmx t.brmxNonDh t.rac).mulVec t.xR i ≤ 0 := by
      simp only [Matrix.mulVec, dotProduct]
      apply Finset.sum_nonpos
      intro l _
      by_cases hil : i = l
      · subst hil; rw [← h1]; simp
      · exact mul_nonpos_of_nonpos_of_nonneg (z1.offDiag i l hil) (hxR l)
    have := (hb i).2 hxi
    linarith
  exact (mul_pos hv hpos).ne'

/-- The data of the example house are admissible. -/
theorem exData_moist (k : Fin 3) : MoistRecord (exData k) := by
  constructor
  · fin_cases k <;> norm_num [exData]
  · intro i; simp [exData]
  · intro i; fin_cases i <;> norm_num [exData]
  · intro i; fin_cases i <;> norm_num [exData]

theorem exHouse_fan (i : Fin 2) : FanKeepsUp (exHouse.rac i) := by
  unfold FanKeepsUp; norm_num [exHouse]

/-- The hypotheses of C19 and C18_violated are met by steps of the example house; air flows into room 1 and humidities start
positive. In the quiet weather of `exQuiet` no room is cooled, so the temperature hypothesis of C19 is met too. -/
example : ∃ ss t, makePreCalc exHouse exHR 900 (exQuiet 20) = .ok ss ∧
    runTick (-1) 900 ss (initialConditions (Fin 2) (Fin 4)) = .ok t ∧
    WellFormed exHouse exHR 900 ∧ (∀ i, FanKeepsUp (exHouse.rac i)) ∧ (∀ k, MoistRecord (exQuiet 20 k)) ∧
    (∀ i, 0 < (initialConditions (Fin 2) (Fin 4)).xR i ∧ 0 < (initialConditions (Fin 2) (Fin 4)).xFrt i) ∧
    (∀ i, -0.001 ≤ t.lc i) ∧ 0 < ∑ l, exHouse.vInt 1 l := by
  obtain ⟨ss, t, h1, h2⟩ := C21_step_completes_partial (c := initialConditions (Fin 2) (Fin 4)) (data := exQuiet 20) (n := -1)
    exHouse_wellFormed (fun _ => rfl) (fun _ => rfl) (exQuiet_local 20) (fun i => by simp [initialConditions, initialMode]) (by norm_num)
  refine ⟨ss, t, h1, h2, exHouse_wellFormed, exHouse_fan, ?_, fun i => ⟨initial_humidity_pos, initial_humidity_pos⟩, ?_, ?_⟩
  · intro k
    exact ⟨(exData_moist k).outdoor, (exData_moist k).generated, fun i => by simp [exQuiet], (exData_moist k).localVent⟩
  · obtain ⟨ivs, k', hi, hs, hk', e⟩ := step_eqs h1 h2
    subst hs
    intro i
    have := (no_demand e (fun i => by simp [preCalcOf, exQuiet]) (fun i => ⟨by simp [preCalcOf, exHouse], by simp [preCalcOf, exHouse]⟩) i).2.1
    rw [this]; norm_num
  · simp only [Fin.sum_univ_two]; norm_num [exHouse]

end HLC
