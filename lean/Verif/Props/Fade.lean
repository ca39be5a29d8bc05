import Verif.Spec.Fade
import Verif.Props.Warmer

/-!
# C110: the past fades away
-/

set_option linter.unusedSectionVars false

namespace HLC
open Spec

section
variable {I J : Type} [Fintype I] [DecidableEq I] [Fintype J] [DecidableEq J] {N : ℕ} {h : House I J} {hR : J → ℝ} {dt : ℝ}

theorem roomHold_pos (hw : WellFormed h hR dt) (i : I) : 0 < roomHold h dt i := by
  have hcap : (0 : ℝ) < airCap := by unfold airCap; norm_num
  have := hw.dt_pos
  have := hw.vRoom_pos i
  have := hw.cSh_nonneg i
  have := hw.gSh_nonneg i
  unfold roomHold
  positivity

/-- One step without sources: what is left of the start, from below. -/
theorem Averages.fade (hw : WellFormed h hR dt) (hwt : ∀ j, h.kEo j + (match h.kEi j with | none => 0 | some (_, coef) => coef) = 1)
    {v w : I → ℝ} {θosol : J → ℝ} {old oldF θr θf : I → ℝ} {θs : J → ℝ} {g f : I → ℝ} {s s' : J → ℝ}
    (A : Averages h hR dt v 0 θosol old oldF θr θf θs g f s s') (hsol : ∀ j, 0 ≤ θosol j) {M ρ σ : ℝ} (hM : 0 ≤ M)
    (hF : Fading h dt w ρ σ) (hv : ∀ i, w i ≤ v i) (hold : ∀ i, -M ≤ old i) (holdF : ∀ i, -M ≤ oldF i) (hg : ∀ i, 0 ≤ g i) (hf : ∀ i, 0 ≤ f i)
    (hs : ∀ j, 0 ≤ s j) (hs' : ∀ j, 0 ≤ s' j) : (∀ i, -(ρ * M) ≤ θr i) ∧ (∀ i, -(σ * M) ≤ θf i) ∧ ∀ j, -(ρ * M) ≤ θs j := by
  have hcap : (0 : ℝ) < airCap := by unfold airCap; norm_num
  have hρM : 0 ≤ ρ * M := mul_nonneg hF.nonneg hM
  have hroom : ∀ i, -(ρ * M) ≤ θr i := by
    by_contra hne
    push Not at hne
    obtain ⟨i1, hi1⟩ := hne
    obtain ⟨i, -, hmin⟩ := Finset.exists_min_image Finset.univ θr ⟨i1, Finset.mem_univ i1⟩
    have hlt : θr i < -(ρ * M) := lt_of_le_of_lt (hmin i1 (Finset.mem_univ _)) hi1
    have hneg : θr i < 0 := by linarith
    have hS := A.surfaces_ge hw hwt hsol hs hs' (θr i) hneg.le fun l => hmin l (Finset.mem_univ _)
    have e := A.room i
    have ef := A.furniture i
    have hdt := hw.dt_pos
    have g1 := hw.cSh_nonneg i
    have g2 := hw.gSh_nonneg i
    have g3 : 0 < h.cSh i + dt * h.gSh i := by
      have := hw.frtSh_pos i
      rcases lt_or_eq_of_le g2 with g4 | g4
      · have := mul_pos hdt g4; linarith
      · rw [← g4] at this ⊢; simpa using this
    have b1 : 0 ≤ convection h i (θr i) θs := Finset.sum_nonneg fun j _ =>
      mul_nonneg (mul_nonneg (hw.area_pos j).le (hw.hC_pos j).le) (sub_nonneg.2 (hS j))
    -- furniture
    have b2 : h.gSh i * h.cSh i / (h.cSh i + dt * h.gSh i) * (-M - θr i) ≤ h.gSh i * (θf i - θr i) := by
      rw [div_mul_eq_mul_div, div_le_iff₀ g3]
      have : (θf i - θr i) * (h.cSh i + dt * h.gSh i) = h.cSh i * (oldF i - θr i) + dt * f i := by linear_combination ef
      have h1 : h.gSh i * (θf i - θr i) * (h.cSh i + dt * h.gSh i) = h.gSh i * (h.cSh i * (oldF i - θr i) + dt * f i) := by rw [← this]; ring
      rw [h1]
      have h2 := mul_nonneg (mul_nonneg g2 g1) (sub_nonneg.2 (holdF i))
      have h3 := mul_nonneg g2 (mul_nonneg hdt.le (hf i))
      linarith
    have b3 : airCap * w i * (0 - θr i) ≤ airCap * v i * (0 - θr i) :=
      mul_le_mul_of_nonneg_right (mul_le_mul_of_nonneg_left (hv i) hcap.le) (by linarith)
    have b5 : h.vRoom i * airCap * (θr i - old i) / dt ≤ h.vRoom i * airCap / dt * (θr i + M) := by
      rw [div_mul_eq_mul_div]
      refine div_le_div_of_nonneg_right (mul_le_mul_of_nonneg_left ?_ (mul_nonneg (hw.vRoom_pos i).le hcap.le)) hdt.le
      linarith [hold i]
    have b4 := hg i
    have hK : roomHold h dt i * (-M) ≤ (roomHold h dt i + airCap * w i) * θr i := by
      unfold roomHold
      nlinarith
    have hpos : 0 < roomHold h dt i + airCap * w i := by
      by_contra hc
      push Not at hc
      have := hF.rooms i
      have := roomHold_pos hw i
      have := mul_nonpos_of_nonneg_of_nonpos hF.nonneg hc
      linarith
    have h1 := mul_lt_mul_of_pos_left hlt hpos
    have h2 := mul_le_mul_of_nonneg_right (hF.rooms i) hM
    nlinarith
  refine ⟨hroom, fun i => ?_, A.surfaces_ge hw hwt hsol hs hs' _ (by linarith) hroom⟩
  have ef := A.furniture i
  have hdt := hw.dt_pos
  have g1 := hw.cSh_nonneg i
  have g2 := hw.gSh_nonneg i
  have g3 : 0 < h.cSh i + dt * h.gSh i := by
    have := hw.frtSh_pos i
    rcases lt_or_eq_of_le g2 with g4 | g4
    · have := mul_pos hdt g4; linarith
    · rw [← g4] at this ⊢; simpa using this
  have h1 : θf i * (h.cSh i + dt * h.gSh i) = h.cSh i * oldF i + dt * h.gSh i * θr i + dt * f i := by linear_combination ef
  have h2 := mul_le_mul_of_nonneg_right (hF.furniture i) hM
  have h3 := mul_le_mul_of_nonneg_left (holdF i) g1
  have h4 := mul_le_mul_of_nonneg_left (hroom i) (mul_nonneg hdt.le g2)
  have h5 := mul_nonneg hdt.le (hf i)
  by_contra hlt
  push Not at hlt
  have h6 := mul_lt_mul_of_pos_right hlt g3
  nlinarith

theorem qHumPsn_antitone {x y : ℝ} (hxy : x ≤ y) : qHumPsn y ≤ qHumPsn x := by
  unfold qHumPsn
  exact min_le_min (by linarith) le_rfl

/-- The answer of the people to a difference of temperatures makes it smaller, but does not turn it round. -/
theorem people_damp {x y n C : ℝ} (hC : 0 < C) (hdt : 0 < dt) (hn : 0 ≤ n) (hp : 4 * n * dt ≤ C) :
    |y - x + (qHumPsn y * n - qHumPsn x * n) * dt / C| ≤ |y - x| := by
  have key : ∀ {x y : ℝ}, x ≤ y → 0 ≤ y - x + (qHumPsn y * n - qHumPsn x * n) * dt / C ∧
      y - x + (qHumPsn y * n - qHumPsn x * n) * dt / C ≤ y - x := by
    intro x y hxy
    have h1 := qHumPsn_slope hxy
    have h2 := qHumPsn_antitone hxy
    have h3 : (qHumPsn y * n - qHumPsn x * n) * dt / C ≤ 0 := by
      apply div_nonpos_of_nonpos_of_nonneg _ hC.le
      have := mul_nonneg (mul_nonneg (sub_nonneg.2 h2) hn) hdt.le
      linarith
    have h4 : -(y - x) ≤ (qHumPsn y * n - qHumPsn x * n) * dt / C := by
      rw [le_div_iff₀ hC]
      have h5 := mul_le_mul_of_nonneg_right (mul_le_mul_of_nonneg_right h1 hn) hdt.le
      have h6 := mul_le_mul_of_nonneg_left hp (sub_nonneg.2 hxy)
      nlinarith
    exact ⟨by linarith, by linarith⟩
  rcases le_total x y with hxy | hxy
  · obtain ⟨a, b⟩ := key hxy
    rw [abs_of_nonneg a, abs_of_nonneg (by linarith)]
    exact b
  · obtain ⟨a, b⟩ := key hxy
    have e : y - x + (qHumPsn y * n - qHumPsn x * n) * dt / C = -(x - y + (qHumPsn x * n - qHumPsn y * n) * dt / C) := by ring
    rw [e, abs_neg, abs_of_nonneg a, abs_of_nonpos (by linarith)]
    linarith

/-- Two states without stored heat in the parts whose temperatures agree up to `M`. -/
structure Near (M : ℝ) (c c' : Cond I J) : Prop where
  emptyA : ∀ j m, c.dshA j m = 0 ∧ c'.dshA j m = 0
  emptyT : ∀ j m, c.dshT j m = 0 ∧ c'.dshT j m = 0
  rooms : ∀ i, |c'.thetaR i - c.thetaR i| ≤ M
  furniture : ∀ i, |c'.thetaFrt i - c.thetaFrt i| ≤ M

/-- **C110 (one step).** -/
theorem step_fade {ss : PreCalc I J N} {n : ℤ} {k : Fin N} {A : Fin N → Record I J} {c c' : Cond I J} {t t' : TickVars I J} {w : I → ℝ} {M ρ σ : ℝ}
    (hw : WellFormed h hR dt) (hst : Storageless h) (hv : ∀ i l, h.vInt i l = 0) (hC : h.cValue = 0) (hF : Fading h dt w ρ σ)
    (hsum : ∀ i, ∑ j ∈ surfaces h i, h.fMrtHum j = 1)
    (Hp : makePreCalc h hR dt A = .ok ss) (H : runTick n dt ss c = .ok t) (H' : runTick n dt ss c' = .ok t') (hk : pyIndex N n = .ok k)
    (hvent : ∀ i, w i ≤ h.vVentEx i + (A k).vLocal i) (hp : RoomForPeople h dt (A k)) (hd : ∀ i, (A k).acDemand i ≤ 0) (hM : 0 ≤ M)
    (hc : Near M c c') : Near (σ * M) t.next t'.next ∧ RowNear (σ * M) (LogRow.ofTick t) (LogRow.ofTick t') := by
  obtain ⟨a1, a2, SA⟩ := step_averages hw hst hv Hp H hk (fun j m => (hc.emptyA j m).1) (fun j m => (hc.emptyT j m).1)
  obtain ⟨b1, b2, SB⟩ := step_averages hw hst hv Hp H' hk (fun j m => (hc.emptyA j m).2) (fun j m => (hc.emptyT j m).2)
  have hcap : ∀ i, 0 ≤ h.capH i ∧ 0 ≤ h.capC i := fun i => ⟨hw.capH_nonneg i, hw.capC_nonneg i⟩
  have Hp' := Hp
  obtain ⟨ivs, k1, hi1, hs1, hk1, e1⟩ := step_eqs Hp H
  obtain rfl : k1 = k := Except.ok.inj (hk1.symm.trans hk)
  obtain ⟨ivs', k2, hi2, hs2, hk2, e2⟩ := step_eqs Hp H'
  obtain rfl : k2 = k1 := Except.ok.inj (hk2.symm.trans hk)
  rw [hs1] at e1
  rw [hs2] at e2
  obtain ⟨l1, v1, o1⟩ := no_demand_tight hC hcap hd e1
  obtain ⟨l2, v2, o2⟩ := no_demand_tight hC hcap hd e2
  have hvo : t'.vOut = t.vOut := by funext i; rw [v1, v2]
  rw [hvo] at SB
  have hcapA : ∀ i, 0 < h.vRoom i * airCap := fun i => mul_pos (hw.vRoom_pos i) (by unfold airCap; norm_num)
  have D := (SA.sub SB).early (fun i => t'.qHum i - t.qHum i) (fun i => (hcapA i).ne') hw.dt_pos.ne'
  have hq : ∀ i, |c'.thetaR i - c.thetaR i + (t'.qHum i - t.qHum i) * dt / (h.vRoom i * airCap)| ≤ M := by
    intro i
    have q1 : t.qHum i = qHumPsn (c.thetaR i) * (A k2).nHum i := by rw [e1.qHum]; rfl
    have q2 : t'.qHum i = qHumPsn (c'.thetaR i) * (A k2).nHum i := by rw [e2.qHum]; rfl
    rw [q1, q2]
    exact (people_damp (hcapA i) hw.dt_pos (hp i).1 (hp i).2).trans (hc.rooms i)
  have z : ∀ (x : ℝ), x - x = 0 := sub_self
  have low := Averages.fade (θosol := fun j => (A k2).thetaOSol j - (A k2).thetaOSol j) hw hst.weights (by simpa using D) (fun j => (z _).ge) hM hF
    (fun i => by rw [v1]; exact hvent i) (fun i => (abs_le.1 (hq i)).1) (fun i => (abs_le.1 (hc.furniture i)).1)
    (fun i => by simp [l1, l2]) (fun i => by simp) (fun j => by simp [l1, l2]) (fun j => by
      cases hK : h.kEi j with
      | none => simp
      | some mc => obtain ⟨m, coef⟩ := mc; simp [l1, l2])
  have up := Averages.fade (θosol := fun j => -((A k2).thetaOSol j - (A k2).thetaOSol j)) hw hst.weights (by simpa using D.neg)
    (fun j => by simp) hM hF
    (fun i => by rw [v1]; exact hvent i) (fun i => neg_le_neg (abs_le.1 (hq i)).2) (fun i => neg_le_neg (abs_le.1 (hc.furniture i)).2)
    (fun i => by simp [l1, l2]) (fun i => by simp) (fun j => by simp [l1, l2]) (fun j => by
      cases hK : h.kEi j with
      | none => simp
      | some mc => obtain ⟨m, coef⟩ := mc; simp [l1, l2])
  have hρσ : ρ * M ≤ σ * M := mul_le_mul_of_nonneg_right hF.order hM
  have r1 : ∀ i, |t'.thetaR i - t.thetaR i| ≤ ρ * M := fun i => abs_le.2 ⟨low.1 i, by have := up.1 i; linarith⟩
  have r2 : ∀ i, |t'.thetaFrt i - t.thetaFrt i| ≤ σ * M := fun i => abs_le.2 ⟨low.2.1 i, by have := up.2.1 i; linarith⟩
  have r3 : ∀ j, |t'.thetaS j - t.thetaS j| ≤ ρ * M := fun j => abs_le.2 ⟨low.2.2 j, by have := up.2.2 j; linarith⟩
  have mean : ∀ i, |∑ j ∈ surfaces h i, h.fMrtHum j * t'.thetaS j - ∑ j ∈ surfaces h i, h.fMrtHum j * t.thetaS j| ≤ ρ * M := by
    intro i
    rw [← Finset.sum_sub_distrib]
    calc |∑ j ∈ surfaces h i, (h.fMrtHum j * t'.thetaS j - h.fMrtHum j * t.thetaS j)|
        ≤ ∑ j ∈ surfaces h i, |h.fMrtHum j * t'.thetaS j - h.fMrtHum j * t.thetaS j| := Finset.abs_sum_le_sum_abs _ _
      _ ≤ ∑ j ∈ surfaces h i, h.fMrtHum j * (ρ * M) := Finset.sum_le_sum fun j _ => by
          rw [← mul_sub, abs_mul, abs_of_nonneg (hw.fMrtHum_nonneg j)]
          exact mul_le_mul_of_nonneg_left (r3 j) (hw.fMrtHum_nonneg j)
      _ = ρ * M := by rw [← Finset.sum_mul, hsum, one_mul]
  have m1 : ∀ i, t.thetaMrt i = ∑ j ∈ surfaces h i, h.fMrtHum j * t.thetaS j := fun i => by rw [e1.thetaMrt]; exact fMrtHum_mulVec h _ i
  have m2 : ∀ i, t'.thetaMrt i = ∑ j ∈ surfaces h i, h.fMrtHum j * t'.thetaS j := fun i => by rw [e2.thetaMrt]; exact fMrtHum_mulVec h _ i
  refine ⟨⟨fun j m => ⟨a1 j m, b1 j m⟩, fun j m => ⟨a2 j m, b2 j m⟩, fun i => (r1 i).trans hρσ, r2⟩,
    ⟨fun i => (r1 i).trans hρσ, r2, fun j => (r3 j).trans hρσ, fun i => ?_, fun i => ?_⟩⟩
  · show |t'.thetaMrt i - t.thetaMrt i| ≤ _
    rw [m1, m2]
    exact (mean i).trans hρσ
  · show |t'.thetaOt i - t.thetaOt i| ≤ _
    have hc0 : (0 : ℝ) < hHumC := by unfold hHumC; norm_num
    have hr0 := hHumR_pos
    rw [C13_operative_temperature Hp H i, C13_operative_temperature Hp H' i, ← sub_div, abs_div, abs_of_pos (a := hHumC + hHumR) (by linarith),
      div_le_iff₀ (by linarith)]
    have a1 := r1 i
    have a2 := mean i
    generalize (∑ j ∈ surfaces h i, h.fMrtHum j * t.thetaS j) = x at *
    generalize (∑ j ∈ surfaces h i, h.fMrtHum j * t'.thetaS j) = y at *
    rw [abs_le] at a1 a2 ⊢
    constructor <;> nlinarith

/-- **C110 (a run).** -/
theorem run_fade {ss : PreCalc I J N} {A : Fin N → Record I J} {w : I → ℝ} {ρ σ : ℝ}
    (hw : WellFormed h hR dt) (hst : Storageless h) (hv : ∀ i l, h.vInt i l = 0) (hC : h.cValue = 0) (hF : Fading h dt w ρ σ)
    (hsum : ∀ i, ∑ j ∈ surfaces h i, h.fMrtHum j = 1) (Hp : makePreCalc h hR dt A = .ok ss)
    (hvent : ∀ k i, w i ≤ h.vVentEx i + (A k).vLocal i) (hp : ∀ k, RoomForPeople h dt (A k)) {M : ℝ} (hM : 0 ≤ M) {c c' : Cond I J} {ns : List ℤ}
    {ts ts' : List (TickVars I J)} (hc : Near M c c') (H : Run ss dt c ns ts) (H' : Run ss dt c' ns ts') :
    ∀ (j : ℕ) (_ : j < ns.length) (h1 : j < ts.length) (h2 : j < ts'.length),
      (∀ (l : ℕ) (hl : l < ns.length), l ≤ j → ∀ k : Fin N, pyIndex N ns[l] = .ok k → ∀ i, (A k).acDemand i ≤ 0) →
      RowNear (σ ^ (j + 1) * M) (LogRow.ofTick ts[j]) (LogRow.ofTick ts'[j]) := by
  induction H generalizing c' ts' M with
  | nil => intro j hj; simp at hj
  | cons a1 _ ih =>
    cases H' with
    | cons b1 b2 =>
      intro j hj h1 h2 hd
      obtain ⟨k, hk⟩ := runTick_index a1
      have s1 := step_fade hw hst hv hC hF hsum Hp a1 b1 hk (hvent k) (hp k) (hd 0 (by simp) (by omega) k hk) hM hc
      cases j with
      | zero => simpa using s1.2
      | succ j =>
        have hσ : 0 ≤ σ := hF.nonneg.trans hF.order
        have := ih (mul_nonneg hσ hM) s1.1 b2 j (by simpa using hj) (by simpa using h1) (by simpa using h2)
          fun l hl hlj => hd (l + 1) (by simpa using hl) (by omega)
        rw [← mul_assoc, ← pow_succ] at this
        exact this

/-- **C110 (partial), any start.** Two histories of the same house (tight, of parts without storage, without air exchange between rooms) from two
different states under the same data and without demand: after `j + 1` steps no temperature differs by more than `σ ^ (j + 1)` times the
difference at the start. -/
theorem C110_runs_partial {ss : PreCalc I J N} {A : Fin N → Record I J} {w : I → ℝ} {ρ σ : ℝ}
    (hw : WellFormed h hR dt) (hst : Storageless h) (hv : ∀ i l, h.vInt i l = 0) (hC : h.cValue = 0) (hF : Fading h dt w ρ σ)
    (hsum : ∀ i, ∑ j ∈ surfaces h i, h.fMrtHum j = 1) (Hp : makePreCalc h hR dt A = .ok ss)
    (hvent : ∀ k i, w i ≤ h.vVentEx i + (A k).vLocal i) (hp : ∀ k, RoomForPeople h dt (A k)) (hd : ∀ k i, (A k).acDemand i ≤ 0)
    {c c' : Cond I J} (hA : ∀ j m, c.dshA j m = 0 ∧ c'.dshA j m = 0) (hT : ∀ j m, c.dshT j m = 0 ∧ c'.dshT j m = 0) {M : ℝ} (hM : 0 ≤ M)
    (hr : ∀ i, |c'.thetaR i - c.thetaR i| ≤ M ∧ |c'.thetaFrt i - c.thetaFrt i| ≤ M) {ns : List ℤ} {ts ts' : List (TickVars I J)}
    (H : Run ss dt c ns ts) (H' : Run ss dt c' ns ts') (j : ℕ) (h1 : j < ts.length) (h2 : j < ts'.length) :
    RowNear (σ ^ (j + 1) * M) (LogRow.ofTick ts[j]) (LogRow.ofTick ts'[j]) :=
  run_fade hw hst hv hC hF hsum Hp hvent hp hM ⟨hA, hT, fun i => (hr i).1, fun i => (hr i).2⟩ H H' j (by rw [← H.length_eq]; exact h1) h1 h2
    fun _ _ _ k _ => hd k

end

section
variable {I : Type} [Fintype I] [DecidableEq I] {m N : ℕ} {h : House I (Fin m)} {hR : Fin m → ℝ}
  {A : Fin N → Record I (Fin m)} {hourly dMain dRunUp1 dRunUp2 d1 d2 : ℤ} {r1 r2 : CalcResult I m N} {w : I → ℝ} {ρ σ D : ℝ}

theorem C110_rows_partial (hw : WellFormed h hR (3600 / (hourly : ℝ))) (hst : Storageless h) (hng : ∀ j, h.isGround j = false)
    (hv : ∀ i l, h.vInt i l = 0) (hC : h.cValue = 0) (hF : Fading h (3600 / (hourly : ℝ)) w ρ σ)
    (hsum : ∀ i, ∑ j ∈ surfaces h i, h.fMrtHum j = 1) (hvent : ∀ k i, w i ≤ h.vVentEx i + (A k).vLocal i)
    (hp : ∀ k, RoomForPeople h (3600 / (hourly : ℝ)) (A k)) (h0 : 0 ≤ d1 * hourly * 24) (h12 : d1 * hourly * 24 ≤ d2 * hourly * 24)
    (H1 : coreCalc h hR A hourly dMain dRunUp1 d1 = .ok r1) (H2 : coreCalc h hR A hourly dMain dRunUp2 d2 = .ok r2)
    (hD : 0 ≤ D) (hnear : ∀ t, StepOf r2 hourly dMain d2 t → ∀ i, |t.thetaR i - 15| ≤ D ∧ |t.thetaFrt i - 15| ≤ D)
    (k : ℕ) (hd : NoDemand (fun n => (A n).acDemand) (-(d1 * hourly * 24)) k)
    (hk1 : k < r1.nMain.toNat) (hk2 : k < r2.nMain.toNat) :
    RowNear (σ ^ ((d1 * hourly * 24).toNat + k + 1) * D) (r1.log ⟨k, hk1⟩) (r2.log ⟨k, hk2⟩) := by
  obtain ⟨gs1, c1, up1, mn1, T1⟩ := coreCalc_ok H1
  obtain ⟨gs2, c2, up2, mn2, T2⟩ := coreCalc_ok H2
  have hstart := T2.start
  have e1 := start_eq hng T1
  have e2 := start_eq hng T2
  subst e1 e2
  have hss : r2.ss = r1.ss := Except.ok.inj (T2.pre.symm.trans T1.pre)
  have hM0 : 0 ≤ dMain * hourly * 24 := by rw [← T1.nMain_eq]; exact T1.nMain_nonneg
  have R1 := T1.runUp.append T1.main
  have R2 := T2.runUp.append T2.main
  have hall : ∀ t ∈ up2 ++ mn2, StepOf r2 hourly dMain d2 t := fun t ht => ⟨_, _, hstart, R2, ht⟩
  rw [pyRange_append (by omega) hM0] at R1 R2
  have R2' := R2
  rw [← pyRange_append (b := -(d1 * hourly * 24)) (by omega) (by omega)] at R2
  obtain ⟨pre, rest, e, Rp, Rr⟩ := R2.split
  -- the state where the shorter calculation starts
  have hinv : (∀ j l, (after (initialConditions I (Fin m)) pre).dshA j l = 0) ∧ (∀ j l, (after (initialConditions I (Fin m)) pre).dshT j l = 0) ∧
      ∀ i, |(after (initialConditions I (Fin m)) pre).thetaR i - 15| ≤ D ∧ |(after (initialConditions I (Fin m)) pre).thetaFrt i - 15| ≤ D := by
    refine (Rp.invariant (P := fun c => (∀ j m, c.dshA j m = 0) ∧ (∀ j m, c.dshT j m = 0) ∧ ∀ i, |c.thetaR i - 15| ≤ D ∧ |c.thetaFrt i - 15| ≤ D)
      (Q := fun _ t => t ∈ pre) ⟨fun _ _ => rfl, fun _ _ => rfl, fun i => ?_⟩ ?_ ?_).1
    · simp [initialConditions, hD]
    · intro n _ c t hc ht hq
      obtain ⟨k', hk'⟩ := runTick_index ht
      obtain ⟨a1, a2, -⟩ := step_averages hw hst hv T2.pre ht hk' hc.1 hc.2.1
      exact ⟨a1, a2, hnear t (hall t (by rw [e]; simp [hq]))⟩
    · intro p hp
      exact (List.of_mem_zip hp).2
  have hnr : Near D (initialConditions I (Fin m)) (after (initialConditions I (Fin m)) pre) :=
    ⟨fun j l => ⟨rfl, hinv.1 j l⟩, fun j l => ⟨rfl, hinv.2.1 j l⟩, fun i => (hinv.2.2 i).1, fun i => (hinv.2.2 i).2⟩
  have lp : pre.length = (d2 * hourly * 24 - d1 * hourly * 24).toNat := by rw [Rp.length_eq, pyRange_length]; congr 1; ring
  have lr : rest.length = (dMain * hourly * 24 + d1 * hourly * 24).toNat := by rw [Rr.length_eq, pyRange_length]; congr 1; ring
  have l1 : up1.length = (d1 * hourly * 24).toNat := by rw [T1.runUp.length_eq, pyRange_length]; congr 1; ring
  have l2 : up2.length = (d2 * hourly * 24).toNat := by rw [T2.runUp.length_eq, pyRange_length]; congr 1; ring
  have hm1 : k < mn1.length := by rw [T1.mn_length]; exact hk1
  have hm2 : k < mn2.length := by rw [T2.mn_length]; exact hk2
  have lm1 : mn1.length = (dMain * hourly * 24).toNat := by rw [T1.main.length_eq, pyRange_length]; congr 1; ring
  rw [hss] at Rr
  have key := run_fade hw hst hv hC hF hsum T1.pre hvent hp hD hnr R1 Rr (up1.length + k) (by rw [pyRange_length]; omega)
    (by rw [List.length_append]; omega) (by omega) (by
      intro l hl hle k' hk' i
      have hsp := pyIndex_spec hk'
      rw [pyRange_getElem] at hsp
      exact hd _ (by omega) (by omega) k' hsp i)
  have e1 : (up1 ++ mn1)[up1.length + k]'(by rw [List.length_append]; omega) = mn1[k] := by
    rw [List.getElem_append_right (by omega)]; simp
  have e2 : rest[up1.length + k]'(by omega) = mn2[k] := by
    have h3 : (up2 ++ mn2)[up2.length + k]? = some mn2[k] := by
      rw [List.getElem?_append_right (by omega)]; simp [List.getElem?_eq_getElem hm2]
    rw [e, List.getElem?_append_right (by omega), show up2.length + k - pre.length = up1.length + k by omega,
      List.getElem?_eq_getElem (by omega)] at h3
    exact Option.some.inj h3
  rw [e1, e2] at key
  rw [T1.logged ⟨k, hk1⟩ hm1, T2.logged ⟨k, hk2⟩ hm2, ← l1]
  exact key

/-- In an empty house without sun and air conditioning all temperatures of all executed steps stay between those outdoors and the 15 degC of the
start. -/
theorem idle_steps (hw : WellFormed h hR (3600 / (hourly : ℝ))) (hst : Storageless h) (hng : ∀ j, h.isGround j = false)
    (hv : ∀ i l, h.vInt i l = 0) (H : coreCalc h hR A hourly dMain dRunUp1 d1 = .ok r1) {lo hi : ℝ} (h15 : lo ≤ 15 ∧ 15 ≤ hi)
    (hd : ∀ k, Outdoors (lo ≤ ·) (A k) ∧ Outdoors (· ≤ hi) (A k) ∧ (∀ i, 0 ≤ (A k).vLocal i) ∧ Idle (A k)) {t : TickVars I (Fin m)}
    (ht : StepOf r1 hourly dMain d1 t) (i : I) : (lo ≤ t.thetaR i ∧ t.thetaR i ≤ hi) ∧ lo ≤ t.thetaFrt i ∧ t.thetaFrt i ≤ hi := by
  obtain ⟨gs, c0, up, mn, T⟩ := coreCalc_ok H
  obtain ⟨c, ts, hc, R, hts⟩ := ht
  obtain rfl : c = c0 := Except.ok.inj (hc.symm.trans T.start)
  have e0 := start_eq hng T
  subst e0
  have := (R.invariant (P := Held fun θ => lo ≤ θ ∧ θ ≤ hi) (Q := fun _ _ => True) (held_initial h15) (by
    intro n _ c t hc ht _
    obtain ⟨k, hk⟩ := runTick_index ht
    obtain ⟨b1, b2, -⟩ := step_averages hw hst hv T.pre ht hk hc.1.1 hc.1.2
    have u := step_ceiling hw hst hv T.pre ht hk hc.1.1 hc.1.2 (hd k).2.2.1 (hd k).2.1 (hd k).2.2.2 (fun i => (hc.2.1 i).2) fun i => (hc.2.2 i).2
    have l := step_idle_floor hw hst hv T.pre ht hk hc.1.1 hc.1.2 (hd k).2.2.1 (hd k).1 (hd k).2.2.2 (fun i => (hc.2.1 i).1)
      fun i => (hc.2.2 i).1
    exact ⟨⟨b1, b2⟩, fun i => ⟨l.1 i, u.1 i⟩, fun i => ⟨l.2.1 i, u.2.1 i⟩⟩) (fun _ _ => trivial)).2 t hts
  exact ⟨this.2.1 i, this.2.2 i⟩

end

section
variable {p m N : ℕ} {h : House (Fin p) (Fin m)} {solve : List ℝ → ℝ} {A : Fin N → Record (Fin p) (Fin m)}
  {hourly dMain dRunUp1 dRunUp2 d1 d2 : ℤ} {r1 r2 : CalcResult (Fin p) m N} {w : Fin p → ℝ} {ρ σ lo hi : ℝ}

/-- **C110 (partial), the program.** Calculate an empty house without sun and air conditioning twice, with run-ups of `d1` and of `d2 ≥ d1` days.
With outdoor temperatures between `lo` and `hi` no temperature of row `k` differs between the two by more than
`(hi - lo) σ ^ (steps since the start of the shorter run-up)`. -/
theorem C110_program_partial (hw : WellFormed h (getHr solve h.area h.room) (3600 / (hourly : ℝ))) (hst : Storageless h)
    (hng : ∀ j, h.isGround j = false) (hv : ∀ i l, h.vInt i l = 0) (hC : h.cValue = 0) (hF : Fading h (3600 / (hourly : ℝ)) w ρ σ)
    (hsum : ∀ i, ∑ j ∈ surfaces h i, h.fMrtHum j = 1) (hvent : ∀ k i, w i ≤ h.vVentEx i + (A k).vLocal i)
    (h15 : lo ≤ 15 ∧ 15 ≤ hi) (hd : ∀ k, Outdoors (lo ≤ ·) (A k) ∧ Outdoors (· ≤ hi) (A k) ∧ (∀ i, 0 ≤ (A k).vLocal i) ∧ Idle (A k))
    (h0 : 0 ≤ d1 * hourly * 24) (h12 : d1 * hourly * 24 ≤ d2 * hourly * 24)
    (H1 : program solve h A hourly dMain dRunUp1 d1 = .ok r1) (H2 : program solve h A hourly dMain dRunUp2 d2 = .ok r2)
    (k : ℕ) (hk1 : k < r1.nMain.toNat) (hk2 : k < r2.nMain.toNat) :
    RowNear (σ ^ ((d1 * hourly * 24).toNat + k + 1) * (hi - lo)) (r1.log ⟨k, hk1⟩) (r2.log ⟨k, hk2⟩) := by
  refine C110_rows_partial hw hst hng hv hC hF hsum hvent (fun k i => ?_) h0 h12 H1 H2 (by linarith) (fun t ht i => ?_) k
    (fun _ _ _ k _ i => (hd k).2.2.2.noDemand i) hk1 hk2
  · rw [(hd k).2.2.2.noPeople]
    have : (0 : ℝ) < airCap := by unfold airCap; norm_num
    have := mul_pos (hw.vRoom_pos i) this
    exact ⟨le_rfl, by linarith⟩
  · obtain ⟨⟨a, b⟩, c, d⟩ := idle_steps hw hst hng hv H2 h15 hd ht i
    exact ⟨abs_le.2 ⟨by linarith, by linarith⟩, abs_le.2 ⟨by linarith, by linarith⟩⟩

end

/-! ## Concrete cases -/

theorem exTightPanels_fading : Fading exTightPanels 900 (fun _ => 0.01) 0.94 0.991 where
  nonneg := by norm_num
  rooms i := by fin_cases i <;> norm_num [roomHold, exTightPanels, exPanels, exHouse, airCap]
  order := by norm_num
  furniture i := by fin_cases i <;> norm_num [exTightPanels, exPanels, exHouse]

/-- The hypotheses of `C110_rows_partial` are met by a day of the empty house of panels with run-ups of no day and of one day: a difference of at
most 15 degrees is at most 8 degrees after 70 steps. -/
example : ∃ r1 r2, coreCalc exTightPanels exHR exIdle 4 1 1 0 = .ok r1 ∧ coreCalc exTightPanels exHR exIdle 4 1 1 1 = .ok r2 ∧
    r1.nMain.toNat = 96 ∧ r2.nMain.toNat = 96 ∧
    ∀ (h1 : 69 < r1.nMain.toNat) (h2 : 69 < r2.nMain.toNat), RowNear 8 (r1.log ⟨69, h1⟩) (r2.log ⟨69, h2⟩) := by
  have e4 : (3600 / ((4 : ℤ) : ℝ)) = 900 := by norm_num
  have hw : WellFormed exTightPanels exHR (3600 / ((4 : ℤ) : ℝ)) := by rw [e4]; exact exTightPanels_wellFormed
  have hloc : ∀ k i, 0 ≤ (exIdle k).vLocal i := fun k i => by fin_cases i <;> norm_num [exIdle, exDay]
  have hidle : ∀ k, Idle (exIdle k) := fun k => ⟨fun _ => rfl, fun _ => rfl, fun _ => rfl, fun _ => le_rfl⟩
  obtain ⟨r1, H1⟩ := C21_program_partial (data := exIdle) (dMain := 1) (dRunUp := 1) (dRunUpBuild := 0) hw (fun _ => rfl) (fun _ => rfl)
    hloc (by norm_num) (by norm_num) (by norm_num) (by norm_num) (by norm_num) (by norm_num)
  obtain ⟨r2, H2⟩ := C21_program_partial (data := exIdle) (dMain := 1) (dRunUp := 1) (dRunUpBuild := 1) hw (fun _ => rfl) (fun _ => rfl)
    hloc (by norm_num) (by norm_num) (by norm_num) le_rfl (by norm_num) (by norm_num)
  obtain ⟨_, _, _, _, T1⟩ := coreCalc_ok H1
  obtain ⟨_, _, _, _, T2⟩ := coreCalc_ok H2
  have hst : Storageless exTightPanels := ⟨fun _ _ => rfl, fun _ _ => rfl, fun _ => rfl, (exPanels_storageless 0).weights⟩
  have hv : ∀ i l, exTightPanels.vInt i l = 0 := by intro i l; fin_cases i <;> fin_cases l <;> simp [exTightPanels, exPanels]
  have hout : ∀ k, Outdoors (0 ≤ ·) (exIdle k) ∧ Outdoors (· ≤ 15) (exIdle k) ∧ (∀ i, 0 ≤ (exIdle k).vLocal i) ∧ Idle (exIdle k) := by
    intro k
    have hk : ((k : ℕ) : ℝ) ≤ 96 := by exact_mod_cast k.isLt.le
    refine ⟨⟨?_, fun j => ?_⟩, ⟨?_, fun j => ?_⟩, hloc k, hidle k⟩ <;> simp only [exIdle, exDay]
    · positivity
    · positivity
    · rw [div_le_iff₀ (by norm_num)]; linarith
    · rw [div_le_iff₀ (by norm_num)]; linarith
  refine ⟨r1, r2, H1, H2, by rw [T1.nMain_eq]; rfl, by rw [T2.nMain_eq]; rfl, fun h1 h2 => ?_⟩
  have key := C110_rows_partial (D := 15) (ρ := 0.94) (σ := 0.991) (w := fun _ => 0.01) hw hst (fun _ => rfl) hv rfl
    (by rw [e4]; exact exTightPanels_fading) ?_ ?_ ?_ (by norm_num) (by norm_num) H1 H2 (by norm_num) ?_ 69 (fun _ _ _ _ _ _ => le_refl _) h1 h2
  · have hle : (0.991 : ℝ) ^ ((0 * 4 * 24 : ℤ).toNat + 69 + 1) * 15 ≤ 8 := by norm_num
    exact ⟨fun i => (key.1 i).trans hle, fun i => (key.2 i).trans hle, fun i => (key.3 i).trans hle, fun i => (key.4 i).trans hle,
      fun i => (key.5 i).trans hle⟩
  · intro i
    simp only [surfaces, Finset.sum_filter, Fin.sum_univ_four]
    fin_cases i <;> simp [exTightPanels, exPanels, exHouse] <;> norm_num
  · intro k i
    fin_cases i <;> norm_num [exTightPanels, exPanels, exHouse, exIdle, exDay]
  · intro k i
    rw [e4]
    fin_cases i <;> norm_num [exTightPanels, exPanels, exHouse, exIdle, exDay, airCap]
  · intro t ht i
    obtain ⟨⟨a, b⟩, c, d⟩ := idle_steps hw hst (fun _ => rfl) hv H2 (lo := 0) (hi := 15) (by norm_num) hout ht i
    exact ⟨abs_le.2 ⟨by linarith, by linarith⟩, abs_le.2 ⟨by linarith, by linarith⟩⟩

end HLC
