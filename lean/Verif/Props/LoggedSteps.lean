import Verif.Props.Program
import Verif.Props.Load
import Verif.Props.Comfort

/-!
# What the log says about loads (C08, C09 for whole calculations)
-/

namespace HLC

set_option linter.unusedSectionVars false

open Spec

section
variable {I : Type} [Fintype I] [DecidableEq I] {m N : ℕ} {h : House I (Fin m)} {hR : Fin m → ℝ} {data : Fin N → Record I (Fin m)}
    {hourly dMain dRunUp dRunUpBuild : ℤ} {r : CalcResult I m N}

theorem run_at {ss : PreCalc I (Fin m) N} {dt : ℝ} {c : Cond I (Fin m)} {ns : List ℤ} {ts : List (TickVars I (Fin m))}
    (H : Run ss dt c ns ts) : ∀ (k : ℕ) (h1 : k < ns.length) (h2 : k < ts.length), ∃ c', runTick ns[k] dt ss c' = .ok ts[k] := by
  induction H with
  | nil => intro k h1; simp at h1
  | cons h0 _ ih =>
    intro k h1 h2
    cases k with
    | zero => exact ⟨_, h0⟩
    | succ k => exact ih k (by simpa using h1) (by simpa using h2)

/-- Every column of the log was computed by a step on the data of that step. -/
theorem logged_step (H : coreCalc h hR data hourly dMain dRunUp dRunUpBuild = .ok r) (k : Fin r.nMain.toNat) :
    ∃ (k' : Fin N) (c : Cond I (Fin m)) (t : TickVars I (Fin m)), (k' : ℕ) = k ∧ pyIndex N (k : ℕ) = .ok k' ∧
      makePreCalc h hR (3600 / (hourly : ℝ)) data = .ok r.ss ∧ runTick (k : ℕ) (3600 / (hourly : ℝ)) r.ss c = .ok t ∧
      r.log k = LogRow.ofTick t := by
  obtain ⟨gs, c0, up, mn, T⟩ := coreCalc_ok H
  have hk : (k : ℕ) < mn.length := by rw [T.mn_length]; exact k.isLt
  have hl := T.main.length_eq
  obtain ⟨c, hc⟩ := run_at T.main k (by omega) hk
  rw [pyRange_getElem, zero_add] at hc
  obtain ⟨k', hk'⟩ := runTick_index hc
  refine ⟨k', c, mn[(k : ℕ)], ?_, hk', T.pre, hc, T.logged k hk⟩
  by_cases hN : (k : ℕ) < N
  · rw [pyIndex_nonneg hN] at hk'; rw [← Except.ok.inj hk']
  · rw [pyIndex_error (Or.inr (by omega))] at hk'; cases hk'

theorem run_pair {ss : PreCalc I (Fin m) N} {dt : ℝ} {c : Cond I (Fin m)} {ns : List ℤ} {ts : List (TickVars I (Fin m))}
    (H : Run ss dt c ns ts) : ∀ (k : ℕ) (h1 : k + 1 < ns.length) (h2 : k + 1 < ts.length),
      runTick ns[k + 1] dt ss ts[k].next = .ok ts[k + 1] := by
  induction H with
  | nil => intro k h1; simp at h1
  | cons h0 h1 ih =>
    intro k h2 h3
    cases k with
    | zero =>
      cases h1 with
      | nil => simp at h2
      | cons h4 _ => exact h4
    | succ k => exact ih k (by simpa using h2) (by simpa using h3)

/-- Every column of the log but the first was computed by a step from the state left by the step of the previous column. -/
theorem logged_pair (H : coreCalc h hR data hourly dMain dRunUp dRunUpBuild = .ok r) (k : ℕ) (hk : k + 1 < r.nMain.toNat) :
    ∃ (k' : Fin N) (t t' : TickVars I (Fin m)), (k' : ℕ) = k + 1 ∧ pyIndex N ((k + 1 : ℕ) : ℤ) = .ok k' ∧
      makePreCalc h hR (3600 / (hourly : ℝ)) data = .ok r.ss ∧ runTick ((k + 1 : ℕ) : ℤ) (3600 / (hourly : ℝ)) r.ss t.next = .ok t' ∧
      r.log ⟨k, by omega⟩ = LogRow.ofTick t ∧ r.log ⟨k + 1, hk⟩ = LogRow.ofTick t' := by
  obtain ⟨gs, c0, up, mn, T⟩ := coreCalc_ok H
  have hk1 : k + 1 < mn.length := by rw [T.mn_length]; exact hk
  have hl := T.main.length_eq
  have hc := run_pair T.main k (by omega) hk1
  rw [pyRange_getElem, zero_add] at hc
  obtain ⟨k', hk'⟩ := runTick_index hc
  refine ⟨k', mn[k], mn[k + 1], ?_, hk', T.pre, hc, T.logged ⟨k, by omega⟩ (by simpa using (by omega : k < mn.length)), T.logged ⟨k + 1, hk⟩ hk1⟩
  by_cases hN : k + 1 < N
  · rw [pyIndex_nonneg hN] at hk'; rw [← Except.ok.inj hk']
  · rw [pyIndex_error (Or.inr (by omega))] at hk'; cases hk'

theorem step_no_demand {J : Type} [Fintype J] [DecidableEq J] {h : House I J} {hR : J → ℝ} {data : Fin N → Record I J} {dt : ℝ}
    {ss : PreCalc I J N} {n : ℤ} {c : Cond I J} {t : TickVars I J} {k : Fin N}
    (Hp : makePreCalc h hR dt data = .ok ss) (H : runTick n dt ss c = .ok t) (hk : pyIndex N n = .ok k)
    (hcap : ∀ i, 0 ≤ h.capH i ∧ 0 ≤ h.capC i) {i : I} (hd : (data k).acDemand i ≤ 0) :
    t.lc i = 0 ∧ t.lr i = 0 ∧ t.lCl i = 0 := by
  obtain ⟨ivs, k', -, hs, hk', e⟩ := step_eqs Hp H
  have : k' = k := Except.ok.inj (hk'.symm.trans hk)
  subst this
  have hm : (t.ot i).mode = .stopClose := by
    have := e.ot i
    rw [hs] at this
    unfold getOtTargetAndHHum at this
    have hd' : ¬ ((preCalcOf h hR dt data ivs).acDemand k' i > 0) := not_lt.2 hd
    simp only [getOperationMode, if_neg hd', bind, Except.bind] at this
    rw [← Except.ok.inj this]
  obtain ⟨nat, p1, -, hnat, -, -⟩ := calc_passes e.load
  have h0 := C08_no_load _ _ e.load (by rw [hs]; exact hcap) nat hnat i
    (by rintro ⟨h1, -⟩; have h1' : (t.ot i).mode = .heating := h1; rw [hm] at h1'; cases h1')
    (by rintro ⟨h1, -⟩; have h1' : (t.ot i).mode = .cooling := h1; rw [hm] at h1'; cases h1')
  have h0' : t.lc i = 0 ∧ t.lr i = 0 := h0
  exact ⟨h0'.1, h0'.2, C20_only_when_cooled Hp H i (by rw [h0'.1]; norm_num)⟩

/-- **C08** for the whole program: in every logged step a room without air-conditioning demand has no convective, no radiative and no
latent load. -/
theorem C08_program (hcap : ∀ i, 0 ≤ h.capH i ∧ 0 ≤ h.capC i)
    (H : coreCalc h hR data hourly dMain dRunUp dRunUpBuild = .ok r) (k : Fin r.nMain.toNat) (k' : Fin N) (hk : (k' : ℕ) = k) (i : I)
    (hd : (data k').acDemand i ≤ 0) : (r.log k).lCs i = 0 ∧ (r.log k).lRs i = 0 ∧ (r.log k).lCl i = 0 := by
  obtain ⟨k'', c, t, e1, e2, Hp, Ht, el⟩ := logged_step H k
  have : k'' = k' := Fin.ext (by omega)
  subst this
  rw [el]
  exact step_no_demand Hp Ht e2 hcap hd

end

section
variable {I J : Type} [Fintype I] [DecidableEq I] [Unique I] [Fintype J] [DecidableEq J] {N : ℕ} {h : House I J} {hR : J → ℝ}
  {data : Fin N → Record I J} {dt : ℝ} {ss : PreCalc I J N} {n : ℤ} {c : Cond I J} {t : TickVars I J} {k : Fin N}

/-- In a one-room house with full demand the operative temperature reaches the target of the mode. -/
theorem step_target (Hp : makePreCalc h hR dt data = .ok ss) (H : runTick n dt ss c = .ok t) (hk : pyIndex N n = .ok k)
    (hcap : ∀ i, 0 ≤ h.capH i ∧ 0 ≤ h.capC i) (i : I) (hd : (data k).acDemand i = 1) :
    ((t.ot i).mode = .heating → (t.ot i).thetaLower ≤ t.thetaOt i ∧
      (t.lc i ≠ 0 ∨ t.lr i ≠ 0 → t.thetaOt i = (t.ot i).thetaLower)) ∧
    ((t.ot i).mode = .cooling → t.thetaOt i ≤ (t.ot i).thetaUpper ∧
      (t.lc i ≠ 0 ∨ t.lr i ≠ 0 → t.thetaOt i = (t.ot i).thetaUpper)) := by
  obtain ⟨ivs, k', -, hs, hk', e⟩ := step_eqs Hp H
  have : k' = k := Except.ok.inj (hk'.symm.trans hk)
  subst this
  obtain ⟨nat, p1, -, hnat, -, -⟩ := calc_passes e.load
  set a := Tick.loadInput ss k' t.ot t.brcOt t.brmOt t.brlOt with ha
  have hcap' : CapsNonneg a := by rw [ha, hs]; exact hcap
  have hdem : a.demand i = 1 := by rw [ha, hs]; exact hd
  have hfull := C09_full_demand a _ e.load nat hnat i hdem
  have hmode : a.mode i = (t.ot i).mode := rfl
  constructor
  · intro hm
    by_cases hh : Heated a nat i
    · have : t.thetaOt i = (t.ot i).thetaLower := hfull.1 hh
      exact ⟨this.ge, fun _ => this⟩
    · have hc : ¬ Cooled a nat i := by rintro ⟨h1, -⟩; rw [hmode, hm] at h1; cases h1
      have hz : t.lc i = 0 ∧ t.lr i = 0 := C08_no_load a _ e.load hcap' nat hnat i hh hc
      have hfree : t.thetaOt = nat := C08_free_running a _ e.load hcap' nat hnat (by
        intro l; rw [Unique.eq_default l, ← Unique.eq_default i]; exact ⟨hh, hc⟩)
      refine ⟨?_, fun h' => by rcases h' with h' | h' <;> simp [hz] at h'⟩
      rw [hfree]
      by_contra hlt
      exact hh ⟨by rw [hmode, hm], not_le.1 hlt⟩
  · intro hm
    by_cases hc : Cooled a nat i
    · have : t.thetaOt i = (t.ot i).thetaUpper := hfull.2 hc
      exact ⟨this.le, fun _ => this⟩
    · have hh : ¬ Heated a nat i := by rintro ⟨h1, -⟩; rw [hmode, hm] at h1; cases h1
      have hz : t.lc i = 0 ∧ t.lr i = 0 := C08_no_load a _ e.load hcap' nat hnat i hh hc
      have hfree : t.thetaOt = nat := C08_free_running a _ e.load hcap' nat hnat (by
        intro l; rw [Unique.eq_default l, ← Unique.eq_default i]; exact ⟨hh, hc⟩)
      refine ⟨?_, fun h' => by rcases h' with h' | h' <;> simp [hz] at h'⟩
      rw [hfree]
      by_contra hlt
      exact hc ⟨by rw [hmode, hm], not_le.1 hlt⟩

end

section
variable {I : Type} [Fintype I] [DecidableEq I] [Unique I] {m N : ℕ} {h : House I (Fin m)} {hR : Fin m → ℝ}
  {data : Fin N → Record I (Fin m)} {hourly dMain dRunUp dRunUpBuild : ℤ} {r : CalcResult I m N}

/-- **C09** for the whole program, one room: in every logged step with full demand (but the first, whose previous state is not logged) in
which the log says HEATING, the logged operative temperature is at least the temperature `T` at which the program's PMV for winter
clothing and the vapour pressure of the previously logged humidity is -0.5, and equal to it if any load is logged; in a step that says
COOLING it is at most the temperature at which the PMV for summer clothing is +0.5, and equal to it if any load is logged. -/
theorem C09_program_single (hcap : ∀ i, 0 ≤ h.capH i ∧ 0 ≤ h.capC i)
    (H : coreCalc h hR data hourly dMain dRunUp dRunUpBuild = .ok r) (k : ℕ) (hk : k + 1 < r.nMain.toNat) (k' : Fin N)
    (hk' : (k' : ℕ) = k + 1) (i : I) (hd : (data k').acDemand i = 1) :
    ((r.log ⟨k + 1, hk⟩).mode i = some .heating →
      ∃ T, getPmv T 1.1 (getPvR ((r.log ⟨k, by omega⟩).xR i)) (hHumC + hHumR) T = -0.5 ∧ T ≤ (r.log ⟨k + 1, hk⟩).thetaOt i ∧
      ((r.log ⟨k + 1, hk⟩).lCs i ≠ 0 ∨ (r.log ⟨k + 1, hk⟩).lRs i ≠ 0 → (r.log ⟨k + 1, hk⟩).thetaOt i = T)) ∧
    ((r.log ⟨k + 1, hk⟩).mode i = some .cooling →
      ∃ T, getPmv T 0.3 (getPvR ((r.log ⟨k, by omega⟩).xR i)) (hHumC + hHumR) T = 0.5 ∧ (r.log ⟨k + 1, hk⟩).thetaOt i ≤ T ∧
      ((r.log ⟨k + 1, hk⟩).lCs i ≠ 0 ∨ (r.log ⟨k + 1, hk⟩).lRs i ≠ 0 → (r.log ⟨k + 1, hk⟩).thetaOt i = T)) := by
  obtain ⟨k'', t, t', e1, e2, Hp, Ht, el, el'⟩ := logged_pair H k hk
  have : k'' = k' := Fin.ext (by omega)
  subst this
  obtain ⟨h1, h2⟩ := step_target Hp Ht e2 hcap i hd
  obtain ⟨ivs, k3, -, hs, hk', e⟩ := step_eqs Hp Ht
  obtain ⟨g1, g2, -⟩ := C04_target_realises_pmv _ _ _ _ _ _ (e.ot i)
  obtain ⟨q1, q2⟩ := ot_coefs (e.ot i)
  rw [q1, q2] at g1 g2
  rw [el, el']
  refine ⟨?_, ?_⟩
  · intro hm
    have hm' : (t'.ot i).mode = .heating := Option.some.inj hm
    exact ⟨_, (g1 hm').1, (h1 hm').1, (h1 hm').2⟩
  · intro hm
    have hm' : (t'.ot i).mode = .cooling := Option.some.inj hm
    exact ⟨_, (g2 hm').1, (h2 hm').1, (h2 hm').2⟩

/-- The temperature in `C09_program_single` is unique. -/
theorem target_unique (clo p : ℝ) (hc : 0 ≤ clo) {T T' : ℝ} (h : getPmv T clo p (hHumC + hHumR) T = getPmv T' clo p (hHumC + hHumR) T') :
    T = T' := by
  have hk := pmv_coef_pos
  have hr := hHumR_pos
  have hcv := hHumC_pos
  have hf := getFcl_pos (getIcl_nonneg hc)
  have hi := getIcl_nonneg hc
  have hm : getM = 58.15 := rfl
  have hg : 0 < getFcl (getIcl clo) * (hHumC + hHumR) / (1 + getIcl clo * getFcl (getIcl clo) * (hHumC + hHumR)) := by
    positivity
  have := getPmv_affine T clo p (hHumC + hHumR) T T' p T'
  rw [h, sub_self, sub_self, mul_zero, zero_add, ← add_mul] at this
  have h0 : T' - T = 0 := by
    rcases mul_eq_zero.1 this.symm with h1 | h1
    · exact absurd h1 hk.ne'
    · rcases mul_eq_zero.1 h1 with h2 | h2
      · rw [hm] at h2
        exact absurd h2 (by positivity)
      · exact h2
  linarith

end

end HLC
