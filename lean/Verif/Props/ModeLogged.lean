import Verif.Props.ColdHouse
import Verif.Spec.RoomVote

/-!
# C02 for whole calculations: the mode of every row follows from the row before
-/

namespace HLC

set_option linter.unusedSectionVars false

open Spec

/-- The vote computed by the program is that of the specification. -/
theorem getHHumAndPmv_eq {clo : ℝ} (hc : 0 ≤ clo) (x air radiant : ℝ) : getHHumAndPmv (getPvR x) air radiant clo = roomVote clo air radiant x := by
  have hf := getFcl_pos (getIcl_nonneg hc)
  have hi := getIcl_nonneg hc
  have hh : (0 : ℝ) < 4 + 4 * 3.96e-8 * (20 + 273.15) ^ 3 := by positivity
  have e1 : hHumR = 4 * 3.96e-8 * (20 + 273.15) ^ 3 := by unfold hHumR; norm_num
  have e2 : getFcl (getIcl clo) = if 0.155 * clo ≤ 0.078 then 1 + 1.29 * (0.155 * clo) else 1.05 + 0.645 * (0.155 * clo) := by
    unfold getFcl getIcl
    rw [mul_comm clo]
    norm_num
  have e3 : getIcl clo = 0.155 * clo := mul_comm _ _
  have hmax : max (0.42 * ((58.15 : ℝ) - 58.15)) 0 = 0 := by norm_num
  unfold getHHumAndPmv roomVote getPmv getThetaOt
  simp only [getM, hmax]
  rw [← e2, ← e3, ← e1, show (4 : ℝ) = hHumC from rfl]
  rw [← e1, show (4 : ℝ) = hHumC from rfl] at hh
  have hd : getIcl clo + 1 / (getFcl (getIcl clo) * (hHumC + hHumR)) =
      (1 + getIcl clo * getFcl (getIcl clo) * (hHumR + hHumC)) / (getFcl (getIcl clo) * (hHumC + hHumR)) := by
    rw [eq_div_iff (mul_pos hf hh).ne', add_mul, div_mul_cancel₀ _ (mul_pos hf hh).ne']
    ring
  rw [hd, div_div_eq_mul_div]
  have hp : getPvR x = 101325 * x / (x + 0.62198) := by unfold getPvR getF; norm_num
  rw [← hp, show hHumR * radiant + hHumC * air = hHumC * air + hHumR * radiant by ring, show hHumR + hHumC = hHumC + hHumR by ring]
  norm_num
  left
  ring

variable {I : Type} [Fintype I] [DecidableEq I] {m N : ℕ}
variable {h : House I (Fin m)} {hR : Fin m → ℝ} {data : Fin N → Record I (Fin m)} {hourly dMain dRunUp dRunUpBuild : ℤ}
  {r : CalcResult I m N}

/-- **C02** for the whole program: in every completed calculation the mode of a room in every row but the first is the one that the rule
gives for the demand in the record of that row, the mode in the row before and the comfort, in heavy (1.1 clo), middle (0.7 clo) and
light (0.3 clo) clothing, at the air temperature, radiant temperature and humidity in the row before. -/
theorem C02_program (H : coreCalc h hR data hourly dMain dRunUp dRunUpBuild = .ok r) (k : ℕ) (hk : k + 1 < r.nMain.toNat) (i : I) :
    ∃ (md md' : OpMode) (n : Fin N), (n : ℕ) = k + 1 ∧
      (r.log ⟨k, by omega⟩).mode i = some md ∧ (r.log ⟨k + 1, hk⟩).mode i = some md' ∧
      ∀ vote : ℝ → ℝ, (∀ clo, vote clo = roomVote clo ((r.log ⟨k, by omega⟩).thetaR i) ((r.log ⟨k, by omega⟩).thetaMrt i) ((r.log ⟨k, by omega⟩).xR i)) →
        (md' = .heating ↔ Heats ((data n).acDemand i) md (vote 1.1) (vote 0.3)) ∧
        (md' = .cooling ↔ Cools ((data n).acDemand i) md (vote 1.1) (vote 0.3)) ∧
        (md' = .stopOpen ↔ Opens ((data n).acDemand i) md (vote 1.1) (vote 0.7) (vote 0.3)) ∧
        (md' = .stopClose ↔ ¬ Heats ((data n).acDemand i) md (vote 1.1) (vote 0.3) ∧
          ¬ Cools ((data n).acDemand i) md (vote 1.1) (vote 0.3) ∧ ¬ Opens ((data n).acDemand i) md (vote 1.1) (vote 0.7) (vote 0.3)) := by
  obtain ⟨n, t, t', hn, hidx, Hp, Ht, e1, e2⟩ := logged_pair H k hk
  obtain ⟨md, hmd, hleg, -⟩ := C01_program H ⟨k, by omega⟩ i
  rw [e1] at hmd
  have em : (t.ot i).mode = md := Option.some.inj hmd
  obtain ⟨ivs, k', hi, hs, hk', e⟩ := step_eqs Hp Ht
  have : k' = n := Except.ok.inj (hk'.symm.trans hidx)
  subst this
  have e3 := e.ot i
  rw [hs] at e3
  unfold getOtTargetAndHHum at e3
  simp only [bind, Except.bind] at e3
  split at e3
  · cases e3
  rename_i md' hm
  refine ⟨md, md', k', hn, by rw [e1]; exact hmd, by rw [e2]; show some (t'.ot i).mode = _; rw [← Except.ok.inj e3], ?_⟩
  intro vote hv
  rw [e1] at hv
  have hv' : ∀ clo, 0 ≤ clo → getHHumAndPmv (getPvR (t.next.xR i)) (t.next.thetaR i) (t.next.thetaMrt i) clo = vote clo := fun clo hc => by
    rw [hv, getHHumAndPmv_eq hc]; rfl
  rw [show cloHeavy = 1.1 from rfl, show cloMiddle = 0.7 from rfl, show cloLight = 0.3 from rfl, hv' 1.1 (by norm_num), hv' 0.7 (by norm_num),
    hv' 0.3 (by norm_num)] at hm
  obtain ⟨m'', h1, h2⟩ := C02_mode_rule ((data k').acDemand i) md (vote 1.1) (vote 0.7) (vote 0.3) hleg
  have hm' : getOperationMode ((data k').acDemand i) md (vote 1.1) (vote 0.7) (vote 0.3) = .ok md' := by rw [← em]; exact hm
  have : m'' = md' := Except.ok.inj (h1.symm.trans hm')
  rw [this] at h2
  exact h2


/-- The hypotheses of `C02_program` are met by the cold house: 96 rows, heated in the first. -/
example : ∃ r : CalcResult (Fin 1) 1 96, coreCalc exCold exColdHR exColdData 4 1 0 0 = .ok r ∧ 0 + 1 < r.nMain.toNat := by
  obtain ⟨r, H⟩ := exCold_completes
  obtain ⟨gs, c0, up, mn, T⟩ := coreCalc_ok H
  exact ⟨r, H, by rw [T.nMain_eq]; norm_num⟩

end HLC
