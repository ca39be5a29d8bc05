import Verif.Lemmas.ExampleHouse
import Verif.Model.Log
import Verif.Spec.Infiltration

/-!
# C31, C32, C35-C37: mean radiant temperature, radiant exchange, solar distribution, infiltration, occupants
-/

namespace HLC

set_option linter.unusedSectionVars false

open Spec

variable {I J : Type} [Fintype I] [DecidableEq I] [Fintype J] [DecidableEq J] {N : ℕ}

variable {h : House I J} {hR : J → ℝ} {dt : ℝ} {data : Fin N → Record I J} {ss : PreCalc I J N}

/-! ## C31, C32 -/

theorem fMrt_eq (Hp : makePreCalc h hR dt data = .ok ss) : ss.fMrt = h.fMrt hR ∧ ss.p = h.p ∧ ss.hR = hR ∧ ss.aSrf = h.area ∧
    ss.qSolFrt = (fun n => House.qSolFrt (data n)) ∧ ss.qSol = (fun n => h.qSol (data n)) ∧ ss.fMrtHum = h.fMrtHumMat := by
  obtain ⟨ivs, -, rfl⟩ := makePreCalc_ok Hp
  exact ⟨rfl, rfl, rfl, rfl, rfl, rfl, rfl⟩

theorem surfaces_sum_pos {w : J → ℝ} (hw : ∀ j, 0 < w j) {i : I} (hi : ∃ j, h.room j = i) : 0 < ∑ j ∈ surfaces h i, w j := by
  obtain ⟨j, hj⟩ := hi
  exact Finset.sum_pos (fun l _ => hw l) ⟨j, by simp [surfaces, hj]⟩

theorem mean_between {s : Finset J} {w θ : J → ℝ} (hw : ∀ j, 0 ≤ w j) (hsum : ∑ j ∈ s, w j = 1) {lo hi : ℝ}
    (hθ : ∀ j ∈ s, lo ≤ θ j ∧ θ j ≤ hi) : lo ≤ ∑ j ∈ s, w j * θ j ∧ ∑ j ∈ s, w j * θ j ≤ hi := by
  constructor
  · calc lo = ∑ j ∈ s, w j * lo := by rw [← Finset.sum_mul, hsum, one_mul]
      _ ≤ _ := Finset.sum_le_sum fun j hj => mul_le_mul_of_nonneg_left (hθ j hj).1 (hw j)
  · calc _ ≤ ∑ j ∈ s, w j * hi := Finset.sum_le_sum fun j hj => mul_le_mul_of_nonneg_left (hθ j hj).2 (hw j)
      _ = hi := by rw [← Finset.sum_mul, hsum, one_mul]

/-- **C31 (weights).** With positive areas and radiative coefficients, the weights of the mean radiant temperature are non-negative, are
zero on the surfaces of other rooms, are proportional to area times radiative coefficient on its own surfaces, and sum to one in
every room that has a surface. -/
theorem C31_weights (Hp : makePreCalc h hR dt data = .ok ss) (ha : ∀ j, 0 < h.area j) (hr : ∀ j, 0 < hR j) :
    (∀ i j, 0 ≤ ss.fMrt i j) ∧ (∀ i j, h.room j ≠ i → ss.fMrt i j = 0) ∧ (∀ i, (∃ j, h.room j = i) → ∑ j, ss.fMrt i j = 1) ∧
    (∀ i j, h.room j = i → ss.fMrt i j * ∑ l ∈ surfaces h i, h.area l * hR l = h.area j * hR j) := by
  obtain ⟨e, -⟩ := fMrt_eq Hp
  rw [e]
  have hw : ∀ j, 0 < h.area j * hR j := fun j => mul_pos (ha j) (hr j)
  have hden : ∀ i, ∑ k, h.p i k * (h.area k * hR k) = ∑ l ∈ surfaces h i, h.area l * hR l := fun i => sum_p h _ i
  refine ⟨?_, ?_, ?_, ?_⟩
  · intro i j
    unfold House.fMrt
    rw [Matrix.of_apply, hden]
    apply div_nonneg (mul_nonneg (p_nonneg h i j) (hw j).le)
    exact Finset.sum_nonneg fun l _ => (hw l).le
  · intro i j hij
    unfold House.fMrt House.p
    simp [Matrix.of_apply, hij]
  · intro i hi
    unfold House.fMrt
    simp only [Matrix.of_apply]
    rw [← Finset.sum_div, div_self]
    rw [hden]; exact (surfaces_sum_pos hw hi).ne'
  · intro i j hij
    unfold House.fMrt
    rw [Matrix.of_apply, hden, div_mul_cancel₀ _ (surfaces_sum_pos hw ⟨j, hij⟩).ne']
    simp [House.p, hij]

/-- **C31 (surfaces).** The mean radiant temperature seen by the surfaces of a room lies between the smallest and the largest of the room's
own surface temperatures, whatever the temperatures in other rooms. -/
theorem C31_between (Hp : makePreCalc h hR dt data = .ok ss) (ha : ∀ j, 0 < h.area j) (hr : ∀ j, 0 < hR j) (θs : J → ℝ) {i : I}
    (hi : ∃ j, h.room j = i) {lo hi' : ℝ} (hθ : ∀ j, h.room j = i → lo ≤ θs j ∧ θs j ≤ hi') :
    lo ≤ ss.fMrt.mulVec θs i ∧ ss.fMrt.mulVec θs i ≤ hi' := by
  obtain ⟨h0, hz, hs, -⟩ := C31_weights Hp ha hr
  have e : ∀ w : J → ℝ, ∑ j, ss.fMrt i j * w j = ∑ j ∈ surfaces h i, ss.fMrt i j * w j := by
    intro w
    unfold surfaces
    rw [Finset.sum_filter]
    apply Finset.sum_congr rfl
    intro j _
    split
    · rfl
    · rename_i hj; rw [hz i j hj, zero_mul]
  have hsum : ∑ j ∈ surfaces h i, ss.fMrt i j = 1 := by
    have := e fun _ => 1
    simp only [mul_one] at this
    rw [← this]; exact hs i hi
  have := mean_between (θ := θs) (h0 i) hsum (lo := lo) (hi := hi') (fun j hj => hθ j (by simpa [surfaces] using hj))
  rw [← e] at this
  exact this

/-- **C31 (occupants).** In every completed step, the logged mean radiant temperature of a room (seen by its occupants) lies between the
smallest and the largest of the room's own surface temperatures, if the occupants' view factors of the room are non-negative and sum
to one. -/
theorem C31_logged_between {n : ℤ} {c : Cond I J} {t : TickVars I J} (Hp : makePreCalc h hR dt data = .ok ss)
    (H : runTick n dt ss c = .ok t) {i : I} (hf : ∀ j, 0 ≤ h.fMrtHum j) (hs : ∑ j ∈ surfaces h i, h.fMrtHum j = 1) {lo hi : ℝ}
    (hθ : ∀ j, h.room j = i → lo ≤ (LogRow.ofTick t).thetaS j ∧ (LogRow.ofTick t).thetaS j ≤ hi) :
    lo ≤ (LogRow.ofTick t).thetaMrt i ∧ (LogRow.ofTick t).thetaMrt i ≤ hi := by
  obtain ⟨ivs, k, hi', hs', hk, e⟩ := step_eqs Hp H
  subst hs'
  have e1 : (LogRow.ofTick t).thetaMrt i = ∑ j ∈ surfaces h i, h.fMrtHum j * t.thetaS j := by
    show t.thetaMrt i = _
    rw [e.thetaMrt]
    exact fMrtHum_mulVec h t.thetaS i
  rw [e1]
  exact mean_between hf hs (fun j hj => hθ j (by simpa [surfaces] using hj))

/-- **C32.** The radiative surface heat flows written to the result file sum to zero over the surfaces of each room, in every column of
the logger, whatever surface temperatures it contains. -/
theorem C32_radiant_exchange (Hp : makePreCalc h hR dt data = .ok ss) (ha : ∀ j, 0 < h.area j) (hr : ∀ j, 0 < hR j)
    (r : LogRow I J) (i : I) : ∑ j ∈ surfaces h i, r.qr ss j = 0 := by
  obtain ⟨e1, e2, e3, e4, -⟩ := fMrt_eq Hp
  by_cases hi : ∃ j, h.room j = i
  · have hw : ∀ j, 0 < h.area j * hR j := fun j => mul_pos (ha j) (hr j)
    have hne := (surfaces_sum_pos hw hi).ne'
    have e : ∀ j ∈ surfaces h i, r.qr ss j = h.area j * hR j * roomMrt h hR i r.thetaS - h.area j * hR j * r.thetaS j := by
      intro j hj
      have hj' : h.room j = i := by simpa [surfaces] using hj
      unfold LogRow.qr
      rw [e1, e2, e3, e4, pT_fMrt_mulVec, hj']
      ring
    rw [Finset.sum_congr rfl e, Finset.sum_sub_distrib, ← Finset.sum_mul]
    unfold roomMrt
    rw [mul_div_cancel₀ _ hne, sub_self]
  · have : surfaces h i = ∅ := by
      unfold surfaces
      rw [Finset.filter_eq_empty_iff]
      intro j _ hj; exact hi ⟨j, hj⟩
    rw [this, Finset.sum_empty]

/-- C32 as a statement about the heat actually exchanged: the radiative flow of a surface is zero when all surfaces of its room have the
same temperature, and it flows into the coldest surface. -/
theorem C32_direction (Hp : makePreCalc h hR dt data = .ok ss) (ha : ∀ j, 0 < h.area j) (hr : ∀ j, 0 < hR j)
    (r : LogRow I J) (j : J) (hcold : ∀ l, h.room l = h.room j → r.thetaS j ≤ r.thetaS l) : 0 ≤ r.qr ss j := by
  obtain ⟨e1, e2, e3, e4, -⟩ := fMrt_eq Hp
  have hb : ∃ b, ∀ l, r.thetaS l ≤ b := by
    exact ⟨Finset.univ.sup' ⟨j, Finset.mem_univ j⟩ r.thetaS, fun l => Finset.le_sup' _ (Finset.mem_univ l)⟩
  obtain ⟨b, hb⟩ := hb
  have hm := (C31_between Hp ha hr r.thetaS ⟨j, rfl⟩ (lo := r.thetaS j) (hi' := b) fun l hl => ⟨hcold l hl, hb l⟩).1
  rw [e1, fMrt_mulVec] at hm
  unfold LogRow.qr
  rw [e1, e2, e3, e4, pT_fMrt_mulVec]
  have := mul_pos (hr j) (ha j)
  apply mul_nonneg this.le
  linarith

/-! ## C35 -/

/-- **C35.** In every record, for a room with absorbing surface area, the solar heat absorbed by the furniture plus that absorbed by the
surfaces of the room (flux times area, as written to the result file) is the transmitted solar gain; surfaces that do not absorb get
nothing. -/
theorem C35_solar_distributed (Hp : makePreCalc h hR dt data = .ok ss) (k : Fin N) (i : I)
    (habs : ∑ j ∈ surfaces h i, h.area j * (if h.solarAbs j then 1 else 0) ≠ 0) :
    ss.qSolFrt k i + ∑ j ∈ surfaces h i, qisol ss k j = (data k).qTrsSol i ∧
    (∀ j, h.solarAbs j = false → qisol ss k j = 0) := by
  obtain ⟨-, -, -, e4, e5, e6, -⟩ := fMrt_eq Hp
  have hA : h.aSrfAbs i = ∑ j ∈ surfaces h i, h.area j * (if h.solarAbs j then 1 else 0) := by
    unfold House.aSrfAbs
    rw [sum_p]
    apply Finset.sum_congr rfl
    intro j _
    unfold ind; rfl
  constructor
  · have e : ∀ j ∈ surfaces h i, qisol ss k j
        = (data k).qTrsSol i / h.aSrfAbs i * (1 - House.rSolFnt) * (h.area j * (if h.solarAbs j then 1 else 0)) := by
      intro j hj
      have hj' : h.room j = i := by simpa [surfaces] using hj
      unfold qisol
      rw [e4, e6]
      simp only [House.qSol]
      rw [sum_pT, hj']
      unfold ind
      ring
    rw [Finset.sum_congr rfl e, ← Finset.mul_sum, ← hA, e5]
    simp only [House.qSolFrt]
    rw [← hA] at habs
    rw [mul_right_comm, div_mul_cancel₀ _ habs]
    ring
  · intro j hj
    unfold qisol
    rw [e6]
    simp [House.qSol, hj, ind]

/-- **C35 (sharing).** The absorbing surfaces of a room get the same flux. -/
theorem C35_same_flux (Hp : makePreCalc h hR dt data = .ok ss) (k : Fin N) (j l : J) (hroom : h.room j = h.room l)
    (hj : h.solarAbs j = true) (hl : h.solarAbs l = true) : ss.qSol k j = ss.qSol k l := by
  obtain ⟨-, -, -, -, -, e6, -⟩ := fMrt_eq Hp
  rw [e6]
  simp only [House.qSol, hj, hl]
  rw [sum_pT, sum_pT, hroom]

/-! ## C36 -/

/-- **C36 (formula).** For one or two stories and a known pressure setting, infiltration of each room is the documented rate times the
volume of the room. -/
theorem C36_formula (cv : ℝ) (v : I → ℝ) (story : ℤ) (p : String) (θ : I → ℝ) (θo : ℝ) (hv : ∑ i, v i ≠ 0)
    (hs : story = 1 ∨ story = 2) (hp : KnownPressure p) :
    getInfiltration cv v story p θ θo = .ok fun i => infiltrationRate story p cv |meanTemp v θ - θo| * v i / 3600 := by
  unfold getInfiltration volumeAverage infiltrationA infiltrationB infiltrationRate meanTemp
  rw [if_neg hv]
  rcases hs with rfl | rfl <;> rcases hp with rfl | rfl | rfl <;> simp [bind, Except.bind]

/-- **C36 (errors).** Other numbers of stories and other pressure settings raise KeyError; that is the only way to get it. -/
theorem C36_keyError (cv : ℝ) (v : I → ℝ) (story : ℤ) (p : String) (θ : I → ℝ) (θo : ℝ) (hv : ∑ i, v i ≠ 0) :
    getInfiltration cv v story p θ θo = .error .keyError ↔ ¬ (story = 1 ∨ story = 2) ∨ ¬ KnownPressure p := by
  constructor
  · intro H
    by_contra hn
    push Not at hn
    rw [C36_formula cv v story p θ θo hv hn.1 hn.2] at H
    cases H
  · intro hn
    unfold getInfiltration volumeAverage infiltrationA infiltrationB
    rw [if_neg hv]
    unfold KnownPressure at hn
    by_cases h1 : story = 1
    · have : ¬ (p = "balanced" ∨ p = "positive" ∨ p = "negative") := by tauto
      push Not at this
      obtain ⟨a, b, c⟩ := this
      simp [h1, a, b, c, bind, Except.bind]
    · by_cases h2 : story = 2
      · have : ¬ (p = "balanced" ∨ p = "positive" ∨ p = "negative") := by tauto
        push Not at this
        obtain ⟨a, b, c⟩ := this
        simp [h2, a, b, c, bind, Except.bind]
      · simp [h1, h2, bind, Except.bind]

/-- Success means known arguments. -/
theorem getInfiltration_ok {cv : ℝ} {v : I → ℝ} {story : ℤ} {p : String} {θ : I → ℝ} {θo : ℝ} {r : I → ℝ}
    (H : getInfiltration cv v story p θ θo = .ok r) : ∑ i, v i ≠ 0 ∧ (story = 1 ∨ story = 2) ∧ KnownPressure p := by
  have hv : ∑ i, v i ≠ 0 := by
    intro h0
    unfold getInfiltration volumeAverage at H
    rw [if_pos h0] at H
    cases H
  refine ⟨hv, ?_⟩
  by_contra hn
  have := (C36_keyError cv v story p θ θo hv).mpr (not_and_or.mp hn)
  rw [this] at H; cases H

/-- **C36 (physical).** Infiltration is never negative, is proportional to the room volume and is zero when the volume-weighted room
temperature is the outdoor temperature. -/
theorem C36_physical {cv : ℝ} {v : I → ℝ} {story : ℤ} {p : String} {θ : I → ℝ} {θo : ℝ} {r : I → ℝ}
    (H : getInfiltration cv v story p θ θo = .ok r) (hv : ∀ i, 0 ≤ v i) :
    (∀ i, 0 ≤ r i) ∧ (∀ i l, r i * v l = r l * v i) ∧ (meanTemp v θ = θo → ∀ i, r i = 0) := by
  obtain ⟨h0, hs, hp⟩ := getInfiltration_ok H
  rw [C36_formula cv v story p θ θo h0 hs hp] at H
  rw [← Except.ok.inj H]
  refine ⟨?_, ?_, ?_⟩
  · intro i
    have := hv i
    have h1 : 0 ≤ infiltrationRate story p cv |meanTemp v θ - θo| := le_max_right _ _
    positivity
  · intro i l; ring
  · intro he i
    have : infiltrationRate story p cv |meanTemp v θ - θo| = 0 := by
      unfold infiltrationRate
      rw [he]
      simp only [sub_self, abs_zero, Real.sqrt_zero, mul_zero, zero_sub]
      apply max_eq_right
      split
      · split <;> norm_num
      · split
        · split <;> norm_num
        · norm_num
    simp only [this, zero_mul, zero_div]

/-- **C36 (monotone).** A leakier house (larger C value) with at least as large a temperature difference has at least as much infiltration
in every room. -/
theorem C36_monotone {c c' : ℝ} {v : I → ℝ} {story : ℤ} {p : String} {θ θ' : I → ℝ} {θo θo' : ℝ} {r r' : I → ℝ}
    (H : getInfiltration c v story p θ θo = .ok r) (H' : getInfiltration c' v story p θ' θo' = .ok r') (hv : ∀ i, 0 ≤ v i)
    (hc0 : 0 ≤ c) (hc : c ≤ c') (hd : |meanTemp v θ - θo| ≤ |meanTemp v θ' - θo'|) (i : I) : r i ≤ r' i := by
  obtain ⟨h0, hs, hp⟩ := getInfiltration_ok H
  rw [C36_formula _ v story p _ _ h0 hs hp] at H H'
  rw [← Except.ok.inj H, ← Except.ok.inj H']
  have hsq := Real.sqrt_le_sqrt hd
  have hm : c * Real.sqrt |meanTemp v θ - θo| ≤ c' * Real.sqrt |meanTemp v θ' - θo'| :=
    mul_le_mul hc hsq (Real.sqrt_nonneg _) (hc0.trans hc)
  have hr : infiltrationRate story p c |meanTemp v θ - θo| ≤ infiltrationRate story p c' |meanTemp v θ' - θo'| := by
    unfold infiltrationRate
    apply max_le_max _ le_rfl
    apply sub_le_sub_right
    apply mul_le_mul_of_nonneg_left hm
    split <;> norm_num
  have := mul_le_mul_of_nonneg_right hr (hv i)
  show _ * v i / 3600 ≤ _ * v i / 3600
  linarith

/-- **C36 (step).** The infiltration logged for a completed step is non-negative in every room. -/
theorem C36_logged_nonneg {h : House I J} {hR : J → ℝ} {dt : ℝ} {data : Fin N → Record I J} {ss : PreCalc I J N} {n : ℤ}
    {c : Cond I J} {t : TickVars I J} (Hp : makePreCalc h hR dt data = .ok ss) (H : runTick n dt ss c = .ok t)
    (hv : ∀ i, 0 ≤ h.vRoom i) (i : I) : 0 ≤ (LogRow.ofTick t).vLeak i := by
  obtain ⟨ivs, k, hi', hs', hk, e⟩ := step_eqs Hp H
  subst hs'
  exact (C36_physical e.vLeak hv).1 i

/-- **C36 (estimated C value).** With the C value estimated from the UA value, a house that loses more heat through its parts also leaks at least as
much, for every structure; houses of wood or steel leak at least as much as houses of concrete with the same UA value. -/
theorem C36_estimated {ua ua' : ℝ} {s s' : Structure} {v : I → ℝ} {story : ℤ} {p : String} {θ : I → ℝ} {θo : ℝ} {r r' : I → ℝ}
    (H : getInfiltration (estimateCValue ua s) v story p θ θo = .ok r) (H' : getInfiltration (estimateCValue ua' s') v story p θ θo = .ok r')
    (hv : ∀ i, 0 ≤ v i) (h0 : 0 ≤ ua) (hu : ua ≤ ua') (hs : s = s' ∨ s = .rc ∨ s = .src) (i : I) : r i ≤ r' i := by
  have hs0 : 0 ≤ estimateCValue ua s := by cases s <;> simp only [estimateCValue] <;> positivity
  refine C36_monotone H H' hv hs0 ?_ le_rfl i
  have h1 : (4.16 : ℝ) * ua ≤ 4.16 * ua' := by linarith
  have h2 : (8.28 : ℝ) * ua ≤ 8.28 * ua' := by linarith
  rcases hs with rfl | rfl | rfl
  · cases s <;> simp only [estimateCValue] <;> assumption
  · cases s' <;> simp only [estimateCValue] <;> linarith
  · cases s' <;> simp only [estimateCValue] <;> linarith

/-- A concrete case: a concrete and a wooden house with UA values of 0.6 and 0.87 W/(m2 K). -/
example : ∃ r r', getInfiltration (estimateCValue 0.6 .rc) (fun _ : Fin 2 => (30 : ℝ)) 2 "negative" (fun _ => 20) 0 = .ok r ∧
    getInfiltration (estimateCValue 0.87 .wooden) (fun _ : Fin 2 => (30 : ℝ)) 2 "negative" (fun _ => 20) 0 = .ok r' :=
  ⟨_, _, C36_formula _ _ _ _ _ _ (by norm_num) (Or.inr rfl) (by simp [KnownPressure]),
    C36_formula _ _ _ _ _ _ (by norm_num) (Or.inr rfl) (by simp [KnownPressure])⟩

/-! ## C37 -/

/-- **C37.** Sensible heat plus latent heat (evaporation heat 2 501 000 J/kg times moisture) of a person is 119 W at every room temperature;
moisture is never negative; the sensible heat is 63 W at 24 degC, falls by 4 W/K and is capped at 119 W. -/
theorem C37_occupant (θ : ℝ) :
    qHumPsn θ + 2501000 * xHumPsn θ = 119 ∧ 0 ≤ xHumPsn θ ∧ qHumPsn θ = min (63 - 4 * (θ - 24)) 119 := by
  refine ⟨?_, ?_, rfl⟩
  · unfold xHumPsn lWtr; ring
  · unfold xHumPsn lWtr
    have : qHumPsn θ ≤ 119 := min_le_right _ _
    apply div_nonneg <;> linarith

/-- **C37 (step).** In every completed step the logged sensible and latent heat of the occupants of a room is 119 W per person, at the
room temperature of the beginning of the step. -/
theorem C37_logged {h : House I J} {hR : J → ℝ} {dt : ℝ} {data : Fin N → Record I J} {ss : PreCalc I J N} {n : ℤ} {k : Fin N}
    {c : Cond I J} {t : TickVars I J} (Hp : makePreCalc h hR dt data = .ok ss) (H : runTick n dt ss c = .ok t)
    (hk : pyIndex N n = .ok k) (i : I) :
    (LogRow.ofTick t).qHum i + 2501000 * (LogRow.ofTick t).xHum i = 119 * (data k).nHum i ∧
    (LogRow.ofTick t).qHum i = min (63 - 4 * (c.thetaR i - 24)) 119 * (data k).nHum i := by
  obtain ⟨ivs, k', hi', hs', hk', e⟩ := step_eqs Hp H
  have : k' = k := Except.ok.inj (hk'.symm.trans hk)
  subst this; subst hs'
  show t.qHum i + 2501000 * t.xHum i = _ ∧ t.qHum i = _
  rw [e.qHum, e.xHum]
  simp only [Tick.qHum, Tick.xHum, preCalcOf]
  have := (C37_occupant (c.thetaR i)).1
  refine ⟨?_, rfl⟩
  linear_combination (data k').nHum i * this

/-- Observation: above 39.75 degC the sensible heat of a person is negative. -/
theorem C37_sensible_negative {θ : ℝ} (hθ : 39.75 < θ) : qHumPsn θ < 0 := by
  unfold qHumPsn
  exact lt_of_le_of_lt (min_le_left _ _) (by linarith)

/-! ## Concrete case -/

/-- The example house meets the hypotheses of the theorems above: all rooms have absorbing surfaces, positive areas and coefficients, view
factors that sum to one, and its first step completes. -/
example : ∃ ss t, makePreCalc exHouse exHR 900 exData = .ok ss ∧ runTick (-1) 900 ss (initialConditions (Fin 2) (Fin 4)) = .ok t ∧
    (∀ j, 0 < exHouse.area j) ∧ (∀ j, 0 < exHR j) ∧ (∀ i, ∃ j, exHouse.room j = i) ∧
    (∀ i, ∑ j ∈ surfaces exHouse i, exHouse.fMrtHum j = 1) ∧
    (∀ i, ∑ j ∈ surfaces exHouse i, exHouse.area j * (if exHouse.solarAbs j then 1 else 0) ≠ 0) ∧ pyIndex 3 (-1) = .ok 2 := by
  obtain ⟨ss, t, h1, h2⟩ := exHouse_first
  refine ⟨ss, t, h1, h2, exHouse_wellFormed.area_pos, exHouse_wellFormed.hR_pos, ?_, ?_, ?_, rfl⟩
  · intro i
    fin_cases i
    · exact ⟨0, rfl⟩
    · exact ⟨2, rfl⟩
  · intro i
    simp only [surfaces, Finset.sum_filter, Fin.sum_univ_four]
    fin_cases i <;> simp [exHouse] <;> norm_num
  · intro i
    simp only [surfaces, Finset.sum_filter, Fin.sum_univ_four]
    fin_cases i <;> simp [exHouse] <;> norm_num

/-- Infiltration of a two-storey house with C value 2 at 16 K: 0.02 * 2 * 4 per hour. -/
example : getInfiltration (I := Fin 2) 2 ![30, 50] 2 "balanced" (fun _ => 20) 4 = .ok fun i => 0.16 * (![30, 50] : Fin 2 → ℝ) i / 3600 := by
  rw [C36_formula _ _ _ _ _ _ (by norm_num) (Or.inr rfl) (Or.inl rfl)]
  have : |meanTemp (![30, 50] : Fin 2 → ℝ) (fun _ => 20) - 4| = 4 ^ 2 := by unfold meanTemp; norm_num
  rw [this]
  unfold infiltrationRate
  rw [Real.sqrt_sq (by norm_num)]
  simp
  norm_num

end HLC
