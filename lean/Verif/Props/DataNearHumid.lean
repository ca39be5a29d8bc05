import Verif.Props.DataNear

/-!
# C135: humidities
-/

set_option linter.unusedSectionVars false

namespace HLC
open Spec

section
variable {I J : Type} [Fintype I] [DecidableEq I] [Fintype J] [DecidableEq J] {N : ℕ} {h : House I J} {hR : J → ℝ} {dt : ℝ}

/-- One step from the same state under data whose humidities and vapour gains agree up to `ξ`. -/
theorem step_moist_data (hw : WellFormed h hR dt) (hC : h.cValue = 0) :
    ∃ K : ℝ, 0 ≤ K ∧ ∀ {N : ℕ} {ss ss' : PreCalc I J N} {A A' : Fin N → Record I J} (_ : makePreCalc h hR dt A = .ok ss)
      (_ : makePreCalc h hR dt A' = .ok ss') {n : ℤ} {k : Fin N} (_ : pyIndex N n = .ok k)
      (_ : ∀ i, ∑ l, h.vInt i l ≤ h.vVentEx i + (A k).vLocal i)
      (_ : ∀ i, (A k).acDemand i ≤ 0) (_ : ∀ i, (A' k).acDemand i ≤ 0) {ε ξ : ℝ} (_ : 0 ≤ ξ) (_ : DataNear ε (A k) (A' k))
      (_ : MoistDataNear ξ (A k) (A' k)) {c : Cond I J} {t t' : TickVars I J} (_ : runTick n dt ss c = .ok t) (_ : runTick n dt ss' c = .ok t'),
      HumidNear (K * ξ) t.next t'.next := by
  have hdt := hw.dt_pos
  have hq : ∀ i, 0 ≤ dt / (h.vRoom i * 1.2) := fun i => by have := hw.vRoom_pos i; positivity
  refine ⟨2 + ∑ i, dt / (h.vRoom i * 1.2), add_nonneg zero_le_two (Finset.sum_nonneg fun i _ => hq i), ?_⟩
  intro N ss ss' A A' Hp Hp' n k hk hvent hd hd' ε ξ hξ hn hm c t t' H H'
  set K := 2 + ∑ i, dt / (h.vRoom i * 1.2) with hK
  have hroom : ∀ i, |t'.xR i - t.xR i| ≤ K * ξ := by
    rcases isEmpty_or_nonempty I with hI | hI
    · exact fun i => (hI.false i).elim
    obtain ⟨i, hi⟩ := Finite.exists_max fun i => |t'.xR i - t.xR i|
    suffices hs : |t'.xR i - t.xR i| ≤ K * ξ from fun l => (hi l).trans hs
    have e := free_moist hw hC Hp H hk hd i
    have e' := free_moist hw hC Hp' H' hk hd' i
    rw [hn.ventilation, hn.people] at e'
    have hV := hw.vRoom_pos i
    have ha : 0 < h.vRoom i * 1.2 / dt := by positivity
    have hne : 0 < h.cLh i + dt * h.gLh i := lt_of_le_of_ne (add_nonneg (hw.cLh_nonneg i) (mul_nonneg hdt.le (hw.gLh_nonneg i))) (lh_ne hw i).symm
    have hb : 0 ≤ h.gLh i * h.cLh i / (h.cLh i + dt * h.gLh i) := div_nonneg (mul_nonneg (hw.gLh_nonneg i) (hw.cLh_nonneg i)) hne.le
    have hSum : 0 ≤ ∑ l, h.vInt i l := Finset.sum_nonneg fun l _ => hw.vInt_nonneg i l
    have hhold : h.vRoom i * 1.2 / dt ≤ moistHold h dt i := le_add_of_nonneg_right hb
    have hSa : 1.2 * ∑ l, h.vInt i l ≤ h.vRoom i * 1.2 / dt := by
      rw [le_div_iff₀ hdt]
      linarith [hw.vInt_lt i]
    have hq1 : dt / (h.vRoom i * 1.2) * (h.vRoom i * 1.2 / dt) = 1 := by
      have := hV.ne'
      field_simp
    have hqK : 2 + dt / (h.vRoom i * 1.2) ≤ K :=
      add_le_add le_rfl (Finset.single_le_sum (f := fun i => dt / (h.vRoom i * 1.2)) (fun i _ => hq i) (Finset.mem_univ i))
    have hv := hvent i
    have ediff : (moistHold h dt i + 1.2 * (h.vVentEx i + (A k).vLocal i)) * (t'.xR i - t.xR i)
        = 1.2 * (h.vVentEx i + (A k).vLocal i) * ((A' k).xO - (A k).xO) + 1.2 * ∑ l, h.vInt i l * (t'.xR l - t.xR l) + ((A' k).xGen i - (A k).xGen i) := by
      have es : ∑ l, h.vInt i l * (t'.xR l - t.xR l) = ∑ l, h.vInt i l * t'.xR l - ∑ l, h.vInt i l * t.xR l := by
        rw [← Finset.sum_sub_distrib]
        exact Finset.sum_congr rfl fun l _ => by ring
      rw [es]
      linear_combination e' - e
    have m1 : |∑ l, h.vInt i l * (t'.xR l - t.xR l)| ≤ (∑ l, h.vInt i l) * |t'.xR i - t.xR i| := by
      refine (Finset.abs_sum_le_sum_abs _ _).trans ?_
      rw [Finset.sum_mul]
      refine Finset.sum_le_sum fun l _ => ?_
      rw [abs_mul, abs_of_nonneg (hw.vInt_nonneg i l)]
      exact mul_le_mul_of_nonneg_left (hi l) (hw.vInt_nonneg i l)
    have hqi := hq i
    generalize h.vVentEx i + (A k).vLocal i = v at *
    generalize ∑ l, h.vInt i l = S at *
    generalize dt / (h.vRoom i * 1.2) = r at *
    generalize h.vRoom i * 1.2 / dt = a at *
    generalize moistHold h dt i = b at *
    have hv0 : 0 ≤ 1.2 * v := by linarith
    have hpos : 0 < b + 1.2 * v := by linarith
    have main : (b + 1.2 * v) * |t'.xR i - t.xR i| ≤ 1.2 * v * ξ + 1.2 * (S * |t'.xR i - t.xR i|) + ξ := by
      rw [← abs_of_pos hpos, ← abs_mul, ediff]
      refine (abs_add_le _ _).trans (add_le_add ((abs_add_le _ _).trans (add_le_add ?_ ?_)) (hm.gains i))
      · rw [abs_mul, abs_of_nonneg hv0]
        exact mul_le_mul_of_nonneg_left hm.outdoor hv0
      · rw [abs_mul, abs_of_pos (by norm_num : (0 : ℝ) < 1.2)]
        exact mul_le_mul_of_nonneg_left m1 (by norm_num)
    generalize |t'.xR i - t.xR i| = x at *
    have hp2 : 0 < b + 1.2 * v - 1.2 * S := by linarith
    have f1 : 1.2 * v * ξ ≤ 2 * (b + 1.2 * v - 1.2 * S) * ξ := mul_le_mul_of_nonneg_right (by linarith) hξ
    have f2 : 1 ≤ r * (b + 1.2 * v - 1.2 * S) := hq1.ge.trans (mul_le_mul_of_nonneg_left (by linarith) hqi)
    have f3 := mul_le_mul_of_nonneg_right f2 hξ
    have f4 := mul_le_mul_of_nonneg_right hqK hξ
    refine le_trans ?_ f4
    refine le_of_mul_le_mul_left ?_ hp2
    linarith
  refine ⟨hroom, fun i => ?_⟩
  show |t'.xFrt i - t.xFrt i| ≤ _
  have hne : 0 < h.cLh i + dt * h.gLh i := lt_of_le_of_ne (add_nonneg (hw.cLh_nonneg i) (mul_nonneg hdt.le (hw.gLh_nonneg i))) (lh_ne hw i).symm
  have e := C15_furniture_moisture Hp H i hne.ne'
  have e' := C15_furniture_moisture Hp' H' i hne.ne'
  have ediff : (h.cLh i + dt * h.gLh i) * (t'.xFrt i - t.xFrt i) = dt * h.gLh i * (t'.xR i - t.xR i) := by linear_combination e' - e
  have hg : 0 ≤ dt * h.gLh i := mul_nonneg hdt.le (hw.gLh_nonneg i)
  refine le_of_mul_le_mul_left ?_ hne
  rw [← abs_of_pos hne, ← abs_mul, ediff, abs_of_pos hne, abs_mul, abs_of_nonneg hg]
  exact (mul_le_mul_of_nonneg_left (hroom i) hg).trans
    (mul_le_mul_of_nonneg_right (by linarith [hw.cLh_nonneg i]) ((abs_nonneg _).trans (hroom i)))

/-- **C135 (partial), humidity, any start.** The same for the humidities, if every room takes in more outdoor air than air of other rooms and its furniture
exchanges moisture with its air. -/
theorem C135_humidity_runs_partial [Nonempty I] {w u : I → ℝ} (hw : WellFormed h hR dt) (hP : Passive h hR) (hpt : Partitions h hR)
    (hC : h.cValue = 0) (hw0 : ∀ i, 0 ≤ w i) (hg : ∀ i, 0 < h.gSh i) (hl : LosesHeat h w) (hu : ∀ i, 0 < u i) (hgl : ∀ i, 0 < h.gLh i)
    (hrh : ∀ i, h.isRadHeating i = false) (hrc : ∀ i, h.isRadCooling i = false) :
    ∃ C : ℝ, 0 ≤ C ∧ ∀ {N : ℕ} {ss ss' : PreCalc I J N} {A A' : Fin N → Record I J} (_ : makePreCalc h hR dt A = .ok ss)
      (_ : makePreCalc h hR dt A' = .ok ss')
      (_ : ∀ k i, w i + (∑ l, h.vInt i l + ∑ l, h.vInt l i) / 2 ≤ h.vVentEx i + (A k).vLocal i)
      (_ : ∀ k i, u i + ∑ l, h.vInt i l ≤ h.vVentEx i + (A k).vLocal i) (_ : ∀ k i, 0 ≤ (A k).vLocal i)
      (_ : ∀ k, RoomForPeople h dt (A k)) {ε ξ M : ℝ} (_ : 0 ≤ ε) (_ : 0 ≤ ξ) (_ : ∀ k, DataNear ε (A k) (A' k)) (_ : ∀ k, MoistDataNear ξ (A k) (A' k))
      {c c' : Cond I J} (_ : PartitionsEmpty h c) (_ : PartitionsEmpty h c') (_ : 0 ≤ M) (_ : StateNear M c c') (_ : HumidNear M c c')
      (_ : ∀ i, c'.mode i ≠ .heatingAndCooling) {ns : List ℤ} {ts ts' : List (TickVars I J)}
      (_ : Run ss dt c ns ts) (_ : Run ss' dt c' ns ts') (j : ℕ) (_ : j < ns.length) (h1 : j < ts.length) (h2 : j < ts'.length)
      (_ : ∀ (l : ℕ) (hl : l < ns.length), l ≤ j → ∀ k : Fin N, pyIndex N ns[l] = .ok k → ∀ i, (A k).acDemand i ≤ 0 ∧ (A' k).acDemand i ≤ 0),
      RowHumidNear (C * (ε + ξ + M)) (LogRow.ofTick ts[j]) (LogRow.ofTick ts'[j]) := by
  obtain ⟨C, Near, hC0, h0, HS⟩ := exists_bound hw hP hpt hC hw0 hg hl
  obtain ⟨K, hK, HK⟩ := step_data (w := w) hw hP hpt hC hw0 hg hl
  obtain ⟨Kx, hKx, HX⟩ := step_moist_data hw hC
  obtain ⟨ρ, σ, hσ1, hF⟩ := moistFading_exists (u := u) hw hu hgl
  have hσ0 : 0 ≤ σ := hF.nonneg.trans hF.order
  have hκ := peopleMoist_pos
  obtain ⟨B, hB1, hBe⟩ : ∃ B : ℝ, 1 ≤ B ∧ B = (C + 1) * (K + 1) := ⟨_, by nlinarith, rfl⟩
  obtain ⟨Q, hQ1, hQ⟩ : ∃ Q : ℝ, 1 ≤ Q ∧ σ * Q + (peopleMoist * B + Kx + 1) ≤ Q := by
    have hpos : 0 ≤ peopleMoist * B := mul_nonneg hκ.le (by linarith)
    refine ⟨(peopleMoist * B + Kx + 1) / (1 - σ), ?_, ?_⟩
    · rw [le_div_iff₀ (by linarith)]
      linarith
    · have h1 : (peopleMoist * B + Kx + 1) / (1 - σ) * (1 - σ) = peopleMoist * B + Kx + 1 := div_mul_cancel₀ _ (by linarith)
      generalize (peopleMoist * B + Kx + 1) / (1 - σ) = Q at *
      linarith
  refine ⟨Q, by linarith, ?_⟩
  intro N ss ss' A A' Hp Hp' hvent hvent' hloc hp ε ξ M hε hξ hn hnx c c' hc hc' hM hcc hx0 hm ns ts ts' H H'
  have hE : Near ((K + 1) * (ε + M)) c c' := h0 (by positivity) (hcc.mono (by nlinarith [mul_nonneg hK hM, mul_nonneg hK hε]))
  have hθ : ∀ i, |c'.thetaR i - c.thetaR i| ≤ B * (ε + M) := fun i => (hcc.rooms i).trans (by nlinarith)
  have hT : 0 ≤ ε + ξ + M := by linarith
  have hQT : 0 ≤ Q * (ε + ξ + M) := mul_nonneg (by linarith) hT
  have hMQ : M ≤ Q * (ε + ξ + M) := by nlinarith
  have hx : HumidNear (Q * (ε + ξ + M)) c c' := ⟨fun i => (hx0.rooms i).trans hMQ, fun i => (hx0.furniture i).trans hMQ⟩
  have hle : σ * (Q * (ε + ξ + M)) + peopleMoist * (B * (ε + M)) + Kx * ξ ≤ Q * (ε + ξ + M) := by
    have f1 := mul_le_mul_of_nonneg_right hQ hT
    have f2 : 0 ≤ peopleMoist * B * ξ := mul_nonneg (mul_nonneg hκ.le (by linarith)) hξ
    have f3 : 0 ≤ Kx * (ε + M) := mul_nonneg hKx (by linarith)
    nlinarith
  clear hcc hx0
  have hKε : K * ε ≤ (K + 1) * (ε + M) := by nlinarith [mul_nonneg hK hM]
  induction H generalizing c' ts' with
  | nil => intro j hj; simp at hj
  | cons a1 a2 ih =>
    rename_i c n ns t ts
    cases H' with
    | cons b1 b2 =>
      rename_i t' ts'
      intro j hj h1 h2 hd
      obtain ⟨k, hk⟩ := runTick_index a1
      have hd0 := hd 0 (by simp) (by omega) k hk
      obtain ⟨ss0, t0, Hp0, ht0⟩ := C21_step_completes_partial (data := A) (n := n) (c := c') hw hrh hrc hloc hm
        (by have := pyIndex_spec hk; have := k.2; constructor <;> omega)
      obtain rfl : ss0 = ss := Except.ok.inj (Hp0.symm.trans Hp)
      obtain ⟨r1, r2⟩ := HK Hp Hp' hk (hvent k) (fun i => (hd0 i).1) (fun i => (hd0 i).2) hε (hn k) ht0 b1
      obtain ⟨s1, s2⟩ := HS Hp hk (hvent k) (hp k) (fun i => (hd0 i).1) hc hc' (by positivity) hE a1 ht0 (r2.mono hKε)
      have s3 := step_moist_fade hw hC hF Hp a1 ht0 hk (fun i => (hd0 i).1) (fun i => ⟨(hu i).le, hvent' k i⟩) (hp k) hQT
        (mul_nonneg (by linarith) (by linarith)) hx hθ
      have s4 := HX Hp Hp' hk (fun i => by linarith [hvent' k i, hu i]) (fun i => (hd0 i).1) (fun i => (hd0 i).2) hξ (hn k) (hnx k) ht0 b1
      have tri : ∀ {x y z X E : ℝ}, |y - x| ≤ X → |z - y| ≤ E → |z - x| ≤ X + E := fun {x y z X E} h1 h2 => by
        rw [abs_le] at *
        constructor <;> linarith
      have s5 : HumidNear (Q * (ε + ξ + M)) t.next t'.next :=
        ⟨fun i => (tri (s3.rooms i) (s4.rooms i)).trans hle, fun i => (tri (s3.furniture i) (s4.furniture i)).trans hle⟩
      cases j with
      | zero => exact ⟨s5.rooms, s5.furniture⟩
      | succ j =>
        refine ih (held_empty hpt Hp a1 hc) (held_empty hpt Hp' b1 hc')
          (fun i => legal_iff_ne.1 (step_mode Hp' b1 hk (fun i => legal_iff_ne.2 (hm i)) i).1) b2 s2 (fun i => ?_) s5 j (by simpa using hj) (by simpa using h1)
          (by simpa using h2) fun l hl hlj => hd (l + 1) (by simpa using hl) (by omega)
        refine (tri (s1.rooms i) (r1.rooms i)).trans ?_
        rw [hBe]
        nlinarith

end

section
variable {I : Type} [Fintype I] [DecidableEq I] {m : ℕ} {h : House I (Fin m)} {hR : Fin m → ℝ}

/-- **C135 (partial), humidity.** One constant for the house: if the weather and the gains of two calculations agree up to `ε` and their humidities and
vapour gains up to `ξ` then the humidities that they write agree up to `C (ε + ξ)`, as long as no room has had demand. -/
theorem C135_rows_humidity_partial [Nonempty I] {hourly : ℤ} {w u : I → ℝ} (hw : WellFormed h hR (3600 / (hourly : ℝ))) (hP : Passive h hR)
    (hpt : Partitions h hR) (hgr : ∀ j, h.isGround j = true → h.kEi j = none) (hC : h.cValue = 0) (hw0 : ∀ i, 0 ≤ w i)
    (hg : ∀ i, 0 < h.gSh i) (hl : LosesHeat h w) (hu : ∀ i, 0 < u i) (hgl : ∀ i, 0 < h.gLh i) (hrh : ∀ i, h.isRadHeating i = false)
    (hrc : ∀ i, h.isRadCooling i = false) :
    ∃ C : ℝ, 0 ≤ C ∧ ∀ {N : ℕ} {A A' : Fin N → Record I (Fin m)} {dMain dRunUp dBuild : ℤ} {r r' : CalcResult I m N} {ε ξ : ℝ}
      (_ : ∀ k i, w i + (∑ l, h.vInt i l + ∑ l, h.vInt l i) / 2 ≤ h.vVentEx i + (A k).vLocal i)
      (_ : ∀ k i, u i + ∑ l, h.vInt i l ≤ h.vVentEx i + (A k).vLocal i) (_ : ∀ k i, 0 ≤ (A k).vLocal i)
      (_ : ∀ k, RoomForPeople h (3600 / (hourly : ℝ)) (A k)) (_ : 0 ≤ dBuild * hourly * 24) (_ : 0 ≤ ε) (_ : 0 ≤ ξ) (_ : ∀ k, DataNear ε (A k) (A' k))
      (_ : ∀ k, MoistDataNear ξ (A k) (A' k))
      (_ : coreCalc h hR A hourly dMain dRunUp dBuild = .ok r) (_ : coreCalc h hR A' hourly dMain dRunUp dBuild = .ok r')
      (k : ℕ) (_ : NoDemand (fun n => (A n).acDemand) (-(dBuild * hourly * 24)) k) (_ : NoDemand (fun n => (A' n).acDemand) (-(dBuild * hourly * 24)) k)
      (hk : k < r.nMain.toNat) (hk' : k < r'.nMain.toNat), RowHumidNear (C * (ε + ξ)) (r.log ⟨k, hk⟩) (r'.log ⟨k, hk'⟩) := by
  obtain ⟨C, hC0, HC⟩ := C135_humidity_runs_partial (w := w) (u := u) hw hP hpt hC hw0 hg hl hu hgl hrh hrc
  obtain ⟨K, hK, HK⟩ := start_near hw hP hgr
  refine ⟨C * (1 + K), by positivity, ?_⟩
  intro N A A' dMain dRunUp dBuild r r' ε ξ hvent hvent' hloc hp h0 hε hξ hn hnx H H' k hd hd' hk hk'
  obtain ⟨gs, c, up, mn, T⟩ := coreCalc_ok H
  obtain ⟨gs', c', up', mn', T'⟩ := coreCalc_ok H'
  obtain ⟨_, ts, Hp, hc, R, h1, h2, e, D⟩ := calc_row hgr h0 H T.start k hd hk
  obtain ⟨_, ts', Hp', hc', R', h1', h2', e', D'⟩ := calc_row hgr h0 H' T'.start k hd' hk'
  obtain ⟨f1, f2, f3⟩ := updateByGround_fields T.start
  obtain ⟨f1', f2', f3'⟩ := updateByGround_fields T'.start
  have hm : ∀ i, c'.mode i ≠ .heatingAndCooling := fun i => by rw [f1']; exact legal_iff_ne.1 (initial_legal (m := m) i)
  have hKε : 0 ≤ K * ε := by positivity
  have hx : HumidNear (K * ε) c c' := ⟨fun i => by rw [f2, f2']; simpa using hKε, fun i => by rw [f3, f3']; simpa using hKε⟩
  rw [e, e']
  have := HC Hp Hp' hvent hvent' hloc hp hε hξ hn hnx hc hc' hKε (HK hε hn H H' T.start T'.start) hx hm R R' _ h2 h1 h1'
    (fun l hl hle k' hk' i => ⟨D l hl hle k' hk' i, D' l hl hle k' hk' i⟩)
  have hle : C * (ε + ξ + K * ε) ≤ C * (1 + K) * (ε + ξ) := by nlinarith [mul_nonneg hC0 (mul_nonneg hK hξ)]
  exact ⟨fun i => (this.rooms i).trans hle, fun i => (this.furniture i).trans hle⟩

end

/-- The day of `C134_rows_partial` with outdoor air that is warmer by `ε` and moister by `ξ`, and `ε` W more of sun and of gains in its rooms. -/
noncomputable def exAiryDayOff (ε ξ : ℝ) : Fin 96 → Record (Fin 2) (Fin 4) := fun k =>
  { exAiryDay k with
    thetaO := (exAiryDay k).thetaO + ε
    xO := (exAiryDay k).xO + ξ
    qGen := fun i => (exAiryDay k).qGen i + ε
    qTrsSol := fun i => (exAiryDay k).qTrsSol i + ε
    thetaOSol := fun j => (exAiryDay k).thetaOSol j - ε }

/-- The hypotheses of `C135_rows_partial` and `C135_rows_humidity_partial` are met by a day (after a day of run-up of the ground) of the house of
`C110_storing_rows_partial` (which has a part in contact with the ground). -/
example : ∃ C : ℝ, 0 ≤ C ∧ ∀ ε ξ : ℝ, 0 ≤ ε → 0 ≤ ξ → ∃ r r', coreCalc exStore exHR exAiryDay 4 1 1 0 = .ok r ∧
    coreCalc exStore exHR (exAiryDayOff ε ξ) 4 1 1 0 = .ok r' ∧ r.nMain.toNat = 96 ∧ r'.nMain.toNat = 96 ∧
      ∀ k (hk : k < r.nMain.toNat) (hk' : k < r'.nMain.toNat),
        RowNear (C * ε) (r.log ⟨k, hk⟩) (r'.log ⟨k, hk'⟩) ∧ RowHumidNear (C * (ε + ξ)) (r.log ⟨k, hk⟩) (r'.log ⟨k, hk'⟩) := by
  have e4 : (3600 / ((4 : ℤ) : ℝ)) = 900 := by norm_num
  have hw : WellFormed exStore exHR (3600 / ((4 : ℤ) : ℝ)) := by rw [e4]; exact exStore_wellFormed
  have hloc : ∀ k i, 0 ≤ (exAiryDay k).vLocal i := fun k i => by fin_cases i <;> norm_num [exAiryDay, exDay]
  have hgr : ∀ j, exStore.isGround j = true → exStore.kEi j = none := by intro j; fin_cases j <;> simp [exStore]
  have hg : ∀ i, 0 < exStore.gSh i := by intro i; fin_cases i <;> norm_num [exStore, exHouse]
  have hgl : ∀ i, 0 < exStore.gLh i := by intro i; fin_cases i <;> norm_num [exStore, exHouse]
  obtain ⟨C1, hC1, HR⟩ := C135_rows_partial (hourly := 4) (w := fun _ => 0) hw exStore_passive exStore_partitions hgr rfl (fun _ => le_rfl) hg
    exStore_loses (fun _ => rfl) (fun _ => rfl)
  obtain ⟨C2, hC2, HX⟩ := C135_rows_humidity_partial (hourly := 4) (w := fun _ => 0) (u := fun _ => 0.01) hw exStore_passive exStore_partitions hgr rfl
    (fun _ => le_rfl) hg exStore_loses (fun _ => by norm_num) hgl (fun _ => rfl) (fun _ => rfl)
  refine ⟨C1 + C2, by linarith, fun ε ξ hε hξ => ?_⟩
  obtain ⟨r, H⟩ := C21_program_partial (data := exAiryDay) (dMain := 1) (dRunUp := 1) (dRunUpBuild := 0) hw (fun _ => rfl) (fun _ => rfl)
    hloc (by norm_num) (by norm_num) (by norm_num) (by norm_num) (by norm_num) (by norm_num)
  obtain ⟨r', H'⟩ := C21_program_partial (data := exAiryDayOff ε ξ) (dMain := 1) (dRunUp := 1) (dRunUpBuild := 0) hw (fun _ => rfl) (fun _ => rfl)
    hloc (by norm_num) (by norm_num) (by norm_num) (by norm_num) (by norm_num) (by norm_num)
  obtain ⟨_, _, _, _, T⟩ := coreCalc_ok H
  obtain ⟨_, _, _, _, T'⟩ := coreCalc_ok H'
  have hn : ∀ k, DataNear ε (exAiryDay k) (exAiryDayOff ε ξ k) := fun k =>
    ⟨by simp [exAiryDayOff, abs_of_nonneg hε], fun j => by simp [exAiryDayOff, abs_of_nonneg hε], fun i => by simp [exAiryDayOff, abs_of_nonneg hε],
      fun i => by simp [exAiryDayOff, abs_of_nonneg hε], rfl, rfl⟩
  have hx : ∀ k, MoistDataNear ξ (exAiryDay k) (exAiryDayOff ε ξ k) := fun k =>
    ⟨by simp [exAiryDayOff, abs_of_nonneg hξ], fun i => by simpa [exAiryDayOff] using hξ⟩
  have hp : ∀ k, RoomForPeople exStore (3600 / ((4 : ℤ) : ℝ)) (exAiryDay k) := by
    intro k i
    rw [e4]
    fin_cases i <;> norm_num [exStore, exHouse, exAiryDay, exDay, airCap]
  have v1 : ∀ k i, (0 : ℝ) + (∑ l, exStore.vInt i l + ∑ l, exStore.vInt l i) / 2 ≤ exStore.vVentEx i + (exAiryDay k).vLocal i := fun k i => by
    fin_cases i <;> norm_num [exStore, exHouse, exAiryDay, exDay, Fin.sum_univ_two]
  have v2 : ∀ k i, (0.01 : ℝ) + ∑ l, exStore.vInt i l ≤ exStore.vVentEx i + (exAiryDay k).vLocal i := fun k i => by
    fin_cases i <;> norm_num [exStore, exHouse, exAiryDay, exDay, Fin.sum_univ_two]
  refine ⟨r, r', H, H', by rw [T.nMain_eq]; rfl, by rw [T'.nMain_eq]; rfl, fun k hk hk' => ⟨?_, ?_⟩⟩
  · exact (HR v1 hloc hp (by norm_num) hε hn H H' k (fun _ _ _ _ _ _ => le_rfl) (fun _ _ _ _ _ _ => le_rfl) hk hk').mono
      (mul_le_mul_of_nonneg_right (le_add_of_nonneg_right hC2) hε)
  · have := HX v1 v2 hloc hp (by norm_num) hε hξ hn hx H H' k (fun _ _ _ _ _ _ => le_rfl) (fun _ _ _ _ _ _ => le_rfl) hk hk'
    have hle := mul_le_mul_of_nonneg_right (le_add_of_nonneg_left hC1 : C2 ≤ C1 + C2) (add_nonneg hε hξ)
    exact ⟨fun i => (this.rooms i).trans hle, fun i => (this.furniture i).trans hle⟩

end HLC
