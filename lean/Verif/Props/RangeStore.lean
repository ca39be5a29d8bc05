import Verif.Props.WarmBehind
import Verif.Props.Airing
import Mathlib.Analysis.SpecificLimits.Basic

/-!
# C86 for houses that store heat
-/

set_option linter.unusedSectionVars false

namespace HLC
open Spec

section
variable {I J : Type} [Fintype I] [DecidableEq I] [Fintype J] [DecidableEq J] {N : ℕ} {h : House I J} {hR : J → ℝ} {dt : ℝ}

/-- A house that has been at `T` for ever. -/
noncomputable def restAt (h : House I J) (T : ℝ) : Cond I J :=
  { initialConditions I J with
    thetaR := fun _ => T
    thetaFrt := fun _ => T
    thetaEi := fun _ => T
    dshT := fun j m => T * h.phiT1 j m / (1 - h.ratio j m) }

theorem restAt_atRest (T : ℝ) : AtRest h T (restAt h T) := ⟨fun _ => rfl, fun _ => rfl, fun _ => rfl, fun _ => rfl, fun _ _ => rfl, fun _ _ => rfl⟩

/-- Beside every run there is one of other records from another state. -/
theorem run_beside [Nonempty I] {ss ss' : PreCalc I J N} {B : Fin N → Record I J} (hw : WellFormed h hR dt) (hH : ∀ i, h.isRadHeating i = false)
    (hRC : ∀ i, h.isRadCooling i = false) (hloc : ∀ k i, 0 ≤ (B k).vLocal i) (Hp : makePreCalc h hR dt B = .ok ss') {c c' : Cond I J} {ns : List ℤ}
    {ts : List (TickVars I J)} (H : Run ss dt c ns ts) (hm : ∀ i, Legal (c'.mode i)) : ∃ ts', Run ss' dt c' ns ts' := by
  induction H generalizing c' with
  | nil => exact ⟨[], Run.nil _⟩
  | @cons _ n _ _ _ a1 _ ih =>
    obtain ⟨k, hk⟩ := runTick_index a1
    have hn := pyIndex_spec hk
    have hk2 := k.2
    obtain ⟨ss2, t, Hp2, ht⟩ := C21_step_completes_partial (c := c') (n := n) hw hH hRC hloc
      (fun i hi => by rcases hm i with g | g | g | g <;> rw [g] at hi <;> cases hi) (by rcases hn with h | h <;> omega)
    obtain rfl : ss2 = ss' := Except.ok.inj (Hp2.symm.trans Hp)
    obtain ⟨k', hk'⟩ := runTick_index ht
    obtain ⟨ts', h1⟩ := ih (c' := t.next) fun i => (step_mode Hp ht hk' hm i).1
    exact ⟨t :: ts', Run.cons ht h1⟩

/-- A part that has had `x` behind it for ever. -/
theorem kept_rest {j : J} {x : ℝ} (hx : 0 ≤ x) (hp : LogConvex (pulse h hR j)) (ht : LetsWarmthThrough h hR j)
    (hrat : ∀ l, 0 ≤ h.ratio j l ∧ h.ratio j l < 1) : KeptWarm h hR j (fun _ => 0) (fun l => x * h.phiT1 j l / (1 - h.ratio j l)) := by
  refine ⟨fun _ _ => 0, fun m l => ∑ i ∈ Finset.range m, x * (h.phiT1 j l * h.ratio j l ^ (m - 1 - i)), fun m => ?_, fun _ => tendsto_const_nhds,
    fun l => ?_⟩
  · refine ⟨m, fun _ => 0, fun _ => x, fun _ => hx, .inl ht, fun k _ => ?_, fun l => by simp, fun l => rfl⟩
    have hpass : ∀ n, 0 ≤ passed h j n := by
      obtain ⟨y, hy, h1⟩ := ht
      intro n
      rw [← h1 n]
      exact Finset.sum_nonneg fun i _ => mul_nonneg (hy i) (hp _).1.le
    refine add_nonneg (by simp [answer]) (Finset.sum_nonneg fun i _ => mul_nonneg hx (hpass _))
  · have h1 : ∀ m, ∑ i ∈ Finset.range m, x * (h.phiT1 j l * h.ratio j l ^ (m - 1 - i)) = x * h.phiT1 j l * ∑ i ∈ Finset.range m, h.ratio j l ^ i := by
      intro m
      rw [Finset.mul_sum, ← Finset.sum_range_reflect (fun i => x * h.phiT1 j l * h.ratio j l ^ i)]
      exact Finset.sum_congr rfl fun i _ => by ring
    simp only [h1, div_eq_mul_inv]
    exact tendsto_const_nhds.mul (hasSum_geometric_of_lt_one (hrat l).1 (hrat l).2).tendsto_sum_nat

theorem restAt_empty (hrx : Relaxing h hR) (T : ℝ) : PartitionsEmpty h (restAt h T) := by
  intro j hK l
  obtain ⟨⟨m, coef⟩, hK'⟩ := Option.ne_none_iff_exists'.1 hK
  refine ⟨rfl, ?_⟩
  show T * h.phiT1 j l / (1 - h.ratio j l) = 0
  rw [((hrx.between j m coef hK').2.2 l).2]
  simp

theorem light_zero {j : J} (hS : ¬ KeepsPast h j) (l : Fin 12) : h.phiT1 j l = 0 := by
  unfold KeepsPast at hS
  push Not at hS
  exact (hS l).2

/-- The start of a calculation compared with a house that has been at `lo`, not above 0 degC, for ever. -/
theorem start_above (hrx : Relaxing h hR) (hlt : ∀ j, h.kEi j = none → KeepsPast h j → LetsWarmthThrough h hR j)
    (hrat : ∀ j l, 0 ≤ h.ratio j l ∧ h.ratio j l < 1) {lo : ℝ} (hlo : lo ≤ 0) : Warming h hR (restAt h lo) (initialConditions I J) where
  rooms _ := show lo ≤ (15 : ℝ) by linarith
  furniture _ := show lo ≤ (15 : ℝ) by linarith
  heat j hK hS := by
    have := kept_rest (x := -lo) (by linarith) (hrx.pulse j hK hS) (hlt j hK hS) (hrat j)
    have e1 : pendA h (restAt h lo) (initialConditions I J) j = fun _ => 0 := by
      funext l; simp [pendA, restAt, initialConditions]
    have e2 : (fun l => (initialConditions I J).dshT j l - (restAt h lo).dshT j l) = fun l => -lo * h.phiT1 j l / (1 - h.ratio j l) := by
      funext l
      show 0 - lo * h.phiT1 j l / (1 - h.ratio j l) = _
      ring
    rw [e1, e2]
    exact this
  light j _ hS l := ⟨rfl, by
    show 0 = lo * h.phiT1 j l / (1 - h.ratio j l)
    rw [light_zero hS l]; simp⟩
  empty := restAt_empty hrx lo
  empty' := fun _ _ _ => ⟨rfl, rfl⟩

/-- The start of a calculation compared with a house that has been at `hi`, not below 15 degC, for ever. -/
theorem start_below (hrx : Relaxing h hR) (hlt : ∀ j, h.kEi j = none → KeepsPast h j → LetsWarmthThrough h hR j)
    (hrat : ∀ j l, 0 ≤ h.ratio j l ∧ h.ratio j l < 1) {hi : ℝ} (hhi : 15 ≤ hi) : Warming h hR (initialConditions I J) (restAt h hi) where
  rooms _ := hhi
  furniture _ := hhi
  heat j hK hS := by
    have := kept_rest (x := hi) (by linarith) (hrx.pulse j hK hS) (hlt j hK hS) (hrat j)
    have e1 : pendA h (initialConditions I J) (restAt h hi) j = fun _ => 0 := by
      funext l; simp [pendA, restAt, initialConditions]
    have e2 : (fun l => (restAt h hi).dshT j l - (initialConditions I J).dshT j l) = fun l => hi * h.phiT1 j l / (1 - h.ratio j l) := by
      funext l
      show hi * h.phiT1 j l / (1 - h.ratio j l) - 0 = _
      ring
    rw [e1, e2]
    exact this
  light j _ hS l := ⟨rfl, by
    show hi * h.phiT1 j l / (1 - h.ratio j l) = 0
    rw [light_zero hS l]; simp⟩
  empty := fun _ _ _ => ⟨rfl, rfl⟩
  empty' := restAt_empty hrx hi

/-- The records of a day at `T` everywhere outdoors. -/
def evenly (T : ℝ) (A : Fin N → Record I J) : Fin N → Record I J := fun k =>
  { A k with thetaO := T, thetaOSol := fun _ => T, qGen := fun _ => 0, nHum := fun _ => 0, qTrsSol := fun _ => 0, acDemand := fun _ => 0 }

end

section
variable {I : Type} [Fintype I] [DecidableEq I] [Nonempty I] {m N : ℕ} {h : House I (Fin m)} {hR : Fin m → ℝ}
  {data : Fin N → Record I (Fin m)} {hourly dMain dRunUp dRunUpBuild : ℤ} {r : CalcResult I m N}

/-- **C86 (partial), houses that store heat.** Take a tight house without radiant systems and without air exchange between rooms, off the ground,
whose outer parts may store heat, take it up evenly and let warmth through. With no gains, people, sun or demand, every temperature of rooms,
furniture and surfaces lies between the lowest and the highest of the outdoor temperatures and the two temperatures from which the calculation
starts: 15 degC in the rooms and 0 degC in the parts. So do the mean radiant and operative temperatures if the radiant weights sum to one. -/
theorem C86_storing_partial (hw : WellFormed h hR (3600 / (hourly : ℝ))) (hr : RadiantWellFormed h) (hrx : Relaxing h hR)
    (hst : SteadyWalls h) (hrat : ∀ j l, 0 ≤ h.ratio j l ∧ h.ratio j l < 1)
    (hlt : ∀ j, h.kEi j = none → KeepsPast h j → LetsWarmthThrough h hR j) (hH : ∀ i, h.isRadHeating i = false)
    (hRC : ∀ i, h.isRadCooling i = false) (hng : ∀ j, h.isGround j = false) (hv : ∀ i l, h.vInt i l = 0) (hC : h.cValue = 0)
    (H : coreCalc h hR data hourly dMain dRunUp dRunUpBuild = .ok r) {lo hi : ℝ} (h15 : lo ≤ 0 ∧ 15 ≤ hi)
    (hd : ∀ k, Outdoors (lo ≤ ·) (data k) ∧ Outdoors (· ≤ hi) (data k) ∧ (∀ i, 0 ≤ (data k).vLocal i) ∧ Idle (data k))
    (k : Fin r.nMain.toNat) : RowTemps (fun θ => lo ≤ θ ∧ θ ≤ hi) (r.log k) ∧
      ((∀ i, ∑ j ∈ surfaces h i, h.fMrtHum j = 1) → RowMeans (fun θ => lo ≤ θ ∧ θ ≤ hi) (r.log k)) := by
  suffices h0 : RowTemps (fun θ => lo ≤ θ ∧ θ ≤ hi) (r.log k) by
    refine ⟨h0, fun hsum => ?_⟩
    have m1 := (row_means (k := k) (lo := lo) H hw.fMrtHum_nonneg hsum).1 ⟨fun i => (h0.1 i).1, fun i => (h0.2.1 i).1, fun j => (h0.2.2 j).1⟩
    have m2 := (row_means (k := k) (lo := hi) H hw.fMrtHum_nonneg hsum).2 ⟨fun i => (h0.1 i).2, fun i => (h0.2.1 i).2, fun j => (h0.2.2 j).2⟩
    exact ⟨fun i => ⟨m1.1 i, m2.1 i⟩, fun i => ⟨m1.2 i, m2.2 i⟩⟩
  obtain ⟨gs, c0, up, mn, T⟩ := coreCalc_ok H
  have e0 := start_eq hng T
  subst e0
  have R := T.runUp.append T.main
  have hmn : k.1 < mn.length := by rw [T.mn_length]; exact k.2
  have hu : up.length = (pyRange (-(dRunUpBuild * hourly * 24)) 0).length := T.runUp.length_eq
  have hm : mn.length = (pyRange 0 (dMain * hourly * 24)).length := T.main.length_eq
  have pre : ∀ τ, ∃ ss, makePreCalc h hR (3600 / (hourly : ℝ)) (evenly τ data) = .ok ss := fun τ => by
    unfold makePreCalc
    rw [ax_inv hw]
    exact ⟨_, rfl⟩
  have hq : ∀ τ n, Quiet τ (evenly τ data n) := fun τ n =>
    { outdoor := rfl, solAir := fun _ => rfl, noGain := fun _ => rfl, noPeople := fun _ => rfl, noSun := fun _ => rfl, noDemand := fun _ => rfl }
  have legal : ∀ τ i, Legal ((restAt h τ).mode i) := fun τ i => by
    show Legal initialMode
    simp [Legal, initialMode]
  have el : r.log k = LogRow.ofTick ((up ++ mn)[up.length + k.1]'(by rw [List.length_append]; omega)) := by
    rw [T.logged k hmn, List.getElem_append_right (by omega)]
    simp
  have hj : up.length + k.1 < (pyRange (-(dRunUpBuild * hourly * 24)) 0 ++ pyRange 0 (dMain * hourly * 24)).length := by
    rw [List.length_append]; omega
  have hj1 : up.length + k.1 < (up ++ mn).length := by rw [List.length_append]; omega
  have even : ∀ τ ss ts (_ : makePreCalc h hR (3600 / (hourly : ℝ)) (evenly τ data) = .ok ss)
      (_ : Run ss (3600 / (hourly : ℝ)) (restAt h τ) (pyRange (-(dRunUpBuild * hourly * 24)) 0 ++ pyRange 0 (dMain * hourly * 24)) ts)
      (hl : up.length + k.1 < ts.length), (∀ i, (ts[up.length + k.1]).thetaR i = τ) ∧ (∀ i, (ts[up.length + k.1]).thetaFrt i = τ) ∧
        ∀ j, (ts[up.length + k.1]).thetaS j = τ := by
    intro τ ss ts hp hrun hl
    have := C22_forever_partial hw hst hv hp (hq τ) hrun (restAt_atRest τ) _ (List.getElem_mem hl)
    exact ⟨this.1.room, this.1.furniture, this.2⟩
  obtain ⟨ss1, P1⟩ := pre lo
  obtain ⟨ss2, P2⟩ := pre hi
  obtain ⟨ts1, R1⟩ := run_beside hw hH hRC (B := evenly lo data) (fun k i => (hd k).2.2.1 i) P1 R (legal lo)
  obtain ⟨ts2, R2⟩ := run_beside hw hH hRC (B := evenly hi data) (fun k i => (hd k).2.2.1 i) P2 R (legal hi)
  have l1 : up.length + k.1 < ts1.length := by rw [R1.length_eq]; exact hj
  have l2 : up.length + k.1 < ts2.length := by rw [R2.length_eq]; exact hj
  have hlt' : ∀ j, KeepsPast h j → LetsWarmthThrough h hR j := by
    intro j hS
    cases hK : h.kEi j with
    | none => exact hlt j hK hS
    | some mc =>
      obtain ⟨l, hl⟩ := hS
      have := (hrx.between j mc.1 mc.2 hK).2.2 l
      exact absurd hl (by simp [this.1, this.2])
  have roomy : ∀ n : Fin N, RoomForPeople h (3600 / (hourly : ℝ)) (evenly lo data n) ∧ RoomForPeople h (3600 / (hourly : ℝ)) (data n) := by
    intro n
    have hz : ∀ i, (0 : ℝ) ≤ h.vRoom i * airCap := fun i => mul_nonneg (hw.vRoom_pos i).le (by unfold airCap; norm_num)
    refine ⟨fun i => ⟨le_rfl, ?_⟩, fun i => ⟨((hd n).2.2.2.noPeople i).ge, ?_⟩⟩
    · show 4 * (0 : ℝ) * _ ≤ _
      rw [mul_zero, zero_mul]
      exact hz i
    · rw [(hd n).2.2.2.noPeople i, mul_zero, zero_mul]
      exact hz i
  have none1 : ∀ (a b : Fin N → Record I (Fin m)) (ss ss' : PreCalc I (Fin m) N) (c c' : Cond I (Fin m)) (t t' : TickVars I (Fin m)) (n : ℤ) (k : Fin N),
      makePreCalc h hR (3600 / (hourly : ℝ)) a = .ok ss → makePreCalc h hR (3600 / (hourly : ℝ)) b = .ok ss' →
      runTick n (3600 / (hourly : ℝ)) ss c = .ok t → runTick n (3600 / (hourly : ℝ)) ss' c' = .ok t' → pyIndex N n = .ok k →
      (∀ i, (a k).acDemand i ≤ 0) → (∀ i, (b k).acDemand i ≤ 0) → MoreSupplied (a k) (b k) (LogRow.ofTick t) (LogRow.ofTick t') := by
    intro a b ss ss' c c' t t' n k p1 p2 g1 g2 hk d1 d2 i
    have q1 := quiet_row hw hC p1 g1 hk d1 i
    have q2 := quiet_row hw hC p2 g2 hk d2 i
    exact ⟨(q1.1.trans q2.1.symm).le, (q1.2.1.trans q2.2.1.symm).le, .inl (q1.2.2.trans q2.2.2.symm)⟩
  have lowRow := run_warming hw hr hrx hv P1 T.pre (A := evenly lo data) (B := data) (fun k i => (hd k).2.2.1 i)
    (fun k => ⟨(hd k).1.1, (hd k).1.2, fun i => ((hd k).2.2.2.noGain i).ge, fun i => ((hd k).2.2.2.noSun i).ge, rfl, funext (hd k).2.2.2.noPeople⟩)
    (fun k j hS => .inl (hlt' j hS)) (fun k => (roomy k).1) (start_above hrx hlt hrat h15.1) R1 R (up.length + k.1) hj l1 hj1 (by
      intro l hl g1 g2 _ k' hk'
      obtain ⟨d1, b1⟩ := run_at R1 l hl g1
      obtain ⟨d2, b2⟩ := run_at R l hl g2
      exact none1 _ _ _ _ _ _ _ _ _ _ P1 T.pre b1 b2 hk' (fun _ => le_rfl) (hd k').2.2.2.noDemand)
  have highRow := run_warming hw hr hrx hv T.pre P2 (A := data) (B := evenly hi data) (fun k i => (hd k).2.2.1 i)
    (fun k => ⟨(hd k).2.1.1, (hd k).2.1.2, fun i => ((hd k).2.2.2.noGain i).le, fun i => ((hd k).2.2.2.noSun i).le, rfl,
      (funext (hd k).2.2.2.noPeople).symm⟩)
    (fun k j hS => .inl (hlt' j hS)) (fun k => (roomy k).2) (start_below hrx hlt hrat h15.2) R R2 (up.length + k.1) hj hj1 l2 (by
      intro l hl g1 g2 _ k' hk'
      obtain ⟨d1, b1⟩ := run_at R l hl g1
      obtain ⟨d2, b2⟩ := run_at R2 l hl g2
      exact none1 _ _ _ _ _ _ _ _ _ _ T.pre P2 b1 b2 hk' (hd k').2.2.2.noDemand (fun _ => le_rfl))
  rw [← el] at lowRow highRow
  obtain ⟨v1, v2, v3⟩ := even lo ss1 ts1 P1 R1 l1
  obtain ⟨w1, w2, w3⟩ := even hi ss2 ts2 P2 R2 l2
  exact ⟨fun i => ⟨(v1 i).ge.trans (lowRow.rooms i), (highRow.rooms i).trans (w1 i).le⟩,
    fun i => ⟨(v2 i).ge.trans (lowRow.furniture i), (highRow.furniture i).trans (w2 i).le⟩,
    fun j => ⟨(v3 j).ge.trans (lowRow.surfaces j), (highRow.surfaces j).trans (w3 j).le⟩⟩

/-- **C86 (partial), houses that store heat, lower bound.** As `C86_storing_partial` with heat released indoors and sun: while there is nobody in the
house and no demand, no temperature falls below the lowest of the outdoor temperatures and the 0 degC from which the parts start. -/
theorem C86_storing_floor_partial (hw : WellFormed h hR (3600 / (hourly : ℝ))) (hr : RadiantWellFormed h) (hrx : Relaxing h hR)
    (hst : SteadyWalls h) (hrat : ∀ j l, 0 ≤ h.ratio j l ∧ h.ratio j l < 1)
    (hlt : ∀ j, h.kEi j = none → KeepsPast h j → LetsWarmthThrough h hR j) (hH : ∀ i, h.isRadHeating i = false)
    (hRC : ∀ i, h.isRadCooling i = false) (hng : ∀ j, h.isGround j = false) (hv : ∀ i l, h.vInt i l = 0) (hC : h.cValue = 0)
    (H : coreCalc h hR data hourly dMain dRunUp dRunUpBuild = .ok r) {lo : ℝ} (h0 : lo ≤ 0)
    (hd : ∀ k, Outdoors (lo ≤ ·) (data k) ∧ (∀ i, 0 ≤ (data k).vLocal i) ∧ (∀ i, 0 ≤ (data k).qGen i) ∧ (∀ i, 0 ≤ (data k).qTrsSol i) ∧
      (∀ i, (data k).nHum i = 0) ∧ ∀ i, (data k).acDemand i ≤ 0)
    (k : Fin r.nMain.toNat) : RowTemps (lo ≤ ·) (r.log k) := by
  obtain ⟨gs, c0, up, mn, T⟩ := coreCalc_ok H
  have e0 := start_eq hng T
  subst e0
  have R := T.runUp.append T.main
  have hmn : k.1 < mn.length := by rw [T.mn_length]; exact k.2
  have hu : up.length = (pyRange (-(dRunUpBuild * hourly * 24)) 0).length := T.runUp.length_eq
  have hm : mn.length = (pyRange 0 (dMain * hourly * 24)).length := T.main.length_eq
  have pre : ∀ τ, ∃ ss, makePreCalc h hR (3600 / (hourly : ℝ)) (evenly τ data) = .ok ss := fun τ => by
    unfold makePreCalc
    rw [ax_inv hw]
    exact ⟨_, rfl⟩
  have hq : ∀ τ n, Quiet τ (evenly τ data n) := fun τ n =>
    { outdoor := rfl, solAir := fun _ => rfl, noGain := fun _ => rfl, noPeople := fun _ => rfl, noSun := fun _ => rfl, noDemand := fun _ => rfl }
  have legal : ∀ τ i, Legal ((restAt h τ).mode i) := fun τ i => by
    show Legal initialMode
    simp [Legal, initialMode]
  have el : r.log k = LogRow.ofTick ((up ++ mn)[up.length + k.1]'(by rw [List.length_append]; omega)) := by
    rw [T.logged k hmn, List.getElem_append_right (by omega)]
    simp
  have hj : up.length + k.1 < (pyRange (-(dRunUpBuild * hourly * 24)) 0 ++ pyRange 0 (dMain * hourly * 24)).length := by
    rw [List.length_append]; omega
  have hj1 : up.length + k.1 < (up ++ mn).length := by rw [List.length_append]; omega
  have even : ∀ τ ss ts (_ : makePreCalc h hR (3600 / (hourly : ℝ)) (evenly τ data) = .ok ss)
      (_ : Run ss (3600 / (hourly : ℝ)) (restAt h τ) (pyRange (-(dRunUpBuild * hourly * 24)) 0 ++ pyRange 0 (dMain * hourly * 24)) ts)
      (hl : up.length + k.1 < ts.length), (∀ i, (ts[up.length + k.1]).thetaR i = τ) ∧ (∀ i, (ts[up.length + k.1]).thetaFrt i = τ) ∧
        ∀ j, (ts[up.length + k.1]).thetaS j = τ := by
    intro τ ss ts hp hrun hl
    have := C22_forever_partial hw hst hv hp (hq τ) hrun (restAt_atRest τ) _ (List.getElem_mem hl)
    exact ⟨this.1.room, this.1.furniture, this.2⟩
  obtain ⟨ss1, P1⟩ := pre lo
  obtain ⟨ts1, R1⟩ := run_beside hw hH hRC (B := evenly lo data) (fun k i => (hd k).2.1 i) P1 R (legal lo)
  have l1 : up.length + k.1 < ts1.length := by rw [R1.length_eq]; exact hj
  have hlt' : ∀ j, KeepsPast h j → LetsWarmthThrough h hR j := by
    intro j hS
    cases hK : h.kEi j with
    | none => exact hlt j hK hS
    | some mc =>
      obtain ⟨l, hl⟩ := hS
      have := (hrx.between j mc.1 mc.2 hK).2.2 l
      exact absurd hl (by simp [this.1, this.2])
  have roomy : ∀ n : Fin N, RoomForPeople h (3600 / (hourly : ℝ)) (evenly lo data n) ∧ RoomForPeople h (3600 / (hourly : ℝ)) (data n) := by
    intro n
    have hz : ∀ i, (0 : ℝ) ≤ h.vRoom i * airCap := fun i => mul_nonneg (hw.vRoom_pos i).le (by unfold airCap; norm_num)
    refine ⟨fun i => ⟨le_rfl, ?_⟩, fun i => ⟨((hd n).2.2.2.2.1 i).ge, ?_⟩⟩
    · show 4 * (0 : ℝ) * _ ≤ _
      rw [mul_zero, zero_mul]
      exact hz i
    · rw [(hd n).2.2.2.2.1 i, mul_zero, zero_mul]
      exact hz i
  have none1 : ∀ (a b : Fin N → Record I (Fin m)) (ss ss' : PreCalc I (Fin m) N) (c c' : Cond I (Fin m)) (t t' : TickVars I (Fin m)) (n : ℤ) (k : Fin N),
      makePreCalc h hR (3600 / (hourly : ℝ)) a = .ok ss → makePreCalc h hR (3600 / (hourly : ℝ)) b = .ok ss' →
      runTick n (3600 / (hourly : ℝ)) ss c = .ok t → runTick n (3600 / (hourly : ℝ)) ss' c' = .ok t' → pyIndex N n = .ok k →
      (∀ i, (a k).acDemand i ≤ 0) → (∀ i, (b k).acDemand i ≤ 0) → MoreSupplied (a k) (b k) (LogRow.ofTick t) (LogRow.ofTick t') := by
    intro a b ss ss' c c' t t' n k p1 p2 g1 g2 hk d1 d2 i
    have q1 := quiet_row hw hC p1 g1 hk d1 i
    have q2 := quiet_row hw hC p2 g2 hk d2 i
    exact ⟨(q1.1.trans q2.1.symm).le, (q1.2.1.trans q2.2.1.symm).le, .inl (q1.2.2.trans q2.2.2.symm)⟩
  have lowRow := run_warming hw hr hrx hv P1 T.pre (A := evenly lo data) (B := data) (fun k i => (hd k).2.1 i)
    (fun k => ⟨(hd k).1.1, (hd k).1.2, (hd k).2.2.1, (hd k).2.2.2.1, rfl, funext (hd k).2.2.2.2.1⟩)
    (fun k j hS => .inl (hlt' j hS)) (fun k => (roomy k).1) (start_above hrx hlt hrat h0) R1 R (up.length + k.1) hj l1 hj1 (by
      intro l hl g1 g2 _ k' hk'
      obtain ⟨d1, b1⟩ := run_at R1 l hl g1
      obtain ⟨d2, b2⟩ := run_at R l hl g2
      exact none1 _ _ _ _ _ _ _ _ _ _ P1 T.pre b1 b2 hk' (fun _ => le_rfl) (hd k').2.2.2.2.2)
  rw [← el] at lowRow
  obtain ⟨v1, v2, v3⟩ := even lo ss1 ts1 P1 R1 l1
  exact ⟨fun i => (v1 i).ge.trans (lowRow.rooms i), fun i => (v2 i).ge.trans (lowRow.furniture i), fun j => (v3 j).ge.trans (lowRow.surfaces j)⟩

end

/-! ## A concrete case -/

/-- The house with the floor slab, above the ground. -/
noncomputable def exSlabUp : House (Fin 2) (Fin 4) := { exSlab with isGround := fun _ => false }

theorem exSlabUp_steady : SteadyWalls exSlabUp where
  ratio_ne := by intro j l; norm_num [exSlabUp, exSlab, exPanels, exHouse]
  transmission := by
    intro j
    rw [Finset.sum_eq_single 0 (fun l _ hl => by simp [exSlabUp, exSlab, hl]) (by simp)]
    fin_cases j <;> norm_num [exSlabUp, exSlab, exPanels, exHouse]
  weights := exHouse_steady.weights

/-- A day with frost in the morning and 20 degC in the afternoon. -/
noncomputable def exSwing : Fin 96 → Record (Fin 2) (Fin 4) := fun k =>
  { exAired k with thetaO := if k.1 < 48 then -5 else 20, thetaOSol := fun _ => if k.1 < 48 then -5 else 20 }

/-- The hypotheses of `C86_storing_partial` are met by a house with a floor slab that stores heat: on that day, after a run-up of a day, nothing is
ever colder than -5 degC or warmer than 20 degC. -/
theorem C86_storing_example : ∃ r, coreCalc exSlabUp exHR exSwing 4 1 1 1 = .ok r ∧ r.nMain.toNat = 96 ∧ KeepsPast exSlabUp 3 ∧
    ∀ k, RowTemps (fun θ => -5 ≤ θ ∧ θ ≤ 20) (r.log k) := by
  have e4 : (3600 / ((4 : ℤ) : ℝ)) = 900 := by norm_num
  have hw : WellFormed exSlabUp exHR (3600 / ((4 : ℤ) : ℝ)) := by rw [e4]; exact { exSlab_wellFormed with }
  have hloc : ∀ k i, 0 ≤ (exSwing k).vLocal i := fun k i => by fin_cases i <;> norm_num [exSwing, exAired]
  obtain ⟨r, H⟩ := C21_program_partial (data := exSwing) (dMain := 1) (dRunUp := 1) (dRunUpBuild := 1) hw (fun _ => rfl) (fun _ => rfl)
    hloc (by norm_num) (by norm_num) (by norm_num) le_rfl (by norm_num) (by norm_num)
  obtain ⟨_, _, _, _, T⟩ := coreCalc_ok H
  refine ⟨r, H, by rw [T.nMain_eq]; rfl, ⟨0, .inl (show (0.02 : ℝ) ≠ 0 by norm_num)⟩, fun k => ?_⟩
  have between : ∀ k : Fin 96, (-5 : ℝ) ≤ (if k.1 < 48 then (-5 : ℝ) else 20) ∧ (if k.1 < 48 then (-5 : ℝ) else 20) ≤ 20 := by
    intro k
    split_ifs <;> norm_num
  refine (C86_storing_partial hw ⟨?_, ?_⟩ ⟨exSlab_relaxing.pulse, exSlab_relaxing.outdoors, exSlab_relaxing.between⟩ exSlabUp_steady ?_ ?_ (fun _ => rfl)
    (fun _ => rfl) (fun _ => rfl) ?_ rfl H ⟨by norm_num, by norm_num⟩ (fun k => ⟨⟨(between k).1, fun _ => (between k).1⟩,
      ⟨(between k).2, fun _ => (between k).2⟩, hloc k, ⟨fun _ => rfl, fun _ => rfl, fun _ => rfl, fun _ => le_rfl⟩⟩) k).1
  · intro i; fin_cases i <;> norm_num [exSlabUp, exSlab, exPanels, exHouse]
  · intro j; fin_cases j <;> norm_num [exSlabUp, exSlab, exPanels, exHouse]
  · intro j l; norm_num [exSlabUp, exSlab, exPanels, exHouse]
  · intro j _ hS
    have hj : j = 3 := by
      obtain ⟨l, hl⟩ := hS
      fin_cases j <;> simp [exSlabUp, exSlab] at hl ⊢
    subst hj
    exact exSlab_letsThrough
  · intro i l; fin_cases i <;> fin_cases l <;> simp [exSlabUp, exSlab, exPanels]

end HLC
