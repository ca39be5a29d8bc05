import Verif.Spec.Relaxing
import Verif.Props.Supplied
import Verif.Props.FadeStore

/-!
# C109, C137, C138 for houses that store heat
-/

set_option linter.unusedSectionVars false

namespace HLC
open Spec

/-- What the modes hold after `n` steps with inputs `q`. -/
def Past (a ρ D : Fin 12 → ℝ) (n : ℕ) (q : ℕ → ℝ) : Prop := ∀ l, D l = ∑ i ∈ Finset.range n, q i * (a l * ρ l ^ (n - 1 - i))

theorem Past.start {a ρ D : Fin 12 → ℝ} (h : ∀ l, D l = 0) : Past a ρ D 0 (fun _ => 0) := fun l => by simp [h l]

theorem Past.step {a ρ D : Fin 12 → ℝ} {n : ℕ} {q : ℕ → ℝ} (h : Past a ρ D n q) (x : ℝ) :
    Past a ρ (fun l => a l * x + ρ l * D l) (n + 1) (Function.update q n x) := by
  intro l
  have e : ∑ i ∈ Finset.range n, Function.update q n x i * (a l * ρ l ^ (n + 1 - 1 - i)) = ρ l * D l := by
    rw [h l, Finset.mul_sum]
    refine Finset.sum_congr rfl fun i hi => ?_
    have hi := Finset.mem_range.1 hi
    rw [Function.update_of_ne hi.ne, show n + 1 - 1 - i = (n - 1 - i) + 1 by omega, pow_succ]
    ring
  rw [Finset.sum_range_succ, e, Function.update_self]
  simp
  ring

theorem Past.sum {a ρ D : Fin 12 → ℝ} {n : ℕ} {q : ℕ → ℝ} (h : Past a ρ D n q) :
    ∑ l, D l = ∑ i ∈ Finset.range n, q i * ∑ l, a l * ρ l ^ (n - 1 - i) := by
  rw [Finset.sum_congr rfl fun l _ => h l, Finset.sum_comm]
  exact Finset.sum_congr rfl fun i _ => by rw [Finset.mul_sum]

section
variable {I J : Type} [Fintype I] [DecidableEq I] [Fintype J] [DecidableEq J] {N : ℕ} {h : House I J} {hR : J → ℝ} {dt : ℝ}

/-- The heat that a part has taken up: at each past step the temperature in front of its film was not lower in the second run. -/
def KeptHeat (h : House I J) (hR : J → ℝ) (j : J) (D : Fin 12 → ℝ) : Prop :=
  ∃ n q, (∀ k < n, 0 ≤ ∑ i ∈ Finset.range (k + 1), q i * pulse h hR j (k - i)) ∧ Past (h.phiA1 j) (h.ratio j) D n q

theorem KeptHeat.nonneg {j : J} {D : Fin 12 → ℝ} (hk : KeptHeat h hR j D) (hp : LogConvex (pulse h hR j)) : 0 ≤ ∑ l, D l := by
  obtain ⟨n, q, hE, hP⟩ := hk
  have := hp.owed q n hE
  rw [hP.sum]
  refine this.trans (Finset.sum_le_sum fun i hi => ?_)
  have hi := Finset.mem_range.1 hi
  rw [show n - i = (n - 1 - i) + 1 by omega]
  exact le_of_eq rfl

theorem KeptHeat.step {j : J} {D : Fin 12 → ℝ} (hk : KeptHeat h hR j D) {x : ℝ} (hx : 0 ≤ x * pulse h hR j 0 + ∑ l, D l) :
    KeptHeat h hR j (fun l => h.phiA1 j l * x + h.ratio j l * D l) := by
  obtain ⟨n, q, hE, hP⟩ := hk
  refine ⟨n + 1, Function.update q n x, fun k hk => ?_, hP.step x⟩
  rcases Nat.lt_succ_iff_lt_or_eq.1 hk with hk | rfl
  · refine (hE k hk).trans (le_of_eq (Finset.sum_congr rfl fun i hi => ?_))
    have hi := Finset.mem_range.1 hi
    rw [Function.update_of_ne (by omega)]
  · rw [Finset.sum_range_succ, Function.update_self, Nat.sub_self]
    have : ∑ i ∈ Finset.range k, Function.update q k x i * pulse h hR j (k - i) = ∑ l, D l := by
      rw [hP.sum]
      refine Finset.sum_congr rfl fun i hi => ?_
      have hi := Finset.mem_range.1 hi
      rw [Function.update_of_ne hi.ne, show k - i = (k - 1 - i) + 1 by omega]
      rfl
    rw [this]
    linarith

/-- The house with what is behind its outer parts, the past included, taken as given. -/
def settled (h : House I J) : House I J := { h with kEo := fun j => if h.kEi j = none then 1 else h.kEo j }

theorem settled_wellFormed (hw : WellFormed h hR dt) : WellFormed (settled h) hR dt := { hw with }

/-- What acts on part `j` from behind and from the past. -/
noncomputable def behind (h : House I J) (θosol : J → ℝ) (t : TickVars I J) (j : J) : ℝ :=
  if h.kEi j = none then h.phiT0 j * (h.kEo j * θosol j) + ∑ l, (t.dshT j l + t.dshA j l) else θosol j

theorem between_empty {ss : PreCalc I J N} {n : ℤ} {A : Fin N → Record I J} {c : Cond I J} {t : TickVars I J} (hrx : Relaxing h hR)
    (Hp : makePreCalc h hR dt A = .ok ss) (H : runTick n dt ss c = .ok t) (hc : PartitionsEmpty h c) : PartitionsEmpty h t.next := by
  intro j hK l
  obtain ⟨ivs, k, hi, hs, hk, e⟩ := step_eqs Hp H
  obtain ⟨⟨m, coef⟩, hK'⟩ := Option.ne_none_iff_exists'.1 hK
  have hp := (hrx.between j m coef hK').2.2 l
  show t.dshA j l = 0 ∧ t.dshT j l = 0
  rw [e.dshA, e.dshT, hs]
  simp [Tick.dshA, Tick.dshT, preCalcOf, hp.1, hp.2, (hc j hK l).1, (hc j hK l).2]

theorem settled_averages {ss : PreCalc I J N} {n : ℤ} {k : Fin N} {A : Fin N → Record I J} {c : Cond I J} {t : TickVars I J}
    (hw : WellFormed h hR dt) (hrx : Relaxing h hR) (hv : ∀ i l, h.vInt i l = 0)
    (Hp : makePreCalc h hR dt A = .ok ss) (H : runTick n dt ss c = .ok t) (hk : pyIndex N n = .ok k) (hc : PartitionsEmpty h c) :
    Averages (settled h) hR dt t.vOut (A k).thetaO (behind h (A k).thetaOSol t) c.thetaR c.thetaFrt t.thetaR t.thetaFrt t.thetaS
      (fun i => (A k).qGen i + t.qHum i + t.lc i + h.beta i * t.lr i) (fun i => (A k).qTrsSol i * 0.5)
      (fun j => h.qSol (A k) j + h.flr j * (1 - h.beta (h.room j)) * t.lr (h.room j) / h.area j)
      (fun j => match h.kEi j with
        | none => 0
        | some (m, _) => h.qSol (A k) m + h.flr m * ((1 - h.beta (h.room m)) * t.lr (h.room m)) / h.area j) := by
  have hE := between_empty hrx Hp H hc
  refine ⟨?_, ?_, ?_⟩
  · intro i
    have := C14_balance_as_coded Hp H hk i (frt_ne hw.dt_pos (hw.cSh_nonneg i) (hw.gSh_nonneg i) (hw.frtSh_pos i))
    simp only [hv, zero_mul, Finset.sum_const_zero, mul_zero, sub_zero] at this
    show h.vRoom i * airCap * (t.thetaR i - c.thetaR i) / dt = convection h i (t.thetaR i) t.thetaS + h.gSh i * (t.thetaFrt i - t.thetaR i)
      + airCap * t.vOut i * ((A k).thetaO - t.thetaR i) + ((A k).qGen i + t.qHum i + t.lc i + h.beta i * t.lr i)
    rw [this]
    ring
  · intro i
    exact C15_furniture_heat Hp H hk i (frt_ne hw.dt_pos (hw.cSh_nonneg i) (hw.gSh_nonneg i) (hw.frtSh_pos i))
  · intro j
    have hh : h.hC j + hR j ≠ 0 := (add_pos (hw.hC_pos j) (hw.hR_pos j)).ne'
    have hq := C16_surface_flux Hp H hk j hh
    show t.thetaS j = h.phiA0 j * (h.hC j * (t.thetaR (h.room j) - t.thetaS j) + hR j * (roomMrt h hR (h.room j) t.thetaS - t.thetaS j)
        + (h.qSol (A k) j + h.flr j * (1 - h.beta (h.room j)) * t.lr (h.room j) / h.area j))
      + (if h.kEi j = none then 1 else h.kEo j) * behind h (A k).thetaOSol t j
      + (match h.kEi j with
        | none => 0
        | some (m, coef) => coef * ((h.hC j * t.thetaR (h.room m) + hR j * roomMrt h hR (h.room m) t.thetaS
          + (match h.kEi j with
            | none => 0
            | some (m, _) => h.qSol (A k) m + h.flr m * ((1 - h.beta (h.room m)) * t.lr (h.room m)) / h.area j)) / (h.hC j + hR j)))
    unfold behind
    cases hK : h.kEi j with
    | none =>
      have h1 := C17_wall_equation_partial Hp H hk j hh (fun m coef h0 => by rw [hK] at h0; cases h0)
      rw [hq] at h1
      simp only [rearTemp, hK, if_true, one_mul, add_zero] at h1 ⊢
      linear_combination h1
    | some mc =>
      obtain ⟨m, coef⟩ := mc
      have h1 := C17_equation_as_coded Hp H hk j hh m coef hK
      have hz : ∑ m, (t.dshT j m + t.dshA j m) = 0 := Finset.sum_eq_zero fun l _ => by
        have := hE j (by rw [hK]; simp) l
        simp only [TickVars.next] at this
        rw [this.1, this.2, add_zero]
      rw [hq, hz, (hrx.between j m coef hK).2.1] at h1
      simp only [reduceCtorEq, if_false, add_zero, one_mul] at h1 ⊢
      linear_combination h1

/-- The second state is at least as warm, and so is all of its past. -/
structure Leaning (h : House I J) (hR : J → ℝ) (c c' : Cond I J) : Prop where
  rooms : ∀ i, c.thetaR i ≤ c'.thetaR i
  furniture : ∀ i, c.thetaFrt i ≤ c'.thetaFrt i
  heat : ∀ j, h.kEi j = none → KeepsPast h j → KeptHeat h hR j (pendA h c c' j)
  light : ∀ j, h.kEi j = none → ¬ KeepsPast h j → ∀ l, c'.dshA j l = c.dshA j l
  rear : ∀ j, h.kEi j = none → ∀ l, c'.dshT j l = c.dshT j l
  empty : PartitionsEmpty h c
  empty' : PartitionsEmpty h c'

theorem Leaning.start (c : Cond I J) (hc : PartitionsEmpty h c) : Leaning h hR c c where
  rooms _ := le_rfl
  furniture _ := le_rfl
  heat j _ _ := ⟨0, _, by simp, Past.start fun l => by simp [pendA]⟩
  light _ _ _ _ := rfl
  rear _ _ _ := rfl
  empty := hc
  empty' := hc

/-- One amount of outdoor air for both steps. -/
theorem common_air {A B : Fin N → Record I J} {ivs ivs' : Matrix J J ℝ} {k : Fin N} {c c' : Cond I J} {t t' : TickVars I J}
    (hw : WellFormed h hR dt) (hloc : ∀ i, 0 ≤ (A k).vLocal i) (hven : (B k).vLocal = (A k).vLocal)
    (e1 : TickEqs (preCalcOf h hR dt A ivs) dt k c t) (e2 : TickEqs (preCalcOf h hR dt B ivs') dt k c' t')
    (hs : ∀ i, AirNoWarmer (A k).thetaO (B k).thetaO (t.vLeak i + t.vNtrl i) (t'.vLeak i + t'.vNtrl i) (t.thetaR i) (t'.thetaR i)) :
    ∃ u : I → ℝ, (∀ i, 0 ≤ u i) ∧ ∀ i, airCap * (t.vOut i - u i) * ((A k).thetaO - t.thetaR i)
      ≤ airCap * (t'.vOut i - u i) * ((B k).thetaO - t'.thetaR i) := by
  have n1 : ∀ i, 0 ≤ t.vOut i := vOut_nonneg hw hloc e1
  have n2 : ∀ i, 0 ≤ t'.vOut i := vOut_nonneg hw (by rw [hven]; exact hloc) e2
  have : ∀ i, ∃ u : ℝ, 0 ≤ u ∧ airCap * (t.vOut i - u) * ((A k).thetaO - t.thetaR i)
    ≤ airCap * (t'.vOut i - u) * ((B k).thetaO - t'.thetaR i) := by
    intro i
    have d : t.vOut i - t'.vOut i = (t.vLeak i + t.vNtrl i) - (t'.vLeak i + t'.vNtrl i) := by
      rw [e1.vOut, e2.vOut]
      simp only [Tick.vOut, preCalcOf, House.vMec, hven]
      ring
    have ha : (0 : ℝ) ≤ airCap := by unfold airCap; norm_num
    have hx : AirNoWarmer (A k).thetaO (B k).thetaO (t.vOut i) (t'.vOut i) (t.thetaR i) (t'.thetaR i) := by
      rcases hs i with g | ⟨g, g'⟩ | ⟨g, g'⟩
      · exact .inl (by linarith)
      · exact .inr (.inl ⟨by linarith, g'⟩)
      · exact .inr (.inr ⟨by linarith, g'⟩)
    obtain ⟨u, hu, hle⟩ := AirNoWarmer.common hx ha
    refine ⟨u, ?_, hle⟩
    rcases hu with rfl | rfl
    · exact n1 i
    · exact n2 i
  choose u hu using this
  exact ⟨u, fun i => (hu i).1, fun i => (hu i).2⟩

/-- **C138 (one step), houses that store heat.** -/
theorem step_leaning {ss ss' : PreCalc I J N} {n : ℤ} {k : Fin N} {A B : Fin N → Record I J} {c c' : Cond I J} {t t' : TickVars I J}
    (hw : WellFormed h hR dt) (hr : RadiantWellFormed h) (hrx : Relaxing h hR) (hv : ∀ i l, h.vInt i l = 0)
    (Hp : makePreCalc h hR dt A = .ok ss) (Hp' : makePreCalc h hR dt B = .ok ss') (H : runTick n dt ss c = .ok t)
    (H' : runTick n dt ss' c' = .ok t') (hk : pyIndex N n = .ok k) (hloc : ∀ i, 0 ≤ (A k).vLocal i) (hAB : Warmer (A k) (B k))
    (hsb : SameBehind h (A k) (B k))
    (hp : RoomForPeople h dt (A k)) (hs : MoreSupplied (A k) (B k) (LogRow.ofTick t) (LogRow.ofTick t')) (hc : Leaning h hR c c') :
    Leaning h hR t.next t'.next ∧ RowBelow (LogRow.ofTick t) (LogRow.ofTick t') := by
  have SA := settled_averages hw hrx hv Hp H hk hc.empty
  have SB := settled_averages hw hrx hv Hp' H' hk hc.empty'
  obtain ⟨ivs, k1, hi1, hs1, hk1, e1⟩ := step_eqs Hp H
  obtain rfl : k1 = k := Except.ok.inj (hk1.symm.trans hk)
  obtain ⟨ivs', k2, hi2, hs2, hk2, e2⟩ := step_eqs Hp' H'
  obtain rfl : k2 = k1 := Except.ok.inj (hk2.symm.trans hk)
  subst hs1 hs2
  have hcapA : ∀ i, 0 < h.vRoom i * airCap := fun i => mul_pos (hw.vRoom_pos i) (by unfold airCap; norm_num)
  obtain ⟨u, hu0, hu⟩ := common_air hw hloc hAB.ventilation e1 e2 (fun i => (hs i).2.2)
  have D := ((SA.vent u).sub (SB.vent u)).early (fun i => t'.qHum i - t.qHum i) (fun i => (hcapA i).ne') hw.dt_pos.ne'
  have hq : ∀ i, -(c'.thetaR i - c.thetaR i) ≤ (t'.qHum i - t.qHum i) * dt / (h.vRoom i * airCap) := by
    intro i
    have q1 : t.qHum i = qHumPsn (c.thetaR i) * (A k2).nHum i := by rw [e1.qHum]; rfl
    have q2 : t'.qHum i = qHumPsn (c'.thetaR i) * (A k2).nHum i := by rw [e2.qHum, ← hAB.people]; rfl
    rw [le_div_iff₀ (hcapA i), q1, q2]
    have hs := qHumPsn_slope (hc.rooms i)
    have h1 := mul_le_mul_of_nonneg_right (mul_le_mul_of_nonneg_right hs (hp i).1) hw.dt_pos.le
    have h2 := mul_le_mul_of_nonneg_left (hp i).2 (sub_nonneg.2 (hc.rooms i))
    nlinarith
  have hdiff : ∀ j, 0 ≤ h.qSol (B k2) j - h.qSol (A k2) j := by
    intro j
    rw [qSol_sub h (A k2) (B k2) { A k2 with qTrsSol := fun i => (B k2).qTrsSol i - (A k2).qTrsSol i } (fun _ => rfl)]
    exact qSol_nonneg hw (fun i => sub_nonneg.2 (hAB.sun i)) j
  have hlc : ∀ i, t.lc i ≤ t'.lc i := fun i => (hs i).1
  have hlr : ∀ i, t.lr i ≤ t'.lr i := fun i => (hs i).2.1
  have dA : ∀ j l, t'.dshA j l - t.dshA j l = pendA h c c' j l := by
    intro j l
    rw [e1.dshA, e2.dshA]
    simp only [Tick.dshA, preCalcOf, pendA]
    ring
  have zT : ∀ j l, ¬ KeepsPast h j → h.phiT1 j l = 0 ∧ h.phiA1 j l = 0 := by
    intro j l hS
    unfold KeepsPast at hS
    push Not at hS
    exact ⟨(hS l).2, (hS l).1⟩
  have dT : ∀ j, h.kEi j = none → ∀ l, t'.dshT j l = t.dshT j l := by
    intro j hK l
    rw [e1.dshT, e2.dshT, e1.thetaRear, e2.thetaRear]
    simp only [Tick.dshT, Tick.thetaRear, preCalcOf, kEi_mulVec, hK, hc.rear j hK l]
    by_cases hS : KeepsPast h j
    · have : h.thetaDstrb (B k2) j = h.thetaDstrb (A k2) j := by unfold House.thetaDstrb; rw [hsb j hS]
      rw [this]
    · rw [(zT j l hS).1]; ring
  have pend0 : ∀ j, h.kEi j = none → ¬ KeepsPast h j → ∀ l, pendA h c c' j l = 0 := by
    intro j hK hS l
    unfold pendA
    rw [hc.light j hK hS l, (zT j l hS).2]
    ring
  have pendN : ∀ j, h.kEi j = none → 0 ≤ ∑ l, pendA h c c' j l := by
    intro j hK
    by_cases hS : KeepsPast h j
    · exact (hc.heat j hK hS).nonneg (hrx.pulse j hK hS)
    · exact (Finset.sum_eq_zero fun l _ => pend0 j hK hS l).ge
  have bnd : ∀ j, h.kEi j = none → behind h (B k2).thetaOSol t' j - behind h (A k2).thetaOSol t j
      = h.phiT0 j * (h.kEo j * ((B k2).thetaOSol j - (A k2).thetaOSol j)) + ∑ l, pendA h c c' j l := by
    intro j hK
    have : ∑ l, pendA h c c' j l = ∑ l, (t'.dshT j l + t'.dshA j l) - ∑ l, (t.dshT j l + t.dshA j l) := by
      rw [← Finset.sum_sub_distrib]
      refine Finset.sum_congr rfl fun l _ => ?_
      rw [← dA, dT j hK l]
      ring
    rw [this]
    unfold behind
    rw [if_pos hK, if_pos hK]
    ring
  have hbeh : ∀ j, 0 ≤ behind h (B k2).thetaOSol t' j - behind h (A k2).thetaOSol t j := by
    intro j
    by_cases hK : h.kEi j = none
    · rw [bnd j hK]
      exact add_nonneg (mul_nonneg (hw.phiT0_mem j).1 (mul_nonneg (hrx.outdoors j hK) (sub_nonneg.2 (hAB.parts j)))) (pendN j hK)
    · unfold behind
      rw [if_neg hK, if_neg hK]
      exact sub_nonneg.2 (hAB.parts j)
  have hsrc : ∀ j, 0 ≤ (h.qSol (B k2) j + h.flr j * (1 - h.beta (h.room j)) * t'.lr (h.room j) / h.area j)
      - (h.qSol (A k2) j + h.flr j * (1 - h.beta (h.room j)) * t.lr (h.room j) / h.area j) := by
    intro j
    have h1 := hdiff j
    have h2 : h.flr j * (1 - h.beta (h.room j)) * t.lr (h.room j) / h.area j ≤ h.flr j * (1 - h.beta (h.room j)) * t'.lr (h.room j) / h.area j :=
      div_le_div_of_nonneg_right (mul_le_mul_of_nonneg_left (hlr _) (mul_nonneg (hr.flr_nonneg j) (sub_nonneg.2 (hr.beta_mem _).2)))
        (hw.area_pos j).le
    linarith
  have hwt : ∀ j, (settled h).kEo j + (match (settled h).kEi j with | none => 0 | some (_, coef) => coef) = 1 := by
    intro j
    show (if h.kEi j = none then 1 else h.kEo j) + (match h.kEi j with | none => 0 | some (_, coef) => coef) = 1
    cases hK : h.kEi j with
    | none => simp
    | some mc =>
      obtain ⟨m, coef⟩ := mc
      simpa using (hrx.between j m coef hK).1
  have key := D.floor (settled_wellFormed hw) hwt (lo := 0) hu0 (sub_nonneg.2 hAB.air) hbeh
    (fun i => by
      have := hq i
      show 0 ≤ c'.thetaR i - c.thetaR i + (t'.qHum i - t.qHum i) * dt / (h.vRoom i * airCap)
      linarith) (fun i => sub_nonneg.2 (hc.furniture i))
    (fun i => by
      have h1 := hAB.gains i
      have h2 := hu i
      have h3 := hlc i
      have h4 := mul_le_mul_of_nonneg_left (hlr i) (hr.beta_mem i).1
      linarith)
    (fun i => by
      have := hAB.sun i
      show 0 ≤ (B k2).qTrsSol i * 0.5 - (A k2).qTrsSol i * 0.5
      linarith)
    hsrc
    (fun j => by
      cases hK : h.kEi j with
      | none => simp
      | some mc =>
        obtain ⟨m, coef⟩ := mc
        have h1 := hdiff m
        have h2 : h.flr m * ((1 - h.beta (h.room m)) * t.lr (h.room m)) / h.area j ≤ h.flr m * ((1 - h.beta (h.room m)) * t'.lr (h.room m)) / h.area j :=
          div_le_div_of_nonneg_right (mul_le_mul_of_nonneg_left (mul_le_mul_of_nonneg_left (hlr _) (sub_nonneg.2 (hr.beta_mem _).2))
            (hr.flr_nonneg m)) (hw.area_pos j).le
        simp only
        linarith)
  have r1 : ∀ i, t.thetaR i ≤ t'.thetaR i := fun i => sub_nonneg.1 (key.1 i)
  have r2 : ∀ i, t.thetaFrt i ≤ t'.thetaFrt i := fun i => sub_nonneg.1 (key.2.1 i)
  have r3 : ∀ j, t.thetaS j ≤ t'.thetaS j := fun j => sub_nonneg.1 (key.2.2 j)
  have r4 : ∀ i, t.thetaMrt i ≤ t'.thetaMrt i := by
    intro i
    rw [e1.thetaMrt, e2.thetaMrt]
    unfold Tick.thetaMrt Matrix.mulVec dotProduct
    refine Finset.sum_le_sum fun j _ => mul_le_mul_of_nonneg_left (r3 j) ?_
    show 0 ≤ h.p i j * h.fMrtHum j
    unfold House.p
    simp only [Matrix.of_apply]
    split_ifs
    · simpa using hw.fMrtHum_nonneg j
    · simp
  have hkept : ∀ j, h.kEi j = none → KeepsPast h j → KeptHeat h hR j (pendA h t.next t'.next j) := by
    intro j hK hS
    have hH : 0 < h.hC j + hR j := add_pos (hw.hC_pos j) (hw.hR_pos j)
    have f1 := C16_surface_flux Hp H hk j hH.ne'
    have f2 := C16_surface_flux Hp' H' hk j hH.ne'
    have w1 := SA.surface j
    have w2 := SB.surface j
    have b := bnd j hK
    rw [hsb j hS, sub_self, mul_zero, mul_zero, zero_add] at b
    have hx : 0 ≤ (t'.qSrf j - t.qSrf j) * pulse h hR j 0 + ∑ l, pendA h c c' j l := by
      have g1 : t.thetaS j = h.phiA0 j * t.qSrf j + behind h (A k2).thetaOSol t j := by
        have := w1
        simp only [settled, hK, if_true, one_mul, add_zero] at this
        rw [f1]
        refine this.trans ?_
        show h.phiA0 j * (h.hC j * (t.thetaR (h.room j) - t.thetaS j) + hR j * (roomMrt h hR (h.room j) t.thetaS - t.thetaS j) + _) + _ = _
        ring
      have g2 : t'.thetaS j = h.phiA0 j * t'.qSrf j + behind h (B k2).thetaOSol t' j := by
        have := w2
        simp only [settled, hK, if_true, one_mul, add_zero] at this
        rw [f2]
        refine this.trans ?_
        show h.phiA0 j * (h.hC j * (t'.thetaR (h.room j) - t'.thetaS j) + hR j * (roomMrt h hR (h.room j) t'.thetaS - t'.thetaS j) + _) + _ = _
        ring
      have hm : 0 ≤ roomMrt h hR (h.room j) t'.thetaS - roomMrt h hR (h.room j) t.thetaS := by
        rw [← roomMrt_sub]
        exact roomMrt_nonneg hw (fun j => sub_nonneg.2 (r3 j)) _
      have e : (t'.qSrf j - t.qSrf j) * pulse h hR j 0 + ∑ l, pendA h c c' j l
          = (h.hC j * (t'.thetaR (h.room j) - t.thetaR (h.room j)) + hR j * (roomMrt h hR (h.room j) t'.thetaS - roomMrt h hR (h.room j) t.thetaS)
            + ((h.qSol (B k2) j + h.flr j * (1 - h.beta (h.room j)) * t'.lr (h.room j) / h.area j)
      - (h.qSol (A k2) j + h.flr j * (1 - h.beta (h.room j)) * t.lr (h.room j) / h.area j))) / (h.hC j + hR j) := by
        rw [eq_div_iff hH.ne', ← b]
        have : (t'.qSrf j - t.qSrf j) * pulse h hR j 0 * (h.hC j + hR j)
            = (t'.qSrf j - t.qSrf j) * (h.phiA0 j * (h.hC j + hR j) + 1) := by
          unfold pulse
          have := hH.ne'
          field_simp
        rw [add_mul, this]
        linear_combination f2 - f1 + (h.hC j + hR j) * (g1 - g2)
      rw [e]
      refine div_nonneg ?_ hH.le
      have a1 := mul_nonneg (hw.hC_pos j).le (sub_nonneg.2 (r1 (h.room j)))
      have a2 := mul_nonneg (hw.hR_pos j).le hm
      have a3 := hsrc j
      linarith
    have := (hc.heat j hK hS).step hx
    have e : pendA h t.next t'.next j = fun l => h.phiA1 j l * (t'.qSrf j - t.qSrf j) + h.ratio j l * pendA h c c' j l := by
      funext l
      rw [← dA]
      rfl
    rw [e]
    exact this
  refine ⟨⟨r1, r2, hkept, fun j hK hS l => ?_, dT, between_empty hrx Hp H hc.empty, between_empty hrx Hp' H' hc.empty'⟩,
    ⟨r1, r2, r3, r4, fun i => ?_⟩⟩
  · have := dA j l
    rw [pend0 j hK hS l] at this
    exact sub_eq_zero.1 this
  have hm : ∀ j, 0 ≤ h.fMrtHum j := hw.fMrtHum_nonneg
  have hc0 : (0 : ℝ) < hHumC := by unfold hHumC; norm_num
  have hr0 := hHumR_pos
  show t.thetaOt i ≤ t'.thetaOt i
  rw [C13_operative_temperature Hp H i, C13_operative_temperature Hp' H' i]
  refine div_le_div_of_nonneg_right (add_le_add (mul_le_mul_of_nonneg_left (r1 i) hc0.le) (mul_le_mul_of_nonneg_left ?_ hr0.le)) (by linarith)
  exact Finset.sum_le_sum fun j _ => mul_le_mul_of_nonneg_left (r3 j) (hm j)

/-- **C138 (a run), houses that store heat.** -/
theorem run_leaning {ss ss' : PreCalc I J N} {A B : Fin N → Record I J}
    (hw : WellFormed h hR dt) (hr : RadiantWellFormed h) (hrx : Relaxing h hR) (hv : ∀ i l, h.vInt i l = 0)
    (Hp : makePreCalc h hR dt A = .ok ss) (Hp' : makePreCalc h hR dt B = .ok ss') (hloc : ∀ k i, 0 ≤ (A k).vLocal i)
    (hAB : ∀ k, Warmer (A k) (B k)) (hsb : ∀ k, SameBehind h (A k) (B k)) (hp : ∀ k, RoomForPeople h dt (A k)) {c c' : Cond I J} {ns : List ℤ}
    {ts ts' : List (TickVars I J)} (hc : Leaning h hR c c') (H : Run ss dt c ns ts) (H' : Run ss' dt c' ns ts') :
    ∀ (j : ℕ) (_ : j < ns.length) (h1 : j < ts.length) (h2 : j < ts'.length),
      (∀ (l : ℕ) (hl : l < ns.length) (g1 : l < ts.length) (g2 : l < ts'.length), l ≤ j → ∀ k : Fin N, pyIndex N ns[l] = .ok k →
        MoreSupplied (A k) (B k) (LogRow.ofTick ts[l]) (LogRow.ofTick ts'[l])) →
      RowBelow (LogRow.ofTick ts[j]) (LogRow.ofTick ts'[j]) := by
  induction H generalizing c' ts' with
  | nil => intro j hj; simp at hj
  | cons a1 _ ih =>
    cases H' with
    | cons b1 b2 =>
      intro j hj h1 h2 hd
      obtain ⟨k, hk⟩ := runTick_index a1
      have s1 := step_leaning hw hr hrx hv Hp Hp' a1 b1 hk (hloc k) (hAB k) (hsb k) (hp k)
        (hd 0 (by simp) (by simp) (by simp) (by omega) k hk) hc
      cases j with
      | zero => exact s1.2
      | succ j =>
        exact ih s1.1 b2 j (by simpa using hj) (by simpa using h1) (by simpa using h2)
          fun l hl g1 g2 hlj => hd (l + 1) (by simpa using hl) (by simpa using g1) (by simpa using g2) (by omega)

end

section
variable {I : Type} [Fintype I] [DecidableEq I] {m N : ℕ} {h : House I (Fin m)} {hR : Fin m → ℝ}
  {A B : Fin N → Record I (Fin m)} {hourly dMain dRunUp dRunUpBuild : ℤ} {r1 r2 : CalcResult I m N}

/-- Two calculations whose ground parts and outdoor air agree begin in the same state. -/
theorem start_same {h' : House I (Fin m)} (hig : h'.isGround = h.isGround)
    (hgw : ∀ ivs ivs' : Matrix (Fin m) (Fin m) ℝ, (makePreCalcGround (preCalcOf h' hR (3600 / (hourly : ℝ)) B ivs')).walls
      = (makePreCalcGround (preCalcOf h hR (3600 / (hourly : ℝ)) A ivs)).walls)
    (hga : (∃ j, h.isGround j = true) → ∀ k, (B k).thetaO = (A k).thetaO)
    {gs1 gs2 : List (List GroundCell)} {c1 c2 : Cond I (Fin m)} {up1 mn1 up2 mn2 : List (TickVars I (Fin m))}
    (T1 : CalcTrace h hR A hourly dMain dRunUp dRunUpBuild r1 gs1 c1 up1 mn1)
    (T2 : CalcTrace h' hR B hourly dMain dRunUp dRunUpBuild r2 gs2 c2 up2 mn2) : c2 = c1 := by
  by_cases hx : ∃ j, h.isGround j = true
  · obtain ⟨ivs1, -, s1⟩ := makePreCalc_ok T1.pre
    obtain ⟨ivs2, -, s2⟩ := makePreCalc_ok T2.pre
    have ho : (fun k => (B k).thetaO) = fun k => (A k).thetaO := funext (hga hx)
    have hg : makePreCalcGround r2.ss = makePreCalcGround r1.ss := by
      rw [s1, s2]
      have w := hgw ivs1 ivs2
      unfold makePreCalcGround at w ⊢
      simp only [PreCalcGround.mk.injEq]
      refine ⟨?_, w, ho, ?_⟩
      · show ((List.finRange m).filter h'.isGround).length = ((List.finRange m).filter h.isGround).length
        rw [hig]
      · show (∑ n, (B n).thetaO) / (N : ℝ) = (∑ n, (A n).thetaO) / (N : ℝ)
        rw [Finset.sum_congr rfl fun n _ => hga hx n]
    have G2 := T2.ground
    have L2 := T2.ground_last
    rw [hg] at G2 L2
    have e := groundRun_unique G2 T1.ground
    subst e
    have S2 := T2.start
    rw [L2, ← T1.ground_last, show r2.ss.isGround = r1.ss.isGround by rw [s1, s2]; exact hig] at S2
    exact Except.ok.inj (S2.symm.trans T1.start)
  · push Not at hx
    have hng : ∀ j, h.isGround j = false := fun j => by simpa using hx j
    rw [start_eq hng T1, start_eq (h := h') (fun j => by rw [hig]; exact hng j) T2]

/-- **C138 (partial), houses that store heat.** As `C138_rows_partial`, for houses with outer parts that store heat and take it up evenly, with
the same temperatures behind these parts in both calculations and, for houses on the ground, the same outdoor air. -/
theorem C138_storing_rows_partial (hw : WellFormed h hR (3600 / (hourly : ℝ))) (hr : RadiantWellFormed h) (hrx : Relaxing h hR)
    (hgr : ∀ j, h.isGround j = true → h.kEi j = none) (hga : (∃ j, h.isGround j = true) → ∀ k, (B k).thetaO = (A k).thetaO)
    (hv : ∀ i l, h.vInt i l = 0) (hru : 0 ≤ dRunUpBuild * hourly * 24)
    (hloc : ∀ k i, 0 ≤ (A k).vLocal i) (hAB : ∀ k, Warmer (A k) (B k)) (hsb : ∀ k, SameBehind h (A k) (B k)) (hp : ∀ k, RoomForPeople h (3600 / (hourly : ℝ)) (A k))
    (H1 : coreCalc h hR A hourly dMain dRunUp dRunUpBuild = .ok r1) (H2 : coreCalc h hR B hourly dMain dRunUp dRunUpBuild = .ok r2)
    (hup : ∀ n : ℤ, -(dRunUpBuild * hourly * 24) ≤ n → n < 0 → h.cValue = 0 ∧ ∀ k : Fin N, (k : ℤ) = n + N → ∀ i,
      (A k).acDemand i ≤ 0 ∧ (B k).acDemand i ≤ 0)
    (k : ℕ) (hs : ∀ (l : ℕ) (h1 : l < r1.nMain.toNat) (h2 : l < r2.nMain.toNat) (hN : l < N), l ≤ k →
      MoreSupplied (A ⟨l, hN⟩) (B ⟨l, hN⟩) (r1.log ⟨l, h1⟩) (r2.log ⟨l, h2⟩))
    (hk1 : k < r1.nMain.toNat) (hk2 : k < r2.nMain.toNat) : RowBelow (r1.log ⟨k, hk1⟩) (r2.log ⟨k, hk2⟩) := by
  obtain ⟨gs1, c1, up1, mn1, T1⟩ := coreCalc_ok H1
  obtain ⟨gs2, c2, up2, mn2, T2⟩ := coreCalc_ok H2
  obtain rfl := start_same (A := A) (B := B) (h' := h) rfl (fun _ _ => rfl) hga T1 T2
  have R1 := T1.runUp.append T1.main
  have R2 := T2.runUp.append T2.main
  have hl2 : up2.length = up1.length := T2.runUp.length_eq.trans T1.runUp.length_eq.symm
  have hu : up1.length = (pyRange (-(dRunUpBuild * hourly * 24)) 0).length := T1.runUp.length_eq
  have hm1 : k < mn1.length := by rw [T1.mn_length]; exact hk1
  have hm2 : k < mn2.length := by rw [T2.mn_length]; exact hk2
  have hm : mn1.length = (pyRange 0 (dMain * hourly * 24)).length := T1.main.length_eq
  have hc : Leaning h hR c2 c2 := Leaning.start _ (start_partitions hgr T1)
  have key := run_leaning hw hr hrx hv T1.pre T2.pre hloc hAB hsb hp hc R1 R2 (up1.length + k)
    (by rw [List.length_append]; omega)
    (by rw [List.length_append]; omega) (by rw [List.length_append]; omega) (by
      intro l hl g1 g2 hle k' hk'
      have hsp := pyIndex_spec hk'
      by_cases h5 : l < up1.length
      · have hx : (pyRange (-(dRunUpBuild * hourly * 24)) 0 ++ pyRange 0 (dMain * hourly * 24))[l] = -(dRunUpBuild * hourly * 24) + l := by
          rw [List.getElem_append_left (by omega), pyRange_getElem]
        obtain ⟨d1, b1⟩ := run_at R1 l hl g1
        obtain ⟨d2, b2⟩ := run_at R2 l hl g2
        rw [pyRange_length] at hu
        have hn : -(dRunUpBuild * hourly * 24) + (l : ℤ) < 0 := by omega
        obtain ⟨hC, hd⟩ := hup _ (by omega : -(dRunUpBuild * hourly * 24) ≤ -(dRunUpBuild * hourly * 24) + l) hn
        rw [hx] at hsp
        have hd := hd k' (by rcases hsp with h | h <;> omega)
        intro i
        have q1 := quiet_row hw hC T1.pre b1 hk' (fun i => (hd i).1) i
        have q2 := quiet_row hw hC T2.pre b2 hk' (fun i => (hd i).2) i
        refine ⟨(q1.1.trans q2.1.symm).le, (q1.2.1.trans q2.2.1.symm).le, .inl (q1.2.2.trans q2.2.2.symm)⟩
      · obtain ⟨q, rfl⟩ : ∃ q, l = up1.length + q := ⟨l - up1.length, by omega⟩
        have hx : (pyRange (-(dRunUpBuild * hourly * 24)) 0 ++ pyRange 0 (dMain * hourly * 24))[up1.length + q] = q := by
          rw [List.getElem_append_right (by omega), pyRange_getElem]
          omega
        rw [hx] at hsp
        have hkq : (k' : ℕ) = q := by rcases hsp with h | h <;> omega
        have g3 : q < r1.nMain.toNat := by omega
        have g4 : q < r2.nMain.toNat := by omega
        have g5 : q < mn1.length := by omega
        have g6 : q < mn2.length := by omega
        have hN : q < N := hkq ▸ k'.2
        have := hs q g3 g4 hN (by omega)
        rw [T1.logged ⟨q, g3⟩ g5, T2.logged ⟨q, g4⟩ g6] at this
        have f1 : (up1 ++ mn1)[up1.length + q] = mn1[q] := by rw [List.getElem_append_right (by omega)]; simp
        have f2 : (up2 ++ mn2)[up1.length + q] = mn2[q] := by rw [List.getElem_append_right (by omega)]; simp [hl2]
        rw [f1, f2, show k' = ⟨q, hN⟩ from Fin.ext hkq]
        exact this)
  have e1 : (up1 ++ mn1)[up1.length + k]'(by rw [List.length_append]; omega) = mn1[k] := by
    rw [List.getElem_append_right (by omega)]; simp
  have e2 : (up2 ++ mn2)[up1.length + k]'(by rw [List.length_append]; omega) = mn2[k] := by
    rw [List.getElem_append_right (by omega)]; simp [hl2]
  rw [e1, e2] at key
  rw [T1.logged ⟨k, hk1⟩ hm1, T2.logged ⟨k, hk2⟩ hm2]
  exact key

end

section
variable {I : Type} [Fintype I] [DecidableEq I] {m N : ℕ} {h : House I (Fin m)} {hR : Fin m → ℝ}
  {D : Fin N → Record I (Fin m)} {hourly dMain dRunUp dRunUpBuild : ℤ} {r r0 : CalcResult I m N}

/-- **C138 (partial), heating.** Compare a calculation of a tight house whose outer parts store heat and take it up evenly (on the ground or off it, without air exchange
between rooms, not too crowded, without demand in the run-up) with the calculation of the same house with the equipment switched off. If up
to row `k` the windows are closed and no load is negative, then no temperature of row `k` is lower than with the equipment switched off. -/
theorem C138_storing_heated_partial (hw : WellFormed h hR (3600 / (hourly : ℝ))) (hr : RadiantWellFormed h) (hrx : Relaxing h hR)
    (hgr : ∀ j, h.isGround j = true → h.kEi j = none) (hv : ∀ i l, h.vInt i l = 0) (hC : h.cValue = 0) (hru : 0 ≤ dRunUpBuild * hourly * 24)
    (hloc : ∀ k i, 0 ≤ (D k).vLocal i) (hp : ∀ k, RoomForPeople h (3600 / (hourly : ℝ)) (D k))
    (hup : ∀ n : ℤ, -(dRunUpBuild * hourly * 24) ≤ n → n < 0 → ∀ k : Fin N, (k : ℤ) = n + N → ∀ i, (D k).acDemand i ≤ 0)
    (H0 : coreCalc h hR (switchedOff D) hourly dMain dRunUp dRunUpBuild = .ok r0) (H : coreCalc h hR D hourly dMain dRunUp dRunUpBuild = .ok r)
    (k : ℕ) (hrows : ∀ l : Fin r.nMain.toNat, l.1 ≤ k → ∀ i, (r.log l).mode i ≠ some .stopOpen ∧ 0 ≤ (r.log l).lCs i ∧ 0 ≤ (r.log l).lRs i)
    (hk0 : k < r0.nMain.toNat) (hk : k < r.nMain.toNat) : RowBelow (r0.log ⟨k, hk0⟩) (r.log ⟨k, hk⟩) := by
  refine C138_storing_rows_partial (A := switchedOff D) (B := D) hw hr hrx hgr (fun _ _ => rfl) hv hru hloc
    (fun _ => ⟨le_rfl, fun _ => le_rfl, fun _ => le_rfl, fun _ => le_rfl, rfl, rfl⟩) (fun _ _ _ => rfl) hp H0 H
    (fun n h1 h2 => ⟨hC, fun k hk i => ⟨le_rfl, hup n h1 h2 k hk i⟩⟩) k ?_ hk0 hk
  intro l h1 h2 hN hl i
  obtain ⟨q1, q2, q3⟩ := switchedOff_row hw hC H0 ⟨l, h1⟩ i
  obtain ⟨g1, g2, g3⟩ := hrows ⟨l, h2⟩ hl i
  exact ⟨by rw [q1]; exact g2, by rw [q2]; exact g3, .inl (by rw [q3, no_draught hw hC H ⟨l, h2⟩ i g1])⟩

/-- **C138 (partial), cooling.** As `C138_storing_heated_partial`: if up to row `k` the windows are closed and no load is positive, then no
temperature of row `k` is higher than with the equipment switched off. -/
theorem C138_storing_cooled_partial (hw : WellFormed h hR (3600 / (hourly : ℝ))) (hr : RadiantWellFormed h) (hrx : Relaxing h hR)
    (hgr : ∀ j, h.isGround j = true → h.kEi j = none) (hv : ∀ i l, h.vInt i l = 0) (hC : h.cValue = 0) (hru : 0 ≤ dRunUpBuild * hourly * 24)
    (hloc : ∀ k i, 0 ≤ (D k).vLocal i) (hp : ∀ k, RoomForPeople h (3600 / (hourly : ℝ)) (D k))
    (hup : ∀ n : ℤ, -(dRunUpBuild * hourly * 24) ≤ n → n < 0 → ∀ k : Fin N, (k : ℤ) = n + N → ∀ i, (D k).acDemand i ≤ 0)
    (H0 : coreCalc h hR (switchedOff D) hourly dMain dRunUp dRunUpBuild = .ok r0) (H : coreCalc h hR D hourly dMain dRunUp dRunUpBuild = .ok r)
    (k : ℕ) (hrows : ∀ l : Fin r.nMain.toNat, l.1 ≤ k → ∀ i, (r.log l).mode i ≠ some .stopOpen ∧ (r.log l).lCs i ≤ 0 ∧ (r.log l).lRs i ≤ 0)
    (hk0 : k < r0.nMain.toNat) (hk : k < r.nMain.toNat) : RowBelow (r.log ⟨k, hk⟩) (r0.log ⟨k, hk0⟩) := by
  refine C138_storing_rows_partial (A := D) (B := switchedOff D) hw hr hrx hgr (fun _ _ => rfl) hv hru hloc
    (fun _ => ⟨le_rfl, fun _ => le_rfl, fun _ => le_rfl, fun _ => le_rfl, rfl, rfl⟩) (fun _ _ _ => rfl) hp H H0
    (fun n h1 h2 => ⟨hC, fun k hk i => ⟨hup n h1 h2 k hk i, le_rfl⟩⟩) k ?_ hk hk0
  intro l h2 h1 hN hl i
  obtain ⟨q1, q2, q3⟩ := switchedOff_row hw hC H0 ⟨l, h1⟩ i
  obtain ⟨g1, g2, g3⟩ := hrows ⟨l, h2⟩ hl i
  exact ⟨by rw [q1]; exact g2, by rw [q2]; exact g3, .inl (by rw [q3, no_draught hw hC H ⟨l, h2⟩ i g1])⟩

end

section
variable {I : Type} [Fintype I] [DecidableEq I] {m N : ℕ} {h : House I (Fin m)} {hR : Fin m → ℝ}
  {A B : Fin N → Record I (Fin m)} {hourly dMain dRunUp dRunUpBuild : ℤ} {r1 r2 : CalcResult I m N}

/-- **C109 (partial), houses that store heat.** Take a tight house whose outer parts store heat and take it up evenly, without
air exchange between rooms (and, if it stands on the ground, the same outdoor air in both calculations), not too crowded, that is free-running up to row `k`. Warmer outdoor air, more sun into the rooms, more heat released
indoors, and warmer surroundings of the parts that store no heat never make any temperature of row `k` lower. -/
theorem C109_storing_rows_partial (hw : WellFormed h hR (3600 / (hourly : ℝ))) (hr : RadiantWellFormed h) (hrx : Relaxing h hR)
    (hgr : ∀ j, h.isGround j = true → h.kEi j = none) (hga : (∃ j, h.isGround j = true) → ∀ k, (B k).thetaO = (A k).thetaO)
    (hv : ∀ i l, h.vInt i l = 0) (hC : h.cValue = 0) (hru : 0 ≤ dRunUpBuild * hourly * 24)
    (hloc : ∀ k i, 0 ≤ (A k).vLocal i) (hAB : ∀ k, Warmer (A k) (B k)) (hsb : ∀ k, SameBehind h (A k) (B k))
    (hp : ∀ k, RoomForPeople h (3600 / (hourly : ℝ)) (A k))
    (H1 : coreCalc h hR A hourly dMain dRunUp dRunUpBuild = .ok r1) (H2 : coreCalc h hR B hourly dMain dRunUp dRunUpBuild = .ok r2)
    (k : ℕ) (hd1 : NoDemand (fun n => (A n).acDemand) (-(dRunUpBuild * hourly * 24)) k)
    (hd2 : NoDemand (fun n => (B n).acDemand) (-(dRunUpBuild * hourly * 24)) k)
    (hk1 : k < r1.nMain.toNat) (hk2 : k < r2.nMain.toNat) : RowBelow (r1.log ⟨k, hk1⟩) (r2.log ⟨k, hk2⟩) := by
  refine C138_storing_rows_partial hw hr hrx hgr hga hv hru hloc hAB hsb hp H1 H2
    (fun n g1 g2 => ⟨hC, fun k' hk' i => ⟨hd1 n g1 (by omega) k' (.inr ⟨g2, hk'⟩) i, hd2 n g1 (by omega) k' (.inr ⟨g2, hk'⟩) i⟩⟩) k ?_ hk1 hk2
  intro l g1 g2 hN hl i
  obtain ⟨k1, c1, t1, i1, e1, Hp1, Ht1, el1⟩ := logged_step H1 ⟨l, g1⟩
  obtain ⟨k2, c2, t2, i2, e2, Hp2, Ht2, el2⟩ := logged_step H2 ⟨l, g2⟩
  have q1 := quiet_row hw hC Hp1 Ht1 e1 (fun i => hd1 l (by omega) (by exact_mod_cast hl) k1
    (pyIndex_spec e1) i) i
  have q2 := quiet_row hw hC Hp2 Ht2 e2 (fun i => hd2 l (by omega) (by exact_mod_cast hl) k2
    (pyIndex_spec e2) i) i
  rw [el1, el2]
  exact ⟨(q1.1.trans q2.1.symm).le, (q1.2.1.trans q2.2.1.symm).le, .inl (q1.2.2.trans q2.2.2.symm)⟩

end

/-! ## A concrete case -/

/-- The tight house of panels with a floor slab that stores heat and lies on the ground. -/
noncomputable def exSlab : House (Fin 2) (Fin 4) :=
  { exPanels 0 with
    cValue := 0
    isGround := ![false, false, false, true]
    phiT0 := ![1, 1, 1, 0.2]
    phiA1 := fun j l => if l = 0 then (![0, 0, 0, 0.02] : Fin 4 → ℝ) j else 0
    phiT1 := fun j l => if l = 0 then (![0, 0, 0, 0.4] : Fin 4 → ℝ) j else 0 }

theorem exSlab_wellFormed : WellFormed exSlab exHR 900 :=
  { exPanels_wellFormed (v := 0) (by norm_num) with
    phiT0_mem := by intro j; fin_cases j <;> norm_num [exSlab] }

theorem exSlab_relaxing : Relaxing exSlab exHR where
  pulse := by
    intro j hK _
    have hj : j = 3 := by fin_cases j <;> simp_all [exSlab, exPanels, exHouse]
    subst hj
    have s1 : ∀ k, ∑ l : Fin 12, exSlab.phiA1 3 l * exSlab.ratio 3 l ^ k = 0.02 * 0.5 ^ k := by
      intro k
      rw [Finset.sum_eq_single 0 (fun l _ hl => by simp [exSlab, hl]) (by simp)]
      simp [exSlab, exPanels, exHouse]
    refine modes_logConvex (a := exSlab.phiA1 3) (ρ := exSlab.ratio 3) ?_ ?_ (fun _ => rfl) ⟨0, ?_, ?_⟩ ?_ ?_
    · intro l
      simp only [exSlab]
      split_ifs
      · simp; norm_num
      · exact le_rfl
    · intro l; norm_num [exSlab, exPanels, exHouse]
    · show (0 : ℝ) < 0.02
      norm_num
    · norm_num [exSlab, exPanels, exHouse]
    · show (0 : ℝ) < 0.04 + 1 / (5 + 5.2)
      norm_num
    · show (∑ l : Fin 12, exSlab.phiA1 3 l * exSlab.ratio 3 l ^ 0) ^ 2 ≤ (exSlab.phiA0 3 + 1 / (exSlab.hC 3 + exHR 3)) *
        ∑ l : Fin 12, exSlab.phiA1 3 l * exSlab.ratio 3 l ^ 1
      rw [s1, s1]
      show (0.02 * 0.5 ^ 0) ^ 2 ≤ ((0.04 : ℝ) + 1 / (5 + 5.2)) * (0.02 * 0.5 ^ 1)
      norm_num
  outdoors := by intro j _; fin_cases j <;> norm_num [exSlab, exPanels, exHouse]
  between := by
    intro j m coef
    fin_cases j <;> simp [exSlab, exPanels, exHouse] <;> intro h1 h2 <;> subst h1 h2 <;> norm_num

/-- The same day with a lamp of 60 W in each room. -/
noncomputable def exLitDay : Fin 96 → Record (Fin 2) (Fin 4) := fun k => { exFreeDay k with qGen := fun i => (exFreeDay k).qGen i + 60 }

/-- The hypotheses of `C109_storing_rows_partial` are met by this house, the floor slab of which stores heat and lies on the ground, with people at home. -/
theorem C109_storing_example : ∃ r1 r2, coreCalc exSlab exHR exFreeDay 4 1 1 0 = .ok r1 ∧ coreCalc exSlab exHR exLitDay 4 1 1 0 = .ok r2 ∧
    r1.nMain.toNat = 96 ∧ r2.nMain.toNat = 96 ∧ KeepsPast exSlab 3 ∧ exSlab.isGround 3 = true ∧ (∃ k i, 0 < (exFreeDay k).nHum i) ∧
    ∀ (k : ℕ) (h1 : k < r1.nMain.toNat) (h2 : k < r2.nMain.toNat), RowBelow (r1.log ⟨k, h1⟩) (r2.log ⟨k, h2⟩) := by
  have e4 : (3600 / ((4 : ℤ) : ℝ)) = 900 := by norm_num
  have hw : WellFormed exSlab exHR (3600 / ((4 : ℤ) : ℝ)) := by rw [e4]; exact exSlab_wellFormed
  have hloc : ∀ k i, 0 ≤ (exFreeDay k).vLocal i := fun k i => by fin_cases i <;> norm_num [exFreeDay, exDay]
  have hloc' : ∀ k i, 0 ≤ (exLitDay k).vLocal i := hloc
  obtain ⟨r1, H1⟩ := C21_program_partial (data := exFreeDay) (dMain := 1) (dRunUp := 1) (dRunUpBuild := 0) hw (fun _ => rfl) (fun _ => rfl)
    hloc (by norm_num) (by norm_num) le_rfl (by norm_num) (by norm_num) (by norm_num)
  obtain ⟨r2, H2⟩ := C21_program_partial (data := exLitDay) (dMain := 1) (dRunUp := 1) (dRunUpBuild := 0) hw (fun _ => rfl) (fun _ => rfl)
    hloc' (by norm_num) (by norm_num) le_rfl (by norm_num) (by norm_num) (by norm_num)
  obtain ⟨_, _, _, _, T1⟩ := coreCalc_ok H1
  obtain ⟨_, _, _, _, T2⟩ := coreCalc_ok H2
  refine ⟨r1, r2, H1, H2, by rw [T1.nMain_eq]; rfl, by rw [T2.nMain_eq]; rfl, ⟨0, .inl (show (0.02 : ℝ) ≠ 0 by norm_num)⟩, rfl, ⟨0, 0, ?_⟩, fun k h1 h2 => ?_⟩
  · norm_num [exFreeDay, exDay]
  · refine C109_storing_rows_partial (A := exFreeDay) (B := exLitDay) hw ⟨?_, ?_⟩ exSlab_relaxing (fun j _ => ?_) (fun _ _ => rfl) ?_ rfl (by norm_num) hloc ?_ (fun _ _ _ => rfl) ?_ H1 H2 k
      (fun _ _ _ _ _ _ => le_refl _) (fun _ _ _ _ _ _ => le_refl _) h1 h2
    · intro i; fin_cases i <;> norm_num [exSlab, exPanels, exHouse]
    · intro j; fin_cases j <;> norm_num [exSlab, exPanels, exHouse]
    · fin_cases j <;> simp_all [exSlab, exPanels, exHouse]
    · intro i l; fin_cases i <;> fin_cases l <;> simp [exSlab, exPanels]
    · intro k
      exact ⟨le_rfl, fun _ => le_rfl, by intro j; simp [exLitDay], fun _ => le_rfl, rfl, rfl⟩
    · intro k i
      rw [e4]
      fin_cases i <;> norm_num [exSlab, exPanels, exHouse, exFreeDay, exDay, airCap]

end HLC
