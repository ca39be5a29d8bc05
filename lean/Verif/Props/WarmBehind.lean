import Verif.Spec.WarmBehind
import Verif.Props.Relaxing
import Mathlib.RingTheory.PowerSeries.Basic
import Mathlib.Topology.Algebra.Order.LiminfLimsup

/-!
# C109, C138 with warmer surroundings of parts that store heat
-/

set_option linter.unusedSectionVars false

namespace HLC
open Spec

/-- The answer at step `n` to inputs `f`, the answer to one of which is `g`. -/
def answer (f g : ℕ → ℝ) (n : ℕ) : ℝ := ∑ i ∈ Finset.range (n + 1), f i * g (n - i)

theorem answer_coeff (f g : ℕ → ℝ) (n : ℕ) : answer f g n = PowerSeries.coeff n (PowerSeries.mk f * PowerSeries.mk g) := by
  rw [PowerSeries.coeff_mul, Finset.Nat.sum_antidiagonal_eq_sum_range_succ_mk]
  simp [answer]

theorem answer_assoc (e y p : ℕ → ℝ) (n : ℕ) : answer (answer e y) p n = answer e (answer y p) n := by
  have h1 : ∀ f g : ℕ → ℝ, PowerSeries.mk (answer f g) = PowerSeries.mk f * PowerSeries.mk g := by
    intro f g
    ext n
    rw [PowerSeries.coeff_mk, answer_coeff]
  rw [answer_coeff, answer_coeff, h1, h1, mul_assoc]

theorem answer_add (f f' g : ℕ → ℝ) (n : ℕ) : answer (fun i => f i + f' i) g n = answer f g n + answer f' g n := by
  unfold answer
  rw [← Finset.sum_add_distrib]
  exact Finset.sum_congr rfl fun i _ => by ring

theorem answer_last (f g : ℕ → ℝ) (n : ℕ) : answer f g n = ∑ i ∈ Finset.range n, f i * g (n - i) + f n * g 0 := by
  unfold answer
  rw [Finset.sum_range_succ, Nat.sub_self]

theorem answer_update {f g : ℕ → ℝ} {n : ℕ} (x : ℝ) {k : ℕ} (hk : k < n) : answer (Function.update f n x) g k = answer f g k := by
  unfold answer
  refine Finset.sum_congr rfl fun i hi => ?_
  have hi := Finset.mem_range.1 hi
  rw [Function.update_of_ne (by omega)]

section
variable {I J : Type} [Fintype I] [DecidableEq I] [Fintype J] [DecidableEq J] {N : ℕ} {h : House I J} {hR : J → ℝ} {dt : ℝ}

/-- What a part holds: at each past step neither the temperature in front of its film nor that behind it was lower in the second run. -/
def KeptSteps (h : House I J) (hR : J → ℝ) (j : J) (D E : Fin 12 → ℝ) : Prop :=
  ∃ n q e, (∀ i, 0 ≤ e i) ∧ (LetsWarmthThrough h hR j ∨ ∀ i, e i = 0) ∧ (∀ k < n, 0 ≤ answer q (pulse h hR j) k + answer e (passed h j) k) ∧
    Past (h.phiA1 j) (h.ratio j) D n q ∧ Past (h.phiT1 j) (h.ratio j) E n e

theorem answer_passed {j : J} {E : Fin 12 → ℝ} {n : ℕ} {e : ℕ → ℝ} (hE : Past (h.phiT1 j) (h.ratio j) E n e) (x : ℝ) :
    answer (Function.update e n x) (passed h j) n = h.phiT0 j * x + ∑ l, (h.phiT1 j l * x + h.ratio j l * E l) := by
  rw [(hE.step x).sum]
  have : ∀ i ∈ Finset.range (n + 1), Function.update e n x i * passed h j (n - i)
      = (if i = n then h.phiT0 j * x else 0) + Function.update e n x i * ∑ l, h.phiT1 j l * h.ratio j l ^ (n + 1 - 1 - i) := by
    intro i hi
    have hi := Finset.mem_range.1 hi
    rw [Nat.add_sub_cancel]
    unfold passed
    by_cases hn : i = n
    · subst hn
      rw [Function.update_self, if_pos (Nat.sub_self i), if_pos rfl]
      ring
    · rw [if_neg (by omega), if_neg hn]
      ring
  unfold answer
  rw [Finset.sum_congr rfl this, Finset.sum_add_distrib, Finset.sum_ite_eq' , if_pos (Finset.mem_range.2 (Nat.lt_succ_self n))]

theorem answer_pulse {j : J} {D : Fin 12 → ℝ} {n : ℕ} {q : ℕ → ℝ} (hD : Past (h.phiA1 j) (h.ratio j) D n q) (x : ℝ) :
    answer (Function.update q n x) (pulse h hR j) n = x * pulse h hR j 0 + ∑ l, D l := by
  rw [answer_last, Function.update_self, hD.sum]
  have : ∑ i ∈ Finset.range n, Function.update q n x i * pulse h hR j (n - i)
      = ∑ i ∈ Finset.range n, q i * ∑ l, h.phiA1 j l * h.ratio j l ^ (n - 1 - i) := by
    refine Finset.sum_congr rfl fun i hi => ?_
    have hi := Finset.mem_range.1 hi
    rw [Function.update_of_ne hi.ne, show n - i = (n - 1 - i) + 1 by omega]
    rfl
  rw [this]
  ring

theorem KeptSteps.nonneg {j : J} {D E : Fin 12 → ℝ} (hk : KeptSteps h hR j D E) (hp : LogConvex (pulse h hR j)) {x : ℝ} (hx : 0 ≤ x)
    (ht : LetsWarmthThrough h hR j ∨ x = 0) : 0 ≤ h.phiT0 j * x + ∑ l, (h.phiT1 j l * x + h.ratio j l * E l) + ∑ l, D l := by
  obtain ⟨n, q, e, he, hte, hg, hD, hE⟩ := hk
  have he' : ∀ i, 0 ≤ Function.update e n x i := by
    intro i
    by_cases hi : i = n
    · subst hi; rw [Function.update_self]; exact hx
    · rw [Function.update_of_ne hi]; exact he i
  obtain ⟨y, hy, hyp⟩ : ∃ y : ℕ → ℝ, (∀ n, 0 ≤ y n) ∧ ∀ k, answer (answer (Function.update e n x) y) (pulse h hR j) k
      = answer (Function.update e n x) (passed h j) k := by
    by_cases hT : LetsWarmthThrough h hR j
    · obtain ⟨y, hy, h1⟩ := hT
      refine ⟨y, hy, fun k => ?_⟩
      rw [answer_assoc, show answer y (pulse h hR j) = passed h j from funext h1]
    · have h0 : Function.update e n x = fun _ => 0 := by
        funext i
        by_cases hi : i = n
        · subst hi; rw [Function.update_self]; exact ht.resolve_left hT
        · rw [Function.update_of_ne hi]; exact hte.resolve_left hT i
      exact ⟨fun _ => 0, fun _ => le_rfl, fun k => by rw [h0]; simp [answer]⟩
  rw [← answer_passed hE x, ← hyp n, answer_last]
  have hc : 0 ≤ answer (Function.update e n x) y n := Finset.sum_nonneg fun i _ => mul_nonneg (he' i) (hy _)
  have ho := hp.owed (fun i => q i + answer (Function.update e n x) y i) n (by
    intro k hk
    have := hg k hk
    rw [← answer_update x hk (f := e), ← hyp k, ← answer_add] at this
    exact this)
  have hd := answer_pulse (hR := hR) hD 0
  rw [answer_last, Function.update_self, zero_mul, add_zero, zero_add] at hd
  have hs : ∑ i ∈ Finset.range n, (q i + answer (Function.update e n x) y i) * pulse h hR j (n - i)
      = ∑ l, D l + ∑ i ∈ Finset.range n, answer (Function.update e n x) y i * pulse h hR j (n - i) := by
    rw [← hd, ← Finset.sum_add_distrib]
    refine Finset.sum_congr rfl fun i hi => ?_
    have hi := Finset.mem_range.1 hi
    rw [Function.update_of_ne hi.ne]
    ring
  rw [hs] at ho
  have := mul_nonneg hc (hp 0).1.le
  linarith

theorem KeptSteps.step {j : J} {D E : Fin 12 → ℝ} (hk : KeptSteps h hR j D E) {x w : ℝ} (hx : 0 ≤ x) (ht : LetsWarmthThrough h hR j ∨ x = 0)
    (hw : 0 ≤ w * pulse h hR j 0 + (h.phiT0 j * x + ∑ l, (h.phiT1 j l * x + h.ratio j l * E l) + ∑ l, D l)) :
    KeptSteps h hR j (fun l => h.phiA1 j l * w + h.ratio j l * D l) (fun l => h.phiT1 j l * x + h.ratio j l * E l) := by
  obtain ⟨n, q, e, he, hte, hg, hD, hE⟩ := hk
  refine ⟨n + 1, Function.update q n w, Function.update e n x, fun i => ?_, ?_, fun k hk => ?_, hD.step w, hE.step x⟩
  · by_cases hi : i = n
    · subst hi; rw [Function.update_self]; exact hx
    · rw [Function.update_of_ne hi]; exact he i
  · rcases ht with ht | ht
    · exact .inl ht
    · rcases hte with hte | hte
      · exact .inl hte
      · refine .inr fun i => ?_
        by_cases hi : i = n
        · subst hi; rw [Function.update_self]; exact ht
        · rw [Function.update_of_ne hi]; exact hte i
  · rcases Nat.lt_succ_iff_lt_or_eq.1 hk with hk | rfl
    · rw [answer_update w hk, answer_update x hk]; exact hg k hk
    · rw [answer_pulse hD, answer_passed hE]; linarith

/-- What a part holds, also of a past without beginning: a limit of what it holds after finitely many steps. -/
def KeptWarm (h : House I J) (hR : J → ℝ) (j : J) (D E : Fin 12 → ℝ) : Prop :=
  ∃ Dm Em : ℕ → Fin 12 → ℝ, (∀ m, KeptSteps h hR j (Dm m) (Em m)) ∧ (∀ l, Filter.Tendsto (fun m => Dm m l) Filter.atTop (nhds (D l))) ∧
    ∀ l, Filter.Tendsto (fun m => Em m l) Filter.atTop (nhds (E l))

theorem KeptSteps.kept {j : J} {D E : Fin 12 → ℝ} (hk : KeptSteps h hR j D E) : KeptWarm h hR j D E :=
  ⟨fun _ => D, fun _ => E, fun _ => hk, fun _ => tendsto_const_nhds, fun _ => tendsto_const_nhds⟩

theorem kept_limit {j : J} {D E : Fin 12 → ℝ} {Dm Em : ℕ → Fin 12 → ℝ} (hD : ∀ l, Filter.Tendsto (fun m => Dm m l) Filter.atTop (nhds (D l)))
    (hE : ∀ l, Filter.Tendsto (fun m => Em m l) Filter.atTop (nhds (E l))) (x : ℝ) :
    Filter.Tendsto (fun m => h.phiT0 j * x + ∑ l, (h.phiT1 j l * x + h.ratio j l * Em m l) + ∑ l, Dm m l) Filter.atTop
      (nhds (h.phiT0 j * x + ∑ l, (h.phiT1 j l * x + h.ratio j l * E l) + ∑ l, D l)) :=
  (tendsto_const_nhds.add (tendsto_finsetSum _ fun l _ => tendsto_const_nhds.add (tendsto_const_nhds.mul (hE l)))).add
    (tendsto_finsetSum _ fun l _ => hD l)

theorem KeptWarm.nonneg {j : J} {D E : Fin 12 → ℝ} (hk : KeptWarm h hR j D E) (hp : LogConvex (pulse h hR j)) {x : ℝ} (hx : 0 ≤ x)
    (ht : LetsWarmthThrough h hR j ∨ x = 0) : 0 ≤ h.phiT0 j * x + ∑ l, (h.phiT1 j l * x + h.ratio j l * E l) + ∑ l, D l := by
  obtain ⟨Dm, Em, hk, hD, hE⟩ := hk
  exact ge_of_tendsto' (kept_limit hD hE x) fun m => (hk m).nonneg hp hx ht

theorem KeptWarm.step {j : J} {D E : Fin 12 → ℝ} (hk : KeptWarm h hR j D E) (hp : LogConvex (pulse h hR j)) {x w : ℝ} (hx : 0 ≤ x)
    (ht : LetsWarmthThrough h hR j ∨ x = 0)
    (hw : 0 ≤ w * pulse h hR j 0 + (h.phiT0 j * x + ∑ l, (h.phiT1 j l * x + h.ratio j l * E l) + ∑ l, D l)) :
    KeptWarm h hR j (fun l => h.phiA1 j l * w + h.ratio j l * D l) (fun l => h.phiT1 j l * x + h.ratio j l * E l) := by
  obtain ⟨Dm, Em, hk, hD, hE⟩ := hk
  have hp0 : 0 < pulse h hR j 0 := (hp 0).1
  set S : ℕ → ℝ := fun m => h.phiT0 j * x + ∑ l, (h.phiT1 j l * x + h.ratio j l * Em m l) + ∑ l, Dm m l with hS
  let wm : ℕ → ℝ := fun m => max w (-S m / pulse h hR j 0)
  have lw : Filter.Tendsto wm Filter.atTop (nhds w) := by
    have h1 : Filter.Tendsto wm Filter.atTop (nhds (max w (-(h.phiT0 j * x + ∑ l, (h.phiT1 j l * x + h.ratio j l * E l) + ∑ l, D l) / pulse h hR j 0))) :=
      tendsto_const_nhds.max ((kept_limit hD hE x).neg.div_const _)
    rwa [max_eq_left (by rw [div_le_iff₀ hp0]; linarith)] at h1
  refine ⟨fun m l => h.phiA1 j l * wm m + h.ratio j l * Dm m l, fun m l => h.phiT1 j l * x + h.ratio j l * Em m l, fun m => ?_, fun l => ?_, fun l => ?_⟩
  · refine (hk m).step hx ht ?_
    have : -S m / pulse h hR j 0 ≤ wm m := le_max_right _ _
    rw [div_le_iff₀ hp0] at this
    have e : S m = h.phiT0 j * x + ∑ l, (h.phiT1 j l * x + h.ratio j l * Em m l) + ∑ l, Dm m l := rfl
    linarith
  · exact (tendsto_const_nhds.mul lw).add (tendsto_const_nhds.mul (hD l))
  · exact tendsto_const_nhds.add (tendsto_const_nhds.mul (hE l))

/-- The second state is at least as warm, and so are all of its past and all that was behind its parts. -/
structure Warming (h : House I J) (hR : J → ℝ) (c c' : Cond I J) : Prop where
  rooms : ∀ i, c.thetaR i ≤ c'.thetaR i
  furniture : ∀ i, c.thetaFrt i ≤ c'.thetaFrt i
  heat : ∀ j, h.kEi j = none → KeepsPast h j → KeptWarm h hR j (pendA h c c' j) (fun l => c'.dshT j l - c.dshT j l)
  light : ∀ j, h.kEi j = none → ¬ KeepsPast h j → ∀ l, c'.dshA j l = c.dshA j l ∧ c'.dshT j l = c.dshT j l
  empty : PartitionsEmpty h c
  empty' : PartitionsEmpty h c'

theorem Warming.start (c : Cond I J) (hc : PartitionsEmpty h c) : Warming h hR c c where
  rooms _ := le_rfl
  furniture _ := le_rfl
  heat j _ _ := KeptSteps.kept
    ⟨0, _, _, fun _ => le_rfl, .inr fun _ => rfl, by simp, Past.start fun l => by simp [pendA], Past.start fun l => by simp⟩
  light _ _ _ _ := ⟨rfl, rfl⟩
  empty := hc
  empty' := hc

/-- **C138 (one step), warmer surroundings of parts that store heat.** -/
theorem step_warming {ss ss' : PreCalc I J N} {n : ℤ} {k : Fin N} {A B : Fin N → Record I J} {c c' : Cond I J} {t t' : TickVars I J}
    (hw : WellFormed h hR dt) (hr : RadiantWellFormed h) (hrx : Relaxing h hR) (hv : ∀ i l, h.vInt i l = 0)
    (Hp : makePreCalc h hR dt A = .ok ss) (Hp' : makePreCalc h hR dt B = .ok ss') (H : runTick n dt ss c = .ok t)
    (H' : runTick n dt ss' c' = .ok t') (hk : pyIndex N n = .ok k) (hloc : ∀ i, 0 ≤ (A k).vLocal i) (hAB : Warmer (A k) (B k))
    (hsb : WarmBehind h hR (A k) (B k))
    (hp : RoomForPeople h dt (A k)) (hs : MoreSupplied (A k) (B k) (LogRow.ofTick t) (LogRow.ofTick t')) (hc : Warming h hR c c') :
    Warming h hR t.next t'.next ∧ RowBelow (LogRow.ofTick t) (LogRow.ofTick t') := by
  have SA := settled_averages hw hrx hv Hp H hk hc.empty
  have SB := settled_averages hw hrx hv Hp' H' hk hc.empty'
  obtain ⟨ivs, k1, hi1, hs1, hk1, e1⟩ := step_eqs Hp H
  obtain rfl : k1 = k := Except.ok.inj (hk1.symm.trans hk)
  obtain ⟨ivs', k2, hi2, hs2, hk2, e2⟩ := step_eqs Hp' H'
  obtain rfl : k2 = k1 := Except.ok.inj (hk2.symm.trans hk)
  subst hs1 hs2
  have hcapA : ∀ i, 0 < h.vRoom i * airCap := fun i => mul_pos (hw.vRoom_pos i) (by unfold airCap; norm_num)
  obtain ⟨u, hu0, hu⟩ := common_air hw hloc hAB.ventilation e1 e2 (fun i => (hs i).2.2)
  have D := ((SA.vent u).sub (SB.vent u)).early (fun i => t'.qHum i - t.qHum i) (fun i => (hcapA i).ne') hw.dt_pos.ne'
  have hq : ∀ i, -(c'.thetaR i - c.thetaR i) ≤ (t'.qHum i - t.qHum i) * dt / (h.vRoom i * airCap) := by
    intro i
    have q1 : t.qHum i = qHumPsn (c.thetaR i) * (A k2).nHum i := by rw [e1.qHum]; rfl
    have q2 : t'.qHum i = qHumPsn (c'.thetaR i) * (A k2).nHum i := by rw [e2.qHum, ← hAB.people]; rfl
    rw [le_div_iff₀ (hcapA i), q1, q2]
    have hs := qHumPsn_slope (hc.rooms i)
    have h1 := mul_le_mul_of_nonneg_right (mul_le_mul_of_nonneg_right hs (hp i).1) hw.dt_pos.le
    have h2 := mul_le_mul_of_nonneg_left (hp i).2 (sub_nonneg.2 (hc.rooms i))
    nlinarith
  have hdiff : ∀ j, 0 ≤ h.qSol (B k2) j - h.qSol (A k2) j := by
    intro j
    rw [qSol_sub h (A k2) (B k2) { A k2 with qTrsSol := fun i => (B k2).qTrsSol i - (A k2).qTrsSol i } (fun _ => rfl)]
    exact qSol_nonneg hw (fun i => sub_nonneg.2 (hAB.sun i)) j
  have hlc : ∀ i, t.lc i ≤ t'.lc i := fun i => (hs i).1
  have hlr : ∀ i, t.lr i ≤ t'.lr i := fun i => (hs i).2.1
  have dA : ∀ j l, t'.dshA j l - t.dshA j l = pendA h c c' j l := by
    intro j l
    rw [e1.dshA, e2.dshA]
    simp only [Tick.dshA, preCalcOf, pendA]
    ring
  have zT : ∀ j l, ¬ KeepsPast h j → h.phiT1 j l = 0 ∧ h.phiA1 j l = 0 := by
    intro j l hS
    unfold KeepsPast at hS
    push Not at hS
    exact ⟨(hS l).2, (hS l).1⟩
  have hdel : ∀ j, h.kEi j = none → 0 ≤ h.kEo j * ((B k2).thetaOSol j - (A k2).thetaOSol j) := fun j hK =>
    mul_nonneg (hrx.outdoors j hK) (sub_nonneg.2 (hAB.parts j))
  have htr : ∀ j, KeepsPast h j → LetsWarmthThrough h hR j ∨ h.kEo j * ((B k2).thetaOSol j - (A k2).thetaOSol j) = 0 := by
    intro j hS
    rcases hsb j hS with g | g
    · exact .inl g
    · exact .inr (by rw [g]; ring)
  have dT : ∀ j, h.kEi j = none → ∀ l, t'.dshT j l - t.dshT j l
      = h.phiT1 j l * (h.kEo j * ((B k2).thetaOSol j - (A k2).thetaOSol j)) + h.ratio j l * (c'.dshT j l - c.dshT j l) := by
    intro j hK l
    rw [e1.dshT, e2.dshT, e1.thetaRear, e2.thetaRear]
    simp only [Tick.dshT, Tick.thetaRear, preCalcOf, kEi_mulVec, hK, House.thetaDstrb]
    ring
  have pend0 : ∀ j, h.kEi j = none → ¬ KeepsPast h j → ∀ l, pendA h c c' j l = 0 := by
    intro j hK hS l
    unfold pendA
    rw [(hc.light j hK hS l).1, (zT j l hS).2]
    ring
  have dT0 : ∀ j, h.kEi j = none → ¬ KeepsPast h j → ∀ l, t'.dshT j l - t.dshT j l = 0 := by
    intro j hK hS l
    rw [dT j hK l, (zT j l hS).1, (hc.light j hK hS l).2]
    ring
  have bnd : ∀ j, h.kEi j = none → behind h (B k2).thetaOSol t' j - behind h (A k2).thetaOSol t j
      = h.phiT0 j * (h.kEo j * ((B k2).thetaOSol j - (A k2).thetaOSol j)) + ∑ l, (t'.dshT j l - t.dshT j l) + ∑ l, pendA h c c' j l := by
    intro j hK
    have : ∑ l, pendA h c c' j l = ∑ l, (t'.dshA j l - t.dshA j l) := Finset.sum_congr rfl fun l _ => (dA j l).symm
    rw [this]
    unfold behind
    rw [if_pos hK, if_pos hK]
    simp only [Finset.sum_add_distrib, Finset.sum_sub_distrib]
    ring
  have sumT : ∀ j, h.kEi j = none → ∑ l, (t'.dshT j l - t.dshT j l)
      = ∑ l, (h.phiT1 j l * (h.kEo j * ((B k2).thetaOSol j - (A k2).thetaOSol j)) + h.ratio j l * (c'.dshT j l - c.dshT j l)) :=
    fun j hK => Finset.sum_congr rfl fun l _ => dT j hK l
  have hbeh : ∀ j, 0 ≤ behind h (B k2).thetaOSol t' j - behind h (A k2).thetaOSol t j := by
    intro j
    by_cases hK : h.kEi j = none
    · rw [bnd j hK]
      by_cases hS : KeepsPast h j
      · rw [sumT j hK]
        exact (hc.heat j hK hS).nonneg (hrx.pulse j hK hS) (hdel j hK) (htr j hS)
      · rw [Finset.sum_eq_zero fun l _ => pend0 j hK hS l, Finset.sum_eq_zero fun l _ => dT0 j hK hS l, add_zero, add_zero]
        exact mul_nonneg (hw.phiT0_mem j).1 (hdel j hK)
    · unfold behind
      rw [if_neg hK, if_neg hK]
      exact sub_nonneg.2 (hAB.parts j)
  have hsrc : ∀ j, 0 ≤ (h.qSol (B k2) j + h.flr j * (1 - h.beta (h.room j)) * t'.lr (h.room j) / h.area j)
      - (h.qSol (A k2) j + h.flr j * (1 - h.beta (h.room j)) * t.lr (h.room j) / h.area j) := by
    intro j
    have h1 := hdiff j
    have h2 : h.flr j * (1 - h.beta (h.room j)) * t.lr (h.room j) / h.area j ≤ h.flr j * (1 - h.beta (h.room j)) * t'.lr (h.room j) / h.area j :=
      div_le_div_of_nonneg_right (mul_le_mul_of_nonneg_left (hlr _) (mul_nonneg (hr.flr_nonneg j) (sub_nonneg.2 (hr.beta_mem _).2)))
        (hw.area_pos j).le
    linarith
  have hwt : ∀ j, (settled h).kEo j + (match (settled h).kEi j with | none => 0 | some (_, coef) => coef) = 1 := by
    intro j
    show (if h.kEi j = none then 1 else h.kEo j) + (match h.kEi j with | none => 0 | some (_, coef) => coef) = 1
    cases hK : h.kEi j with
    | none => simp
    | some mc =>
      obtain ⟨m, coef⟩ := mc
      simpa using (hrx.between j m coef hK).1
  have key := D.floor (settled_wellFormed hw) hwt (lo := 0) hu0 (sub_nonneg.2 hAB.air) hbeh
    (fun i => by
      have := hq i
      show 0 ≤ c'.thetaR i - c.thetaR i + (t'.qHum i - t.qHum i) * dt / (h.vRoom i * airCap)
      linarith) (fun i => sub_nonneg.2 (hc.furniture i))
    (fun i => by
      have h1 := hAB.gains i
      have h2 := hu i
      have h3 := hlc i
      have h4 := mul_le_mul_of_nonneg_left (hlr i) (hr.beta_mem i).1
      linarith)
    (fun i => by
      have := hAB.sun i
      show 0 ≤ (B k2).qTrsSol i * 0.5 - (A k2).qTrsSol i * 0.5
      linarith)
    hsrc
    (fun j => by
      cases hK : h.kEi j with
      | none => simp
      | some mc =>
        obtain ⟨m, coef⟩ := mc
        have h1 := hdiff m
        have h2 : h.flr m * ((1 - h.beta (h.room m)) * t.lr (h.room m)) / h.area j ≤ h.flr m * ((1 - h.beta (h.room m)) * t'.lr (h.room m)) / h.area j :=
          div_le_div_of_nonneg_right (mul_le_mul_of_nonneg_left (mul_le_mul_of_nonneg_left (hlr _) (sub_nonneg.2 (hr.beta_mem _).2))
            (hr.flr_nonneg m)) (hw.area_pos j).le
        simp only
        linarith)
  have r1 : ∀ i, t.thetaR i ≤ t'.thetaR i := fun i => sub_nonneg.1 (key.1 i)
  have r2 : ∀ i, t.thetaFrt i ≤ t'.thetaFrt i := fun i => sub_nonneg.1 (key.2.1 i)
  have r3 : ∀ j, t.thetaS j ≤ t'.thetaS j := fun j => sub_nonneg.1 (key.2.2 j)
  have r4 : ∀ i, t.thetaMrt i ≤ t'.thetaMrt i := by
    intro i
    rw [e1.thetaMrt, e2.thetaMrt]
    unfold Tick.thetaMrt Matrix.mulVec dotProduct
    refine Finset.sum_le_sum fun j _ => mul_le_mul_of_nonneg_left (r3 j) ?_
    show 0 ≤ h.p i j * h.fMrtHum j
    unfold House.p
    simp only [Matrix.of_apply]
    split_ifs
    · simpa using hw.fMrtHum_nonneg j
    · simp
  have hkept : ∀ j, h.kEi j = none → KeepsPast h j → KeptWarm h hR j (pendA h t.next t'.next j) (fun l => t'.dshT j l - t.dshT j l) := by
    intro j hK hS
    have hH : 0 < h.hC j + hR j := add_pos (hw.hC_pos j) (hw.hR_pos j)
    have f1 := C16_surface_flux Hp H hk j hH.ne'
    have f2 := C16_surface_flux Hp' H' hk j hH.ne'
    have w1 := SA.surface j
    have w2 := SB.surface j
    have b := bnd j hK
    rw [sumT j hK] at b
    set X := h.phiT0 j * (h.kEo j * ((B k2).thetaOSol j - (A k2).thetaOSol j))
      + ∑ l, (h.phiT1 j l * (h.kEo j * ((B k2).thetaOSol j - (A k2).thetaOSol j)) + h.ratio j l * (c'.dshT j l - c.dshT j l))
      + ∑ l, pendA h c c' j l with hX
    have hx : 0 ≤ (t'.qSrf j - t.qSrf j) * pulse h hR j 0 + X := by
      have g1 : t.thetaS j = h.phiA0 j * t.qSrf j + behind h (A k2).thetaOSol t j := by
        have := w1
        simp only [settled, hK, if_true, one_mul, add_zero] at this
        rw [f1]
        refine this.trans ?_
        show h.phiA0 j * (h.hC j * (t.thetaR (h.room j) - t.thetaS j) + hR j * (roomMrt h hR (h.room j) t.thetaS - t.thetaS j) + _) + _ = _
        ring
      have g2 : t'.thetaS j = h.phiA0 j * t'.qSrf j + behind h (B k2).thetaOSol t' j := by
        have := w2
        simp only [settled, hK, if_true, one_mul, add_zero] at this
        rw [f2]
        refine this.trans ?_
        show h.phiA0 j * (h.hC j * (t'.thetaR (h.room j) - t'.thetaS j) + hR j * (roomMrt h hR (h.room j) t'.thetaS - t'.thetaS j) + _) + _ = _
        ring
      have hm : 0 ≤ roomMrt h hR (h.room j) t'.thetaS - roomMrt h hR (h.room j) t.thetaS := by
        rw [← roomMrt_sub]
        exact roomMrt_nonneg hw (fun j => sub_nonneg.2 (r3 j)) _
      have e : (t'.qSrf j - t.qSrf j) * pulse h hR j 0 + X
          = (h.hC j * (t'.thetaR (h.room j) - t.thetaR (h.room j)) + hR j * (roomMrt h hR (h.room j) t'.thetaS - roomMrt h hR (h.room j) t.thetaS)
            + ((h.qSol (B k2) j + h.flr j * (1 - h.beta (h.room j)) * t'.lr (h.room j) / h.area j)
      - (h.qSol (A k2) j + h.flr j * (1 - h.beta (h.room j)) * t.lr (h.room j) / h.area j))) / (h.hC j + hR j) := by
        rw [eq_div_iff hH.ne', ← b]
        have : (t'.qSrf j - t.qSrf j) * pulse h hR j 0 * (h.hC j + hR j)
            = (t'.qSrf j - t.qSrf j) * (h.phiA0 j * (h.hC j + hR j) + 1) := by
          unfold pulse
          have := hH.ne'
          field_simp
        rw [add_mul, this]
        linear_combination f2 - f1 + (h.hC j + hR j) * (g1 - g2)
      rw [e]
      refine div_nonneg ?_ hH.le
      have a1 := mul_nonneg (hw.hC_pos j).le (sub_nonneg.2 (r1 (h.room j)))
      have a2 := mul_nonneg (hw.hR_pos j).le hm
      have a3 := hsrc j
      linarith
    have := (hc.heat j hK hS).step (hrx.pulse j hK hS) (hdel j hK) (htr j hS) hx
    have e : pendA h t.next t'.next j = fun l => h.phiA1 j l * (t'.qSrf j - t.qSrf j) + h.ratio j l * pendA h c c' j l := by
      funext l
      rw [← dA]
      rfl
    rw [e, show (fun l => t'.dshT j l - t.dshT j l) = _ from funext fun l => dT j hK l]
    exact this
  refine ⟨⟨r1, r2, hkept, fun j hK hS l => ⟨?_, sub_eq_zero.1 (dT0 j hK hS l)⟩, between_empty hrx Hp H hc.empty, between_empty hrx Hp' H' hc.empty'⟩,
    ⟨r1, r2, r3, r4, fun i => ?_⟩⟩
  · have := dA j l
    rw [pend0 j hK hS l] at this
    exact sub_eq_zero.1 this
  have hm : ∀ j, 0 ≤ h.fMrtHum j := hw.fMrtHum_nonneg
  have hc0 : (0 : ℝ) < hHumC := by unfold hHumC; norm_num
  have hr0 := hHumR_pos
  show t.thetaOt i ≤ t'.thetaOt i
  rw [C13_operative_temperature Hp H i, C13_operative_temperature Hp' H' i]
  refine div_le_div_of_nonneg_right (add_le_add (mul_le_mul_of_nonneg_left (r1 i) hc0.le) (mul_le_mul_of_nonneg_left ?_ hr0.le)) (by linarith)
  exact Finset.sum_le_sum fun j _ => mul_le_mul_of_nonneg_left (r3 j) (hm j)

/-- **C138 (a run), warmer surroundings of parts that store heat.** -/
theorem run_warming {ss ss' : PreCalc I J N} {A B : Fin N → Record I J}
    (hw : WellFormed h hR dt) (hr : RadiantWellFormed h) (hrx : Relaxing h hR) (hv : ∀ i l, h.vInt i l = 0)
    (Hp : makePreCalc h hR dt A = .ok ss) (Hp' : makePreCalc h hR dt B = .ok ss') (hloc : ∀ k i, 0 ≤ (A k).vLocal i)
    (hAB : ∀ k, Warmer (A k) (B k)) (hsb : ∀ k, WarmBehind h hR (A k) (B k)) (hp : ∀ k, RoomForPeople h dt (A k)) {c c' : Cond I J} {ns : List ℤ}
    {ts ts' : List (TickVars I J)} (hc : Warming h hR c c') (H : Run ss dt c ns ts) (H' : Run ss' dt c' ns ts') :
    ∀ (j : ℕ) (_ : j < ns.length) (h1 : j < ts.length) (h2 : j < ts'.length),
      (∀ (l : ℕ) (hl : l < ns.length) (g1 : l < ts.length) (g2 : l < ts'.length), l ≤ j → ∀ k : Fin N, pyIndex N ns[l] = .ok k →
        MoreSupplied (A k) (B k) (LogRow.ofTick ts[l]) (LogRow.ofTick ts'[l])) →
      RowBelow (LogRow.ofTick ts[j]) (LogRow.ofTick ts'[j]) := by
  induction H generalizing c' ts' with
  | nil => intro j hj; simp at hj
  | cons a1 _ ih =>
    cases H' with
    | cons b1 b2 =>
      intro j hj h1 h2 hd
      obtain ⟨k, hk⟩ := runTick_index a1
      have s1 := step_warming hw hr hrx hv Hp Hp' a1 b1 hk (hloc k) (hAB k) (hsb k) (hp k)
        (hd 0 (by simp) (by simp) (by simp) (by omega) k hk) hc
      cases j with
      | zero => exact s1.2
      | succ j =>
        exact ih s1.1 b2 j (by simpa using hj) (by simpa using h1) (by simpa using h2)
          fun l hl g1 g2 hlj => hd (l + 1) (by simpa using hl) (by simpa using g1) (by simpa using g2) (by omega)

end

section
variable {I : Type} [Fintype I] [DecidableEq I] {m N : ℕ} {h : House I (Fin m)} {hR : Fin m → ℝ}
  {A B : Fin N → Record I (Fin m)} {hourly dMain dRunUp dRunUpBuild : ℤ} {r1 r2 : CalcResult I m N}

/-- **C138 (partial), warmer surroundings of parts that store heat.** As `C138_storing_rows_partial`, where the temperatures behind the parts that
store heat may be higher in the second calculation, if these parts let warmth through. -/
theorem C138_behind_rows_partial (hw : WellFormed h hR (3600 / (hourly : ℝ))) (hr : RadiantWellFormed h) (hrx : Relaxing h hR)
    (hgr : ∀ j, h.isGround j = true → h.kEi j = none) (hga : (∃ j, h.isGround j = true) → ∀ k, (B k).thetaO = (A k).thetaO)
    (hv : ∀ i l, h.vInt i l = 0) (hru : 0 ≤ dRunUpBuild * hourly * 24)
    (hloc : ∀ k i, 0 ≤ (A k).vLocal i) (hAB : ∀ k, Warmer (A k) (B k)) (hsb : ∀ k, WarmBehind h hR (A k) (B k)) (hp : ∀ k, RoomForPeople h (3600 / (hourly : ℝ)) (A k))
    (H1 : coreCalc h hR A hourly dMain dRunUp dRunUpBuild = .ok r1) (H2 : coreCalc h hR B hourly dMain dRunUp dRunUpBuild = .ok r2)
    (hup : ∀ n : ℤ, -(dRunUpBuild * hourly * 24) ≤ n → n < 0 → h.cValue = 0 ∧ ∀ k : Fin N, (k : ℤ) = n + N → ∀ i,
      (A k).acDemand i ≤ 0 ∧ (B k).acDemand i ≤ 0)
    (k : ℕ) (hs : ∀ (l : ℕ) (h1 : l < r1.nMain.toNat) (h2 : l < r2.nMain.toNat) (hN : l < N), l ≤ k →
      MoreSupplied (A ⟨l, hN⟩) (B ⟨l, hN⟩) (r1.log ⟨l, h1⟩) (r2.log ⟨l, h2⟩))
    (hk1 : k < r1.nMain.toNat) (hk2 : k < r2.nMain.toNat) : RowBelow (r1.log ⟨k, hk1⟩) (r2.log ⟨k, hk2⟩) := by
  obtain ⟨gs1, c1, up1, mn1, T1⟩ := coreCalc_ok H1
  obtain ⟨gs2, c2, up2, mn2, T2⟩ := coreCalc_ok H2
  obtain rfl := start_same (A := A) (B := B) (h' := h) rfl (fun _ _ => rfl) hga T1 T2
  have R1 := T1.runUp.append T1.main
  have R2 := T2.runUp.append T2.main
  have hl2 : up2.length = up1.length := T2.runUp.length_eq.trans T1.runUp.length_eq.symm
  have hu : up1.length = (pyRange (-(dRunUpBuild * hourly * 24)) 0).length := T1.runUp.length_eq
  have hm1 : k < mn1.length := by rw [T1.mn_length]; exact hk1
  have hm2 : k < mn2.length := by rw [T2.mn_length]; exact hk2
  have hm : mn1.length = (pyRange 0 (dMain * hourly * 24)).length := T1.main.length_eq
  have hc : Warming h hR c2 c2 := Warming.start _ (start_partitions hgr T1)
  have key := run_warming hw hr hrx hv T1.pre T2.pre hloc hAB hsb hp hc R1 R2 (up1.length + k)
    (by rw [List.length_append]; omega)
    (by rw [List.length_append]; omega) (by rw [List.length_append]; omega) (by
      intro l hl g1 g2 hle k' hk'
      have hsp := pyIndex_spec hk'
      by_cases h5 : l < up1.length
      · have hx : (pyRange (-(dRunUpBuild * hourly * 24)) 0 ++ pyRange 0 (dMain * hourly * 24))[l] = -(dRunUpBuild * hourly * 24) + l := by
          rw [List.getElem_append_left (by omega), pyRange_getElem]
        obtain ⟨d1, b1⟩ := run_at R1 l hl g1
        obtain ⟨d2, b2⟩ := run_at R2 l hl g2
        rw [pyRange_length] at hu
        have hn : -(dRunUpBuild * hourly * 24) + (l : ℤ) < 0 := by omega
        obtain ⟨hC, hd⟩ := hup _ (by omega : -(dRunUpBuild * hourly * 24) ≤ -(dRunUpBuild * hourly * 24) + l) hn
        rw [hx] at hsp
        have hd := hd k' (by rcases hsp with h | h <;> omega)
        intro i
        have q1 := quiet_row hw hC T1.pre b1 hk' (fun i => (hd i).1) i
        have q2 := quiet_row hw hC T2.pre b2 hk' (fun i => (hd i).2) i
        refine ⟨(q1.1.trans q2.1.symm).le, (q1.2.1.trans q2.2.1.symm).le, .inl (q1.2.2.trans q2.2.2.symm)⟩
      · obtain ⟨q, rfl⟩ : ∃ q, l = up1.length + q := ⟨l - up1.length, by omega⟩
        have hx : (pyRange (-(dRunUpBuild * hourly * 24)) 0 ++ pyRange 0 (dMain * hourly * 24))[up1.length + q] = q := by
          rw [List.getElem_append_right (by omega), pyRange_getElem]
          omega
        rw [hx] at hsp
        have hkq : (k' : ℕ) = q := by rcases hsp with h | h <;> omega
        have g3 : q < r1.nMain.toNat := by omega
        have g4 : q < r2.nMain.toNat := by omega
        have g5 : q < mn1.length := by omega
        have g6 : q < mn2.length := by omega
        have hN : q < N := hkq ▸ k'.2
        have := hs q g3 g4 hN (by omega)
        rw [T1.logged ⟨q, g3⟩ g5, T2.logged ⟨q, g4⟩ g6] at this
        have f1 : (up1 ++ mn1)[up1.length + q] = mn1[q] := by rw [List.getElem_append_right (by omega)]; simp
        have f2 : (up2 ++ mn2)[up1.length + q] = mn2[q] := by rw [List.getElem_append_right (by omega)]; simp [hl2]
        rw [f1, f2, show k' = ⟨q, hN⟩ from Fin.ext hkq]
        exact this)
  have e1 : (up1 ++ mn1)[up1.length + k]'(by rw [List.length_append]; omega) = mn1[k] := by
    rw [List.getElem_append_right (by omega)]; simp
  have e2 : (up2 ++ mn2)[up1.length + k]'(by rw [List.length_append]; omega) = mn2[k] := by
    rw [List.getElem_append_right (by omega)]; simp [hl2]
  rw [e1, e2] at key
  rw [T1.logged ⟨k, hk1⟩ hm1, T2.logged ⟨k, hk2⟩ hm2]
  exact key

/-- **C109 (partial), warmer surroundings of parts that store heat.** Take a tight house whose outer parts store heat and take it up evenly, without
air exchange between rooms, not too crowded, that is free-running up to row `k` (and, if it stands on the ground, the same outdoor air in both
calculations). Warmer outdoor air, more sun, more heat released indoors and warmer surroundings, behind the parts that store heat only if these
let warmth through, never make any temperature of row `k` lower. -/
theorem C109_behind_rows_partial (hw : WellFormed h hR (3600 / (hourly : ℝ))) (hr : RadiantWellFormed h) (hrx : Relaxing h hR)
    (hgr : ∀ j, h.isGround j = true → h.kEi j = none) (hga : (∃ j, h.isGround j = true) → ∀ k, (B k).thetaO = (A k).thetaO)
    (hv : ∀ i l, h.vInt i l = 0) (hC : h.cValue = 0) (hru : 0 ≤ dRunUpBuild * hourly * 24)
    (hloc : ∀ k i, 0 ≤ (A k).vLocal i) (hAB : ∀ k, Warmer (A k) (B k)) (hsb : ∀ k, WarmBehind h hR (A k) (B k))
    (hp : ∀ k, RoomForPeople h (3600 / (hourly : ℝ)) (A k))
    (H1 : coreCalc h hR A hourly dMain dRunUp dRunUpBuild = .ok r1) (H2 : coreCalc h hR B hourly dMain dRunUp dRunUpBuild = .ok r2)
    (k : ℕ) (hd1 : NoDemand (fun n => (A n).acDemand) (-(dRunUpBuild * hourly * 24)) k)
    (hd2 : NoDemand (fun n => (B n).acDemand) (-(dRunUpBuild * hourly * 24)) k)
    (hk1 : k < r1.nMain.toNat) (hk2 : k < r2.nMain.toNat) : RowBelow (r1.log ⟨k, hk1⟩) (r2.log ⟨k, hk2⟩) := by
  refine C138_behind_rows_partial hw hr hrx hgr hga hv hru hloc hAB hsb hp H1 H2
    (fun n g1 g2 => ⟨hC, fun k' hk' i => ⟨hd1 n g1 (by omega) k' (.inr ⟨g2, hk'⟩) i, hd2 n g1 (by omega) k' (.inr ⟨g2, hk'⟩) i⟩⟩) k ?_ hk1 hk2
  intro l g1 g2 hN hl i
  obtain ⟨k1, c1, t1, i1, e1, Hp1, Ht1, el1⟩ := logged_step H1 ⟨l, g1⟩
  obtain ⟨k2, c2, t2, i2, e2, Hp2, Ht2, el2⟩ := logged_step H2 ⟨l, g2⟩
  have q1 := quiet_row hw hC Hp1 Ht1 e1 (fun i => hd1 l (by omega) (by exact_mod_cast hl) k1
    (pyIndex_spec e1) i) i
  have q2 := quiet_row hw hC Hp2 Ht2 e2 (fun i => hd2 l (by omega) (by exact_mod_cast hl) k2
    (pyIndex_spec e2) i) i
  rw [el1, el2]
  exact ⟨(q1.1.trans q2.1.symm).le, (q1.2.1.trans q2.2.1.symm).le, .inl (q1.2.2.trans q2.2.2.symm)⟩

end

/-! ## A concrete case -/

/-- The floor slab of the example lets warmth through. -/
theorem exSlab_letsThrough : LetsWarmthThrough exSlab exHR 3 := by
  have s1 : ∀ k, ∑ l : Fin 12, exSlab.phiA1 3 l * exSlab.ratio 3 l ^ k = 0.02 * 0.5 ^ k := by
    intro k
    rw [Finset.sum_eq_single 0 (fun l _ hl => by simp [exSlab, hl]) (by simp)]
    simp [exSlab, exPanels, exHouse]
  have s2 : ∀ k, ∑ l : Fin 12, exSlab.phiT1 3 l * exSlab.ratio 3 l ^ k = 0.4 * 0.5 ^ k := by
    intro k
    rw [Finset.sum_eq_single 0 (fun l _ hl => by simp [exSlab, hl]) (by simp)]
    simp [exSlab, exPanels, exHouse]
  have p0 : pulse exSlab exHR 3 0 = 0.04 + 1 / (5 + 5.2) := rfl
  have ps : ∀ k, pulse exSlab exHR 3 (k + 1) = 0.02 * 0.5 ^ k := s1
  set P : ℝ := 0.04 + 1 / (5 + 5.2) with hP
  have hP0 : 0 < P := by rw [hP]; norm_num
  set ρ : ℝ := (0.5 * P - 0.02) / P with hρ
  have hρP : ρ * P = 0.5 * P - 0.02 := by rw [hρ]; field_simp
  have hρ0 : 0 ≤ ρ := by rw [hρ, hP]; norm_num
  have hρ1 : 0 ≤ 0.6 * ρ - 0.1 := by rw [hρ, hP]; norm_num
  let y : ℕ → ℝ := fun n => if n = 0 then 0.6 / P else ρ ^ (n - 1) * ((0.6 * ρ - 0.1) / P)
  have y0 : y 0 * P = 0.6 := by simp only [y, if_true]; field_simp
  have y1 : y 1 * P = 0.6 * ρ - 0.1 := by simp only [y, one_ne_zero, if_false, Nat.sub_self, pow_zero, one_mul]; field_simp
  have ys : ∀ n, y (n + 2) = ρ * y (n + 1) := by
    intro n
    simp only [y, Nat.add_eq_zero_iff, OfNat.ofNat_ne_zero, one_ne_zero, and_false, if_false]
    rw [show n + 2 - 1 = n + 1 by omega, show n + 1 - 1 = n by omega, pow_succ]
    ring
  have next : ∀ n, answer y (pulse exSlab exHR 3) (n + 1) = 0.5 * answer y (pulse exSlab exHR 3) n - (0.5 * P - 0.02) * y n + P * y (n + 1) := by
    intro n
    rw [answer_last y _ (n + 1), Finset.sum_range_succ, answer_last y _ n, p0, show n + 1 - n = 0 + 1 by omega, ps 0]
    have : ∑ i ∈ Finset.range n, y i * pulse exSlab exHR 3 (n + 1 - i) = 0.5 * ∑ i ∈ Finset.range n, y i * pulse exSlab exHR 3 (n - i) := by
      rw [Finset.mul_sum]
      refine Finset.sum_congr rfl fun i hi => ?_
      have hi := Finset.mem_range.1 hi
      rw [show n + 1 - i = (n - 1 - i) + 1 + 1 by omega, show n - i = (n - 1 - i) + 1 by omega, ps, ps, pow_succ]
      ring
    rw [this]
    ring
  refine ⟨y, fun n => ?_, fun n => ?_⟩
  · simp only [y]
    split_ifs
    · positivity
    · exact mul_nonneg (pow_nonneg hρ0 _) (div_nonneg hρ1 hP0.le)
  · show answer y (pulse exSlab exHR 3) n = passed exSlab 3 n
    have hT : passed exSlab 3 n = (if n = 0 then 0.2 else 0) + 0.4 * 0.5 ^ n := by
      unfold passed
      rw [s2]
      rfl
    rw [hT]
    induction n with
    | zero =>
      rw [answer_last, p0]
      simp only [Finset.range_zero, Finset.sum_empty, if_true, pow_zero]
      linarith
    | succ n ih =>
      rw [next n]
      cases n with
      | zero =>
        rw [answer_last, p0]
        simp only [Finset.range_zero, Finset.sum_empty, zero_add, one_ne_zero, if_false, pow_one]
        nlinarith [y0, y1, hρP]
      | succ n =>
        rw [ih (by unfold passed; rw [s2]; rfl), ys n, ← hρP]
        simp only [Nat.add_eq_zero_iff, one_ne_zero, and_false, if_false, pow_succ]
        ring

/-- The same day with everything around the house 3 K warmer, except for the air. -/
noncomputable def exWarmDay : Fin 96 → Record (Fin 2) (Fin 4) := fun k =>
  { exFreeDay k with thetaOSol := fun j => (exFreeDay k).thetaOSol j + 3 }

/-- The hypotheses of `C109_behind_rows_partial` are met by the house with the floor slab, with warmth behind the slab too. -/
theorem C109_behind_example : ∃ r1 r2, coreCalc exSlab exHR exFreeDay 4 1 1 0 = .ok r1 ∧ coreCalc exSlab exHR exWarmDay 4 1 1 0 = .ok r2 ∧
    r1.nMain.toNat = 96 ∧ r2.nMain.toNat = 96 ∧ KeepsPast exSlab 3 ∧
    ∀ (k : ℕ) (h1 : k < r1.nMain.toNat) (h2 : k < r2.nMain.toNat), RowBelow (r1.log ⟨k, h1⟩) (r2.log ⟨k, h2⟩) := by
  have e4 : (3600 / ((4 : ℤ) : ℝ)) = 900 := by norm_num
  have hw : WellFormed exSlab exHR (3600 / ((4 : ℤ) : ℝ)) := by rw [e4]; exact exSlab_wellFormed
  have hloc : ∀ k i, 0 ≤ (exFreeDay k).vLocal i := fun k i => by fin_cases i <;> norm_num [exFreeDay, exDay]
  have hloc' : ∀ k i, 0 ≤ (exWarmDay k).vLocal i := hloc
  obtain ⟨r1, H1⟩ := C21_program_partial (data := exFreeDay) (dMain := 1) (dRunUp := 1) (dRunUpBuild := 0) hw (fun _ => rfl) (fun _ => rfl)
    hloc (by norm_num) (by norm_num) le_rfl (by norm_num) (by norm_num) (by norm_num)
  obtain ⟨r2, H2⟩ := C21_program_partial (data := exWarmDay) (dMain := 1) (dRunUp := 1) (dRunUpBuild := 0) hw (fun _ => rfl) (fun _ => rfl)
    hloc' (by norm_num) (by norm_num) le_rfl (by norm_num) (by norm_num) (by norm_num)
  obtain ⟨_, _, _, _, T1⟩ := coreCalc_ok H1
  obtain ⟨_, _, _, _, T2⟩ := coreCalc_ok H2
  refine ⟨r1, r2, H1, H2, by rw [T1.nMain_eq]; rfl, by rw [T2.nMain_eq]; rfl, ⟨0, .inl (show (0.02 : ℝ) ≠ 0 by norm_num)⟩, fun k h1 h2 => ?_⟩
  refine C109_behind_rows_partial (A := exFreeDay) (B := exWarmDay) hw ⟨?_, ?_⟩ exSlab_relaxing (fun j _ => ?_) (fun _ _ => rfl) ?_ rfl
    (by norm_num) hloc ?_ (fun k j hS => ?_) ?_ H1 H2 k (fun _ _ _ _ _ _ => le_refl _) (fun _ _ _ _ _ _ => le_refl _) h1 h2
  · intro i; fin_cases i <;> norm_num [exSlab, exPanels, exHouse]
  · intro j; fin_cases j <;> norm_num [exSlab, exPanels, exHouse]
  · fin_cases j <;> simp_all [exSlab, exPanels, exHouse]
  · intro i l; fin_cases i <;> fin_cases l <;> simp [exSlab, exPanels]
  · intro k
    exact ⟨le_rfl, by intro j; simp [exWarmDay], fun _ => le_rfl, fun _ => le_rfl, rfl, rfl⟩
  · have hj : j = 3 := by
      obtain ⟨l, hl⟩ := hS
      fin_cases j <;> simp [exSlab] at hl ⊢
    subst hj
    exact .inl exSlab_letsThrough
  · intro k i
    rw [e4]
    fin_cases i <;> norm_num [exSlab, exPanels, exHouse, exFreeDay, exDay, airCap]

end HLC
