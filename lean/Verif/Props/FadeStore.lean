import Verif.Lemmas.Energy
import Verif.Lemmas.Frequency
import Verif.Props.Fade
import Mathlib.Analysis.SpecialFunctions.Pow.NNReal

/-!
# C110 for houses that store heat: the past fades away
-/

set_option linter.unusedSectionVars false

namespace HLC
open Spec

section
variable {I J : Type} [Fintype I] [DecidableEq I] [Fintype J] [DecidableEq J] {N : ℕ} {h : House I J} {hR : J → ℝ} {dt : ℝ}

/-- What the parts will hold of the past in the next step. -/
def pendA (h : House I J) (c c' : Cond I J) (j : J) (l : Fin 12) : ℝ :=
  h.phiA1 j l * (c'.qSrf j - c.qSrf j) + h.ratio j l * (c'.dshA j l - c.dshA j l)

def pendT (h : House I J) (c c' : Cond I J) (j : J) (l : Fin 12) : ℝ := h.ratio j l * (c'.dshT j l - c.dshT j l)

/-- Energy of the difference of two states. -/
noncomputable def stateEnergy (h : House I J) (dt : ℝ) (V : J → (Fin 12 → ℝ) → ℝ) (δ K : ℝ) (c c' : Cond I J) : ℝ :=
  energyOf h dt V δ K (fun i => c'.thetaR i - c.thetaR i) (fun i => c'.thetaFrt i - c.thetaFrt i) (pendA h c c') (pendT h c c')

theorem held_empty {ss : PreCalc I J N} {n : ℤ} {A : Fin N → Record I J} {c : Cond I J} {t : TickVars I J} (hpt : Partitions h hR)
    (Hp : makePreCalc h hR dt A = .ok ss) (H : runTick n dt ss c = .ok t) (hc : PartitionsEmpty h c) : PartitionsEmpty h t.next := by
  intro j hK l
  obtain ⟨ivs, k, hi, hs, hk, e⟩ := step_eqs Hp H
  obtain ⟨⟨m, coef⟩, hK'⟩ := Option.ne_none_iff_exists'.1 hK
  have hp := (hpt.steady j m coef hK').2 l
  show t.dshA j l = 0 ∧ t.dshT j l = 0
  rw [e.dshA, e.dshT, hs]
  simp [Tick.dshA, Tick.dshT, preCalcOf, hp.1, hp.2, (hc j hK l).1, (hc j hK l).2]

/-- The difference of two steps of a tight house without demand. -/
theorem step_gap {ss : PreCalc I J N} {n : ℤ} {k : Fin N} {A : Fin N → Record I J} {c c' : Cond I J} {t t' : TickVars I J} {w : I → ℝ}
    (hw : WellFormed h hR dt) (hpt : Partitions h hR) (hC : h.cValue = 0)
    (Hp : makePreCalc h hR dt A = .ok ss) (H : runTick n dt ss c = .ok t) (H' : runTick n dt ss c' = .ok t') (hk : pyIndex N n = .ok k)
    (hvent : ∀ i, w i + (∑ l, h.vInt i l + ∑ l, h.vInt l i) / 2 ≤ h.vVentEx i + (A k).vLocal i) (hp : RoomForPeople h dt (A k)) (hd : ∀ i, (A k).acDemand i ≤ 0)
    (hc : PartitionsEmpty h c) (hc' : PartitionsEmpty h c') :
    ∃ g : Gap h hR dt w, (∀ i, |g.old i| ≤ |c'.thetaR i - c.thetaR i|) ∧ (g.oldF = fun i => c'.thetaFrt i - c.thetaFrt i) ∧
      (g.d = fun i => t'.thetaR i - t.thetaR i) ∧ (g.f = fun i => t'.thetaFrt i - t.thetaFrt i) ∧ (g.s = fun j => t'.thetaS j - t.thetaS j) ∧
      (g.q = fun j => t'.qSrf j - t.qSrf j) ∧ g.x = pendA h c c' ∧ g.y = pendT h c c' ∧
      (pendA h c c' = fun j l => t'.dshA j l - t.dshA j l) ∧ (pendT h c c' = fun j l => t'.dshT j l - t.dshT j l) := by
  have hE := held_empty hpt Hp H hc
  have hE' := held_empty hpt Hp H' hc'
  have hcap : ∀ i, 0 ≤ h.capH i ∧ 0 ≤ h.capC i := fun i => ⟨hw.capH_nonneg i, hw.capC_nonneg i⟩
  obtain ⟨ivs, k1, hi1, hs1, hk1, e1⟩ := step_eqs Hp H
  obtain rfl : k1 = k := Except.ok.inj (hk1.symm.trans hk)
  obtain ⟨ivs', k2, hi2, hs2, hk2, e2⟩ := step_eqs Hp H'
  obtain rfl : k2 = k1 := Except.ok.inj (hk2.symm.trans hk)
  have e1' := e1
  have e2' := e2
  rw [hs1] at e1'
  rw [hs2] at e2'
  obtain ⟨l1, v1, o1⟩ := no_demand_tight hC hcap hd e1'
  obtain ⟨l2, v2, o2⟩ := no_demand_tight hC hcap hd e2'
  have hH : ∀ j, h.hC j + hR j ≠ 0 := fun j => (add_pos (hw.hC_pos j) (hw.hR_pos j)).ne'
  have hcapA : ∀ i, 0 < h.vRoom i * airCap := fun i => mul_pos (hw.vRoom_pos i) (by unfold airCap; norm_num)
  have hfrt : ∀ i, h.cSh i + dt * h.gSh i ≠ 0 := fun i => frt_ne hw.dt_pos (hw.cSh_nonneg i) (hw.gSh_nonneg i) (hw.frtSh_pos i)
  have xA : pendA h c c' = fun j l => t'.dshA j l - t.dshA j l := by
    funext j l
    rw [e1'.dshA, e2'.dshA]
    simp only [Tick.dshA, preCalcOf, pendA]
    ring
  have xT : pendT h c c' = fun j l => t'.dshT j l - t.dshT j l := by
    funext j l
    cases hK : h.kEi j with
    | none =>
      rw [e1'.dshT, e2'.dshT, e1'.thetaRear, e2'.thetaRear]
      simp only [Tick.dshT, Tick.thetaRear, preCalcOf, kEi_mulVec, hK, pendT]
      ring
    | some mc =>
      have hne : h.kEi j ≠ none := by rw [hK]; simp
      have a := (hE j hne l).2
      have b := (hE' j hne l).2
      simp only [TickVars.next] at a b
      rw [a, b]
      simp [pendT, (hc j hne l).2, (hc' j hne l).2]
  refine ⟨{
    old := fun i => c'.thetaR i - c.thetaR i + (t'.qHum i - t.qHum i) * dt / (h.vRoom i * airCap)
    oldF := fun i => c'.thetaFrt i - c.thetaFrt i
    d := fun i => t'.thetaR i - t.thetaR i
    f := fun i => t'.thetaFrt i - t.thetaFrt i
    v := t.vOut
    s := fun j => t'.thetaS j - t.thetaS j
    q := fun j => t'.qSrf j - t.qSrf j
    x := pendA h c c'
    y := pendT h c c'
    room := ?_
    furniture := ?_
    flux := ?_
    wall := ?_
    vent := ?_
    empty := ?_ }, ?_, rfl, rfl, rfl, rfl, rfl, rfl, rfl, xA, xT⟩
  · intro i
    have b1 := C14_balance_as_coded Hp H hk i (hfrt i)
    have b2 := C14_balance_as_coded Hp H' hk i (hfrt i)
    simp only [mul_zero, l1, l2, add_zero] at b1 b2
    rw [v2, ← v1] at b2
    have hcv : convection h i (t'.thetaR i - t.thetaR i) (fun j => t'.thetaS j - t.thetaS j)
        = convection h i (t'.thetaR i) t'.thetaS - convection h i (t.thetaR i) t.thetaS := by
      unfold convection
      rw [← Finset.sum_sub_distrib]
      exact Finset.sum_congr rfl fun j _ => by ring
    have h1 : h.vRoom i * airCap * ((t'.qHum i - t.qHum i) * dt / (h.vRoom i * airCap)) / dt = t'.qHum i - t.qHum i := by
      rw [mul_div_cancel₀ _ (hcapA i).ne', mul_div_cancel_right₀ _ hw.dt_pos.ne']
    have h2 : h.vRoom i * airCap * (t'.thetaR i - t.thetaR i
          - (c'.thetaR i - c.thetaR i + (t'.qHum i - t.qHum i) * dt / (h.vRoom i * airCap))) / dt
        = h.vRoom i * airCap * (t'.thetaR i - c'.thetaR i) / dt - h.vRoom i * airCap * (t.thetaR i - c.thetaR i) / dt
          - (t'.qHum i - t.qHum i) := by
      linear_combination -h1
    have h3 : ∑ l, h.vInt i l * (t'.thetaR l - t.thetaR l) = ∑ l, h.vInt i l * t'.thetaR l - ∑ l, h.vInt i l * t.thetaR l := by
      rw [← Finset.sum_sub_distrib]
      exact Finset.sum_congr rfl fun l _ => by ring
    rw [h2, hcv, h3]
    linear_combination b2 - b1
  · intro i
    have b1 := C15_furniture_heat Hp H hk i (hfrt i)
    have b2 := C15_furniture_heat Hp H' hk i (hfrt i)
    show h.cSh i * (t'.thetaFrt i - t.thetaFrt i - (c'.thetaFrt i - c.thetaFrt i)) = _
    linear_combination b2 - b1
  · intro j
    have b1 := C16_surface_flux Hp H hk j (hH j)
    have b2 := C16_surface_flux Hp H' hk j (hH j)
    simp only [l1, l2, mul_zero, zero_div, add_zero] at b1 b2
    simp only [roomMrt_sub]
    linear_combination b2 - b1
  · intro j
    have hm : ∀ m coef, h.kEi j = some (m, coef) → h.hC m = h.hC j ∧ hR m = hR j ∧ h.area m = h.area j := hpt.films j
    have b1 := C17_wall_equation_partial Hp H hk j (hH j) hm
    have b2 := C17_wall_equation_partial Hp H' hk j (hH j) hm
    have hs : ∑ l, (pendT h c c' j l + pendA h c c' j l) = ∑ l, (t'.dshT j l + t'.dshA j l) - ∑ l, (t.dshT j l + t.dshA j l) := by
      rw [← Finset.sum_sub_distrib, xA, xT]
      exact Finset.sum_congr rfl fun l _ => by ring
    rw [hs]
    unfold rearTemp at b1 b2
    cases hK : h.kEi j with
    | none =>
      rw [hK] at b1 b2
      simp only [] at b1 b2 ⊢
      linear_combination b2 - b1
    | some mc =>
      obtain ⟨m, coef⟩ := mc
      have hc1 := (hpt.side j m coef hK).1
      have ht := (hpt.steady j m coef hK).1
      rw [hK] at b1 b2
      simp only [] at b1 b2 ⊢
      rw [ht, hc1] at b1 b2
      have q1 : t.thetaEi m = t.thetaS m + t.qSrf m / (h.hC m + hR m) := by
        rw [e1'.qSrf]; simp only [Tick.qSrf, preCalcOf]; rw [mul_div_cancel_right₀ _ (hH m)]; ring
      have q2 : t'.thetaEi m = t'.thetaS m + t'.qSrf m / (h.hC m + hR m) := by
        rw [e2'.qSrf]; simp only [Tick.qSrf, preCalcOf]; rw [mul_div_cancel_right₀ _ (hH m)]; ring
      rw [q1] at b1
      rw [q2] at b2
      rw [sub_div]
      linear_combination b2 - b1
  · intro i
    rw [v1]
    exact hvent i
  · intro j hK l
    have a := hE j hK l
    have b := hE' j hK l
    simp only [TickVars.next] at a b
    rw [xA, xT]
    simp [a, b]
  · intro i
    have q1 : t.qHum i = qHumPsn (c.thetaR i) * (A k2).nHum i := by rw [e1'.qHum]; rfl
    have q2 : t'.qHum i = qHumPsn (c'.thetaR i) * (A k2).nHum i := by rw [e2'.qHum]; rfl
    simp only [q1, q2]
    exact people_damp (hcapA i) hw.dt_pos (hp i).1 (hp i).2

theorem energyOf_mono (hw : WellFormed h hR dt) {V : J → (Fin 12 → ℝ) → ℝ} {δ K : ℝ} {d d' f : I → ℝ} {x y : J → Fin 12 → ℝ} (hd : ∀ i, |d i| ≤ |d' i|) :
    energyOf h dt V δ K d f x y ≤ energyOf h dt V δ K d' f x y := by
  have hdt := hw.dt_pos
  have hcap : (0 : ℝ) < airCap := by unfold airCap; norm_num
  unfold energyOf stored
  refine add_le_add (add_le_add (add_le_add (Finset.sum_le_sum fun i _ => ?_) le_rfl) le_rfl) le_rfl
  have c1 : 0 ≤ h.vRoom i * airCap / dt := by have := hw.vRoom_pos i; positivity
  have := mul_le_mul_of_nonneg_left (sq_le_sq.2 (hd i)) c1
  linarith

/-- What is known about the rows of two histories: the squares of the differences of the temperatures. -/
structure SquareNear (E : ℝ) (t t' : TickVars I J) : Prop where
  rooms : ∀ i, (t'.thetaR i - t.thetaR i) ^ 2 ≤ E
  furniture : ∀ i, (t'.thetaFrt i - t.thetaFrt i) ^ 2 ≤ E
  surfaces : ∀ j, (t'.thetaS j - t.thetaS j) ^ 2 ≤ E

theorem run_energy {w : I → ℝ} {V : J → (Fin 12 → ℝ) → ℝ} {δ K ρ L : ℝ} (hw : WellFormed h hR dt) (hpt : Partitions h hR) (hC : h.cValue = 0)
    (hρ : 0 ≤ ρ) (hL : 0 ≤ L)
    (HG : ∀ g : Gap h hR dt w,
      energyOf h dt V δ K g.d g.f g.next (fun j l => h.ratio j l * g.y j l) ≤ ρ * energyOf h dt V δ K g.old g.oldF g.x g.y ∧
      (∀ i, g.d i ^ 2 ≤ L * energyOf h dt V δ K g.old g.oldF g.x g.y) ∧ (∀ i, g.f i ^ 2 ≤ L * energyOf h dt V δ K g.old g.oldF g.x g.y) ∧
      (∀ j, g.s j ^ 2 ≤ L * energyOf h dt V δ K g.old g.oldF g.x g.y))
    {ss : PreCalc I J N} {A : Fin N → Record I J} (Hp : makePreCalc h hR dt A = .ok ss)
    (hvent : ∀ k i, w i + (∑ l, h.vInt i l + ∑ l, h.vInt l i) / 2 ≤ h.vVentEx i + (A k).vLocal i) (hp : ∀ k, RoomForPeople h dt (A k)) {c c' : Cond I J} {ns : List ℤ}
    {ts ts' : List (TickVars I J)} (hc : PartitionsEmpty h c) (hc' : PartitionsEmpty h c') {E : ℝ} (hE : stateEnergy h dt V δ K c c' ≤ E)
    (H : Run ss dt c ns ts) (H' : Run ss dt c' ns ts') :
    ∀ (j : ℕ) (_ : j < ns.length) (h1 : j < ts.length) (h2 : j < ts'.length),
      (∀ (l : ℕ) (hl : l < ns.length), l ≤ j → ∀ k : Fin N, pyIndex N ns[l] = .ok k → ∀ i, (A k).acDemand i ≤ 0) →
      SquareNear (L * (ρ ^ j * E)) ts[j] ts'[j] := by
  induction H generalizing c' ts' E with
  | nil => intro j hj; simp at hj
  | cons a1 a2 ih =>
    rename_i c n ns t ts
    cases H' with
    | cons b1 b2 =>
      rename_i t' ts'
      intro j hj h1 h2 hd
      obtain ⟨k, hk⟩ := runTick_index a1
      obtain ⟨g, g1, g2, g3, g4, g5, g6, g7, g8, g9, g10⟩ := step_gap hw hpt hC Hp a1 b1 hk (hvent k) (hp k)
        (hd 0 (by simp) (by omega) k hk) hc hc'
      have G := HG g
      have hm := energyOf_mono (V := V) (δ := δ) (K := K) (f := g.oldF) (x := g.x) (y := g.y) hw g1
      have hs : energyOf h dt V δ K (fun i => c'.thetaR i - c.thetaR i) g.oldF g.x g.y ≤ E := by rw [g2, g7, g8]; exact hE
      have hm := hm.trans hs
      cases j with
      | zero =>
        simp only [pow_zero, one_mul, List.getElem_cons_zero]
        have hm := mul_le_mul_of_nonneg_left hm hL
        exact ⟨fun i => by have := G.2.1 i; rw [g3] at this; exact this.trans hm, fun i => by have := G.2.2.1 i; rw [g4] at this; exact this.trans hm,
          fun i => by have := G.2.2.2 i; rw [g5] at this; exact this.trans hm⟩
      | succ j =>
        have hn : stateEnergy h dt V δ K t.next t'.next ≤ ρ * E := by
          have h3 := G.1
          have e1 : g.next = pendA h t.next t'.next := by
            funext j l
            unfold Gap.next pendA
            rw [g6, g7, g9]
            rfl
          have e2 : (fun j l => h.ratio j l * g.y j l) = pendT h t.next t'.next := by
            funext j l
            unfold pendT
            rw [g8, g10]
            rfl
          rw [e1, e2, g3, g4] at h3
          exact h3.trans (mul_le_mul_of_nonneg_left hm hρ)
        have := ih (held_empty hpt Hp a1 hc) (held_empty hpt Hp b1 hc') hn b2 j (by simpa using hj) (by simpa using h1) (by simpa using h2)
          fun l hl hlj => hd (l + 1) (by simpa using hl) (by omega)
        rw [← mul_assoc (ρ ^ j), ← pow_succ] at this
        exact this

theorem Spec.Run.mem_step {ss : PreCalc I J N} {c : Cond I J} {ns : List ℤ} {ts : List (TickVars I J)} (H : Run ss dt c ns ts)
    {t : TickVars I J} (ht : t ∈ ts) : ∃ n c, runTick n dt ss c = .ok t := by
  induction H with
  | nil => simp at ht
  | cons a _ ih =>
    rcases List.mem_cons.1 ht with rfl | h
    · exact ⟨_, _, a⟩
    · exact ih h

theorem state_bound (hw : WellFormed h hR dt) {V : J → (Fin 12 → ℝ) → ℝ} {e κ δ K : ℝ} (hV : Stores h hR V e κ) (hδ : 0 ≤ δ) (hK : 0 ≤ K) :
    ∃ B, 0 ≤ B ∧ ∀ (M : ℝ) (c c' : Cond I J), StateNear M c c' → stateEnergy h dt V δ K c c' ≤ B * M ^ 2 := by
  have hdt := hw.dt_pos
  have hcap : (0 : ℝ) < airCap := by unfold airCap; norm_num
  let S := {p : ℝ × Cond I J × Cond I J // StateNear p.1 p.2.1 p.2.2}
  have sq : ∀ {M z : ℝ}, |z| ≤ M → z ^ 2 ≤ 1 * M ^ 2 := fun {M z} hz => by
    rw [one_mul]
    exact sq_le_sq.2 (hz.trans (le_abs_self M))
  have b1 : ∀ i, Bounded (fun p : S => p.1.1 ^ 2) fun p => (p.1.2.2.thetaR i - p.1.2.1.thetaR i) ^ 2 := fun i =>
    ⟨1, zero_le_one, fun p => sq (p.2.rooms i)⟩
  have b2 : ∀ i, Bounded (fun p : S => p.1.1 ^ 2) fun p => (p.1.2.2.thetaFrt i - p.1.2.1.thetaFrt i) ^ 2 := fun i =>
    ⟨1, zero_le_one, fun p => sq (p.2.furniture i)⟩
  have b3 : ∀ j, Bounded (fun p : S => p.1.1 ^ 2) fun p => (p.1.2.2.qSrf j - p.1.2.1.qSrf j) ^ 2 := fun j =>
    ⟨1, zero_le_one, fun p => sq (p.2.flows j)⟩
  have b4 : ∀ j l, Bounded (fun p : S => p.1.1 ^ 2) fun p => (p.1.2.2.dshA j l - p.1.2.1.dshA j l) ^ 2 := fun j l =>
    ⟨1, zero_le_one, fun p => sq (p.2.heldA j l)⟩
  have b5 : ∀ j l, Bounded (fun p : S => p.1.1 ^ 2) fun p => (p.1.2.2.dshT j l - p.1.2.1.dshT j l) ^ 2 := fun j l =>
    ⟨1, zero_le_one, fun p => sq (p.2.heldT j l)⟩
  have b6 : ∀ j l, Bounded (fun p : S => p.1.1 ^ 2) fun p => pendA h p.1.2.1 p.1.2.2 j l ^ 2 := fun j l =>
    ((b3 j).sq_smul _).sq_add ((b4 j l).sq_smul _)
  have b7 : ∀ j l, Bounded (fun p : S => p.1.1 ^ 2) fun p => pendT h p.1.2.1 p.1.2.2 j l ^ 2 := fun j l => (b5 j l).sq_smul _
  obtain ⟨B, hB, H⟩ : Bounded (fun p : S => p.1.1 ^ 2) fun p => stateEnergy h dt V δ K p.1.2.1 p.1.2.2 := by
    unfold stateEnergy energyOf stored Gap.heldSq
    refine Bounded.add (Bounded.add (Bounded.add (Bounded.sum _ fun i _ => ?_) (Bounded.sum _ fun j _ => ?_))
      (Bounded.smul hδ (Bounded.sum _ fun j _ => Bounded.sum _ fun l _ => b6 j l)))
      (Bounded.smul hK (Bounded.sum _ fun j _ => Bounded.sum _ fun l _ => b7 j l))
    · have c1 : 0 ≤ h.vRoom i * airCap / dt := by have := hw.vRoom_pos i; positivity
      have c2 : 0 ≤ h.cSh i / dt := div_nonneg (hw.cSh_nonneg i) hdt.le
      exact ((((b1 i).smul c1).add ((b2 i).smul c2)).smul (one_half_pos.le)).mono fun p => by linarith
    · refine Bounded.smul (hw.area_pos j).le ?_
      exact ((Bounded.sum Finset.univ fun l _ => b6 j l).smul hV.κ_nonneg).mono fun p => hV.le j _
  exact ⟨B, hB, fun M c c' hn => H ⟨(M, c, c'), hn⟩⟩

/-- Rows whose temperatures of rooms, furniture and surfaces agree also agree in the means. -/
theorem near_row (hw : WellFormed h hR dt) {ss : PreCalc I J N} {A : Fin N → Record I J} (Hp : makePreCalc h hR dt A = .ok ss) {n1 n2 : ℤ}
    {c1 c2 : Cond I J} {t t' : TickVars I J} (H1 : runTick n1 dt ss c1 = .ok t) (H2 : runTick n2 dt ss c2 = .ok t') {X : ℝ} (hX : 0 ≤ X)
    (r1 : ∀ i, |t'.thetaR i - t.thetaR i| ≤ X) (r2 : ∀ i, |t'.thetaFrt i - t.thetaFrt i| ≤ X) (r3 : ∀ j, |t'.thetaS j - t.thetaS j| ≤ X) :
    RowNear X (LogRow.ofTick t) (LogRow.ofTick t') := by
  obtain ⟨ivs, k1, hi1, hs1, hk1, e1⟩ := step_eqs Hp H1
  obtain ⟨ivs', k2, hi2, hs2, hk2, e2⟩ := step_eqs Hp H2
  have mean : ∀ i, |∑ j ∈ surfaces h i, h.fMrtHum j * t'.thetaS j - ∑ j ∈ surfaces h i, h.fMrtHum j * t.thetaS j| ≤ X := by
    intro i
    rw [← Finset.sum_sub_distrib]
    calc |∑ j ∈ surfaces h i, (h.fMrtHum j * t'.thetaS j - h.fMrtHum j * t.thetaS j)|
        ≤ ∑ j ∈ surfaces h i, |h.fMrtHum j * t'.thetaS j - h.fMrtHum j * t.thetaS j| := Finset.abs_sum_le_sum_abs _ _
      _ ≤ ∑ j ∈ surfaces h i, h.fMrtHum j * X := Finset.sum_le_sum fun j _ => by
          rw [← mul_sub, abs_mul, abs_of_nonneg (hw.fMrtHum_nonneg j)]
          exact mul_le_mul_of_nonneg_left (r3 j) (hw.fMrtHum_nonneg j)
      _ ≤ X := by rw [← Finset.sum_mul]; exact mul_le_of_le_one_left hX (hw.fMrtHum_sum i)
  have m1 : ∀ i, t.thetaMrt i = ∑ j ∈ surfaces h i, h.fMrtHum j * t.thetaS j := fun i => by
    rw [e1.thetaMrt, hs1]; exact fMrtHum_mulVec h _ i
  have m2 : ∀ i, t'.thetaMrt i = ∑ j ∈ surfaces h i, h.fMrtHum j * t'.thetaS j := fun i => by
    rw [e2.thetaMrt, hs2]; exact fMrtHum_mulVec h _ i
  refine ⟨r1, r2, r3, fun i => ?_, fun i => ?_⟩
  · show |t'.thetaMrt i - t.thetaMrt i| ≤ _
    rw [m1, m2]
    exact mean i
  · show |t'.thetaOt i - t.thetaOt i| ≤ _
    have hc0 : (0 : ℝ) < hHumC := by unfold hHumC; norm_num
    have hr0 := hHumR_pos
    rw [C13_operative_temperature Hp H1 i, C13_operative_temperature Hp H2 i, ← sub_div, abs_div, abs_of_pos (a := hHumC + hHumR) (by linarith),
      div_le_iff₀ (by linarith)]
    have a1 := r1 i
    have a2 := mean i
    generalize (∑ j ∈ surfaces h i, h.fMrtHum j * t.thetaS j) = x at *
    generalize (∑ j ∈ surfaces h i, h.fMrtHum j * t'.thetaS j) = y at *
    rw [abs_le] at a1 a2 ⊢
    constructor <;> nlinarith

/-- **C110 (partial), houses that store heat, any start.** One constant and one rate for the house: under any data (the same for both), any two
histories from states that agree up to `M` agree up to `C σ ^ j M` after `j + 1` steps. The house is tight and free-running; its outer parts may store
heat, its partitions do not; the rooms exchange at most twice the air that they get from outdoors.
Missing: leakage, more air between rooms, partitions that store heat, rooms with demand. -/
theorem C110_storing_runs_partial {w : I → ℝ} (hw : WellFormed h hR dt) (hP : Passive h hR) (hpt : Partitions h hR)
    (hC : h.cValue = 0) (hw0 : ∀ i, 0 ≤ w i) (hg : ∀ i, 0 < h.gSh i) (hl : LosesHeat h w) :
    ∃ C σ : ℝ, 0 ≤ C ∧ 0 ≤ σ ∧ σ < 1 ∧ ∀ {N : ℕ} {ss : PreCalc I J N} {A : Fin N → Record I J} (_ : makePreCalc h hR dt A = .ok ss)
      (_ : ∀ k i, w i + (∑ l, h.vInt i l + ∑ l, h.vInt l i) / 2 ≤ h.vVentEx i + (A k).vLocal i) (_ : ∀ k, RoomForPeople h dt (A k)) {c c' : Cond I J} (_ : PartitionsEmpty h c)
      (_ : PartitionsEmpty h c') {M : ℝ} (_ : 0 ≤ M) (_ : StateNear M c c') {ns : List ℤ} {ts ts' : List (TickVars I J)} (_ : Run ss dt c ns ts)
      (_ : Run ss dt c' ns ts') (j : ℕ) (_ : j < ns.length) (h1 : j < ts.length) (h2 : j < ts'.length)
      (_ : ∀ (l : ℕ) (hl : l < ns.length), l ≤ j → ∀ k : Fin N, pyIndex N ns[l] = .ok k → ∀ i, (A k).acDemand i ≤ 0),
      RowNear (C * σ ^ j * M) (LogRow.ofTick ts[j]) (LogRow.ofTick ts'[j]) := by
  obtain ⟨V, e, κ, δ, K, ρ, L, hV, hδ, hK, hρ0, hρ1, hL, HG⟩ := energy_contracts hw hP hpt hw0 hg hl
  obtain ⟨B, hB, HB⟩ := state_bound hw hV hδ hK
  refine ⟨√(L * B), √ρ, Real.sqrt_nonneg _, Real.sqrt_nonneg _, by rw [Real.sqrt_lt' one_pos]; simpa using hρ1, ?_⟩
  intro N ss A Hp hvent hp c c' hc hc' M hM hn ns ts ts' H H' j hj h1 h2 hd
  have S := run_energy hw hpt hC hρ0 hL HG Hp hvent hp hc hc' (HB M c c' hn) H H' j hj h1 h2 hd
  have r : ∀ {z : ℝ}, z ^ 2 ≤ L * (ρ ^ j * (B * M ^ 2)) → |z| ≤ √(L * B) * √ρ ^ j * M := by
    intro z hz
    refine abs_le_of_sq_le_sq ?_ (by positivity)
    refine hz.trans (le_of_eq ?_)
    rw [mul_pow, mul_pow, Real.sq_sqrt (by positivity), ← pow_mul, mul_comm j 2, pow_mul, Real.sq_sqrt hρ0]
    ring
  have r1 := fun i => r (S.rooms i)
  have r2 := fun i => r (S.furniture i)
  have r3 := fun j => r (S.surfaces j)
  obtain ⟨n1, c1, H1⟩ := H.mem_step (List.getElem_mem h1)
  obtain ⟨n2, c2, H2⟩ := H'.mem_step (List.getElem_mem h2)
  exact near_row hw Hp H1 H2 (by positivity) r1 r2 r3

end

section
variable {I : Type} [Fintype I] [DecidableEq I] {m : ℕ} {h : House I (Fin m)} {hR : Fin m → ℝ}

theorem maskAssign_off {α : Type} {mask : Fin m → Bool} {old new : Fin m → α} {vals : List α} (H : maskAssign mask old vals = .ok new) {j : Fin m}
    (hj : mask j = false) : new j = old j := by
  by_cases hl : vals.length = ((List.finRange m).filter mask).length
  · obtain ⟨new', h1, -, h3⟩ := maskAssign_exact mask old vals (hl.trans (filter_finRange_length mask))
    obtain rfl : new' = new := Except.ok.inj (h1.symm.trans H)
    exact h3 j hj
  · unfold maskAssign at H
    simp only [if_neg hl] at H
    split at H
    · rw [← Except.ok.inj H]
      simp only [hj, Bool.false_eq_true, if_false]
    · cases H

/-- The calculation starts with empty partitions. -/
theorem start_partitions {N : ℕ} {r : CalcResult I m N} {A : Fin N → Record I (Fin m)} {hourly dMain dRunUp dRunUpBuild : ℤ}
    {gs : List (List GroundCell)} {c0 : Cond I (Fin m)} {up mn : List (TickVars I (Fin m))}
    (hgr : ∀ j, h.isGround j = true → h.kEi j = none) (T : CalcTrace h hR A hourly dMain dRunUp dRunUpBuild r gs c0 up mn) : PartitionsEmpty h c0 := by
  intro j hj l
  have hs := T.start
  obtain ⟨ivs, -, hss⟩ := makePreCalc_ok T.pre
  have hg : r.ss.isGround j = false := by
    rw [hss]
    show h.isGround j = false
    cases hb : h.isGround j with
    | false => rfl
    | true => exact absurd (hgr j hb) hj
  unfold updateByGround at hs
  simp only [bind, Except.bind] at hs
  split at hs
  · cases hs
  rename_i a ha
  split at hs
  · cases hs
  rename_i q hq
  cases hs
  refine ⟨?_, rfl⟩
  show a j l = 0
  rw [maskAssign_off ha hg]
  rfl

/-- **C110 (partial), houses that store heat.** One constant and one rate for the house: whatever the data, the rows of two calculations with run-ups
of different lengths (of the building and of the ground) agree up to `C σ ^ (steps since the shorter one began)` times the difference of the
states at that moment (bounded by the difference of the start from all states of the longer one). -/
theorem C110_storing_rows_partial {hourly : ℤ} {w : I → ℝ} (hw : WellFormed h hR (3600 / (hourly : ℝ))) (hP : Passive h hR) (hpt : Partitions h hR)
    (hgr : ∀ j, h.isGround j = true → h.kEi j = none) (hC : h.cValue = 0) (hw0 : ∀ i, 0 ≤ w i)
    (hg : ∀ i, 0 < h.gSh i) (hl : LosesHeat h w) :
    ∃ C σ : ℝ, 0 ≤ C ∧ 0 ≤ σ ∧ σ < 1 ∧ ∀ {N : ℕ} {A : Fin N → Record I (Fin m)} {dMain dRunUp1 dRunUp2 d1 d2 : ℤ} {r1 r2 : CalcResult I m N} {D : ℝ}
      (_ : ∀ k i, w i + (∑ l, h.vInt i l + ∑ l, h.vInt l i) / 2 ≤ h.vVentEx i + (A k).vLocal i) (_ : ∀ k, RoomForPeople h (3600 / (hourly : ℝ)) (A k)) (_ : 0 ≤ d1 * hourly * 24)
      (_ : d1 * hourly * 24 ≤ d2 * hourly * 24) (_ : coreCalc h hR A hourly dMain dRunUp1 d1 = .ok r1)
      (_ : coreCalc h hR A hourly dMain dRunUp2 d2 = .ok r2) (_ : 0 ≤ D)
      (_ : ∀ c c', updateByGround r1.ss.isGround (initialConditions I (Fin m)) r1.ground = .ok c → StateOf r2 hourly dMain d2 c' → StateNear D c c')
      (k : ℕ) (_ : NoDemand (fun n => (A n).acDemand) (-(d1 * hourly * 24)) k) (hk1 : k < r1.nMain.toNat) (hk2 : k < r2.nMain.toNat),
      RowNear (C * σ ^ ((d1 * hourly * 24).toNat + k) * D) (r1.log ⟨k, hk1⟩) (r2.log ⟨k, hk2⟩) := by
  obtain ⟨C, σ, hC0, hσ0, hσ1, HR⟩ := C110_storing_runs_partial hw hP hpt hC hw0 hg hl
  refine ⟨C, σ, hC0, hσ0, hσ1, ?_⟩
  intro N A dMain dRunUp1 dRunUp2 d1 d2 r1 r2 D hvent hp h0 h12 H1 H2 hD hnear k hd hk1 hk2
  obtain ⟨gs1, c1, up1, mn1, T1⟩ := coreCalc_ok H1
  obtain ⟨gs2, c2, up2, mn2, T2⟩ := coreCalc_ok H2
  have hss : r2.ss = r1.ss := Except.ok.inj (T2.pre.symm.trans T1.pre)
  have hM0 : 0 ≤ dMain * hourly * 24 := by rw [← T1.nMain_eq]; exact T1.nMain_nonneg
  have R1 := T1.runUp.append T1.main
  have R2 := T2.runUp.append T2.main
  have hall : ∀ t ∈ up2 ++ mn2, StepOf r2 hourly dMain d2 t := fun t ht => ⟨_, _, T2.start, R2, ht⟩
  rw [pyRange_append (by omega) hM0] at R1 R2
  rw [← pyRange_append (b := -(d1 * hourly * 24)) (by omega) (by omega)] at R2
  obtain ⟨pre, rest, e, Rp, Rr⟩ := R2.split
  -- the state where the shorter calculation starts
  have hinv : PartitionsEmpty h (after c2 pre) ∧ StateOf r2 hourly dMain d2 (after c2 pre) := by
    refine (Rp.invariant (P := fun c => PartitionsEmpty h c ∧ StateOf r2 hourly dMain d2 c) (Q := fun _ t => t ∈ pre)
      ⟨start_partitions hgr T2, Or.inl T2.start⟩ ?_ ?_).1
    · intro n _ c t hc ht hq
      exact ⟨held_empty hpt T2.pre ht hc.1, Or.inr ⟨t, hall t (by rw [e]; simp [hq]), rfl⟩⟩
    · intro p hp
      exact (List.of_mem_zip hp).2
  have lp : pre.length = (d2 * hourly * 24 - d1 * hourly * 24).toNat := by rw [Rp.length_eq, pyRange_length]; congr 1; ring
  have lr : rest.length = (dMain * hourly * 24 + d1 * hourly * 24).toNat := by rw [Rr.length_eq, pyRange_length]; congr 1; ring
  have l1 : up1.length = (d1 * hourly * 24).toNat := by rw [T1.runUp.length_eq, pyRange_length]; congr 1; ring
  have l2 : up2.length = (d2 * hourly * 24).toNat := by rw [T2.runUp.length_eq, pyRange_length]; congr 1; ring
  have hm1 : k < mn1.length := by rw [T1.mn_length]; exact hk1
  have hm2 : k < mn2.length := by rw [T2.mn_length]; exact hk2
  have lm1 : mn1.length = (dMain * hourly * 24).toNat := by rw [T1.main.length_eq, pyRange_length]; congr 1; ring
  rw [hss] at Rr
  have key := HR T1.pre hvent hp (start_partitions hgr T1) hinv.1 hD (hnear _ _ T1.start hinv.2) R1 Rr (up1.length + k)
    (by rw [pyRange_length]; omega) (by rw [List.length_append]; omega) (by omega) (by
      intro l hl hle k' hk' i
      have hsp := pyIndex_spec hk'
      rw [pyRange_getElem] at hsp
      exact hd _ (by omega) (by omega) k' hsp i)
  have e1 : (up1 ++ mn1)[up1.length + k]'(by rw [List.length_append]; omega) = mn1[k] := by
    rw [List.getElem_append_right (by omega)]; simp
  have e2 : rest[up1.length + k]'(by omega) = mn2[k] := by
    have h3 : (up2 ++ mn2)[up2.length + k]? = some mn2[k] := by
      rw [List.getElem?_append_right (by omega)]; simp [List.getElem?_eq_getElem hm2]
    rw [e, List.getElem?_append_right (by omega), show up2.length + k - pre.length = up1.length + k by omega,
      List.getElem?_eq_getElem (by omega)] at h3
    exact Option.some.inj h3
  rw [e1, e2] at key
  rw [T1.logged ⟨k, hk1⟩ hm1, T2.logged ⟨k, hk2⟩ hm2, ← l1]
  exact key

end

/-! ## Concrete cases -/

section
variable {I J : Type} [Fintype I] [DecidableEq I] [Fintype J] [DecidableEq J]

theorem near_exists (c c' : Cond I J) : ∃ D, 0 ≤ D ∧ StateNear D c c' := by
  have n1 : 0 ≤ ∑ i, |c'.thetaR i - c.thetaR i| := Finset.sum_nonneg fun _ _ => abs_nonneg _
  have n2 : 0 ≤ ∑ i, |c'.thetaFrt i - c.thetaFrt i| := Finset.sum_nonneg fun _ _ => abs_nonneg _
  have n3 : 0 ≤ ∑ j, |c'.qSrf j - c.qSrf j| := Finset.sum_nonneg fun _ _ => abs_nonneg _
  have n4 : 0 ≤ ∑ j, ∑ l, |c'.dshA j l - c.dshA j l| := Finset.sum_nonneg fun _ _ => Finset.sum_nonneg fun _ _ => abs_nonneg _
  have n5 : 0 ≤ ∑ j, ∑ l, |c'.dshT j l - c.dshT j l| := Finset.sum_nonneg fun _ _ => Finset.sum_nonneg fun _ _ => abs_nonneg _
  refine ⟨∑ i, |c'.thetaR i - c.thetaR i| + ∑ i, |c'.thetaFrt i - c.thetaFrt i| + ∑ j, |c'.qSrf j - c.qSrf j|
    + ∑ j, ∑ l, |c'.dshA j l - c.dshA j l| + ∑ j, ∑ l, |c'.dshT j l - c.dshT j l|, by positivity, fun i => ?_, fun i => ?_, fun j => ?_, fun j l => ?_,
    fun j l => ?_⟩
  · have := Finset.single_le_sum (f := fun i => |c'.thetaR i - c.thetaR i|) (fun _ _ => abs_nonneg _) (Finset.mem_univ i); linarith
  · have := Finset.single_le_sum (f := fun i => |c'.thetaFrt i - c.thetaFrt i|) (fun _ _ => abs_nonneg _) (Finset.mem_univ i); linarith
  · have := Finset.single_le_sum (f := fun j => |c'.qSrf j - c.qSrf j|) (fun _ _ => abs_nonneg _) (Finset.mem_univ j); linarith
  · have h1 := Finset.single_le_sum (f := fun l => |c'.dshA j l - c.dshA j l|) (fun _ _ => abs_nonneg _) (Finset.mem_univ l)
    have h2 := Finset.single_le_sum (f := fun j => ∑ l, |c'.dshA j l - c.dshA j l|) (fun _ _ => Finset.sum_nonneg fun _ _ => abs_nonneg _)
      (Finset.mem_univ j)
    linarith
  · have h1 := Finset.single_le_sum (f := fun l => |c'.dshT j l - c.dshT j l|) (fun _ _ => abs_nonneg _) (Finset.mem_univ l)
    have h2 := Finset.single_le_sum (f := fun j => ∑ l, |c'.dshT j l - c.dshT j l|) (fun _ _ => Finset.sum_nonneg fun _ _ => abs_nonneg _)
      (Finset.mem_univ j)
    linarith

theorem Spec.StateNear.mono {D D' : ℝ} {c c' : Cond I J} (hD : D ≤ D') (H : StateNear D c c') : StateNear D' c c' :=
  ⟨fun i => (H.rooms i).trans hD, fun i => (H.furniture i).trans hD, fun j => (H.flows j).trans hD, fun j l => (H.heldA j l).trans hD,
    fun j l => (H.heldT j l).trans hD⟩

theorem near_list (c : Cond I J) (cs : List (Cond I J)) : ∃ D, 0 ≤ D ∧ ∀ c' ∈ cs, StateNear D c c' := by
  induction cs with
  | nil => exact ⟨0, le_rfl, by simp⟩
  | cons a as ih =>
    obtain ⟨D1, h1, H1⟩ := near_exists c a
    obtain ⟨D2, h2, H2⟩ := ih
    refine ⟨max D1 D2, h1.trans (le_max_left _ _), fun c' hc' => ?_⟩
    rcases List.mem_cons.1 hc' with rfl | h
    · exact H1.mono (le_max_left _ _)
    · exact (H2 c' h).mono (le_max_right _ _)

end

/-- Any two calculations have a bound of the kind that `C110_storing_rows_partial` asks for. -/
theorem states_near {I : Type} [Fintype I] [DecidableEq I] {m N : ℕ} {h : House I (Fin m)} {hR : Fin m → ℝ} {A : Fin N → Record I (Fin m)}
    {hourly dMain dRunUp1 dRunUp2 d1 d2 : ℤ} {r1 r2 : CalcResult I m N} (H1 : coreCalc h hR A hourly dMain dRunUp1 d1 = .ok r1)
    (H2 : coreCalc h hR A hourly dMain dRunUp2 d2 = .ok r2) :
    ∃ D, 0 ≤ D ∧ ∀ c c', updateByGround r1.ss.isGround (initialConditions I (Fin m)) r1.ground = .ok c → StateOf r2 hourly dMain d2 c' →
      StateNear D c c' := by
  obtain ⟨gs1, c1, up1, mn1, T1⟩ := coreCalc_ok H1
  obtain ⟨gs2, c2, up2, mn2, T2⟩ := coreCalc_ok H2
  obtain ⟨D, hD, HD⟩ := near_list c1 (c2 :: (up2 ++ mn2).map TickVars.next)
  refine ⟨D, hD, fun c c' hc hc' => ?_⟩
  obtain rfl : c1 = c := Except.ok.inj (T1.start.symm.trans hc)
  apply HD
  rcases hc' with hc' | ⟨t, ⟨c3, ts, h3, R3, ht⟩, rfl⟩
  · obtain rfl : c2 = c' := Except.ok.inj (T2.start.symm.trans hc')
    simp
  · obtain rfl : c2 = c3 := Except.ok.inj (T2.start.symm.trans h3)
    have := R3.unique (T2.runUp.append T2.main)
    subst this
    exact List.mem_cons_of_mem _ (List.mem_map_of_mem ht)

/-- A house of outer parts that store heat (with modes of both signs, as fits have them), one of them in contact with the ground, a light partition
between its two rooms and air that passes from one to the other. -/
noncomputable def exStore : House (Fin 2) (Fin 4) :=
  { exHouse with
    cValue := 0
    isGround := ![false, false, false, true]
    phiA0 := ![0.3, 0.2, 0.2, 0.4]
    phiT0 := ![0.1, 1, 1, 0.2]
    phiA1 := fun j l => if l = 0 then (![0.1, 0, 0, 0.1] : Fin 4 → ℝ) j else if l = 1 then (![-0.02, 0, 0, -0.02] : Fin 4 → ℝ) j else 0
    phiT1 := fun j l => if l = 0 then (![0.4, 0, 0, 0.4] : Fin 4 → ℝ) j else 0
    kEi := ![none, some (2, 1), some (1, 1), none] }

theorem exStore_wellFormed : WellFormed exStore exHR 900 where
  __ := exHouse_wellFormed
  phiA0_nonneg := by intro j; fin_cases j <;> norm_num [exStore]
  phiT0_mem := by intro j; fin_cases j <;> norm_num [exStore]
  kEi_mem := by intro j m coef; fin_cases j <;> simp [exStore] <;> intro _ h <;> rw [← h] <;> norm_num

theorem exStore_passive : Passive exStore exHR where
  ratio := by intro j l; norm_num [exStore, exHouse]
  takes := by
    refine ⟨0.09, by norm_num, fun j _ => takes_of_worst (fun l => by norm_num [exStore, exHouse]) ?_⟩
    have h1 : ∑ l : Fin 12, worst (exStore.phiA1 j l) (exStore.ratio j l) = worst (exStore.phiA1 j 0) 0.5 + worst (exStore.phiA1 j 1) 0.5 := by
      rw [Fin.sum_univ_succ, Fin.sum_univ_succ]
      have : ∑ l : Fin 10, worst (exStore.phiA1 j l.succ.succ) (exStore.ratio j l.succ.succ) = 0 :=
        Finset.sum_eq_zero fun l _ => by
          have h1 : (l.succ.succ : Fin 12) ≠ 0 := Fin.succ_ne_zero _
          have h2 : (l.succ.succ : Fin 12) ≠ 1 := by intro h; exact Fin.succ_ne_zero l (Fin.succ_injective _ h)
          simp only [exStore, if_neg h1, if_neg h2]
          simp [worst]
      rw [this, add_zero]
      rfl
    rw [h1]
    have h2 : 0 < 1 / (exStore.hC j + exHR j) := one_div_pos.2 (add_pos (exStore_wellFormed.hC_pos j) (exStore_wellFormed.hR_pos j))
    have h3 : 0.09 + (worst (exStore.phiA1 j 0) 0.5 + worst (exStore.phiA1 j 1) 0.5) ≤ exStore.phiA0 j := by
      unfold worst
      fin_cases j <;> norm_num [exStore]
    linarith

theorem exStore_partitions : Partitions exStore exHR where
  side := by intro j m coef; fin_cases j <;> simp [exStore] <;> intro h1 h2 <;> subst h1 h2 <;> simp
  films := by intro j m coef; fin_cases j <;> simp [exStore] <;> intro h1 h2 <;> subst h1 h2 <;> simp [exHouse, exHR]
  resistance := by
    intro j m coef
    fin_cases j <;> simp [exStore] <;> intro h1 h2 <;> subst h1 h2 <;> simp [exHouse, exHR] <;> norm_num
  steady := by intro j m coef; fin_cases j <;> simp [exStore]

/-- The hypotheses of `C110_storing_rows_partial` are met by a day of this house, with run-ups of the building of no day and of one day. -/
example : ∃ C σ : ℝ, 0 ≤ C ∧ 0 ≤ σ ∧ σ < 1 ∧ ∃ r1 r2, coreCalc exStore exHR exDay 4 1 1 0 = .ok r1 ∧ coreCalc exStore exHR exDay 4 1 1 1 = .ok r2 ∧
    r1.nMain.toNat = 96 ∧ r2.nMain.toNat = 96 ∧ ∃ D, ∀ k (h1 : k < r1.nMain.toNat) (h2 : k < r2.nMain.toNat),
      RowNear (C * σ ^ k * D) (r1.log ⟨k, h1⟩) (r2.log ⟨k, h2⟩) := by
  have e4 : (3600 / ((4 : ℤ) : ℝ)) = 900 := by norm_num
  have hw : WellFormed exStore exHR (3600 / ((4 : ℤ) : ℝ)) := by rw [e4]; exact exStore_wellFormed
  have hloc : ∀ k i, 0 ≤ (exDay k).vLocal i := fun k i => by fin_cases i <;> norm_num [exDay]
  obtain ⟨r1, H1⟩ := C21_program_partial (data := exDay) (dMain := 1) (dRunUp := 1) (dRunUpBuild := 0) hw (fun _ => rfl) (fun _ => rfl)
    hloc (by norm_num) (by norm_num) (by norm_num) (by norm_num) (by norm_num) (by norm_num)
  obtain ⟨r2, H2⟩ := C21_program_partial (data := exDay) (dMain := 1) (dRunUp := 1) (dRunUpBuild := 1) hw (fun _ => rfl) (fun _ => rfl)
    hloc (by norm_num) (by norm_num) (by norm_num) le_rfl (by norm_num) (by norm_num)
  obtain ⟨_, _, _, _, T1⟩ := coreCalc_ok H1
  obtain ⟨_, _, _, _, T2⟩ := coreCalc_ok H2
  obtain ⟨D, hD, HD⟩ := states_near H1 H2
  obtain ⟨C, σ, hC0, hσ0, hσ1, HR⟩ := C110_storing_rows_partial (hourly := 4) (w := fun _ => 0) hw exStore_passive exStore_partitions
    (by intro j; fin_cases j <;> simp [exStore]) rfl (fun _ => le_rfl) (by intro i; fin_cases i <;> norm_num [exStore, exHouse])
    (by
      intro i
      right
      fin_cases i
      · exact ⟨0, rfl, rfl⟩
      · exact ⟨3, rfl, rfl⟩)
  refine ⟨C, σ, hC0, hσ0, hσ1, r1, r2, H1, H2, by rw [T1.nMain_eq]; rfl, by rw [T2.nMain_eq]; rfl, D, fun k h1 h2 => ?_⟩
  have := HR (fun k i => by fin_cases i <;> norm_num [exStore, exHouse, exDay, Fin.sum_univ_two]) ?_ (by norm_num) (by norm_num) H1 H2 hD HD k (fun _ _ _ _ _ _ => le_rfl) h1 h2
  · simpa using this
  · intro k i
    rw [e4]
    fin_cases i <;> norm_num [exStore, exHouse, exDay, airCap]

end HLC
