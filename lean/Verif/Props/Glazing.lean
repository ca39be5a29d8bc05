import Verif.Lemmas.GlazingPos
import Verif.Props.Panes

/-!
# C103: heat through glazing, C104: solar heat gain coefficient
-/

namespace HLC.Glass

open Spec Finset

variable {g : Glazing} {root : (N : ℕ) → Root N} {k : GlazingCase} {ia : Fin (g.n + 1) → ℝ} {th : Fin (2 * (g.n + 1)) → ℝ} {reg : ℕ → ℝ} {qin : ℝ}

theorem tempAndR_ok (h : g.tempAndR root k ia = .ok (th, reg, qin)) : g.getR k (seq th) = .ok reg ∧ qin = g.rQin ia reg := by
  simp only [Glazing.tempAndR, bind_ok_iff] at h
  obtain ⟨th', -, reg', h2, h3⟩ := h
  cases h3
  exact ⟨h2, rfl⟩

theorem heatFlow_iff (hr : g.getR k (seq th) = .ok reg) :
    g.heatFlow k ia th = .ok 0 ↔ HeatBalance reg (halves ia) k.thetaE k.thetaI th := by
  rw [← balance_iff (by omega)]
  unfold Glazing.heatFlow
  rw [hr]
  simp only [bind, Except.bind]
  constructor
  · intro h i
    exact congrFun (Except.ok.inj h) i
  · intro h
    exact congrArg _ (funext h)

/-- **C103.** When the root finder has converged, every surface passes on what it receives: half of what its pane absorbs and what comes through
the resistances next to it. The room receives `U (θe − θi)` (with `U` one over the sum of the resistances returned) and the returned
part of the absorbed radiation; outdoors receive the rest. -/
theorem C103_flow (hg : WellMade g) (hm : Mild k (seq th) g.n) (h : g.tempAndR root k ia = .ok (th, reg, qin))
    (hc : g.heatFlow k ia th = .ok 0) :
    (∃ q, OnSurfaces ia q ∧ HeatBalance reg q k.thetaE k.thetaI th) ∧
    heatThrough reg k.thetaE k.thetaI th (2 * (g.n + 1)) = (k.thetaE - k.thetaI) / ∑ m ∈ range (2 * (g.n + 1) + 1), reg m + qin ∧
    -heatThrough reg k.thetaE k.thetaI th 0 = (k.thetaI - k.thetaE) / ∑ m ∈ range (2 * (g.n + 1) + 1), reg m + (∑ j, ia j - qin) := by
  obtain ⟨h1, rfl⟩ := tempAndR_ok h
  have hr := getR_pos hg hm h1
  have H := (heatFlow_iff h1).1 hc
  have hin := inflow hr H
  rw [rQin_eq g ia reg (halves_spec ia)] at hin
  refine ⟨⟨_, halves_spec ia, H⟩, hin, ?_⟩
  have h2 := heatThrough_eq H le_rfl
  have h3 : ∑ m ∈ range (2 * (g.n + 1)), halves ia m = ∑ j, ia j := by
    have := onSurfaces_sum (halves_spec ia) fun _ => 1
    simpa using this
  rw [h3, hin] at h2
  have e : (k.thetaI - k.thetaE) / ∑ m ∈ range (2 * (g.n + 1) + 1), reg m = -((k.thetaE - k.thetaI) / ∑ m ∈ range (2 * (g.n + 1) + 1), reg m) := by ring
  rw [e]
  linarith

theorem share_bounds (hr : ∀ m ≤ 2 * (g.n + 1), 0 < reg m) (j : Fin (g.n + 1)) :
    0 < (∑ m ∈ range (2 * j + 1), reg m + reg (2 * j + 1) / 2) / ∑ m ∈ range (2 * (g.n + 1) + 1), reg m ∧
    (∑ m ∈ range (2 * j + 1), reg m + reg (2 * j + 1) / 2) / ∑ m ∈ range (2 * (g.n + 1) + 1), reg m < 1 := by
  have hR := res_sum_pos hr
  have h0 : ∀ m < 2 * (g.n + 1) + 1, 0 < reg m := fun m hm => hr m (by omega)
  have h1 : 0 < ∑ m ∈ range (2 * (j : ℕ) + 1), reg m := sum_pos (fun m hm => h0 m (by have := mem_range.1 hm; omega)) ⟨0, by simp⟩
  have h2 := h0 (2 * j + 1) (by omega)
  refine ⟨by positivity, ?_⟩
  rw [div_lt_one hR]
  have h3 : ∑ m ∈ range (2 * (j : ℕ) + 1 + 1), reg m ≤ ∑ m ∈ range (2 * (g.n + 1) + 1), reg m :=
    sum_le_sum_of_subset_of_nonneg (range_subset_range.2 (by omega)) fun m hm _ => (h0 m (mem_range.1 hm)).le
  rw [sum_range_succ] at h3
  linarith

/-- **C103.** Of the absorbed radiation something between nothing and all goes inside. -/
theorem C103_share (hg : WellMade g) (hm : Mild k (seq th) g.n) (h : g.tempAndR root k ia = .ok (th, reg, qin)) (hia : ∀ j, 0 ≤ ia j) :
    0 ≤ qin ∧ qin ≤ ∑ j, ia j ∧ ((∃ j, 0 < ia j) → 0 < qin ∧ qin < ∑ j, ia j) := by
  obtain ⟨h1, rfl⟩ := tempAndR_ok h
  have hr := getR_pos hg hm h1
  unfold Glazing.rQin
  refine ⟨sum_nonneg fun j _ => mul_nonneg (hia j) (share_bounds hr j).1.le, sum_le_sum fun j _ => ?_, ?_⟩
  · exact mul_le_of_le_one_right (hia j) (share_bounds hr j).2.le
  · rintro ⟨j, hj⟩
    refine ⟨Finset.sum_pos' (fun j _ => mul_nonneg (hia j) (share_bounds hr j).1.le) ⟨j, mem_univ _, mul_pos hj (share_bounds hr j).1⟩, ?_⟩
    refine sum_lt_sum (fun j _ => mul_le_of_le_one_right (hia j) (share_bounds hr j).2.le) ⟨j, mem_univ _, ?_⟩
    exact mul_lt_of_lt_one_right hj (share_bounds hr j).2

/-- **C103.** With fixed temperatures of the gaps there is, for all temperatures and all radiation, one and only one solution, so every root finder
that converges returns it. -/
theorem C103_unique (hg : WellMade g) (hk : k.fixed = true) : ∃! th, g.heatFlow k ia th = .ok 0 := by
  obtain ⟨r, hr⟩ := getR_fixed hg hk
  have hp := getR_pos hg (.inl hk) (hr fun _ => 0)
  refine ⟨_, (heatFlow_iff (hr _)).2 (balance_exists hp), fun th h => ?_⟩
  exact balance_unique hp ((heatFlow_iff (hr _)).1 h) (balance_exists hp)

theorem balance_neg {N : ℕ} {r q : ℕ → ℝ} {te ti : ℝ} {th : Fin N → ℝ} (H : HeatBalance r q te ti th) :
    HeatBalance r (fun m => -q m) (-te) (-ti) (fun j => -th j) := by
  have e : ∀ m, wayIn (-te) (-ti) (fun j => -th j) m = -wayIn te ti th m := by
    intro m
    unfold wayIn
    split_ifs <;> rfl
  have e2 : ∀ m, heatThrough r (-te) (-ti) (fun j => -th j) m = -heatThrough r te ti th m := by
    intro m
    unfold heatThrough
    rw [e, e]
    ring
  intro m hm
  rw [e2, e2, ← H m hm]
  ring

theorem halves_nonneg {n : ℕ} {ia : Fin (n + 1) → ℝ} (hia : ∀ j, 0 ≤ ia j) (m : ℕ) : 0 ≤ halves ia m := by
  unfold halves
  split_ifs
  · exact div_nonneg (hia _) (by norm_num)
  · rfl

/-- **C103.** No surface is colder than both outdoors and the room; without sun none is warmer than both either. -/
theorem C103_range (hg : WellMade g) (hm : Mild k (seq th) g.n) (hc : g.heatFlow k ia th = .ok 0) (hia : ∀ j, 0 ≤ ia j) (m : Fin (2 * (g.n + 1))) :
    min k.thetaE k.thetaI ≤ th m ∧ ((∀ j, ia j = 0) → th m ≤ max k.thetaE k.thetaI) := by
  have h1 := hc
  simp only [Glazing.heatFlow, bind_ok_iff] at h1
  obtain ⟨r, hr, -⟩ := h1
  have hp := getR_pos hg hm hr
  have H := (heatFlow_iff hr).1 hc
  refine ⟨balance_min hp H (fun j _ => halves_nonneg hia j) m, fun h0 => ?_⟩
  have := balance_min hp (balance_neg H) (fun j _ => by
    have : halves ia j = 0 := by unfold halves; split_ifs <;> simp [h0]
    rw [this]; simp) m
  rw [min_neg_neg] at this
  linarith

/-- **C104.** For every stack of physical panes and all glazing of that many panes: if the window calculation completes and its root finder
has converged to surface temperatures above -100 degC, the solar heat gain coefficient lies between the transmittance and one minus the reflectance, and
the room receives just this share of the radiation, apart from the heat that flows without sun. -/
theorem C104_shgc (hg : WellMade g) {p : Fin (g.n + 1) → Pane} (hp : ∀ j, Physical (p j)) {w : WindowResult g.n}
    (h : windowCalc g root p = .ok w) (hT : ∀ m, -100 ≤ w.theta m)
    (hc : g.heatFlow windowCase (fun j => w.abs.getD j 0 * 300) w.theta = .ok 0) :
    0 ≤ w.tau ∧ w.tau ≤ w.shgc ∧ w.shgc ≤ 1 - w.rho ∧ w.shgc ≤ 1 ∧
    ∃ r, g.getR windowCase (seq w.theta) = .ok r ∧
      w.tau * 300 + heatThrough r 0 20 w.theta (2 * (g.n + 1)) = (0 - 20) / ∑ m ∈ range (2 * (g.n + 1) + 1), r m + w.shgc * 300 := by
  simp only [windowCalc, bind_ok_iff] at h
  obtain ⟨spec, h1, abs, h2, ⟨th, reg, qin⟩, h3, u, h4, h5⟩ := h
  cases h5
  simp only [] at *
  obtain ⟨a1, a2, a3, a4⟩ := C102_accounted hp h1 h2
  have hm : Mild windowCase (seq th) g.n := by
    refine .inr ⟨by norm_num [windowCase], by norm_num [windowCase], fun m hm => ?_⟩
    rw [seq, dif_pos hm]
    exact hT _
  have hl : abs.length = g.n + 1 := by
    have := Except.ok.inj ((getAbs_eq hp).symm.trans h2)
    rw [← this, List.length_ofFn]
  have hia : ∀ j : Fin (g.n + 1), 0 ≤ abs.getD j 0 * 300 := by
    intro j
    have hj : (j : ℕ) < abs.length := by omega
    have : abs.getD j 0 = abs[(j : ℕ)] := by simp [List.getD, hj]
    rw [this]
    exact mul_nonneg (a3 _ (List.getElem_mem hj)) (by norm_num)
  have hsum : ∑ j : Fin (g.n + 1), abs.getD j 0 * 300 = abs.sum * 300 := by
    rw [← sum_mul]
    congr 1
    rw [← List.sum_ofFn]
    congr 1
    apply List.ext_getElem
    · simp [hl]
    · intro i hi1 hi2
      rw [List.getElem_ofFn]
      have hi : i < abs.length := hi2
      simp [List.getD, hi]
  obtain ⟨b1, b2, -⟩ := C103_share hg hm h3 hia
  rw [hsum] at b2
  obtain ⟨-, c2, -⟩ := C103_flow hg hm h3 hc
  refine ⟨a1, ?_, ?_, ?_, reg, (tempAndR_ok h3).1, ?_⟩
  · have : 0 ≤ qin / 300 := by positivity
    linarith
  · have : qin / 300 ≤ abs.sum := by rw [div_le_iff₀ (by norm_num)]; exact b2
    linarith
  · have : qin / 300 ≤ abs.sum := by rw [div_le_iff₀ (by norm_num)]; exact b2
    linarith
  · have e : windowCase.thetaE = 0 ∧ windowCase.thetaI = 20 := ⟨rfl, rfl⟩
    rw [e.1, e.2] at c2
    rw [c2]
    ring

end HLC.Glass
