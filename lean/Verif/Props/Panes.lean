import Verif.Lemmas.Panes
import Verif.Lemmas.Except
import Mathlib.Algebra.BigOperators.Fin
import Mathlib.Topology.Algebra.Ring.Real
import Mathlib.Topology.Order.MonotoneConvergence
import Mathlib.Tactic.FinCases

/-!
# C102: light on a stack of panes
-/

namespace HLC.Glass

open Spec

variable {n : ℕ} {p : Fin (n + 1) → Pane}

theorem front_formula (hp : ∀ j, Physical (p j)) {j : ℕ} (h : j < n) :
    (multi (ext p) 0 j).tauF / (1 - (multi (ext p) 0 j).rhoB * (behind p (j + 1)).rhoF) = front p (j + 1) := by
  have hP := ext_physical p hp
  induction j with
  | zero => simp [multi, front]
  | succ j ih =>
    have ih := ih (by omega)
    have ha : Physical (multi (ext p) 0 j) := multi_physical hP (by omega)
    have hq : Physical (ext p (j + 1)) := hP _ (by omega)
    have hb : Physical (behind p (j + 1 + 1)) := behind_physical p hp (by omega)
    have e : behind p (j + 1) = star (ext p (j + 1)) (behind p (j + 1 + 1)) := behind_succ p hp h
    have em : multi (ext p) 0 (j + 1) = star (multi (ext p) 0 j) (ext p (j + 1)) := by
      show star _ (ext p (0 + j + 1)) = _
      rw [zero_add]
    have d1 := den_pos ha hq
    have d2 := den_pos hq hb
    have d3 := den_pos (star_physical ha hq) hb
    have d4 := den_pos ha (star_physical hq hb)
    have hd := den_mul d1.ne' d2.ne'
    rw [em]
    show _ = (ext p (j + 1)).tauF * front p (j + 1) / (1 - (ext p (j + 1)).rhoB * (behind p (j + 1 + 1)).rhoF)
    rw [← ih, e]
    generalize multi (ext p) 0 j = a at *
    generalize ext p (j + 1) = q at *
    generalize behind p (j + 1 + 1) = b at *
    have t1 : (star a q).tauF * (1 - a.rhoB * q.rhoF) = a.tauF * q.tauF := by simp only [star]; rw [div_mul_cancel₀ _ d1.ne']
    rw [mul_div_assoc', div_div, div_eq_div_iff d3.ne' (mul_ne_zero d4.ne' d2.ne')]
    apply mul_right_cancel₀ d1.ne'
    linear_combination (1 - a.rhoB * (star q b).rhoF) * (1 - q.rhoB * b.rhoF) * t1 - q.tauF * a.tauF * hd

theorem mapM_range {α : Type} {f : ℕ → Except PyErr α} {m : ℕ} {g : Fin m → α} (h : ∀ j : Fin m, f j = .ok (g j)) :
    (List.range m).mapM f = .ok (List.ofFn g) := by
  rw [mapM_ok_iff, List.forall₂_iff_get]
  refine ⟨by simp, fun i h1 h2 => ?_⟩
  simp only [List.get_eq_getElem, List.getElem_range, List.getElem_ofFn]
  exact h ⟨i, by simpa using h1⟩

theorem getAbs_eq (hp : ∀ j, Physical (p j)) :
    getAbs (List.ofFn p) = .ok (List.ofFn fun j : Fin (n + 1) => absorbed p (fun j => front p j) (fun j => back p j) j) := by
  have h1 : (List.range (List.ofFn p).length).mapM (fun j : ℕ => getMulti (List.ofFn p) 0 j)
      = .ok (List.ofFn fun j : Fin (n + 1) => multi (ext p) 0 j) := by
    rw [List.length_ofFn]
    apply mapM_range
    intro j
    have := getMulti_eq p hp (i := 0) (d := j) (by omega)
    simpa using this
  have h2 : (List.range (List.ofFn p).length).mapM (fun j : ℕ => getMulti (List.ofFn p) j (((List.ofFn p).length : ℤ) - 1))
      = .ok (List.ofFn fun j : Fin (n + 1) => behind p j) := by
    rw [List.length_ofFn]
    apply mapM_range
    intro j
    have := getMulti_eq p hp (i := j) (d := n - j) (by omega)
    rw [show (((j : ℕ) + (n - j) : ℕ) : ℤ) = ((n + 1 : ℕ) : ℤ) - 1 by omega] at this
    exact this
  have h3 : (List.range (List.ofFn p).length).mapM (solF (List.ofFn fun j : Fin (n + 1) => multi (ext p) 0 j) (List.ofFn fun j : Fin (n + 1) => behind p j))
      = .ok (List.ofFn fun j : Fin (n + 1) => front p j) := by
    rw [List.length_ofFn]
    apply mapM_range
    rintro ⟨j, hj⟩
    unfold solF
    rcases j with _ | j
    · rw [if_pos rfl]; rfl
    · rw [if_neg (Nat.succ_ne_zero j)]
      simp only [bind, Except.bind]
      rw [show ((j + 1 : ℕ) : ℤ) - 1 = (j : ℕ) by omega, paneAt_ofFn _ (show j < n + 1 by omega), paneAt_ofFn _ hj]
      simp only []
      have hd := den_pos (multi_physical (ext_physical p hp) (show 0 + j < n + 1 by omega)) (behind_physical p hp hj)
      rw [pyDiv, if_neg hd.ne', front_formula hp (by omega)]
  have h4 : (List.range (List.ofFn p).length).mapM (solB (List.ofFn fun j : Fin (n + 1) => multi (ext p) 0 j) (List.ofFn fun j : Fin (n + 1) => behind p j)
      (List.ofFn p).length) = .ok (List.ofFn fun j : Fin (n + 1) => back p j) := by
    rw [List.length_ofFn]
    apply mapM_range
    rintro ⟨j, hj⟩
    unfold solB
    by_cases hjn : j < n
    · rw [if_neg (by simp; omega)]
      simp only [bind, Except.bind]
      rw [show ((j : ℕ) : ℤ) + 1 = ((j + 1 : ℕ) : ℤ) by omega, paneAt_ofFn _ hj, paneAt_ofFn _ (show j + 1 < n + 1 by omega)]
      simp only []
      have hd := den_pos (multi_physical (ext_physical p hp) (show 0 + j < n + 1 by omega)) (behind_physical p hp (show j + 1 < n + 1 by omega))
      rw [pyDiv, if_neg hd.ne', back, if_pos hjn, ← front_formula hp hjn]
      congr 1
      ring
    · rw [if_pos (by simp; omega), back, if_neg hjn]
  unfold getAbs
  simp only [bind, Except.bind]
  rw [h1]; simp only []
  rw [h2]; simp only []
  rw [h3]; simp only []
  rw [h4]; simp only []
  congr 1
  apply List.ext_getElem
  · simp
  · intro i hi1 hi2
    have hi : i < n + 1 := by simpa using hi2
    simp [absorbed, Pane.aF, Pane.aB, List.getD]

theorem getTotal_eq (hp : ∀ j, Physical (p j)) : getTotal (List.ofFn p) = .ok (multi (ext p) 0 n) := by
  unfold getTotal
  rw [List.length_ofFn]
  have := getMulti_eq p hp (i := 0) (d := n) (by omega)
  rw [show ((n + 1 : ℕ) : ℤ) - 1 = ((0 + n : ℕ) : ℤ) by omega]
  exact this

theorem total_tau (hp : ∀ j, Physical (p j)) : (multi (ext p) 0 n).tauF = transmitted p (fun j => front p j) (fun j => back p j) := by
  unfold transmitted
  rw [← ext_fin p (Fin.last n)]
  simp only [Fin.val_last, back, lt_irrefl, if_false, mul_zero, add_zero]
  cases n with
  | zero => simp [multi, front]
  | succ n =>
    rw [← front_formula hp (by omega), behind_last]
    show (star _ (ext p (0 + n + 1))).tauF = _
    rw [zero_add]
    simp only [star]
    ring

theorem total_rho (hp : ∀ j, Physical (p j)) : (multi (ext p) 0 n).rhoF = reflected p (fun j => front p j) (fun j => back p j) := by
  unfold reflected
  have e : multi (ext p) 0 n = behind p 0 := rfl
  rw [e, ← ext_fin p 0]
  simp only [Fin.val_zero, back, front, mul_one]
  cases n with
  | zero => simp [behind, multi]
  | succ n =>
    rw [behind_succ p hp (by omega), if_pos (by omega)]
    simp only [star, zero_add]
    ring

/-- **C102.** For every stack of physical panes both functions complete. There is one and only one distribution of light on the panes that
is in balance, and the program returns what it transmits, reflects and leaves in every pane. -/
theorem C102_light (hp : ∀ j, Physical (p j)) :
    ∃ tot abs, getTotal (List.ofFn p) = .ok tot ∧ getAbs (List.ofFn p) = .ok (List.ofFn abs) ∧
      ∃ f b, LightBalance p f b ∧ (∀ f' b', LightBalance p f' b' → f' = f ∧ b' = b) ∧
        tot.tauF = transmitted p f b ∧ tot.rhoF = reflected p f b ∧ ∀ j, abs j = absorbed p f b j := by
  refine ⟨_, _, getTotal_eq hp, getAbs_eq hp, _, _, lights hp, ?_, total_tau hp, total_rho hp, fun _ => rfl⟩
  intro f' b' H
  obtain ⟨h1, h2⟩ := lights_unique hp H
  exact ⟨funext h1, funext h2⟩

/-- Light in balance is neither lost nor gained. -/
theorem balance_total {f b : Fin (n + 1) → ℝ} (H : LightBalance p f b) :
    transmitted p f b + reflected p f b + ∑ j, absorbed p f b j = 1 := by
  have key : ∑ j, absorbed p f b j = ∑ j, f j + ∑ j, b j - ∑ j, ((p j).tauF * f j + (p j).rhoB * b j) - ∑ j, ((p j).rhoF * f j + (p j).tauB * b j) := by
    rw [← Finset.sum_add_distrib, ← Finset.sum_sub_distrib, ← Finset.sum_sub_distrib]
    apply Finset.sum_congr rfl
    intro j _
    unfold absorbed
    ring
  rw [key, Fin.sum_univ_succ f, Fin.sum_univ_castSucc b, Fin.sum_univ_castSucc (fun j => (p j).tauF * f j + (p j).rhoB * b j),
    Fin.sum_univ_succ (fun j => (p j).rhoF * f j + (p j).tauB * b j)]
  have e1 : ∑ j : Fin n, f j.succ = ∑ j : Fin n, ((p j.castSucc).tauF * f j.castSucc + (p j.castSucc).rhoB * b j.castSucc) :=
    Finset.sum_congr rfl fun j _ => H.forth j
  have e2 : ∑ j : Fin n, b j.castSucc = ∑ j : Fin n, ((p j.succ).rhoF * f j.succ + (p j.succ).tauB * b j.succ) :=
    Finset.sum_congr rfl fun j _ => H.fro j
  rw [e1, e2, H.incident, H.dark]
  unfold transmitted reflected
  rw [H.incident, H.dark]
  ring

/-- **C102.** The shares transmitted, reflected and absorbed by the panes are not negative and add up to one. -/
theorem C102_accounted (hp : ∀ j, Physical (p j)) {tot : Pane} {abs : List ℝ} (ht : getTotal (List.ofFn p) = .ok tot)
    (ha : getAbs (List.ofFn p) = .ok abs) :
    0 ≤ tot.tauF ∧ 0 ≤ tot.rhoF ∧ (∀ a ∈ abs, 0 ≤ a) ∧ tot.tauF + tot.rhoF + abs.sum = 1 := by
  have e1 : multi (ext p) 0 n = tot := Except.ok.inj ((getTotal_eq hp).symm.trans ht)
  have e2 := Except.ok.inj ((getAbs_eq hp).symm.trans ha)
  have hP : Physical tot := by rw [← e1]; exact multi_physical (ext_physical p hp) (by omega)
  refine ⟨hP.tauF, hP.rhoF, ?_, ?_⟩
  · intro a h
    rw [← e2, List.mem_ofFn] at h
    obtain ⟨j, rfl⟩ := h
    have := hp j
    have h1 := this.front; have h2 := this.back
    exact add_nonneg (mul_nonneg (front_nonneg hp j.isLt) (by linarith)) (mul_nonneg (back_nonneg hp) (by linarith))
  · rw [← e2, List.sum_ofFn, ← e1, total_tau hp, total_rho hp]
    exact balance_total (lights hp)

/-! ## Reflection by reflection -/

theorem passages_le (hp : ∀ j, Physical (p j)) (k : ℕ) :
    (∀ j, 0 ≤ (passages p k).1 j ∧ (passages p k).1 j ≤ front p j) ∧ ∀ j, 0 ≤ (passages p k).2 j ∧ (passages p k).2 j ≤ back p j := by
  have L := lights hp
  induction k with
  | zero => exact ⟨fun j => ⟨le_rfl, front_nonneg hp j.isLt⟩, fun j => ⟨le_rfl, back_nonneg hp⟩⟩
  | succ k ih =>
    obtain ⟨i1, i2⟩ := ih
    constructor
    · intro j
      refine Fin.cases ?_ (fun j => ?_) j
      · simp [passages, front]
      · have h := hp j.castSucc
        have e := L.forth j
        simp only [passages, Fin.cases_succ]
        constructor
        · exact add_nonneg (mul_nonneg h.tauF (i1 _).1) (mul_nonneg h.rhoB (i2 _).1)
        · rw [e]
          exact add_le_add (mul_le_mul_of_nonneg_left (i1 _).2 h.tauF) (mul_le_mul_of_nonneg_left (i2 _).2 h.rhoB)
    · intro j
      refine Fin.lastCases ?_ (fun j => ?_) j
      · simp [passages, back]
      · have h := hp j.succ
        have e := L.fro j
        simp only [passages, Fin.lastCases_castSucc]
        constructor
        · exact add_nonneg (mul_nonneg h.rhoF (i1 _).1) (mul_nonneg h.tauB (i2 _).1)
        · rw [e]
          exact add_le_add (mul_le_mul_of_nonneg_left (i1 _).2 h.rhoF) (mul_le_mul_of_nonneg_left (i2 _).2 h.tauB)

theorem passages_mono (hp : ∀ j, Physical (p j)) (k : ℕ) :
    (∀ j, (passages p k).1 j ≤ (passages p (k + 1)).1 j) ∧ ∀ j, (passages p k).2 j ≤ (passages p (k + 1)).2 j := by
  induction k with
  | zero => exact ⟨fun j => ((passages_le hp 1).1 j).1, fun j => ((passages_le hp 1).2 j).1⟩
  | succ k ih =>
    obtain ⟨i1, i2⟩ := ih
    constructor
    · intro j
      refine Fin.cases ?_ (fun j => ?_) j
      · simp [passages]
      · have h := hp j.castSucc
        rw [passages, passages]
        simp only [Fin.cases_succ]
        exact add_le_add (mul_le_mul_of_nonneg_left (i1 _) h.tauF) (mul_le_mul_of_nonneg_left (i2 _) h.rhoB)
    · intro j
      refine Fin.lastCases ?_ (fun j => ?_) j
      · simp [passages]
      · have h := hp j.succ
        rw [passages, passages]
        simp only [Fin.lastCases_castSucc]
        exact add_le_add (mul_le_mul_of_nonneg_left (i1 _) h.rhoF) (mul_le_mul_of_nonneg_left (i2 _) h.tauB)

open Filter Topology

/-- **C102.** The light in balance is what following the light from pane to pane arrives at: with every passage more of it is found, and in
the limit all of it. -/
theorem C102_passages (hp : ∀ j, Physical (p j)) {f b : Fin (n + 1) → ℝ} (H : LightBalance p f b) (j : Fin (n + 1)) :
    Monotone (fun k => (passages p k).1 j) ∧ Monotone (fun k => (passages p k).2 j) ∧
    Tendsto (fun k => (passages p k).1 j) atTop (𝓝 (f j)) ∧ Tendsto (fun k => (passages p k).2 j) atTop (𝓝 (b j)) := by
  have m1 : ∀ j, Monotone (fun k => (passages p k).1 j) := fun j => monotone_nat_of_le_succ fun k => (passages_mono hp k).1 j
  have m2 : ∀ j, Monotone (fun k => (passages p k).2 j) := fun j => monotone_nat_of_le_succ fun k => (passages_mono hp k).2 j
  have t1 : ∀ j, ∃ l, Tendsto (fun k => (passages p k).1 j) atTop (𝓝 l) := fun j =>
    ⟨_, tendsto_atTop_ciSup (m1 j) ⟨front p j, by rintro _ ⟨k, rfl⟩; exact ((passages_le hp k).1 j).2⟩⟩
  have t2 : ∀ j, ∃ l, Tendsto (fun k => (passages p k).2 j) atTop (𝓝 l) := fun j =>
    ⟨_, tendsto_atTop_ciSup (m2 j) ⟨back p j, by rintro _ ⟨k, rfl⟩; exact ((passages_le hp k).2 j).2⟩⟩
  choose F hF using t1
  choose B hB using t2
  have L : LightBalance p F B := by
    have s1 : ∀ j, Tendsto (fun k => (passages p (k + 1)).1 j) atTop (𝓝 (F j)) := fun j => (tendsto_add_atTop_iff_nat 1).2 (hF j)
    have s2 : ∀ j, Tendsto (fun k => (passages p (k + 1)).2 j) atTop (𝓝 (B j)) := fun j => (tendsto_add_atTop_iff_nat 1).2 (hB j)
    refine ⟨?_, ?_, fun j => ?_, fun j => ?_⟩
    · refine tendsto_nhds_unique (s1 0) ?_
      simp [passages]
    · refine tendsto_nhds_unique (s2 (Fin.last n)) ?_
      simp [passages]
    · refine tendsto_nhds_unique (s1 j.succ) ?_
      simp only [passages, Fin.cases_succ]
      exact ((hF _).const_mul _).add ((hB _).const_mul _)
    · refine tendsto_nhds_unique (s2 j.castSucc) ?_
      simp only [passages, Fin.lastCases_castSucc]
      exact ((hF _).const_mul _).add ((hB _).const_mul _)
  obtain ⟨u1, u2⟩ := lights_unique hp L
  obtain ⟨v1, v2⟩ := lights_unique hp H
  refine ⟨m1 j, m2 j, ?_, ?_⟩
  · rw [v1, ← u1]; exact hF j
  · rw [v2, ← u2]; exact hB j

/-! ## The other side, and more panes -/

theorem turned_physical {q : Pane} (h : Physical q) : Physical (turned q) :=
  ⟨h.tauB, h.tauF, h.rhoB, h.rhoF, h.back, h.front, h.rhoB_lt, h.rhoF_lt⟩

theorem star_turned (s q : Pane) : star (turned q) (turned s) = turned (star s q) := by
  have e : 1 - q.rhoF * s.rhoB = 1 - s.rhoB * q.rhoF := by ring
  ext <;> simp only [star, turned, e]

theorem multi_turned (hp : ∀ j, Physical (p j)) : ∀ d i : ℕ, i + d ≤ n →
    multi (ext fun j => turned (p j.rev)) i d = turned (multi (ext p) (n - i - d) d) := by
  have hx : ∀ i ≤ n, ext (fun j => turned (p j.rev)) i = turned (ext p (n - i)) := by
    intro i hi
    rw [ext, dif_pos (by omega), ext, dif_pos (by omega)]
    congr 2
    apply Fin.ext
    simp [Fin.rev]
  intro d
  induction d with
  | zero => intro i hi; exact hx i (by omega)
  | succ d ih =>
    intro i hi
    show star (multi _ i d) (ext _ (i + d + 1)) = _
    rw [ih i (by omega), hx _ (by omega), star_turned]
    have := multi_cons (ext_physical p hp) (i := n - i - (d + 1)) (e := d) (by omega)
    rw [this]
    congr 3 <;> omega

/-- **C102.** What the stack does with light on its back is what the stack turned around does with light on its front. -/
theorem C102_turned (hp : ∀ j, Physical (p j)) {tot : Pane} (ht : getTotal (List.ofFn p) = .ok tot) :
    getTotal (List.ofFn fun j : Fin (n + 1) => turned (p j.rev)) = .ok (turned tot) := by
  have e1 : multi (ext p) 0 n = tot := Except.ok.inj ((getTotal_eq hp).symm.trans ht)
  rw [getTotal_eq fun j => turned_physical (hp _), multi_turned hp n 0 (by omega), ← e1]
  congr 3
  omega

/-- **C102.** If every pane transmits as much from the front as from the back, so does the stack. -/
theorem C102_reciprocal (hp : ∀ j, Physical (p j)) (hr : ∀ j, (p j).tauF = (p j).tauB) {tot : Pane} (ht : getTotal (List.ofFn p) = .ok tot) :
    tot.tauF = tot.tauB := by
  have e1 : multi (ext p) 0 n = tot := Except.ok.inj ((getTotal_eq hp).symm.trans ht)
  rw [← e1]
  have hx : ∀ j, (ext p j).tauF = (ext p j).tauB := by
    intro j
    unfold ext
    split_ifs
    · exact hr _
    · rfl
  have : ∀ d i, (multi (ext p) i d).tauF = (multi (ext p) i d).tauB := by
    intro d
    induction d with
    | zero => exact fun i => hx i
    | succ d ih =>
      intro i
      simp only [multi, star]
      rw [ih, hx, mul_comm]
  exact this n 0

/-- **C102.** Another pane behind the stack: less light comes through, and not less comes back. -/
theorem C102_more_panes (hp : ∀ j, Physical (p j)) {q : Pane} (hq : Physical q) {tot tot' : Pane} (ht : getTotal (List.ofFn p) = .ok tot)
    (ht' : getTotal (List.ofFn p ++ [q]) = .ok tot') : tot'.tauF ≤ tot.tauF ∧ tot.rhoF ≤ tot'.rhoF := by
  have e1 : multi (ext p) 0 n = tot := Except.ok.inj ((getTotal_eq hp).symm.trans ht)
  have hs : List.ofFn p ++ [q] = List.ofFn (Fin.snoc (α := fun _ => Pane) p q) := by
    have := List.ofFn_succ_last (f := Fin.snoc (α := fun _ => Pane) p q)
    simp only [Fin.snoc_castSucc, Fin.snoc_last] at this
    exact this.symm
  have hp' : ∀ j, Physical (Fin.snoc (α := fun _ => Pane) p q j) := by
    intro j
    refine Fin.lastCases ?_ (fun j => ?_) j
    · simpa using hq
    · simpa using hp j
  rw [hs] at ht'
  have e2 := Except.ok.inj ((getTotal_eq hp').symm.trans ht')
  have hx : ∀ j < n + 1, ext (Fin.snoc (α := fun _ => Pane) p q) j = ext p j := by
    intro j hj
    rw [ext, dif_pos (by omega), ext, dif_pos hj]
    exact Fin.snoc_castSucc (α := fun _ => Pane) q p ⟨j, hj⟩
  have hl : ext (Fin.snoc (α := fun _ => Pane) p q) (n + 1) = q := by
    rw [ext, dif_pos (by omega)]
    exact Fin.snoc_last (α := fun _ => Pane) q p
  have hm : ∀ d < n + 1, multi (ext (Fin.snoc (α := fun _ => Pane) p q)) 0 d = multi (ext p) 0 d := by
    intro d
    induction d with
    | zero => intro h; exact hx 0 h
    | succ d ih =>
      intro h
      simp only [multi]
      rw [ih (by omega), hx _ (by omega)]
  have e3 : tot' = star tot q := by
    rw [← e2, ← e1]
    show star (multi _ 0 n) (ext _ (0 + n + 1)) = _
    rw [hm n (by omega), zero_add, hl]
  have hT : Physical tot := by rw [← e1]; exact multi_physical (ext_physical p hp) (by omega)
  have hd := den_pos hT hq
  rw [e3]
  have a1 := hT.tauF; have a2 := hT.rhoB; have a3 := hT.rhoF; have a4 := hT.tauB; have a5 := hT.back; have a6 := hT.front
  have b1 := hq.tauF; have b2 := hq.rhoF; have b3 := hq.front; have a7 := hT.rhoB_lt; have b4 := hq.rhoF_lt
  refine ⟨?_, ?_⟩
  · simp only [star]
    rw [div_le_iff₀ hd]
    have : q.tauF ≤ 1 - tot.rhoB * q.rhoF := by nlinarith
    nlinarith
  · simp only [star]
    have : 0 ≤ tot.tauF * q.rhoF * tot.tauB / (1 - tot.rhoB * q.rhoF) := by positivity
    linarith

/-! ## Cases -/

/-- A pane of 3 mm clear glass, as in `notebook/initializer/shgc_window/window.py` 44. -/
noncomputable def clear : Pane := ⟨0.859, 0.859, 0.077, 0.077⟩

theorem clear_physical : Physical clear := by constructor <;> norm_num [clear]

/-- A perfect mirror. -/
noncomputable def mirror : Pane := ⟨0, 0, 1, 1⟩

/-- **C102** needs panes that are no perfect mirrors: two of them end in a division by zero. -/
theorem C102_mirrors : getTotal [mirror, mirror] = .error .zeroDivisionError := by
  have h0 : getMulti [mirror, mirror] 0 0 = .ok mirror := by
    rw [getMulti]
    simp [paneAt, pyIndex]
  have h1 : addPane mirror mirror = .error .zeroDivisionError := by
    have : (1 : ℝ) - mirror.rhoB * mirror.rhoF = 0 := by norm_num [mirror]
    unfold addPane pyDiv
    rw [if_pos this]
    rfl
  have h2 : paneAt [mirror, mirror] 1 = .ok mirror := by simp [paneAt, pyIndex]
  have h3 : ((([mirror, mirror] : List Pane).length : ℤ) - 1) = 1 := by simp
  unfold getTotal
  rw [h3, getMulti, if_neg (by norm_num), if_neg (by norm_num), dif_neg (by norm_num), if_neg (by norm_num), dif_neg (by norm_num),
    show (1 : ℤ) - 1 = 0 by norm_num, h0, h2]
  exact h1

/-- The theorems above apply to triple glazing of clear glass with a coated pane inside: some light is in all five places. -/
example : ∃ tot abs, getTotal (List.ofFn ![clear, ⟨0.5, 0.5, 0.3, 0.25⟩, clear]) = .ok tot ∧
    getAbs (List.ofFn ![clear, ⟨0.5, 0.5, 0.3, 0.25⟩, clear]) = .ok abs ∧ abs.length = 3 ∧ tot.tauF + tot.rhoF + abs.sum = 1 ∧ tot.tauF ≤ 0.5 := by
  have hp : ∀ j : Fin 3, Physical ((![clear, ⟨0.5, 0.5, 0.3, 0.25⟩, clear] : Fin 3 → Pane) j) := by
    intro j
    fin_cases j
    · exact clear_physical
    · constructor <;> norm_num
    · exact clear_physical
  obtain ⟨tot, abs, ht, ha, -⟩ := C102_light hp
  refine ⟨tot, _, ht, ha, by simp, (C102_accounted hp ht ha).2.2.2, ?_⟩
  have hp2 : ∀ j : Fin 2, Physical ((![clear, ⟨0.5, 0.5, 0.3, 0.25⟩] : Fin 2 → Pane) j) := by
    intro j
    fin_cases j
    · exact clear_physical
    · constructor <;> norm_num
  obtain ⟨tot2, abs2, ht2, -⟩ := C102_light hp2
  have h1 := (C102_more_panes hp2 clear_physical ht2 ht).1
  have e := Except.ok.inj ((getTotal_eq hp2).symm.trans ht2)
  rw [← e] at h1
  refine h1.trans ?_
  norm_num [multi, star, ext, clear]

end HLC.Glass
