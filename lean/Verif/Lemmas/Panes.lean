import Verif.Spec.Panes
import Mathlib.Tactic.Linarith
import Mathlib.Tactic.Ring
import Mathlib.Tactic.FieldSimp
import Mathlib.Tactic.Positivity
import Mathlib.Tactic.LinearCombination

/-!
# Lemmas on stacks of panes
-/

namespace HLC.Glass

open Spec

/-- A stack and a pane, or another stack, behind it. -/
noncomputable def star (s p : Pane) : Pane :=
  ⟨s.tauF * p.tauF / (1 - s.rhoB * p.rhoF), p.tauB * s.tauB / (1 - s.rhoB * p.rhoF),
    s.rhoF + s.tauF * p.rhoF * s.tauB / (1 - s.rhoB * p.rhoF), p.rhoB + p.tauB * s.rhoB * p.tauF / (1 - s.rhoB * p.rhoF)⟩

theorem addPane_eq {s p : Pane} (h : 1 - s.rhoB * p.rhoF ≠ 0) : addPane s p = .ok (star s p) := by
  simp [addPane, star, pyDiv, if_neg h, bind, Except.bind]

theorem den_pos {s p : Pane} (hs : Physical s) (hp : Physical p) : 0 < 1 - s.rhoB * p.rhoF := by
  have h1 := hs.rhoB; have h2 := hp.rhoF; have h3 := hs.rhoB_lt; have h4 := hp.rhoF_lt
  nlinarith

/-- A share of light that comes back from behind. -/
theorem back_share {r q t : ℝ} (hr : 0 ≤ r) (hr1 : r < 1) (hq : 0 ≤ q) (hq1 : q < 1) (hrt : t + r ≤ 1) :
    q * t / (1 - r * q) < 1 := by
  have h : 0 < 1 - r * q := by nlinarith
  rw [div_lt_one h]
  nlinarith

theorem star_physical {s p : Pane} (hs : Physical s) (hp : Physical p) : Physical (star s p) := by
  have h := den_pos hs hp
  have e1 : p.rhoF * s.tauB / (1 - s.rhoB * p.rhoF) < 1 := back_share hs.rhoB hs.rhoB_lt hp.rhoF hp.rhoF_lt hs.back
  have e2 : s.rhoB * p.tauF / (1 - s.rhoB * p.rhoF) < 1 := by
    have := back_share hp.rhoF hp.rhoF_lt hs.rhoB hs.rhoB_lt hp.front
    rwa [mul_comm p.rhoF] at this
  have f0 := hs.tauF; have f1 := hs.tauB; have f2 := hs.rhoF; have f3 := hs.rhoB
  have g0 := hp.tauF; have g1 := hp.tauB; have g2 := hp.rhoF; have g3 := hp.rhoB
  have f4 := hs.front; have f5 := hs.back; have g4 := hp.front; have g5 := hp.back
  have f6 := hs.rhoF_lt; have f7 := hs.rhoB_lt; have g6 := hp.rhoF_lt; have g7 := hp.rhoB_lt
  have b1 : s.tauF * p.rhoF * s.tauB / (1 - s.rhoB * p.rhoF) = s.tauF * (p.rhoF * s.tauB / (1 - s.rhoB * p.rhoF)) := by ring
  have b2 : p.tauB * s.rhoB * p.tauF / (1 - s.rhoB * p.rhoF) = p.tauB * (s.rhoB * p.tauF / (1 - s.rhoB * p.rhoF)) := by ring
  have k1 : 0 ≤ p.rhoF * s.tauB / (1 - s.rhoB * p.rhoF) := by positivity
  have k2 : 0 ≤ s.rhoB * p.tauF / (1 - s.rhoB * p.rhoF) := by positivity
  refine ⟨?_, ?_, ?_, ?_, ?_, ?_, ?_, ?_⟩ <;> simp only [star]
  · positivity
  · positivity
  · positivity
  · positivity
  · have : s.tauF * p.tauF / (1 - s.rhoB * p.rhoF) + s.tauF * p.rhoF * s.tauB / (1 - s.rhoB * p.rhoF) ≤ s.tauF := by
      rw [← add_div, div_le_iff₀ h]
      have : p.tauF + p.rhoF * s.tauB ≤ 1 - s.rhoB * p.rhoF := by nlinarith
      nlinarith
    linarith
  · have : p.tauB * s.tauB / (1 - s.rhoB * p.rhoF) + p.tauB * s.rhoB * p.tauF / (1 - s.rhoB * p.rhoF) ≤ p.tauB := by
      rw [← add_div, div_le_iff₀ h]
      have : s.tauB + s.rhoB * p.tauF ≤ 1 - s.rhoB * p.rhoF := by nlinarith
      nlinarith
    linarith
  · rw [b1]
    rcases f0.lt_or_eq with h0 | h0
    · nlinarith
    · rw [← h0]; linarith
  · rw [b2]
    rcases g1.lt_or_eq with h0 | h0
    · nlinarith
    · rw [← h0]; linarith

/-- The light between the stacks `a`, `q`, `b` does not depend on where the stack is cut first. -/
theorem den_mul {a q b : Pane} (h1 : 1 - a.rhoB * q.rhoF ≠ 0) (h2 : 1 - q.rhoB * b.rhoF ≠ 0) :
    (1 - (star a q).rhoB * b.rhoF) * (1 - a.rhoB * q.rhoF) = (1 - a.rhoB * (star q b).rhoF) * (1 - q.rhoB * b.rhoF) := by
  simp only [star]
  have e1 : (q.rhoB + q.tauB * a.rhoB * q.tauF / (1 - a.rhoB * q.rhoF)) * (1 - a.rhoB * q.rhoF)
      = q.rhoB * (1 - a.rhoB * q.rhoF) + q.tauB * a.rhoB * q.tauF := by
    rw [add_mul, div_mul_cancel₀ _ h1]
  have e2 : (q.rhoF + q.tauF * b.rhoF * q.tauB / (1 - q.rhoB * b.rhoF)) * (1 - q.rhoB * b.rhoF)
      = q.rhoF * (1 - q.rhoB * b.rhoF) + q.tauF * b.rhoF * q.tauB := by
    rw [add_mul, div_mul_cancel₀ _ h2]
  linear_combination -b.rhoF * e1 + a.rhoB * e2

theorem star_assoc {a q b : Pane} (ha : Physical a) (hq : Physical q) (hb : Physical b) :
    star (star a q) b = star a (star q b) := by
  have d1 := den_pos ha hq
  have d2 := den_pos hq hb
  have d3 := den_pos (star_physical ha hq) hb
  have d4 := den_pos ha (star_physical hq hb)
  have hd := den_mul d1.ne' d2.ne'
  have e1 : (star a q).rhoB * (1 - a.rhoB * q.rhoF) = q.rhoB * (1 - a.rhoB * q.rhoF) + q.tauB * a.rhoB * q.tauF := by
    simp only [star]; rw [add_mul, div_mul_cancel₀ _ d1.ne']
  have e2 : (star q b).rhoF * (1 - q.rhoB * b.rhoF) = q.rhoF * (1 - q.rhoB * b.rhoF) + q.tauF * b.rhoF * q.tauB := by
    simp only [star]; rw [add_mul, div_mul_cancel₀ _ d2.ne']
  have t1 : (star a q).tauF * (1 - a.rhoB * q.rhoF) = a.tauF * q.tauF := by simp only [star]; rw [div_mul_cancel₀ _ d1.ne']
  have t2 : (star q b).tauF * (1 - q.rhoB * b.rhoF) = q.tauF * b.tauF := by simp only [star]; rw [div_mul_cancel₀ _ d2.ne']
  have t3 : (star a q).tauB * (1 - a.rhoB * q.rhoF) = q.tauB * a.tauB := by simp only [star]; rw [div_mul_cancel₀ _ d1.ne']
  have t4 : (star q b).tauB * (1 - q.rhoB * b.rhoF) = b.tauB * q.tauB := by simp only [star]; rw [div_mul_cancel₀ _ d2.ne']
  have r1 : (star a q).rhoF = a.rhoF + a.tauF * q.rhoF * a.tauB / (1 - a.rhoB * q.rhoF) := rfl
  have r2 : (star q b).rhoB = b.rhoB + b.tauB * q.rhoB * b.tauF / (1 - q.rhoB * b.rhoF) := rfl
  generalize hX : star a q = X at *
  generalize hY : star q b = Y at *
  have hne : (1 - a.rhoB * q.rhoF) * (1 - q.rhoB * b.rhoF) ≠ 0 := mul_ne_zero d1.ne' d2.ne'
  have cross : ∀ {x y : ℝ}, x * (1 - q.rhoB * b.rhoF) * (1 - a.rhoB * Y.rhoF) * (1 - a.rhoB * q.rhoF) =
      y * (1 - X.rhoB * b.rhoF) * (1 - a.rhoB * q.rhoF) * (1 - q.rhoB * b.rhoF) → x / (1 - X.rhoB * b.rhoF) = y / (1 - a.rhoB * Y.rhoF) := by
    intro x y h
    rw [div_eq_div_iff d3.ne' d4.ne']
    apply mul_right_cancel₀ hne
    linear_combination h
  ext
  · show X.tauF * b.tauF / (1 - X.rhoB * b.rhoF) = a.tauF * Y.tauF / (1 - a.rhoB * Y.rhoF)
    apply cross
    linear_combination b.tauF * (1 - q.rhoB * b.rhoF) * (1 - a.rhoB * Y.rhoF) * t1
      - a.tauF * (1 - X.rhoB * b.rhoF) * (1 - a.rhoB * q.rhoF) * t2 - a.tauF * q.tauF * b.tauF * hd
  · show b.tauB * X.tauB / (1 - X.rhoB * b.rhoF) = Y.tauB * a.tauB / (1 - a.rhoB * Y.rhoF)
    apply cross
    linear_combination b.tauB * (1 - q.rhoB * b.rhoF) * (1 - a.rhoB * Y.rhoF) * t3
      - a.tauB * (1 - X.rhoB * b.rhoF) * (1 - a.rhoB * q.rhoF) * t4 - a.tauB * q.tauB * b.tauB * hd
  · show X.rhoF + X.tauF * b.rhoF * X.tauB / (1 - X.rhoB * b.rhoF) = a.rhoF + a.tauF * Y.rhoF * a.tauB / (1 - a.rhoB * Y.rhoF)
    rw [r1, add_assoc]
    congr 1
    have hu := div_mul_cancel₀ (a.tauF * q.rhoF * a.tauB) d1.ne'
    have hv := div_mul_cancel₀ (X.tauF * b.rhoF * X.tauB) d3.ne'
    have hw := div_mul_cancel₀ (a.tauF * Y.rhoF * a.tauB) d4.ne'
    generalize a.tauF * q.rhoF * a.tauB / (1 - a.rhoB * q.rhoF) = u at *
    generalize X.tauF * b.rhoF * X.tauB / (1 - X.rhoB * b.rhoF) = v at *
    generalize a.tauF * Y.rhoF * a.tauB / (1 - a.rhoB * Y.rhoF) = w at *
    apply mul_right_cancel₀ (mul_ne_zero (mul_ne_zero d1.ne' d1.ne') d3.ne')
    linear_combination (1 - a.rhoB * q.rhoF) * (1 - X.rhoB * b.rhoF) * hu + (1 - a.rhoB * q.rhoF) ^ 2 * hv
      - w * (1 - a.rhoB * q.rhoF) * hd - (1 - a.rhoB * q.rhoF) * (1 - q.rhoB * b.rhoF) * hw
      + b.rhoF * ((1 - a.rhoB * q.rhoF) * X.tauB * t1 + a.tauF * q.tauF * t3)
      + a.tauF * a.tauB * q.rhoF * hd - a.tauF * a.tauB * q.rhoF * a.rhoB * e2 - (1 - a.rhoB * q.rhoF) * a.tauF * a.tauB * e2
  · show b.rhoB + b.tauB * X.rhoB * b.tauF / (1 - X.rhoB * b.rhoF) = Y.rhoB + Y.tauB * a.rhoB * Y.tauF / (1 - a.rhoB * Y.rhoF)
    rw [r2, add_assoc]
    congr 1
    have hu := div_mul_cancel₀ (b.tauB * q.rhoB * b.tauF) d2.ne'
    have hv := div_mul_cancel₀ (Y.tauB * a.rhoB * Y.tauF) d4.ne'
    have hw := div_mul_cancel₀ (b.tauB * X.rhoB * b.tauF) d3.ne'
    generalize b.tauB * q.rhoB * b.tauF / (1 - q.rhoB * b.rhoF) = u at *
    generalize Y.tauB * a.rhoB * Y.tauF / (1 - a.rhoB * Y.rhoF) = v at *
    generalize b.tauB * X.rhoB * b.tauF / (1 - X.rhoB * b.rhoF) = w at *
    apply mul_right_cancel₀ (mul_ne_zero (mul_ne_zero d2.ne' d2.ne') d4.ne')
    linear_combination -(1 - q.rhoB * b.rhoF) * (1 - a.rhoB * Y.rhoF) * hu - (1 - q.rhoB * b.rhoF) ^ 2 * hv
      - w * (1 - q.rhoB * b.rhoF) * hd + (1 - q.rhoB * b.rhoF) * (1 - a.rhoB * q.rhoF) * hw
      - a.rhoB * ((1 - q.rhoB * b.rhoF) * Y.tauF * t4 + b.tauB * q.tauB * t2)
      + b.tauF * b.tauB * q.rhoB * hd + b.tauF * b.tauB * q.rhoB * b.rhoF * e1 + (1 - q.rhoB * b.rhoF) * b.tauF * b.tauB * e1

/-- The panes `i` to `i + d` as one. -/
noncomputable def multi (p : ℕ → Pane) (i : ℕ) : ℕ → Pane
  | 0 => p i
  | d + 1 => star (multi p i d) (p (i + d + 1))

theorem multi_physical {p : ℕ → Pane} {N : ℕ} (hp : ∀ j < N, Physical (p j)) {i d : ℕ} (h : i + d < N) : Physical (multi p i d) := by
  induction d with
  | zero => exact hp i (by omega)
  | succ d ih => exact star_physical (ih (by omega)) (hp _ (by omega))

theorem multi_split {p : ℕ → Pane} {N : ℕ} (hp : ∀ j < N, Physical (p j)) {i d e : ℕ} (h : i + d + 1 + e < N) :
    multi p i (d + 1 + e) = star (multi p i d) (multi p (i + d + 1) e) := by
  induction e with
  | zero => rfl
  | succ e ih =>
    show star (multi p i (d + 1 + e)) (p (i + (d + 1 + e) + 1)) = star (multi p i d) (star (multi p (i + d + 1) e) (p (i + d + 1 + e + 1)))
    rw [ih (by omega), star_assoc (multi_physical hp (by omega)) (multi_physical hp (by omega)) (hp _ (by omega))]
    congr 3
    omega

theorem multi_cons {p : ℕ → Pane} {N : ℕ} (hp : ∀ j < N, Physical (p j)) {i e : ℕ} (h : i + 1 + e < N) :
    multi p i (e + 1) = star (p i) (multi p (i + 1) e) := by
  have := multi_split hp (i := i) (d := 0) (e := e) (by omega)
  rw [show 0 + 1 + e = e + 1 by omega] at this
  exact this

variable {n : ℕ} (p : Fin (n + 1) → Pane)

/-- The panes, numbered by natural numbers. -/
def ext (j : ℕ) : Pane := if h : j < n + 1 then p ⟨j, h⟩ else ⟨0, 0, 0, 0⟩

theorem ext_fin (j : Fin (n + 1)) : ext p j = p j := by rw [ext, dif_pos j.isLt]

theorem ext_physical (hp : ∀ j, Physical (p j)) : ∀ j < n + 1, Physical (ext p j) := by
  intro j hj
  rw [ext, dif_pos hj]
  exact hp _

theorem paneAt_ofFn {m : ℕ} (q : Fin m → Pane) {j : ℕ} (h : j < m) : paneAt (List.ofFn q) j = .ok (q ⟨j, h⟩) := by
  unfold paneAt pyIndex
  rw [dif_pos ⟨by omega, by simpa using h⟩]
  simp

theorem paneAt_ext {j : ℕ} (h : j < n + 1) : paneAt (List.ofFn p) j = .ok (ext p j) := by
  rw [paneAt_ofFn p h, ext, dif_pos h]

theorem getMulti_eq (hp : ∀ j, Physical (p j)) {i d : ℕ} (h : i + d < n + 1) :
    getMulti (List.ofFn p) i ((i + d : ℕ) : ℤ) = .ok (multi (ext p) i d) := by
  induction d with
  | zero =>
    rw [getMulti, if_neg (by omega), if_neg (by omega), dif_neg (by omega), if_neg (by simp; omega), dif_pos (by simp)]
    exact paneAt_ext p (by omega)
  | succ d ih =>
    rw [getMulti, if_neg (by omega), if_neg (by omega), dif_neg (by omega), if_neg (by simp; omega), dif_neg (by omega)]
    rw [show ((i + (d + 1) : ℕ) : ℤ) - 1 = ((i + d : ℕ) : ℤ) by omega, ih (by omega)]
    simp only [bind, Except.bind]
    rw [paneAt_ext p (by omega)]
    have hP := ext_physical p hp
    exact addPane_eq (den_pos (multi_physical hP (by omega)) (hP _ (by omega))).ne'

/-- The panes `j` to the last as one. -/
noncomputable def behind (j : ℕ) : Pane := multi (ext p) j (n - j)

theorem behind_physical (hp : ∀ j, Physical (p j)) {j : ℕ} (h : j < n + 1) : Physical (behind p j) :=
  multi_physical (ext_physical p hp) (by omega)

theorem behind_last : behind p n = ext p n := by unfold behind; rw [Nat.sub_self]; rfl

theorem behind_succ (hp : ∀ j, Physical (p j)) {j : ℕ} (h : j < n) : behind p j = star (ext p j) (behind p (j + 1)) := by
  unfold behind
  rw [show n - j = n - (j + 1) + 1 by omega, multi_cons (ext_physical p hp) (by omega)]

/-- The light on the front of pane `j`. -/
noncomputable def front : ℕ → ℝ
  | 0 => 1
  | j + 1 => (ext p j).tauF * front j / (1 - (ext p j).rhoB * (behind p (j + 1)).rhoF)

/-- The light on the back of pane `j`. -/
noncomputable def back (j : ℕ) : ℝ := if j < n then (behind p (j + 1)).rhoF * front p (j + 1) else 0

variable {p}

theorem front_succ (hp : ∀ j, Physical (p j)) {j : ℕ} (h : j < n) :
    front p (j + 1) * (1 - (ext p j).rhoB * (behind p (j + 1)).rhoF) = (ext p j).tauF * front p j := by
  have := den_pos (ext_physical p hp j (by omega)) (behind_physical p hp (show j + 1 < n + 1 by omega))
  rw [front, div_mul_cancel₀ _ this.ne']

theorem front_nonneg (hp : ∀ j, Physical (p j)) {j : ℕ} (h : j < n + 1) : 0 ≤ front p j := by
  induction j with
  | zero => simp [front]
  | succ j ih =>
    have := den_pos (ext_physical p hp j (by omega)) (behind_physical p hp h)
    exact div_nonneg (mul_nonneg (ext_physical p hp j (by omega)).tauF (ih (by omega))) this.le

theorem back_nonneg (hp : ∀ j, Physical (p j)) {j : ℕ} : 0 ≤ back p j := by
  unfold back
  split_ifs with h
  · exact mul_nonneg (behind_physical p hp (by omega)).rhoF (front_nonneg hp (by omega))
  · exact le_rfl

/-- These lights are in balance. -/
theorem lights (hp : ∀ j, Physical (p j)) : LightBalance p (fun j => front p j) (fun j => back p j) where
  incident := by simp [front]
  dark := by simp [back]
  forth := by
    intro j
    have := front_succ hp j.isLt
    simp only [back, Fin.val_succ, Fin.val_castSucc, if_pos j.isLt]
    rw [← ext_fin p j.castSucc, Fin.val_castSucc]
    linear_combination this
  fro := by
    intro j
    simp only [Fin.val_succ, Fin.val_castSucc]
    rw [← ext_fin p j.succ, Fin.val_succ, back, if_pos j.isLt]
    by_cases h : (j : ℕ) + 1 < n
    · have e := behind_succ p hp h
      have h1 := front_succ hp h
      have hd := den_pos (ext_physical p hp (j + 1) (by omega)) (behind_physical p hp (show j + 1 + 1 < n + 1 by omega))
      rw [back, if_pos h, e]
      simp only [star]
      have hd' := hd.ne'
      have h2 := div_mul_cancel₀ ((ext p (j + 1)).tauF * (behind p (j + 1 + 1)).rhoF * (ext p (j + 1)).tauB) hd'
      generalize (ext p (j + 1)).tauF * (behind p (j + 1 + 1)).rhoF * (ext p (j + 1)).tauB / (1 - (ext p (j + 1)).rhoB * (behind p (j + 1 + 1)).rhoF) = u at *
      apply mul_right_cancel₀ hd'
      linear_combination front p (j + 1) * h2 - (ext p (j + 1)).tauB * (behind p (j + 1 + 1)).rhoF * h1
    · have hj : (j : ℕ) + 1 = n := by have := j.isLt; omega
      rw [hj, behind_last, back, if_neg (lt_irrefl _)]
      ring

/-- Lights in balance are these. -/
theorem lights_unique (hp : ∀ j, Physical (p j)) {f b : Fin (n + 1) → ℝ} (H : LightBalance p f b) :
    (∀ j : Fin (n + 1), f j = front p j) ∧ ∀ j : Fin (n + 1), b j = back p j := by
  have hb : ∀ d : ℕ, ∀ j : Fin n, (j : ℕ) + 1 + d = n → b j.castSucc = (behind p (j + 1)).rhoF * f j.succ := by
    intro d
    induction d with
    | zero =>
      intro j hj
      have e := H.fro j
      have hl : j.succ = Fin.last n := Fin.ext (by simpa using hj)
      rw [e, hl, H.dark, ← ext_fin p (Fin.last n), Fin.val_last, show (j : ℕ) + 1 = n by omega, behind_last]
      ring
    | succ d ih =>
      intro j hj
      have e := H.fro j
      have h1 : (j : ℕ) + 1 < n := by omega
      have e2 := ih ⟨j + 1, h1⟩ (by simp; omega)
      have e3 := H.forth ⟨j + 1, h1⟩
      have hs : j.succ = Fin.castSucc ⟨j + 1, h1⟩ := Fin.ext (by simp)
      rw [hs] at e ⊢
      have hx := ext_fin p (Fin.castSucc ⟨j + 1, h1⟩)
      rw [← hx] at e e3
      simp only [Fin.val_castSucc] at e e3 e2
      have hd := den_pos (ext_physical p hp (j + 1) (by omega)) (behind_physical p hp (show j + 1 + 1 < n + 1 by omega))
      rw [e, e2, behind_succ p hp h1]
      simp only [star]
      rw [e2] at e3
      have hd' := hd.ne'
      have h2 := div_mul_cancel₀ ((ext p (j + 1)).tauF * (behind p (j + 1 + 1)).rhoF * (ext p (j + 1)).tauB) hd'
      generalize (ext p (j + 1)).tauF * (behind p (j + 1 + 1)).rhoF * (ext p (j + 1)).tauB / (1 - (ext p (j + 1)).rhoB * (behind p (j + 1 + 1)).rhoF) = u at *
      apply mul_right_cancel₀ hd'
      linear_combination (ext p (j + 1)).tauB * (behind p (j + 1 + 1)).rhoF * e3 - f (Fin.castSucc ⟨j + 1, h1⟩) * h2
  have hb' : ∀ j : Fin n, b j.castSucc = (behind p (j + 1)).rhoF * f j.succ := fun j => hb (n - (j + 1)) j (by have := j.isLt; omega)
  have hf : ∀ j : ℕ, ∀ h : j < n + 1, f ⟨j, h⟩ = front p j := by
    intro j
    induction j with
    | zero => intro h; exact H.incident
    | succ j ih =>
      intro h
      have e := H.forth ⟨j, by omega⟩
      rw [hb' ⟨j, by omega⟩] at e
      have hd := den_pos (ext_physical p hp j (by omega)) (behind_physical p hp h)
      have ih' := ih (by omega)
      have hx := ext_fin p (Fin.castSucc ⟨j, by omega⟩)
      rw [← hx] at e
      simp only [Fin.val_castSucc] at e
      apply mul_right_cancel₀ hd.ne'
      rw [front_succ hp (by omega), ← ih']
      have e1 : (Fin.succ ⟨j, by omega⟩ : Fin (n + 1)) = ⟨j + 1, h⟩ := rfl
      have e2 : (Fin.castSucc ⟨j, by omega⟩ : Fin (n + 1)) = ⟨j, by omega⟩ := rfl
      rw [e1, e2] at e
      linear_combination e
  refine ⟨fun j => hf j j.isLt, fun j => ?_⟩
  unfold back
  split_ifs with h
  · have := hb' ⟨j, h⟩
    have e : (Fin.castSucc ⟨j, h⟩ : Fin (n + 1)) = j := rfl
    rw [e] at this
    rw [this]
    congr 1
    exact hf (j + 1) (by omega)
  · have : j = Fin.last n := Fin.ext (by have := j.isLt; simp; omega)
    rw [this, H.dark]

end HLC.Glass
