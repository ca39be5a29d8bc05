import Verif.Spec.ModelHouse
import Verif.Props.ConvRoundTrip
import Mathlib.Tactic.Ring
import Mathlib.Tactic.Linarith
import Mathlib.Tactic.FieldSimp
import Mathlib.Tactic.LinearCombination

/-!
# C64: the standard house
-/

namespace HLC

open HLC.Conv

/-- The sides of a storey of area `a` and shape factor `f`. -/
theorem sides {a f : ℝ} (ha : 0 < a) (hf : 1 ≤ f) :
    (4 * Real.sqrt a * f / 4 + sideDif (4 * Real.sqrt a * f) a) * (4 * Real.sqrt a * f / 4 - sideDif (4 * Real.sqrt a * f) a) = a ∧
      0 < 4 * Real.sqrt a * f / 4 - sideDif (4 * Real.sqrt a * f) a ∧
      0 < 4 * Real.sqrt a * f / 4 + sideDif (4 * Real.sqrt a * f) a ∧ (f = 1 → sideDif (4 * Real.sqrt a * f) a = 0) := by
  have hs := Real.sq_sqrt ha.le
  have hs0 : 0 < Real.sqrt a := Real.sqrt_pos.2 ha
  have hf2 : 1 ≤ f ^ 2 := by nlinarith
  have he : (4 * Real.sqrt a * f / 2) ^ 2 - 4 * a = 4 * a * (f ^ 2 - 1) := by
    have : (4 * Real.sqrt a * f / 2) ^ 2 = 4 * (Real.sqrt a) ^ 2 * f ^ 2 := by ring
    rw [this, hs]; ring
  have hn : 0 ≤ 4 * a * (f ^ 2 - 1) := by
    have := ha.le
    exact mul_nonneg (by linarith) (by linarith)
  have hd : sideDif (4 * Real.sqrt a * f) a = Real.sqrt (4 * a * (f ^ 2 - 1)) / 2 := by
    rw [sideDif, he, max_eq_left hn]
  have hsq := Real.sq_sqrt hn
  have hdn : 0 ≤ sideDif (4 * Real.sqrt a * f) a := by rw [hd]; positivity
  have hprod : (4 * Real.sqrt a * f / 4 + sideDif (4 * Real.sqrt a * f) a) * (4 * Real.sqrt a * f / 4 - sideDif (4 * Real.sqrt a * f) a) = a := by
    rw [hd]
    have : (4 * Real.sqrt a * f / 4 + Real.sqrt (4 * a * (f ^ 2 - 1)) / 2) * (4 * Real.sqrt a * f / 4 - Real.sqrt (4 * a * (f ^ 2 - 1)) / 2) =
      (Real.sqrt a) ^ 2 * f ^ 2 - (Real.sqrt (4 * a * (f ^ 2 - 1))) ^ 2 / 4 := by ring
    rw [this, hs, hsq]; ring
  have hpos : 0 < 4 * Real.sqrt a * f / 4 + sideDif (4 * Real.sqrt a * f) a := by
    have : 0 < 4 * Real.sqrt a * f / 4 := by positivity
    linarith
  refine ⟨hprod, ?_, hpos, ?_⟩
  · by_contra h
    have h := not_lt.1 h
    have := mul_nonneg_of_nonpos_of_nonpos (neg_nonpos.2 hpos.le) h
    linarith
  · rintro rfl
    rw [hd]; simp

theorem pySqrt_pos {a : ℝ} (h : 0 < a) : pySqrt a = .ok (Real.sqrt a) := by
  rw [pySqrt, if_neg (not_lt.2 h.le)]

theorem pyDiv_ne {a b : ℝ} (h : b ≠ 0) : pyDiv a b = .ok (a / b) := by rw [pyDiv, if_neg h]

theorem refusePos_ok {xs : List ℝ} (h : ∀ x ∈ xs, x ≤ 0) : refusePos xs = .ok () := by
  unfold refusePos
  rw [if_neg]
  rintro ⟨x, hx, h0⟩
  exact absurd (h x hx) (not_le.2 h0)

/-- The two storeys of a detached house. -/
theorem two_storeys {a0 a1 f0 f1 : ℝ} (h0 : 0 < a0) (h1 : 0 < a1) :
    getLPrm [a0, a1] [f0, f1] = .ok [4 * Real.sqrt a0 * f0, 4 * Real.sqrt a1 * f1] := by
  simp [getLPrm, pySqrt_pos h0, pySqrt_pos h1, ok_bind, pure, Except.pure]

/-- The shape factors of a detached house. -/
theorem detached_fS {a a0 a1 ho hb he : ℝ} {bath etrc : WetArea} (h0 : 0 < a0) (h1 : 0 < a1) (hho : 0 ≤ ho) :
    ∃ f2, 1 ≤ f2 ∧ getFS "detached" a [a0, a1] [2.9, 2.7] ho hb he bath etrc [1.08, 1.04] = .ok [f2 * 1.08 / 1.04, f2] ∧
      (2 * a0 + 4 * Real.sqrt a0 * (f2 * 1.08 / 1.04) * (2.9 + ho) + 4 * Real.sqrt a1 * f2 * 2.7 + (etrc.outside.sum + etrc.inside) * he +
        (bath.outside.sum + bath.inside) * hb - (etrc.outside.sum + etrc.inside + (bath.outside.sum + bath.inside)) * ho = a ∨
      f2 = 1 ∧ a ≤ 2 * a0 + 4 * Real.sqrt a0 * (f2 * 1.08 / 1.04) * (2.9 + ho) + 4 * Real.sqrt a1 * f2 * 2.7 + (etrc.outside.sum + etrc.inside) * he +
        (bath.outside.sum + bath.inside) * hb - (etrc.outside.sum + etrc.inside + (bath.outside.sum + bath.inside)) * ho) := by
  have s0 := Real.sqrt_pos.2 h0
  have s1 := Real.sqrt_pos.2 h1
  set x := a - 2 * a0 - (etrc.outside.sum + etrc.inside) * he - (bath.outside.sum + bath.inside) * hb +
    (etrc.outside.sum + etrc.inside + (bath.outside.sum + bath.inside)) * ho with hx
  set y := 4 * Real.sqrt a0 * (2.9 + ho) + 4 * Real.sqrt a1 * 1.04 / 1.08 * 2.7 with hy
  have hy0 : 0 < y := by positivity
  refine ⟨max (x / y * 1.04 / 1.08) 1, le_max_right _ _, ?_, ?_⟩
  · have d1 : ∀ z, pyDiv z (1.08 : ℝ) = .ok (z / 1.08) := fun z => pyDiv_ne (by norm_num)
    have d2 : ∀ z, pyDiv z (1.04 : ℝ) = .ok (z / 1.04) := fun z => pyDiv_ne (by norm_num)
    have d3 : ∀ z, pyDiv z y = .ok (z / y) := fun z => pyDiv_ne hy0.ne'
    simp [getFS, onHouse, pySqrt_pos h0, pySqrt_pos h1, ok_bind, d1, d2, d3, ← hx, ← hy, pure, Except.pure]
  · have key : ∀ f2 : ℝ, 2 * a0 + 4 * Real.sqrt a0 * (f2 * 1.08 / 1.04) * (2.9 + ho) + 4 * Real.sqrt a1 * f2 * 2.7 +
        (etrc.outside.sum + etrc.inside) * he + (bath.outside.sum + bath.inside) * hb -
        (etrc.outside.sum + etrc.inside + (bath.outside.sum + bath.inside)) * ho = a - x + f2 * (1.08 / 1.04) * y := by
      intro f2; rw [hx, hy]; ring
    rw [key]
    rcases le_total 1 (x / y * 1.04 / 1.08) with h | h
    · left
      rw [max_eq_left h]
      have : x / y * 1.04 / 1.08 * (1.08 / 1.04) * y = x := by field_simp
      linarith
    · right
      rw [max_eq_right h]
      refine ⟨rfl, ?_⟩
      have h2 : x / y * 1.04 / 1.08 = x * (1.04 / 1.08) / y := by ring
      rw [h2, div_le_one hy0] at h
      have : x ≤ 1 * (1.08 / 1.04) * y := by
        have := mul_le_mul_of_nonneg_left h (show (0 : ℝ) ≤ 1.08 / 1.04 by norm_num)
        calc x = 1.08 / 1.04 * (x * (1.04 / 1.08)) := by ring
          _ ≤ _ := by linarith
      linarith

/-- The shape factor of an attached house. -/
theorem attached_fS {a a0 hb he ho : ℝ} {bath etrc : WetArea} (h0 : 0 < a0) (hhb : hb = 0) (hhe : he = 0) (hho : ho = 0) :
    ∃ f, 1 ≤ f ∧ getFS "attached" a [a0] [2.8] ho hb he bath etrc [1.048215] = .ok [f] ∧
      (2 * a0 + 4 * Real.sqrt a0 * f * 2.8 = a ∨ f = 1 ∧ a ≤ 2 * a0 + 4 * Real.sqrt a0 * f * 2.8) := by
  subst hhb hhe hho
  have s0 := Real.sqrt_pos.2 h0
  have hy0 : 0 < 4 * Real.sqrt a0 * 2.8 := by positivity
  refine ⟨max ((a - 2 * a0) / (4 * Real.sqrt a0 * 2.8)) 1, le_max_right _ _, ?_, ?_⟩
  · simp [getFS, onHouse, pySqrt_pos h0, ok_bind, pyDiv_ne, hy0.ne', pure, Except.pure]
  · have key : ∀ f : ℝ, 4 * Real.sqrt a0 * f * 2.8 = f * (4 * Real.sqrt a0 * 2.8) := fun f => by ring
    rw [key]
    rcases le_total 1 ((a - 2 * a0) / (4 * Real.sqrt a0 * 2.8)) with h | h
    · left
      rw [max_eq_left h, div_mul_cancel₀ _ hy0.ne']
      ring
    · right
      rw [max_eq_right h]
      rw [div_le_one hy0] at h
      exact ⟨rfl, by linarith⟩

/-- The constants of an attached house. -/
noncomputable def attachedConsts : HouseConsts :=
  { dflt := [1.048215], hEtrc := 0, hBath := 0, hOther := 0, h := [2.8], doorEtrc := 1.755, doorBack := 0, etrcMs := 1,
    etrcOs := 1, bathMs := 2.1, bathOs := 1.365, rWindow := ⟨0.6330, 0.1517, 0.2153, 0⟩ }

/-- The constants of a detached house. -/
noncomputable def detachedConsts (hb ho : ℝ) : HouseConsts :=
  { dflt := [1.08, 1.04], hEtrc := 0.18, hBath := hb, hOther := ho, h := [2.9, 2.7], doorEtrc := 1.89, doorBack := 1.62, etrcMs := 1.365,
    etrcOs := 1.82, bathMs := 1.82, bathOs := 1.82, rWindow := ⟨0.6862, 0.0721, 0.1097, 0.1320⟩ }

/-- Entrance and bath room of an attached house. -/
noncomputable def attachedWet (ms os : ℝ) : WetArea := { ef := 0, f := ms * os, outside := ⟨0, 0, 0, 0⟩, inside := 0 }

/-- The shape of an attached house. -/
noncomputable def attachedShape (fl : Option String) (T r f : ℝ) : HouseShape :=
  houseShape "attached" fl r attachedConsts (attachedWet 1 1) (attachedWet 2.1 1.365) [T] [f] [4 * Real.sqrt T * f]
    [4 * Real.sqrt T * f / 4 - sideDif (4 * Real.sqrt T * f) T] [4 * Real.sqrt T * f / 4 + sideDif (4 * Real.sqrt T * f) T] ⟨0, 0, 1.755, 0⟩

theorem calc_attached {fl bath : Option String} {T r : ℝ} {aEnv : Option ℝ} (hf : fl = none ∨ fl = some "floor" ∨ fl = some "base")
    (hb : bath = none ∨ bath = some "base" ∨ bath = some "floor" ∨ bath = some "not_exist") (hT : 0 < T) :
    ∃ f, 1 ≤ f ∧ calcArea "attached" T r fl bath aEnv = .ok (attachedShape fl T r f) ∧
      ∀ a, aEnv = some a → (2 * T + 4 * Real.sqrt T * f * 2.8 = a ∨ f = 1 ∧ a ≤ 2 * T + 4 * Real.sqrt T * f * 2.8) := by
  have hc : houseConsts "attached" fl bath = .ok attachedConsts := by
    obtain ⟨b, hb'⟩ : ∃ b, bathHeight bath = .ok b := by rcases hb with rfl | rfl | rfl | rfl <;> simp [bathHeight]
    rcases hf with rfl | rfl | rfl <;> simp [houseConsts, hb', byFloor, byHouse, ok_bind, attachedConsts]
  have he : getEntrance "attached" fl 1 1 = .ok (attachedWet 1 1) := by
    simp [getEntrance, onHouse, ok_bind, attachedWet, pure, Except.pure]
  have hw : getBath "attached" fl bath 2.1 1.365 = .ok (attachedWet 2.1 1.365) := by
    simp [getBath, onHouse, ok_bind, attachedWet, pure, Except.pure]
  have hF : ∃ f, 1 ≤ f ∧ chooseFS "attached" attachedConsts [T] (attachedWet 2.1 1.365) (attachedWet 1 1) aEnv = .ok [f] ∧
      ∀ a, aEnv = some a → (2 * T + 4 * Real.sqrt T * f * 2.8 = a ∨ f = 1 ∧ a ≤ 2 * T + 4 * Real.sqrt T * f * 2.8) := by
    cases aEnv with
    | none => exact ⟨1.048215, by norm_num, rfl, by simp⟩
    | some a =>
      obtain ⟨f, h1, h2, h3⟩ := attached_fS (a := a) (hb := 0) (he := 0) (ho := 0) (bath := attachedWet 2.1 1.365) (etrc := attachedWet 1 1) hT rfl rfl rfl
      exact ⟨f, h1, h2, fun b hb => by cases hb; exact h3⟩
  obtain ⟨f, h1, h2, h3⟩ := hF
  refine ⟨f, h1, ?_, h3⟩
  have hA : getAF "attached" T 0.77 = .ok [T] := by simp [getAF, onHouse]
  have hL : getLPrm [T] [f] = .ok [4 * Real.sqrt T * f] := by simp [getLPrm, pySqrt_pos hT, ok_bind, pure, Except.pure]
  have hS : getL "attached" [T] [4 * Real.sqrt T * f] = .ok ([4 * Real.sqrt T * f / 4 - sideDif (4 * Real.sqrt T * f) T],
      [4 * Real.sqrt T * f / 4 + sideDif (4 * Real.sqrt T * f) T]) := by simp [getL, byHouse]
  have hD : getDoor 0 1.755 "attached" = .ok ⟨0, 0, 1.755, 0⟩ := by simp [getDoor, byHouse, ok_bind, pure, Except.pure]
  rw [calcArea, hc, ok_bind, hA, ok_bind]
  change (do
    let etrc ← getEntrance "attached" fl 1 1
    let bath ← getBath "attached" fl bath 2.1 1.365
    let fS ← chooseFS "attached" attachedConsts [T] bath etrc aEnv
    let lPrm ← getLPrm [T] fS
    let l ← getL "attached" [T] lPrm
    let door ← getDoor 0 1.755 "attached"
    return houseShape "attached" fl r attachedConsts etrc bath [T] fS lPrm l.1 l.2 door) = _
  rw [he, ok_bind, hw, ok_bind, h2, ok_bind, hL, ok_bind, hS, ok_bind, hD]
  rfl

/-- Entrance and bath room of a detached house, with lengths `(inside, ef, f)` and the walls outside. -/
noncomputable def detachedEntrance (fl : String) : WetArea :=
  { ef := 1.365 * 1.82, f := 0, outside := ⟨0, 1.82, 1.365, 0⟩, inside := if fl = "floor" then 1.365 + 1.82 else 0 }

/-- The bath room of a detached house, on an earth floor or not. -/
noncomputable def detachedBath (fl : String) (ground : Bool) : WetArea :=
  if ground then { ef := 1.82 * 1.82, f := 0, outside := ⟨0, 1.82, 1.82, 0⟩, inside := if fl = "floor" then 1.82 + 1.82 else 0 }
  else { ef := 0, f := 1.82 * 1.82, outside := ⟨0, 0, 0, 0⟩, inside := 0 }

/-- The shape of a detached house. -/
noncomputable def detachedShape (fl : String) (hb ho : ℝ) (bath : WetArea) (T r f0 f1 : ℝ) : HouseShape :=
  houseShape "detached" (some fl) r (detachedConsts hb ho) (detachedEntrance fl) bath [T / (1 + 0.77), T * 0.77 / (1 + 0.77)] [f0, f1]
    [4 * Real.sqrt (T / (1 + 0.77)) * f0, 4 * Real.sqrt (T * 0.77 / (1 + 0.77)) * f1]
    [4 * Real.sqrt (T / (1 + 0.77)) * f0 / 4 + sideDif (4 * Real.sqrt (T / (1 + 0.77)) * f0) (T / (1 + 0.77)),
     4 * Real.sqrt (T * 0.77 / (1 + 0.77)) * f1 / 4 + sideDif (4 * Real.sqrt (T * 0.77 / (1 + 0.77)) * f1) (T * 0.77 / (1 + 0.77))]
    [4 * Real.sqrt (T / (1 + 0.77)) * f0 / 4 - sideDif (4 * Real.sqrt (T / (1 + 0.77)) * f0) (T / (1 + 0.77)),
     4 * Real.sqrt (T * 0.77 / (1 + 0.77)) * f1 / 4 - sideDif (4 * Real.sqrt (T * 0.77 / (1 + 0.77)) * f1) (T * 0.77 / (1 + 0.77))]
    ⟨0, 1.89, 1.62, 0⟩

theorem calc_detached {fl : String} {bath : Option String} {T r hb ho : ℝ} {aEnv : Option ℝ} {b : WetArea} (hfl : fl = "floor" ∨ fl = "base")
    (hc : houseConsts "detached" (some fl) bath = .ok (detachedConsts hb ho)) (hho : 0 ≤ ho)
    (hw : getBath "detached" (some fl) bath 1.82 1.82 = .ok b) (hT : 0 < T) :
    ∃ f0 f1, 1 ≤ f0 ∧ 1 ≤ f1 ∧ calcArea "detached" T r (some fl) bath aEnv = .ok (detachedShape fl hb ho b T r f0 f1) ∧
      ∀ a, aEnv = some a → ∀ total, total = 2 * (T / (1 + 0.77)) + 4 * Real.sqrt (T / (1 + 0.77)) * f0 * (2.9 + ho) +
          4 * Real.sqrt (T * 0.77 / (1 + 0.77)) * f1 * 2.7 +
          ((detachedEntrance fl).outside.sum + (detachedEntrance fl).inside) * 0.18 + (b.outside.sum + b.inside) * hb -
          ((detachedEntrance fl).outside.sum + (detachedEntrance fl).inside + (b.outside.sum + b.inside)) * ho →
        (total = a ∨ f1 = 1 ∧ f0 = 1.08 / 1.04 ∧ a ≤ total) := by
  have ha0 : 0 < T / (1 + 0.77) := by positivity
  have ha1 : 0 < T * 0.77 / (1 + 0.77) := by positivity
  have he : getEntrance "detached" (some fl) 1.365 1.82 = .ok (detachedEntrance fl) := by
    rcases hfl with rfl | rfl <;> simp [getEntrance, onHouse, onFloor, ok_bind, detachedEntrance, pure, Except.pure]
  have hF : ∃ f0 f1, 1 ≤ f0 ∧ 1 ≤ f1 ∧
      chooseFS "detached" (detachedConsts hb ho) [T / (1 + 0.77), T * 0.77 / (1 + 0.77)] b (detachedEntrance fl) aEnv = .ok [f0, f1] ∧
      ∀ a, aEnv = some a → ∀ total, total = 2 * (T / (1 + 0.77)) + 4 * Real.sqrt (T / (1 + 0.77)) * f0 * (2.9 + ho) +
          4 * Real.sqrt (T * 0.77 / (1 + 0.77)) * f1 * 2.7 +
          ((detachedEntrance fl).outside.sum + (detachedEntrance fl).inside) * 0.18 + (b.outside.sum + b.inside) * hb -
          ((detachedEntrance fl).outside.sum + (detachedEntrance fl).inside + (b.outside.sum + b.inside)) * ho →
        (total = a ∨ f1 = 1 ∧ f0 = 1.08 / 1.04 ∧ a ≤ total) := by
    cases aEnv with
    | none => exact ⟨1.08, 1.04, by norm_num, by norm_num, rfl, by simp⟩
    | some a =>
      obtain ⟨f, h1, h2, h3⟩ := detached_fS (a := a) (hb := hb) (he := 0.18) (ho := ho) (bath := b) (etrc := detachedEntrance fl) ha0 ha1 hho
      refine ⟨f * 1.08 / 1.04, f, ?_, h1, h2, fun a' ha' total ht => ?_⟩
      · have : f * 1.08 / 1.04 = f * (1.08 / 1.04) := by ring
        rw [this]
        exact h1.trans (le_mul_of_one_le_right (by linarith) (by norm_num))
      · cases ha'
        rw [ht]
        rcases h3 with h | ⟨h, h'⟩
        · exact .inl h
        · exact .inr ⟨h, by rw [h, one_mul], h'⟩
  obtain ⟨f0, f1, h1, h1', h2, h3⟩ := hF
  refine ⟨f0, f1, h1, h1', ?_, h3⟩
  have hA : getAF "detached" T 0.77 = .ok [T / (1 + 0.77), T * 0.77 / (1 + 0.77)] := by
    have d : ∀ z, pyDiv z (1 + 0.77 : ℝ) = .ok (z / (1 + 0.77)) := fun z => pyDiv_ne (by norm_num)
    simp only [getAF, onHouse, if_true, d, ok_bind]
    rfl
  have hL := two_storeys (f0 := f0) (f1 := f1) ha0 ha1
  have hS : getL "detached" [T / (1 + 0.77), T * 0.77 / (1 + 0.77)]
      [4 * Real.sqrt (T / (1 + 0.77)) * f0, 4 * Real.sqrt (T * 0.77 / (1 + 0.77)) * f1] =
      .ok ([4 * Real.sqrt (T / (1 + 0.77)) * f0 / 4 + sideDif (4 * Real.sqrt (T / (1 + 0.77)) * f0) (T / (1 + 0.77)),
     4 * Real.sqrt (T * 0.77 / (1 + 0.77)) * f1 / 4 + sideDif (4 * Real.sqrt (T * 0.77 / (1 + 0.77)) * f1) (T * 0.77 / (1 + 0.77))],
    [4 * Real.sqrt (T / (1 + 0.77)) * f0 / 4 - sideDif (4 * Real.sqrt (T / (1 + 0.77)) * f0) (T / (1 + 0.77)),
     4 * Real.sqrt (T * 0.77 / (1 + 0.77)) * f1 / 4 - sideDif (4 * Real.sqrt (T * 0.77 / (1 + 0.77)) * f1) (T * 0.77 / (1 + 0.77))]) := by
    rfl
  have hD : getDoor 1.62 1.89 "detached" = .ok ⟨0, 1.89, 1.62, 0⟩ := by simp [getDoor, byHouse, ok_bind, pure, Except.pure]
  rw [calcArea, hc, ok_bind, hA, ok_bind]
  change (do
    let etrc ← getEntrance "detached" (some fl) 1.365 1.82
    let bath ← getBath "detached" (some fl) bath 1.82 1.82
    let fS ← chooseFS "detached" (detachedConsts hb ho) [T / (1 + 0.77), T * 0.77 / (1 + 0.77)] bath etrc aEnv
    let lPrm ← getLPrm [T / (1 + 0.77), T * 0.77 / (1 + 0.77)] fS
    let l ← getL "detached" [T / (1 + 0.77), T * 0.77 / (1 + 0.77)] lPrm
    let door ← getDoor 1.62 1.89 "detached"
    return houseShape "detached" (some fl) r (detachedConsts hb ho) etrc bath [T / (1 + 0.77), T * 0.77 / (1 + 0.77)] fS lPrm l.1 l.2 door) = _
  rw [he, ok_bind, hw, ok_bind, h2, ok_bind, hL, ok_bind, hS, ok_bind, hD]
  rfl

/-- The parts of an attached house. -/
noncomputable def attachedParts (s : HouseShape) : HouseNoSpec :=
  { gps := [inner "roof" .upwardBoundaryFloor .airConditioned .upward s.roof, outer "wall_sw" .wall .sw s.wall.d0, outer "wall_nw" .wall .nw s.wall.d90,
      inner "wall_ne" .wall .openSpace .horizontal s.wall.d180, inner "wall_se" .boundaryWall .airConditioned .horizontal s.wall.d270,
      inner "floor" .downwardBoundaryFloor .airConditioned .downward s.fTotal],
    ws := [eavesWindow "window_sw" .outdoor .sw s.window.d0, eavesWindow "window_nw" .outdoor .nw s.window.d90,
      eavesWindow "window_ne" .openSpace .horizontal s.window.d180],
    ds := [{ name := "door_ne", nextSpace := .openSpace, direction := .horizontal, area := s.door.d180, spaceType := .undefined,
             sunshade := .notDefined }],
    eps := [], ecs := [] }

theorem noSpec_attached {s : HouseShape} (ht : s.houseType = "attached")
    (h : ∀ x ∈ [s.window.d270, s.door.d0, s.door.d90, s.door.d270, s.efTotal, s.baseOutside.d0, s.baseOutside.d90, s.baseOutside.d180,
      s.baseOutside.d270, s.baseInside, s.lBaseOutside.d0, s.lBaseOutside.d90, s.lBaseOutside.d180, s.lBaseOutside.d270, s.lBaseInside], x ≤ 0) :
    noSpec s = .ok (attachedParts s) := by
  simp only [List.forall_mem_cons, List.not_mem_nil, false_implies, implies_true, and_true] at h
  obtain ⟨h1, h2, h3, h4, h5, h6, h7, h8, h9, h10, h11, h12, h13, h14, h15⟩ := h
  have e : "attached" ≠ "detached" := by decide
  simp only [noSpec, ht, onHouse, if_neg e, if_true, ok_bind]
  rw [refusePos_ok (by simpa using h1), refusePos_ok (xs := [s.door.d0, s.door.d90, s.door.d270]) (by simpa using ⟨h2, h3, h4⟩),
    refusePos_ok (xs := [s.efTotal]) (by simpa using h5),
    refusePos_ok (xs := [s.baseOutside.d0, s.baseOutside.d90, s.baseOutside.d180, s.baseOutside.d270]) (by simpa using ⟨h6, h7, h8, h9⟩),
    refusePos_ok (xs := [s.baseInside]) (by simpa using h10),
    refusePos_ok (xs := [s.lBaseOutside.d0, s.lBaseOutside.d90, s.lBaseOutside.d180, s.lBaseOutside.d270]) (by simpa using ⟨h11, h12, h13, h14⟩),
    refusePos_ok (xs := [s.lBaseInside]) (by simpa using h15)]
  rfl

/-- The parts of a detached house. -/
noncomputable def detachedParts (fl : String) (s : HouseShape) : HouseNoSpec :=
  { gps := [outer "roof" .ceiling .top s.roof, outer "wall_sw" .wall .sw s.wall.d0, outer "wall_nw" .wall .nw s.wall.d90,
      outer "wall_ne" .wall .ne s.wall.d180, outer "wall_se" .wall .se s.wall.d270] ++
      if fl = "floor" then [inner "floor" .floor .openUnderfloor .downward s.fTotal,
        outer "base_outside_nw" .wall .nw s.baseOutside.d90, outer "base_outside_ne" .wall .ne s.baseOutside.d180,
        inner "base_inside" .wall .openUnderfloor .horizontal s.baseInside]
      else [outer "base_outside_sw" .wall .sw s.baseOutside.d0, outer "base_outside_nw" .wall .nw s.baseOutside.d90,
            outer "base_outside_ne" .wall .ne s.baseOutside.d180, outer "base_outside_se" .wall .se s.baseOutside.d270],
    ws := [eavesWindow "window_sw" .outdoor .sw s.window.d0, eavesWindow "window_nw" .outdoor .nw s.window.d90,
          eavesWindow "window_ne" .outdoor .ne s.window.d180, eavesWindow "window_se" .outdoor .se s.window.d270],
    ds := [{ name := "door_nw", nextSpace := .outdoor, direction := .nw, area := s.door.d90, spaceType := .undefined, sunshade := .notInput },
              { name := "door_ne", nextSpace := .outdoor, direction := .ne, area := s.door.d180, spaceType := .undefined, sunshade := .notInput }],
    eps := if fl = "floor" then [perimeter "earth_floor_perimeter_nw" .outdoor s.lBaseOutside.d90,
        perimeter "earth_floor_perimeter_ne" .outdoor s.lBaseOutside.d180, perimeter "earth_floor_perimeter_inside" .openUnderfloor s.lBaseInside]
      else [perimeter "earth_floor_perimeter_sw" .outdoor s.lBaseOutside.d0, perimeter "earth_floor_perimeter_nw" .outdoor s.lBaseOutside.d90,
            perimeter "earth_floor_perimeter_ne" .outdoor s.lBaseOutside.d180, perimeter "earth_floor_perimeter_se" .outdoor s.lBaseOutside.d270],
    ecs := [{ name := "earth_floor", area := s.efTotal, spaceType := "undefined" }] }

theorem noSpec_floor {s : HouseShape} (ht : s.houseType = "detached") (hf : s.floorIns = some "floor")
    (h : ∀ x ∈ [s.door.d0, s.door.d270, s.baseOutside.d0, s.baseOutside.d270, s.lBaseOutside.d0, s.lBaseOutside.d270], x ≤ 0) :
    noSpec s = .ok (detachedParts "floor" s) := by
  simp only [List.forall_mem_cons, List.not_mem_nil, false_implies, implies_true, and_true] at h
  obtain ⟨h1, h2, h3, h4, h5, h6⟩ := h
  simp only [noSpec, ht, hf, onHouse, onFloor, if_true, ok_bind]
  rw [refusePos_ok (xs := [s.door.d0, s.door.d270]) (by simpa using ⟨h1, h2⟩),
    refusePos_ok (xs := [s.baseOutside.d0, s.baseOutside.d270]) (by simpa using ⟨h3, h4⟩),
    refusePos_ok (xs := [s.lBaseOutside.d0, s.lBaseOutside.d270]) (by simpa using ⟨h5, h6⟩)]
  rfl

theorem noSpec_base {s : HouseShape} (ht : s.houseType = "detached") (hf : s.floorIns = some "base")
    (h : ∀ x ∈ [s.door.d0, s.door.d270, s.fTotal, s.baseInside, s.lBaseInside], x ≤ 0) :
    noSpec s = .ok (detachedParts "base" s) := by
  simp only [List.forall_mem_cons, List.not_mem_nil, false_implies, implies_true, and_true] at h
  obtain ⟨h1, h2, h3, h4, h5⟩ := h
  have e : (some "base" : Option String) ≠ some "floor" := by decide
  simp only [noSpec, ht, hf, onHouse, onFloor, if_true, if_neg e, ok_bind]
  rw [refusePos_ok (xs := [s.door.d0, s.door.d270]) (by simpa using ⟨h1, h2⟩),
    refusePos_ok (xs := [s.fTotal]) (by simpa using h3),
    refusePos_ok (xs := [s.baseInside]) (by simpa using h4),
    refusePos_ok (xs := [s.lBaseInside]) (by simpa using h5)]
  rfl

theorem detached_total {fl : String} {T r hb ho f0 f1 : ℝ} {g : Bool}
    (hfl : fl = "base" ∧ g = true ∧ hb = 0.5 ∧ ho = 0.5 ∨ fl = "floor" ∧ ho = 0) :
    (detachedShape fl hb ho (detachedBath fl g) T r f0 f1).total =
        2 * (T / (1 + 0.77)) + 4 * Real.sqrt (T / (1 + 0.77)) * f0 * (2.9 + ho) +
          4 * Real.sqrt (T * 0.77 / (1 + 0.77)) * f1 * 2.7 +
          ((detachedEntrance fl).outside.sum + (detachedEntrance fl).inside) * 0.18 +
          ((detachedBath fl g).outside.sum + (detachedBath fl g).inside) * hb -
          ((detachedEntrance fl).outside.sum + (detachedEntrance fl).inside + ((detachedBath fl g).outside.sum + (detachedBath fl g).inside)) * ho := by
  rcases hfl with ⟨rfl, rfl, rfl, rfl⟩ | ⟨rfl, rfl⟩
  · simp [detachedShape, houseShape, detachedConsts, detachedEntrance, detachedBath, efOther, lBaseOther, Four.add3, Four.scale, Four.sum,
      srfTotal]
    ring
  · cases g <;>
      (simp [detachedShape, houseShape, detachedConsts, detachedEntrance, detachedBath, efOther, lBaseOther, Four.add3, Four.scale, Four.sum,
        srfTotal]
       ring)

theorem detached_house {fl : String} {bath : Option String} {T r hb ho : ℝ} {aEnv : Option ℝ} {g : Bool}
    (hfl : fl = "base" ∧ g = true ∧ hb = 0.5 ∧ ho = 0.5 ∨ fl = "floor" ∧ ho = 0)
    (hc : houseConsts "detached" (some fl) bath = .ok (detachedConsts hb ho))
    (hw : getBath "detached" (some fl) bath 1.82 1.82 = .ok (detachedBath fl g)) (hT : 0 < T) :
    ∃ s p, calcArea "detached" T r (some fl) bath aEnv = .ok s ∧ noSpec s = .ok p ∧ s.aF.sum = T ∧ Spec.Rectangles s.lMs s.lOs s.aF ∧
      Spec.envelopeTotal p = s.total ∧ Spec.lowestFloor p = s.aF.headD 0 ∧ (∀ g ∈ p.gps, g.name = "roof" → g.area = s.aF.headD 0) ∧
      Spec.openings p = r * (Spec.envelopeTotal p - Spec.foundations p) ∧
      ∀ a, aEnv = some a → a ≤ s.total ∧ (s.total = a ∨ Spec.SomeSquare s.lMs s.lOs) := by
  have ha0 : 0 < T / (1 + 0.77) := by positivity
  have ha1 : 0 < T * 0.77 / (1 + 0.77) := by positivity
  have hfl' : fl = "floor" ∨ fl = "base" := by rcases hfl with ⟨h, -⟩ | ⟨h, -⟩ <;> simp [h]
  have hho : 0 ≤ ho := by rcases hfl with ⟨-, -, -, h⟩ | ⟨-, h⟩ <;> rw [h]; norm_num
  obtain ⟨f0, f1, h0, h1, hs, hE⟩ := calc_detached (r := r) (aEnv := aEnv) hfl' hc hho hw hT
  obtain ⟨hp, hm, ho', hq⟩ := sides ha0 h0
  obtain ⟨hp1, hm1, ho1, hq1⟩ := sides ha1 h1
  have hn : noSpec (detachedShape fl hb ho (detachedBath fl g) T r f0 f1) =
      .ok (detachedParts fl (detachedShape fl hb ho (detachedBath fl g) T r f0 f1)) := by
    rcases hfl with ⟨rfl, rfl, rfl, rfl⟩ | ⟨rfl, rfl⟩
    · refine noSpec_base rfl rfl ?_
      simp [detachedShape, houseShape, detachedConsts, detachedEntrance, detachedBath, efOther]
    · refine noSpec_floor rfl rfl ?_
      cases g <;> simp [detachedShape, houseShape, detachedConsts, detachedEntrance, detachedBath, lBaseOther, Four.add3, Four.scale]
  refine ⟨_, _, hs, hn, ?_, ?_, ?_, ?_, ?_, ?_, ?_⟩
  · simp only [detachedShape, houseShape, List.sum_cons, List.sum_nil]
    ring
  · refine ⟨?_, rfl⟩
    exact .cons ⟨ho', hm, hp⟩ (.cons ⟨ho1, hm1, hp1⟩ .nil)
  · rcases hfl with ⟨rfl, rfl, rfl, rfl⟩ | ⟨rfl, rfl⟩
    · simp [Spec.envelopeTotal, detachedParts, detachedShape, houseShape, detachedConsts, detachedEntrance, detachedBath, efOther, lBaseOther,
        Four.add3, Four.scale, Four.sum, srfTotal, outer, eavesWindow]
      ring
    · cases g <;>
        (simp [Spec.envelopeTotal, detachedParts, detachedShape, houseShape, detachedConsts, detachedEntrance, detachedBath, efOther, lBaseOther,
          Four.add3, Four.scale, Four.sum, srfTotal, inner, outer, eavesWindow]
         ring)
  · rcases hfl with ⟨rfl, rfl, rfl, rfl⟩ | ⟨rfl, rfl⟩
    · simp [Spec.lowestFloor, detachedParts, detachedShape, houseShape, detachedEntrance, detachedBath, efOther, outer]
    · cases g <;>
        (simp [Spec.lowestFloor, detachedParts, detachedShape, houseShape, detachedEntrance, detachedBath, efOther, inner, outer]
         try ring)
  · rcases hfl with ⟨rfl, rfl, rfl, rfl⟩ | ⟨rfl, rfl⟩ <;> simp [detachedParts, detachedShape, houseShape, inner, outer]
  · rcases hfl with ⟨rfl, rfl, rfl, rfl⟩ | ⟨rfl, rfl⟩
    · simp [Spec.openings, Spec.foundations, Spec.envelopeTotal, detachedParts, detachedShape, houseShape, detachedConsts, detachedEntrance,
        detachedBath, efOther, lBaseOther, Four.add3, Four.scale, Four.sum, srfTotal, outer, eavesWindow]
      ring
    · cases g <;>
        (simp [Spec.openings, Spec.foundations, Spec.envelopeTotal, detachedParts, detachedShape, houseShape, detachedConsts, detachedEntrance,
          detachedBath, efOther, lBaseOther, Four.add3, Four.scale, Four.sum, srfTotal, inner, outer, eavesWindow]
         ring)
  · intro a ha
    have ht := detached_total (T := T) (r := r) (f0 := f0) (f1 := f1) hfl
    rcases hE a ha _ ht with h | ⟨h, -, h'⟩
    · exact ⟨h.ge, .inl h⟩
    · refine ⟨h', .inr ⟨(_, _), List.mem_cons_of_mem _ List.mem_cons_self, ?_⟩⟩
      simp only [hq1 h]
      ring

/-- **C64.** For every kind of standard house, positive floor area, window ratio and (optional) required envelope area, the
program produces a house: its floor areas add up to the required one, its storeys are rectangles with these areas, its
parts have the total area the program reports, its roof and its lowest floor have the area of the ground floor, and
openings are the given ratio of the envelope without foundations. If an envelope area was required, the house has it,
unless that is too small: then a storey is already a square and the house has a larger envelope. -/
theorem C64_house {ht : String} {fl bath : Option String} {T r : ℝ} {aEnv : Option ℝ} (hk : Spec.HouseKind ht fl bath) (hT : 0 < T) :
    ∃ s p, calcArea ht T r fl bath aEnv = .ok s ∧ noSpec s = .ok p ∧ s.aF.sum = T ∧ Spec.Rectangles s.lMs s.lOs s.aF ∧
      Spec.envelopeTotal p = s.total ∧ Spec.lowestFloor p = s.aF.headD 0 ∧ (∀ g ∈ p.gps, g.name = "roof" → g.area = s.aF.headD 0) ∧
      Spec.openings p = r * (Spec.envelopeTotal p - Spec.foundations p) ∧
      ∀ a, aEnv = some a → a ≤ s.total ∧ (s.total = a ∨ Spec.SomeSquare s.lMs s.lOs) := by
  cases hk with
  | attached hf hb =>
    obtain ⟨f, h1, hc, hE⟩ := calc_attached (r := r) (aEnv := aEnv) hf hb hT
    obtain ⟨hp, hm, ho, hq⟩ := sides hT h1
    refine ⟨_, _, hc, noSpec_attached rfl ?_, ?_, ?_, ?_, ?_, ?_, ?_, ?_⟩
    · simp [attachedShape, houseShape, attachedConsts, attachedWet, efOther, lBaseOther, Four.add3, Four.scale]
    · simp [attachedShape, houseShape]
    · refine ⟨?_, rfl⟩
      simp only [attachedShape, houseShape, List.zip_cons_cons, List.zip_nil_right]
      exact .cons ⟨hm, ho, by rw [mul_comm]; exact hp⟩ .nil
    · simp [Spec.envelopeTotal, attachedParts, attachedShape, houseShape, attachedConsts, attachedWet, efOther, lBaseOther, Four.add3, Four.scale,
        Four.sum, srfTotal, inner, outer, eavesWindow]
      ring
    · simp [Spec.lowestFloor, attachedParts, attachedShape, houseShape, attachedConsts, attachedWet, efOther, inner, outer]
    · simp [attachedParts, attachedShape, houseShape, inner, outer]
    · simp [Spec.openings, Spec.foundations, Spec.envelopeTotal, attachedParts, attachedShape, houseShape, attachedConsts, attachedWet, efOther,
        lBaseOther, Four.add3, Four.scale, Four.sum, srfTotal, inner, outer, eavesWindow]
      ring
    · intro a ha
      have ht : (attachedShape fl T r f).total = 2 * T + 4 * Real.sqrt T * f * 2.8 := by
        simp [attachedShape, houseShape, attachedConsts, attachedWet, efOther, lBaseOther, Four.add3, Four.scale, Four.sum, srfTotal]
        ring
      rw [ht]
      rcases hE a ha with h | ⟨h, h'⟩
      · exact ⟨h.ge, .inl h⟩
      · refine ⟨h', .inr ⟨(_, _), List.mem_cons_self, ?_⟩⟩
        simp only [hq h]
        ring
  | base hb =>
    refine detached_house (hb := 0.5) (ho := 0.5) (g := true) (.inl ⟨rfl, rfl, rfl, rfl⟩) ?_ ?_ hT
    · obtain ⟨b, hb'⟩ : ∃ b, bathHeight bath = .ok b := by rcases hb with rfl | rfl | rfl | rfl <;> simp [bathHeight]
      simp [houseConsts, hb', byFloor, byHouse, ok_bind, detachedConsts]
    · simp [getBath, onHouse, onFloor, ok_bind, detachedBath, pure, Except.pure]
  | @floor b hb =>
    rcases hb with rfl | rfl | rfl
    · refine detached_house (hb := 0.5) (ho := 0) (g := true) (.inr ⟨rfl, rfl⟩) ?_ ?_ hT
      · simp [houseConsts, bathHeight, byFloor, byHouse, ok_bind, detachedConsts]
      · simp [getBath, onHouse, onFloor, onBath, ok_bind, detachedBath, pure, Except.pure]
    all_goals
      refine detached_house (hb := 0) (ho := 0) (g := false) (.inr ⟨rfl, rfl⟩) ?_ ?_ hT
      · simp [houseConsts, bathHeight, byFloor, byHouse, ok_bind, detachedConsts]
      · simp [getBath, onHouse, onFloor, onBath, ok_bind, detachedBath, pure, Except.pure]

/-- **C64.** An attached house has the required envelope exactly, if this is at least that of a house with square plan. -/
theorem C64_attached_exact {fl bath : Option String} {T r a : ℝ} (hf : fl = none ∨ fl = some "floor" ∨ fl = some "base")
    (hb : bath = none ∨ bath = some "base" ∨ bath = some "floor" ∨ bath = some "not_exist") (hT : 0 < T)
    (ha : 2 * T + 4 * Real.sqrt T * 2.8 ≤ a) :
    ∃ s, calcArea "attached" T r fl bath (some a) = .ok s ∧ s.total = a := by
  obtain ⟨f, h1, hc, hE⟩ := calc_attached (r := r) (aEnv := some a) hf hb hT
  refine ⟨_, hc, ?_⟩
  have ht : (attachedShape fl T r f).total = 2 * T + 4 * Real.sqrt T * f * 2.8 := by
    simp [attachedShape, houseShape, attachedConsts, attachedWet, efOther, lBaseOther, Four.add3, Four.scale, Four.sum, srfTotal]
    ring
  rw [ht]
  rcases hE a rfl with h | ⟨h, h'⟩
  · exact h
  · subst h
    rw [mul_one] at h' ⊢
    exact le_antisymm ha h'

/-- **C64.** A detached house with insulated floor and a bath room with insulated foundation has the required envelope
exactly, if this is at least that of a house with a square upper storey. -/
theorem C64_detached_exact {T r a : ℝ} (hT : 0 < T)
    (ha : 2 * (T / 1.77) + 4 * Real.sqrt (T / 1.77) * (1.08 / 1.04) * 2.9 + 4 * Real.sqrt (T * 0.77 / 1.77) * 2.7 + 6.37 * 0.18 + 7.28 * 0.5 ≤ a) :
    ∃ s, calcArea "detached" T r (some "floor") (some "base") (some a) = .ok s ∧ s.total = a := by
  have hh : ("floor" = "base" ∧ true = true ∧ (0.5 : ℝ) = 0.5 ∧ (0 : ℝ) = 0.5 ∨ "floor" = "floor" ∧ (0 : ℝ) = 0) := .inr ⟨rfl, rfl⟩
  obtain ⟨f0, f1, h0, h1, hs, hE⟩ := calc_detached (r := r) (aEnv := some a) (hb := 0.5) (ho := 0) (bath := some "base")
    (b := detachedBath "floor" true) (.inl rfl)
    (by simp [houseConsts, bathHeight, byFloor, byHouse, ok_bind, detachedConsts]) le_rfl
    (by simp [getBath, onHouse, onFloor, onBath, ok_bind, detachedBath, pure, Except.pure]) hT
  refine ⟨_, hs, ?_⟩
  have ht := detached_total (T := T) (r := r) (f0 := f0) (f1 := f1) hh
  rcases hE a rfl _ ht with h | ⟨h, h2, h'⟩
  · exact h
  · refine le_antisymm ?_ h'
    refine le_trans (le_of_eq ?_) ha
    rw [ht, h, h2]
    have e : (1 + 0.77 : ℝ) = 1.77 := by norm_num
    simp only [detachedEntrance, detachedBath, Four.sum, if_true, e]
    ring

/-- The house of `convert_indices_to_lv2_info.py` 208-225. -/
theorem C64_example : ∃ s p, calcArea "detached" 90 0.1 (some "floor") (some "base") (some 266.1) = .ok s ∧ noSpec s = .ok p ∧
    s.aF.sum = 90 ∧ Spec.envelopeTotal p = 266.1 := by
  obtain ⟨s, p, h1, h2, h3, -, h4, -⟩ := C64_house (T := 90) (r := 0.1) (aEnv := some 266.1) (.floor (b := "base") (.inl rfl)) (by norm_num)
  obtain ⟨s', h1', h5⟩ := C64_detached_exact (T := 90) (r := 0.1) (a := 266.1) (by norm_num) (by
    have e1 : Real.sqrt (90 / 1.77) ≤ 7.14 := Real.sqrt_le_iff.2 ⟨by norm_num, by norm_num⟩
    have e2 : Real.sqrt (90 * 0.77 / 1.77) ≤ 6.26 := Real.sqrt_le_iff.2 ⟨by norm_num, by norm_num⟩
    norm_num at e1 e2 ⊢
    linarith)
  rw [h1] at h1'
  cases h1'
  exact ⟨s, p, h1, h2, h3, h4.trans h5⟩

end HLC
