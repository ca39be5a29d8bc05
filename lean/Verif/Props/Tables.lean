import Verif.Model.Tables
import Mathlib.Tactic.FinCases
import Mathlib.Tactic.NormNum
import Mathlib.Tactic.Linarith
import Mathlib.Tactic.IntervalCases

/-!
# C56: temperature difference coefficients and direction coefficients
-/

namespace HLC

set_option linter.unnecessarySeqFocus false

theorem region8_ok {α : Type} (f : Fin 8 → α) (i : Fin 8) : region8 f ((i : ℕ) + 1 : ℤ) = .ok (f i) := by
  unfold region8
  have hi := i.isLt
  rw [dif_pos (by omega)]
  congr 2
  ext
  simp

theorem region8_error {α : Type} (f : Fin 8 → α) {r : ℤ} (h : r < 1 ∨ 8 < r) : region8 f r = .error .keyError := by
  unfold region8
  rw [dif_neg (by omega)]

/-- Every region number from 1 to 8 is one of eight. -/
theorem region_cases {r : ℤ} (h : 1 ≤ r ∧ r ≤ 8) : ∃ i : Fin 8, r = ((i : ℕ) + 1 : ℤ) := ⟨⟨(r - 1).toNat, by omega⟩, by simp; omega⟩

/-- **C56 (spaces).** For every region 1..8 and every adjacent space the coefficient is defined and in (0, 1]; it is 1 exactly for spaces
open to the outdoors, and the less a space is connected to the outdoors the lower it is. Every other region raises KeyError, whatever the
space. -/
theorem C56_spaces (sp : NextSpace) (r : ℤ) :
    (1 ≤ r ∧ r ≤ 8 → ∃ v, sp.getH r = .ok v ∧ 0 < v ∧ v ≤ 1 ∧ (v = 1 ↔ sp = .outdoor ∨ sp = .openSpace) ∧
      (v = 0.7 ↔ sp = .closedSpace ∨ sp = .openUnderfloor) ∧
      (sp = .airConditioned ∨ sp = .closedUnderfloor → v = if r ≤ 3 then 0.05 else 0.15)) ∧
    (¬ (1 ≤ r ∧ r ≤ 8) → sp.getH r = .error .keyError) := by
  constructor
  · intro h
    obtain ⟨i, rfl⟩ := region_cases h
    simp only [NextSpace.getH, region8_ok, Bind.bind, Except.bind]
    fin_cases i <;> cases sp <;> simp <;> norm_num
  · intro h
    have h' : r < 1 ∨ 8 < r := by omega
    simp only [NextSpace.getH, region8_error _ h', Bind.bind, Except.bind]

/-- **C56 (names).** Names and members of the enumerations correspond one to one; unknown names raise ValueError. -/
theorem C56_names (s : String) :
    (∀ sp : NextSpace, NextSpace.ofValue sp.value = .ok sp) ∧ (∀ d : Direction, Direction.ofValue d.value = .ok d) ∧
    ((∀ sp : NextSpace, sp.value ≠ s) → NextSpace.ofValue s = .error .valueError) ∧
    ((∀ d : Direction, d.value ≠ s) → Direction.ofValue s = .error .valueError) := by
  refine ⟨by intro sp; cases sp <;> rfl, by intro d; cases d <;> rfl, ?_, ?_⟩
  · intro h
    have h1 := h .outdoor; have h2 := h .openSpace; have h3 := h .closedSpace
    have h4 := h .airConditioned; have h5 := h .openUnderfloor; have h6 := h .closedUnderfloor
    simp only [NextSpace.value] at *
    unfold NextSpace.ofValue
    rw [if_neg h1.symm, if_neg h2.symm, if_neg h3.symm, if_neg h4.symm, if_neg h5.symm, if_neg h6.symm]
  · intro h
    have h1 := h .top; have h2 := h .n; have h3 := h .ne; have h4 := h .e; have h5 := h .se; have h6 := h .s; have h7 := h .sw
    have h8 := h .w; have h9 := h .nw; have h10 := h .bottom; have h11 := h .upward; have h12 := h .horizontal; have h13 := h .downward
    simp only [Direction.value] at *
    unfold Direction.ofValue
    rw [if_neg h1.symm, if_neg h2.symm, if_neg h3.symm, if_neg h4.symm, if_neg h5.symm, if_neg h6.symm, if_neg h7.symm, if_neg h8.symm,
      if_neg h9.symm, if_neg h10.symm, if_neg h11.symm, if_neg h12.symm, if_neg h13.symm]

/-- The eight compass directions. -/
def Spec.Compass (d : Direction) : Prop := d ≠ .top ∧ d ≠ .bottom ∧ d ≠ .upward ∧ d ≠ .horizontal ∧ d ≠ .downward

/-- The directions that are in the tables. -/
def Spec.InTable (d : Direction) : Prop := d ≠ .upward ∧ d ≠ .horizontal ∧ d ≠ .downward

open Spec

theorem getNu_cooling (d : Direction) (i : Fin 8) : d.getNu ((i : ℕ) + 1 : ℤ) "cooling" = (nuCooling d).bind fun row => .ok (row i) := by
  unfold Direction.getNu
  rw [if_neg (by simp)]
  rw [show nuTable "cooling" = .ok nuCooling from rfl]
  simp only [Bind.bind, Except.bind]
  cases nuCooling d with
  | error e => rfl
  | ok row => exact region8_ok row i

theorem getNu_heating (d : Direction) (i : Fin 8) (hi : i ≠ 7) :
    d.getNu ((i : ℕ) + 1 : ℤ) "heating" = (nuHeating d).bind fun row => .ok (row i) := by
  unfold Direction.getNu
  rw [if_neg (by rintro ⟨h, -⟩; apply hi; ext; simp; omega)]
  rw [show nuTable "heating" = .ok nuHeating from rfl]
  simp only [Bind.bind, Except.bind]
  cases nuHeating d with
  | error e => rfl
  | ok row => exact region8_ok row i

/-- **C56 (directions, cooling).** For regions 1..8 and directions in the table the coefficient is a number between 0 and 1: 1 for the top, 0
for the bottom, and for compass directions between the one of the north and 0.56. -/
theorem C56_cooling {r : ℤ} (hr : 1 ≤ r ∧ r ≤ 8) {d : Direction} (hd : InTable d) :
    ∃ v vn, d.getNu r "cooling" = .ok (some v) ∧ Direction.n.getNu r "cooling" = .ok (some vn) ∧ 0.3 < vn ∧ (d = .top → v = 1) ∧ (d = .bottom → v = 0) ∧
      (Compass d → vn ≤ v ∧ v ≤ 0.56) := by
  obtain ⟨i, rfl⟩ := region_cases hr
  obtain ⟨h1, h2, h3⟩ := hd
  rw [getNu_cooling, getNu_cooling]
  fin_cases i <;> cases d <;> first
    | exact absurd rfl h1
    | exact absurd rfl h2
    | exact absurd rfl h3
    | (refine ⟨_, _, rfl, rfl, by norm_num, ?_, ?_, ?_⟩ <;> simp [Compass] <;> norm_num)

/-- **C56 (directions, heating).** For regions 1..7 and directions in the table the coefficient is a number: 1 for the top, 0 for the bottom, and
for compass directions between those of north and south. -/
theorem C56_heating {r : ℤ} (hr : 1 ≤ r ∧ r ≤ 7) {d : Direction} (hd : InTable d) :
    ∃ v vn vs, d.getNu r "heating" = .ok (some v) ∧ Direction.n.getNu r "heating" = .ok (some vn) ∧ Direction.s.getNu r "heating" = .ok (some vs) ∧
      0.2 < vn ∧ vs ≤ 1.023 ∧ (d = .top → v = 1) ∧ (d = .bottom → v = 0) ∧ (Compass d → vn ≤ v ∧ v ≤ vs) := by
  obtain ⟨i, rfl⟩ := region_cases ⟨hr.1, hr.2.trans (by norm_num)⟩
  have hi : i ≠ 7 := by rintro rfl; simp at hr
  obtain ⟨h1, h2, h3⟩ := hd
  rw [getNu_heating _ _ hi, getNu_heating _ _ hi, getNu_heating _ _ hi]
  clear hr
  fin_cases i <;> cases d <;> first
    | exact absurd rfl hi
    | exact absurd rfl h1
    | exact absurd rfl h2
    | exact absurd rfl h3
    | (refine ⟨_, _, _, rfl, rfl, rfl, by norm_num, by norm_num, ?_, ?_, ?_⟩ <;> simp [Compass] <;> norm_num)

/-- **C56 (directions, rejected).** Heating in region 8 raises ValueError for every direction; any other combination outside the tables (season,
direction or region) raises KeyError. In particular `None` is never returned. -/
theorem C56_rejected (d : Direction) (r : ℤ) (season : String) :
    (r = 8 ∧ season = "heating" → d.getNu r season = .error .valueError) ∧
    (¬ (r = 8 ∧ season = "heating") → (season ≠ "heating" ∧ season ≠ "cooling") ∨ ¬ InTable d ∨ ¬ (1 ≤ r ∧ r ≤ 8) →
      d.getNu r season = .error .keyError) := by
  constructor
  · intro h; unfold Direction.getNu; rw [if_pos h]
  · intro h h'
    unfold Direction.getNu nuTable
    rw [if_neg h]
    by_cases h1 : season = "heating"
    · rw [if_pos h1]
      simp only [Bind.bind, Except.bind]
      rcases h' with h' | h' | h'
      · exact absurd h1 h'.1
      · cases d <;> first | rfl | exact absurd (by simp [InTable]) h'
      · cases d <;> first | rfl | exact region8_error _ (by omega)
    · rw [if_neg h1]
      by_cases h2 : season = "cooling"
      · rw [if_pos h2]
        simp only [Bind.bind, Except.bind]
        rcases h' with h' | h' | h'
        · exact absurd h2 h'.2
        · cases d <;> first | rfl | exact absurd (by simp [InTable]) h'
        · cases d <;> first | rfl | exact region8_error _ (by omega)
      · rw [if_neg h2]; rfl

end HLC
