import Verif.Spec.Passive
import Verif.Spec.WellFormed
import Verif.Lemmas.Bounded
import Verif.Lemmas.Storage
import Mathlib.Algebra.BigOperators.Field

/-!
# The energy of a difference of two histories
-/

set_option linter.unusedSectionVars false

namespace HLC
open Spec

variable {I J : Type} [Fintype I] [DecidableEq I] [Fintype J] [DecidableEq J]

/-- The difference of two steps of a free-running house under the same data: `old`, `oldF` are the differences at the start of the step
(with the answer of the people), `d`, `f`, `s`, `q` those at its end, `x`, `y` those of what the parts hold of the past. -/
structure Gap (h : House I J) (hR : J → ℝ) (dt : ℝ) (w : I → ℝ) where
  old : I → ℝ
  oldF : I → ℝ
  d : I → ℝ
  f : I → ℝ
  v : I → ℝ
  s : J → ℝ
  q : J → ℝ
  x : J → Fin 12 → ℝ
  y : J → Fin 12 → ℝ
  room : ∀ i, h.vRoom i * airCap * (d i - old i) / dt = convection h i (d i) s + h.gSh i * (f i - d i) - airCap * v i * d i
    - airCap * ∑ l, h.vInt i l * d l
  furniture : ∀ i, h.cSh i * (f i - oldF i) = dt * (h.gSh i * (d i - f i))
  flux : ∀ j, q j = h.hC j * (d (h.room j) - s j) + hR j * (roomMrt h hR (h.room j) s - s j)
  wall : ∀ j, s j = h.phiA0 j * q j + (match h.kEi j with | none => 0 | some (m, _) => s m + q m / (h.hC m + hR m)) + ∑ l, (y j l + x j l)
  vent : ∀ i, w i + (∑ l, h.vInt i l + ∑ l, h.vInt l i) / 2 ≤ v i
  empty : ∀ j, h.kEi j ≠ none → ∀ l, x j l = 0 ∧ y j l = 0

/-- What a mode holds after the step. -/
def Gap.next {h : House I J} {hR : J → ℝ} {dt : ℝ} {w : I → ℝ} (g : Gap h hR dt w) (j : J) (l : Fin 12) : ℝ :=
  h.phiA1 j l * g.q j + h.ratio j l * g.x j l

/-- What the parts with nothing of the house behind them can give back. -/
structure Stores (h : House I J) (hR : J → ℝ) (V : J → (Fin 12 → ℝ) → ℝ) (e κ : ℝ) : Prop where
  e_pos : 0 < e
  κ_nonneg : 0 ≤ κ
  nonneg : ∀ j x, 0 ≤ V j x
  le : ∀ j x, V j x ≤ κ * ∑ l, x l ^ 2
  step : ∀ j x q, h.kEi j = none →
    V j (fun l => h.phiA1 j l * q + h.ratio j l * x l) + e * q ^ 2 ≤ V j x + q * (h.phiA0 j * q + ∑ l, x l + 1 / (h.hC j + hR j) * q)
  zero : ∀ j x, h.kEi j ≠ none → V j x = 0
  add : ∀ j x y η, 0 < η → V j (fun l => x l + y l) ≤ (1 + η) * V j x + (1 + 1 / η) * V j y

/-- Stored energy of a difference. -/
noncomputable def stored (h : House I J) (dt : ℝ) (V : J → (Fin 12 → ℝ) → ℝ) (d f : I → ℝ) (x : J → Fin 12 → ℝ) : ℝ :=
  ∑ i, (h.vRoom i * airCap / dt * d i ^ 2 + h.cSh i / dt * f i ^ 2) / 2 + ∑ j, h.area j * V j (x j)

/-- Heat exchanged at the film of a surface. -/
noncomputable def Gap.film {h : House I J} {hR : J → ℝ} {dt : ℝ} {w : I → ℝ} (g : Gap h hR dt w) (j : J) : ℝ :=
  h.hC j * (g.s j - g.d (h.room j)) ^ 2 + hR j * (g.s j - roomMrt h hR (h.room j) g.s) ^ 2

/-- What the rear side adds to the temperature of a surface. -/
noncomputable def Gap.idle {h : House I J} {hR : J → ℝ} {dt : ℝ} {w : I → ℝ} (g : Gap h hR dt w) (j : J) : ℝ := ∑ l, g.y j l

/-- Share of the film that is not needed to keep a part passive. -/
noncomputable def filmShare (h : House I J) (hR : J → ℝ) (e : ℝ) (j : J) : ℝ := min 1 (e * (h.hC j + hR j) / 2)

/-- What is dissipated in a step. -/
noncomputable def Gap.spent {h : House I J} {hR : J → ℝ} {dt : ℝ} {w : I → ℝ} (e : ℝ) (g : Gap h hR dt w) : ℝ :=
  ∑ i, (h.gSh i * (g.d i - g.f i) ^ 2 + airCap * w i * g.d i ^ 2) + ∑ j, h.area j * (filmShare h hR e j * g.film j)

section
variable {h : House I J} {hR : J → ℝ} {dt : ℝ} {w : I → ℝ}

theorem cauchy_film {a b u v : ℝ} (ha : 0 < a) (hb : 0 < b) : (a * u + b * v) ^ 2 ≤ (a + b) * (a * u ^ 2 + b * v ^ 2) := by
  nlinarith [mul_nonneg (mul_nonneg ha.le hb.le) (sq_nonneg (u - v))]

theorem sum_rooms (F : J → ℝ) : ∑ i, ∑ j ∈ surfaces h i, F j = ∑ j, F j := by
  unfold surfaces
  exact Finset.sum_fiberwise Finset.univ h.room F

/-- Radiation between the surfaces of a room carries no heat to their mean. -/
theorem radiation_mean (hw : WellFormed h hR dt) (i : I) (s : J → ℝ) :
    ∑ j ∈ surfaces h i, h.area j * hR j * (roomMrt h hR i s - s j) = 0 := by
  simp only [mul_sub, Finset.sum_sub_distrib, ← Finset.sum_mul]
  by_cases hz : ∑ j ∈ surfaces h i, h.area j * hR j = 0
  · have : surfaces h i = ∅ := by
      by_contra hne
      have := Finset.sum_pos (fun j _ => mul_pos (hw.area_pos j) (hw.hR_pos j)) (Finset.nonempty_iff_ne_empty.2 hne)
      exact this.ne' hz
    rw [this]
    simp
  · unfold roomMrt
    rw [mul_div_cancel₀ _ hz, sub_self]

namespace Gap
variable (g : Gap h hR dt w)

theorem radiation (hw : WellFormed h hR dt) :
    ∑ j, h.area j * (hR j * (roomMrt h hR (h.room j) g.s - g.s j)) * g.s j
      = -∑ j, h.area j * (hR j * (g.s j - roomMrt h hR (h.room j) g.s) ^ 2) := by
  have key : ∑ j, h.area j * hR j * (roomMrt h hR (h.room j) g.s - g.s j) * roomMrt h hR (h.room j) g.s = 0 := by
    rw [← sum_rooms (h := h)]
    refine Finset.sum_eq_zero fun i _ => ?_
    have : ∀ j ∈ surfaces h i, h.area j * hR j * (roomMrt h hR (h.room j) g.s - g.s j) * roomMrt h hR (h.room j) g.s
        = h.area j * hR j * (roomMrt h hR i g.s - g.s j) * roomMrt h hR i g.s := by
      intro j hj
      have : h.room j = i := by simpa [surfaces] using hj
      rw [this]
    rw [Finset.sum_congr rfl this, ← Finset.sum_mul, radiation_mean hw, zero_mul]
  rw [← sub_eq_zero, sub_neg_eq_add, ← Finset.sum_add_distrib, ← key]
  exact Finset.sum_congr rfl fun j _ => by ring

/-- The heat given by the surfaces to the air of the rooms. -/
theorem exchange (hw : WellFormed h hR dt) :
    ∑ i, g.d i * convection h i (g.d i) g.s = -∑ j, h.area j * g.film j - ∑ j, h.area j * (g.q j * g.s j) := by
  have e1 : ∑ i, g.d i * convection h i (g.d i) g.s = ∑ j, h.area j * h.hC j * (g.s j - g.d (h.room j)) * g.d (h.room j) := by
    rw [← sum_rooms (h := h)]
    refine Finset.sum_congr rfl fun i _ => ?_
    unfold convection
    rw [Finset.mul_sum]
    refine Finset.sum_congr rfl fun j hj => ?_
    have : h.room j = i := by simpa [surfaces] using hj
    rw [this]
    ring
  have e2 := g.radiation hw
  have e3 : ∀ j, h.area j * (g.q j * g.s j) = -(h.area j * h.hC j * (g.s j - g.d (h.room j)) * g.s j)
      + h.area j * (hR j * (roomMrt h hR (h.room j) g.s - g.s j)) * g.s j := by
    intro j; rw [g.flux j]; ring
  rw [Finset.sum_congr rfl fun j _ => e3 j, Finset.sum_add_distrib, e2, e1]
  unfold film
  rw [← sub_eq_zero, sub_sub_eq_add_sub]
  simp only [← Finset.sum_neg_distrib, ← Finset.sum_add_distrib, ← Finset.sum_sub_distrib]
  exact Finset.sum_eq_zero fun j _ => by ring

theorem flow_sq (hw : WellFormed h hR dt) (j : J) : g.q j ^ 2 ≤ (h.hC j + hR j) * g.film j := by
  have := cauchy_film (u := g.d (h.room j) - g.s j) (v := roomMrt h hR (h.room j) g.s - g.s j) (hw.hC_pos j) (hw.hR_pos j)
  rw [g.flux j]
  unfold film
  linarith [this, sq_nonneg (g.s j - g.d (h.room j))]

/-- The two sides of a partition take up heat in opposite directions. -/
theorem sides (hw : WellFormed h hR dt) (hpt : Partitions h hR) {j m : J} {coef : ℝ} (hK : h.kEi j = some (m, coef)) :
    g.q m = -g.q j ∧ g.s j - g.s m = (h.phiA0 j - 1 / (h.hC j + hR j)) * g.q j := by
  obtain ⟨rfl, hK'⟩ := hpt.side j m coef hK
  obtain ⟨f1, f2, f3⟩ := hpt.films j m 1 hK
  obtain ⟨r1, r2⟩ := hpt.resistance j m 1 hK
  have w1 := g.wall j
  have w2 := g.wall m
  rw [hK] at w1
  rw [hK'] at w2
  simp only [(g.empty j (by rw [hK]; simp) _).1, (g.empty j (by rw [hK]; simp) _).2] at w1
  simp only [(g.empty m (by rw [hK']; simp) _).1, (g.empty m (by rw [hK']; simp) _).2] at w2
  simp only [add_zero, Finset.sum_const_zero] at w1 w2
  rw [f1, f2] at w1
  rw [r1] at w2
  have hH : 0 < h.hC j + hR j := add_pos (hw.hC_pos j) (hw.hR_pos j)
  have hp : 0 < h.phiA0 j + 1 / (h.hC j + hR j) := by have := one_div_pos.2 hH; have := hw.phiA0_nonneg j; linarith
  have hq : g.q m = -g.q j := by
    have : (h.phiA0 j + 1 / (h.hC j + hR j)) * (g.q j + g.q m) = 0 := by
      simp only [div_eq_mul_inv, one_mul] at w1 w2 ⊢
      linear_combination -w1 - w2
    have := (mul_eq_zero.1 this).resolve_left hp.ne'
    linarith
  refine ⟨hq, ?_⟩
  rw [hq] at w1
  simp only [div_eq_mul_inv, one_mul] at w1 ⊢
  linear_combination w1

/-- A partition only passes heat on, from warm to cold. -/
theorem partition_flow (hw : WellFormed h hR dt) (hpt : Partitions h hR) :
    0 ≤ ∑ j, if h.kEi j = none then 0 else h.area j * (g.q j * g.s j) := by
  classical
  let other : J → J := fun j => match h.kEi j with | none => j | some (m, _) => m
  have hin : Function.Involutive other := by
    intro j
    show other (other j) = j
    cases hK : h.kEi j with
    | none =>
      have h1 : other j = j := by simp only [other, hK]
      rw [h1, h1]
    | some mc =>
      obtain ⟨m, coef⟩ := mc
      have h1 : other j = m := by simp only [other, hK]
      obtain ⟨-, hK'⟩ := hpt.side j m coef hK
      rw [h1]
      simp only [other, hK']
  have e := Equiv.sum_comp hin.toPerm (fun j => if h.kEi j = none then 0 else h.area j * (g.q j * g.s j))
  have h2 : 0 ≤ ∑ j, ((if h.kEi j = none then 0 else h.area j * (g.q j * g.s j))
      + (if h.kEi (other j) = none then 0 else h.area (other j) * (g.q (other j) * g.s (other j)))) := by
    refine Finset.sum_nonneg fun j _ => ?_
    cases hK : h.kEi j with
    | none =>
      have h1 : other j = j := by simp only [other, hK]
      rw [h1]
      simp [hK]
    | some mc =>
      obtain ⟨m, coef⟩ := mc
      have h1 : other j = m := by simp only [other, hK]
      obtain ⟨-, hK'⟩ := hpt.side j m coef hK
      obtain ⟨f1, f2, f3⟩ := hpt.films j m coef hK
      obtain ⟨s1, s2⟩ := g.sides hw hpt hK
      have hr := (hpt.resistance j m coef hK).2
      rw [h1, hK', f3, s1]
      simp only [reduceCtorEq, if_false]
      have : h.area j * (g.q j * g.s j) + h.area j * (-g.q j * g.s m) = h.area j * ((h.phiA0 j - 1 / (h.hC j + hR j)) * g.q j ^ 2) := by
        linear_combination h.area j * g.q j * s2
      rw [this]
      exact mul_nonneg (hw.area_pos j).le (mul_nonneg (sub_nonneg.2 hr) (sq_nonneg _))
  rw [Finset.sum_add_distrib] at h2
  have e' : ∑ j, (if h.kEi (other j) = none then 0 else h.area (other j) * (g.q (other j) * g.s (other j)))
      = ∑ j, if h.kEi j = none then 0 else h.area j * (g.q j * g.s j) := e
  rw [e'] at h2
  linarith

theorem film_nonneg (hw : WellFormed h hR dt) (j : J) : 0 ≤ g.film j := by
  unfold film
  have := hw.hC_pos j
  have := hw.hR_pos j
  positivity

/-- The heat taken up by a part with nothing of the house behind it. -/
theorem outer_flow (hw : WellFormed h hR dt) {V : J → (Fin 12 → ℝ) → ℝ} {e κ : ℝ} (hV : Stores h hR V e κ) {j : J} (hK : h.kEi j = none) :
    V j (g.next j) + filmShare h hR e j * g.film j ≤ V j (g.x j) + g.q j * g.s j + g.film j + g.idle j ^ 2 / (2 * e) := by
  have w1 := g.wall j
  rw [hK] at w1
  simp only [add_zero] at w1
  have hst := hV.step j (g.x j) (g.q j) hK
  have hn : (fun l => h.phiA1 j l * g.q j + h.ratio j l * g.x j l) = g.next j := rfl
  rw [hn] at hst
  have e1 : ∑ l, (g.y j l + g.x j l) = g.idle j + ∑ l, g.x j l := by unfold idle; rw [← Finset.sum_add_distrib]
  rw [e1] at w1
  have he := hV.e_pos
  have hH : 0 < h.hC j + hR j := add_pos (hw.hC_pos j) (hw.hR_pos j)
  have hq := g.flow_sq hw j
  have hf := g.film_nonneg hw j
  have s0 : filmShare h hR e j ≤ 1 := min_le_left _ _
  have s1 : filmShare h hR e j ≤ e * (h.hC j + hR j) / 2 := min_le_right _ _
  generalize filmShare h hR e j = η at *
  -- the film
  have h1 : 1 / (h.hC j + hR j) * g.q j ^ 2 ≤ (1 - η) * g.film j + e / 2 * g.q j ^ 2 := by
    have h2 : 1 / (h.hC j + hR j) * g.q j ^ 2 ≤ g.film j := by
      rw [div_mul_eq_mul_div, one_mul, div_le_iff₀ hH]; linarith
    have h3 := mul_le_mul_of_nonneg_left h2 (sub_nonneg.2 s0)
    have h4 : η * (1 / (h.hC j + hR j) * g.q j ^ 2) ≤ e / 2 * g.q j ^ 2 := by
      rw [← mul_assoc]
      refine mul_le_mul_of_nonneg_right ?_ (sq_nonneg _)
      rw [mul_one_div, div_le_iff₀ hH]
      linarith
    linarith
  -- the rear side
  have h5 : -(g.q j * g.idle j) ≤ e / 2 * g.q j ^ 2 + g.idle j ^ 2 / (2 * e) := by
    have h6 : g.idle j ^ 2 / (2 * e) * (2 * e) = g.idle j ^ 2 := div_mul_cancel₀ _ (by positivity)
    generalize g.idle j ^ 2 / (2 * e) = b at *
    have h7 : 0 ≤ (2 * e) * (e / 2 * g.q j ^ 2 + b + g.q j * g.idle j) := by nlinarith [sq_nonneg (e * g.q j + g.idle j)]
    have := nonneg_of_mul_nonneg_right h7 (by positivity)
    linarith
  rw [w1]
  nlinarith

/-- Air exchanged between rooms gives back at most half of the heat of the air of both. -/
theorem exchanged (hw : WellFormed h hR dt) :
    ∑ i, airCap * w i * g.d i ^ 2 ≤ ∑ i, (airCap * g.v i * g.d i ^ 2 + g.d i * (airCap * ∑ l, h.vInt i l * g.d l)) := by
  have hcap : (0 : ℝ) < airCap := by unfold airCap; norm_num
  have h1 : ∀ i, airCap * (w i + (∑ l, h.vInt i l + ∑ l, h.vInt l i) / 2) * g.d i ^ 2 ≤ airCap * g.v i * g.d i ^ 2 := fun i =>
    mul_le_mul_of_nonneg_right (mul_le_mul_of_nonneg_left (g.vent i) hcap.le) (sq_nonneg _)
  have h2 : -∑ i, ∑ l, airCap * h.vInt i l * (g.d i ^ 2 + g.d l ^ 2) / 2 ≤ ∑ i, g.d i * (airCap * ∑ l, h.vInt i l * g.d l) := by
    rw [← Finset.sum_neg_distrib]
    refine Finset.sum_le_sum fun i _ => ?_
    rw [← Finset.sum_neg_distrib, Finset.mul_sum, Finset.mul_sum]
    refine Finset.sum_le_sum fun l _ => ?_
    have := mul_nonneg (mul_nonneg hcap.le (hw.vInt_nonneg i l)) (sq_nonneg (g.d i + g.d l))
    linarith
  have h3 : ∑ i, ∑ l, airCap * h.vInt i l * (g.d i ^ 2 + g.d l ^ 2) / 2
      = ∑ i, airCap * ((∑ l, h.vInt i l + ∑ l, h.vInt l i) / 2) * g.d i ^ 2 := by
    have a1 : ∀ i, ∑ l, airCap * h.vInt i l * (g.d i ^ 2 + g.d l ^ 2) / 2
        = airCap / 2 * (∑ l, h.vInt i l) * g.d i ^ 2 + ∑ l, airCap / 2 * h.vInt i l * g.d l ^ 2 := by
      intro i
      rw [mul_assoc, Finset.sum_mul, Finset.mul_sum, ← Finset.sum_add_distrib]
      exact Finset.sum_congr rfl fun l _ => by ring
    simp only [a1, Finset.sum_add_distrib]
    rw [Finset.sum_comm, ← Finset.sum_add_distrib]
    refine Finset.sum_congr rfl fun i _ => ?_
    rw [← Finset.sum_mul, ← Finset.mul_sum]
    ring
  rw [h3] at h2
  have h4 := Finset.sum_le_sum fun i (_ : i ∈ Finset.univ) => h1 i
  simp only [mul_add, add_mul, Finset.sum_add_distrib] at h4 ⊢
  linarith

/-- What is dissipated is missing in the energy, but for what the rear sides add. -/
theorem energy (hw : WellFormed h hR dt) {V : J → (Fin 12 → ℝ) → ℝ} {e κ : ℝ} (hV : Stores h hR V e κ) (hpt : Partitions h hR) :
    stored h dt V g.d g.f g.next + g.spent e ≤ stored h dt V g.old g.oldF g.x + ∑ j, h.area j * (g.idle j ^ 2 / (2 * e)) := by
  have hdt := hw.dt_pos
  have hcap : (0 : ℝ) < airCap := by unfold airCap; norm_num
  -- rooms and furniture
  have hrooms : ∀ i, (h.vRoom i * airCap / dt * g.d i ^ 2 + h.cSh i / dt * g.f i ^ 2) / 2
      + (h.gSh i * (g.d i - g.f i) ^ 2 + (airCap * g.v i * g.d i ^ 2 + g.d i * (airCap * ∑ l, h.vInt i l * g.d l)))
      ≤ (h.vRoom i * airCap / dt * g.old i ^ 2 + h.cSh i / dt * g.oldF i ^ 2) / 2 + g.d i * convection h i (g.d i) g.s := by
    intro i
    have r1 := g.room i
    have r2 : h.cSh i / dt * (g.f i - g.oldF i) = h.gSh i * (g.d i - g.f i) := by
      rw [div_mul_eq_mul_div, g.furniture i, mul_div_cancel_left₀ _ hdt.ne']
    have r1' : h.vRoom i * airCap / dt * (g.d i - g.old i) = convection h i (g.d i) g.s + h.gSh i * (g.f i - g.d i) - airCap * g.v i * g.d i
        - airCap * ∑ l, h.vInt i l * g.d l := by
      rw [← r1]; ring
    have c1 : 0 ≤ h.vRoom i * airCap / dt := by have := hw.vRoom_pos i; positivity
    have c2 : 0 ≤ h.cSh i / dt := div_nonneg (hw.cSh_nonneg i) hdt.le
    have n1 := mul_nonneg c1 (sq_nonneg (g.d i - g.old i))
    have n2 := mul_nonneg c2 (sq_nonneg (g.f i - g.oldF i))
    have m1 := congrArg (fun z => z * g.d i) r1'
    have m2 := congrArg (fun z => z * g.f i) r2
    generalize (airCap * ∑ l, h.vInt i l * g.d l) = X at *
    nlinarith
  have hsum := Finset.sum_le_sum fun i (_ : i ∈ Finset.univ) => hrooms i
  have hx := g.exchanged hw
  rw [Finset.sum_add_distrib] at hx
  simp only [Finset.sum_add_distrib] at hsum
  rw [g.exchange hw] at hsum
  -- parts
  have hparts : ∀ j, h.area j * V j (g.next j) + h.area j * (filmShare h hR e j * g.film j)
      + (if h.kEi j = none then 0 else h.area j * (g.q j * g.s j))
      ≤ h.area j * V j (g.x j) + h.area j * g.film j + h.area j * (g.idle j ^ 2 / (2 * e)) + h.area j * (g.q j * g.s j) := by
    intro j
    have ha := (hw.area_pos j).le
    have hf := g.film_nonneg hw j
    by_cases hK : h.kEi j = none
    · rw [if_pos hK]
      have := mul_le_mul_of_nonneg_left (g.outer_flow hw hV hK) ha
      linarith
    · rw [if_neg hK, hV.zero j _ hK, hV.zero j _ hK]
      have s0 : filmShare h hR e j * g.film j ≤ g.film j := mul_le_of_le_one_left hf (min_le_left _ _)
      have := mul_le_mul_of_nonneg_left s0 ha
      have : 0 ≤ h.area j * (g.idle j ^ 2 / (2 * e)) := by have := hV.e_pos; positivity
      linarith
  have hsum' := Finset.sum_le_sum fun j (_ : j ∈ Finset.univ) => hparts j
  simp only [Finset.sum_add_distrib] at hsum'
  have hflow := g.partition_flow hw hpt
  unfold stored spent
  simp only [Finset.sum_add_distrib, add_div] at hsum hsum' ⊢
  linarith

/-- Squares of what the parts hold. -/
noncomputable def heldSq (x : J → Fin 12 → ℝ) : ℝ := ∑ j, ∑ l, x j l ^ 2

/-- All that bounds the state at the end of a step. -/
noncomputable def base (e : ℝ) (g : Gap h hR dt w) : ℝ := g.spent e + heldSq g.x + heldSq g.y

end Gap

theorem filmShare_pos (hw : WellFormed h hR dt) {e : ℝ} (he : 0 < e) (j : J) : 0 < filmShare h hR e j :=
  lt_min one_pos (half_pos (mul_pos he (add_pos (hw.hC_pos j) (hw.hR_pos j))))

theorem heldSq_nonneg (x : J → Fin 12 → ℝ) : 0 ≤ Gap.heldSq x := Finset.sum_nonneg fun _ _ => Finset.sum_nonneg fun _ _ => sq_nonneg _

theorem le_heldSq (x : J → Fin 12 → ℝ) (j : J) (l : Fin 12) : x j l ^ 2 ≤ Gap.heldSq x :=
  (Finset.single_le_sum (f := fun l => x j l ^ 2) (fun _ _ => sq_nonneg _) (Finset.mem_univ l)).trans
    (Finset.single_le_sum (f := fun j => ∑ l, x j l ^ 2) (fun _ _ => Finset.sum_nonneg fun _ _ => sq_nonneg _) (Finset.mem_univ j))

section
variable {e : ℝ} (hw : WellFormed h hR dt) (he : 0 < e) (hw0 : ∀ i, 0 ≤ w i) (hg : ∀ i, 0 < h.gSh i) (hl : LosesHeat h w)
include hw he hw0

theorem spent_parts (g : Gap h hR dt w) :
    0 ≤ g.spent e ∧ (∀ i, h.gSh i * (g.d i - g.f i) ^ 2 ≤ g.spent e) ∧ (∀ i, airCap * w i * g.d i ^ 2 ≤ g.spent e) ∧
      ∀ j, h.area j * filmShare h hR e j * g.film j ≤ g.spent e := by
  have hcap : (0 : ℝ) < airCap := by unfold airCap; norm_num
  have n1 : ∀ i, 0 ≤ h.gSh i * (g.d i - g.f i) ^ 2 := fun i => mul_nonneg (hw.gSh_nonneg i) (sq_nonneg _)
  have n2 : ∀ i, 0 ≤ airCap * w i * g.d i ^ 2 := fun i => mul_nonneg (mul_nonneg hcap.le (hw0 i)) (sq_nonneg _)
  have n3 : ∀ j, 0 ≤ h.area j * (filmShare h hR e j * g.film j) := fun j =>
    mul_nonneg (hw.area_pos j).le (mul_nonneg (filmShare_pos hw he j).le (g.film_nonneg hw j))
  have p1 : 0 ≤ ∑ i, (h.gSh i * (g.d i - g.f i) ^ 2 + airCap * w i * g.d i ^ 2) := Finset.sum_nonneg fun i _ => add_nonneg (n1 i) (n2 i)
  have p2 : 0 ≤ ∑ j, h.area j * (filmShare h hR e j * g.film j) := Finset.sum_nonneg fun j _ => n3 j
  have p3 : ∀ i, h.gSh i * (g.d i - g.f i) ^ 2 + airCap * w i * g.d i ^ 2 ≤ ∑ i, (h.gSh i * (g.d i - g.f i) ^ 2 + airCap * w i * g.d i ^ 2) := fun i =>
    Finset.single_le_sum (f := fun i => h.gSh i * (g.d i - g.f i) ^ 2 + airCap * w i * g.d i ^ 2) (fun i _ => add_nonneg (n1 i) (n2 i))
      (Finset.mem_univ i)
  have p4 : ∀ j, h.area j * (filmShare h hR e j * g.film j) ≤ ∑ j, h.area j * (filmShare h hR e j * g.film j) := fun j =>
    Finset.single_le_sum (f := fun j => h.area j * (filmShare h hR e j * g.film j)) (fun j _ => n3 j) (Finset.mem_univ j)
  unfold Gap.spent
  refine ⟨by linarith, fun i => ?_, fun i => ?_, fun j => ?_⟩
  · have := p3 i; have := n2 i; linarith
  · have := p3 i; have := n1 i; linarith
  · have := p4 j; rw [mul_assoc]; linarith

theorem base_nonneg (g : Gap h hR dt w) : 0 ≤ g.base e :=
  add_nonneg (add_nonneg (spent_parts hw he hw0 g).1 (heldSq_nonneg _)) (heldSq_nonneg _)

theorem bd_film (j : J) : Bounded (Gap.spent (h := h) (hR := hR) (dt := dt) (w := w) e) fun g => g.film j :=
  Bounded.of_smul (a := h.area j * filmShare h hR e j) (mul_pos (hw.area_pos j) (filmShare_pos hw he j)) fun g => (spent_parts hw he hw0 g).2.2.2 j

theorem bd_flow (j : J) : Bounded (Gap.spent (h := h) (hR := hR) (dt := dt) (w := w) e) fun g => g.q j ^ 2 :=
  ((bd_film hw he hw0 j).smul (add_pos (hw.hC_pos j) (hw.hR_pos j)).le).mono fun g => g.flow_sq hw j

theorem bd_surface_air (j : J) : Bounded (Gap.spent (h := h) (hR := hR) (dt := dt) (w := w) e) fun g => (g.s j - g.d (h.room j)) ^ 2 :=
  (Bounded.of_smul (B := fun g : Gap h hR dt w => g.film j) (hw.hC_pos j) fun g => by
    unfold Gap.film
    have := mul_nonneg (hw.hR_pos j).le (sq_nonneg (g.s j - roomMrt h hR (h.room j) g.s))
    linarith).trans (bd_film hw he hw0 j)

theorem spent_base : Bounded (Gap.base (h := h) (hR := hR) (dt := dt) (w := w) e) fun g => g.spent e :=
  ⟨1, zero_le_one, fun g => by
    have := heldSq_nonneg g.x
    have := heldSq_nonneg g.y
    unfold Gap.base
    linarith⟩

theorem bd_heldA : Bounded (Gap.base (h := h) (hR := hR) (dt := dt) (w := w) e) fun g => Gap.heldSq g.x :=
  ⟨1, zero_le_one, fun g => by
    have := (spent_parts hw he hw0 g).1
    have := heldSq_nonneg g.y
    unfold Gap.base
    linarith⟩

theorem bd_heldT : Bounded (Gap.base (h := h) (hR := hR) (dt := dt) (w := w) e) fun g => Gap.heldSq g.y :=
  ⟨1, zero_le_one, fun g => by
    have := (spent_parts hw he hw0 g).1
    have := heldSq_nonneg g.x
    unfold Gap.base
    linarith⟩

theorem bd_modeA (j : J) (l : Fin 12) : Bounded (Gap.base (h := h) (hR := hR) (dt := dt) (w := w) e) fun g => g.x j l ^ 2 :=
  (bd_heldA hw he hw0).mono fun g => le_heldSq g.x j l

theorem bd_modeT (j : J) (l : Fin 12) : Bounded (Gap.base (h := h) (hR := hR) (dt := dt) (w := w) e) fun g => g.y j l ^ 2 :=
  (bd_heldT hw he hw0).mono fun g => le_heldSq g.y j l

theorem bd_next (j : J) (l : Fin 12) : Bounded (Gap.base (h := h) (hR := hR) (dt := dt) (w := w) e) fun g => g.next j l ^ 2 :=
  (((bd_flow hw he hw0 j).trans (spent_base hw he hw0)).sq_smul _).sq_add ((bd_modeA hw he hw0 j l).sq_smul _)

theorem bd_outer {j : J} (hK : h.kEi j = none) : Bounded (Gap.base (h := h) (hR := hR) (dt := dt) (w := w) e) fun g => g.s j ^ 2 := by
  refine ((((bd_flow hw he hw0 j).trans (spent_base hw he hw0)).sq_smul (h.phiA0 j)).sq_add
    (Bounded.sq_sum Finset.univ fun l _ => (bd_modeT hw he hw0 j l).sq_add (bd_modeA hw he hw0 j l))).sq_congr fun g => ?_
  have w1 := g.wall j
  rw [hK] at w1
  rw [w1]
  ring

include hl in
theorem bd_room (i : I) : Bounded (Gap.base (h := h) (hR := hR) (dt := dt) (w := w) e) fun g => g.d i ^ 2 := by
  have hcap : (0 : ℝ) < airCap := by unfold airCap; norm_num
  rcases hl i with h1 | ⟨j, rfl, hK⟩
  · exact (Bounded.of_smul (mul_pos hcap h1) fun g => (spent_parts hw he hw0 g).2.2.1 i).trans (spent_base hw he hw0)
  · exact ((bd_outer hw he hw0 hK).sq_sub ((bd_surface_air hw he hw0 j).trans (spent_base hw he hw0))).sq_congr fun g => by ring

include hl in
theorem bd_surface (j : J) : Bounded (Gap.base (h := h) (hR := hR) (dt := dt) (w := w) e) fun g => g.s j ^ 2 :=
  (((bd_surface_air hw he hw0 j).trans (spent_base hw he hw0)).sq_add (bd_room hw he hw0 hl (h.room j))).sq_congr fun g => by ring

include hl hg in
theorem bd_furniture (i : I) : Bounded (Gap.base (h := h) (hR := hR) (dt := dt) (w := w) e) fun g => g.f i ^ 2 :=
  ((bd_room hw he hw0 hl i).sq_sub ((Bounded.of_smul (F := fun g : Gap h hR dt w => (g.d i - g.f i) ^ 2) (hg i)
    fun g => (spent_parts hw he hw0 g).2.1 i).trans (spent_base hw he hw0))).sq_congr fun g => by ring

include hl hg in
theorem bd_stored {V : J → (Fin 12 → ℝ) → ℝ} {κ : ℝ} (hV : Stores h hR V e κ) :
    Bounded (Gap.base (h := h) (hR := hR) (dt := dt) (w := w) e) fun g => stored h dt V g.d g.f g.next := by
  have hdt := hw.dt_pos
  have hcap : (0 : ℝ) < airCap := by unfold airCap; norm_num
  unfold stored
  refine Bounded.add (Bounded.sum _ fun i _ => ?_) (Bounded.sum _ fun j _ => ?_)
  · have c1 : 0 ≤ h.vRoom i * airCap / dt := by have := hw.vRoom_pos i; positivity
    have c2 : 0 ≤ h.cSh i / dt := div_nonneg (hw.cSh_nonneg i) hdt.le
    exact ((((bd_room hw he hw0 hl i).smul c1).add ((bd_furniture hw he hw0 hg hl i).smul c2)).smul (one_half_pos.le)).mono fun g => by
      linarith
  · refine Bounded.smul (hw.area_pos j).le ?_
    exact ((Bounded.sum Finset.univ fun l _ => bd_next hw he hw0 j l).smul hV.κ_nonneg).mono fun g => hV.le j _

end

/-- Energy of a difference with all that the parts hold. -/
noncomputable def energyOf (h : House I J) (dt : ℝ) (V : J → (Fin 12 → ℝ) → ℝ) (δ K : ℝ) (d f : I → ℝ) (x y : J → Fin 12 → ℝ) : ℝ :=
  stored h dt V d f x + δ * Gap.heldSq x + K * Gap.heldSq y

theorem exists_ratio (hP : Passive h hR) : ∃ R, 0 ≤ R ∧ R < 1 ∧ ∀ j l, h.ratio j l ≤ R := by
  by_cases hne : Nonempty (J × Fin 12)
  · obtain ⟨p, hp⟩ := Finite.exists_max fun p : J × Fin 12 => h.ratio p.1 p.2
    exact ⟨h.ratio p.1 p.2, (hP.ratio _ _).1, (hP.ratio _ _).2, fun j l => hp (j, l)⟩
  · refine ⟨0, le_rfl, zero_lt_one, fun j l => ?_⟩
    exact absurd ⟨(j, l)⟩ hne

/-- Passive parts have a bound on what they can give back. -/
theorem exists_stores (hP : Passive h hR) : ∃ V e κ, Stores h hR V e κ := by
  classical
  obtain ⟨ρ, hρ0, hρ1, hρ⟩ := exists_ratio hP
  obtain ⟨ε, hε, H⟩ := hP.takes
  have hr : ∀ j l, 0 ≤ h.ratio j l ∧ h.ratio j l ≤ ρ := fun j l => ⟨(hP.ratio j l).1, hρ j l⟩
  have hρ2 : 0 < 1 - ρ ^ 2 := by nlinarith
  have hκ : 0 ≤ 6 / (ε * (1 - ρ ^ 2)) := by positivity
  have hx : ∀ x : Fin 12 → ℝ, 0 ≤ ∑ l, x l ^ 2 := fun x => Finset.sum_nonneg fun _ _ => sq_nonneg _
  refine ⟨fun j x => if h.kEi j = none then store (h.phiA0 j) (1 / (h.hC j + hR j)) (ε / 2) (h.phiA1 j) (h.ratio j) x else 0, ε / 2,
    6 / (ε * (1 - ρ ^ 2)), half_pos hε, hκ, fun j x => ?_, fun j x => ?_, fun j x q hK => ?_, fun j x hK => if_neg hK, fun j x y η hη => ?_⟩
  · split_ifs with hK
    · exact store_nonneg hε hρ1 (hr j) (H j hK) x
    · exact le_rfl
  · split_ifs with hK
    · exact store_le hε hρ1 (hr j) (H j hK) x
    · exact mul_nonneg hκ (hx x)
  · simp only [if_pos hK]
    exact store_step hε hρ1 (hr j) (H j hK) x q
  · split_ifs with hK
    · exact store_add hε hρ1 (hr j) (H j hK) hη x y
    · simp

theorem stored_nonneg (hw : WellFormed h hR dt) {V : J → (Fin 12 → ℝ) → ℝ} {e κ : ℝ} (hV : Stores h hR V e κ) (d f : I → ℝ)
    (x : J → Fin 12 → ℝ) : 0 ≤ stored h dt V d f x := by
  have hdt := hw.dt_pos
  have hcap : (0 : ℝ) < airCap := by unfold airCap; norm_num
  unfold stored
  refine add_nonneg (Finset.sum_nonneg fun i _ => ?_) (Finset.sum_nonneg fun j _ => mul_nonneg (hw.area_pos j).le (hV.nonneg j _))
  have := hw.vRoom_pos i
  have := hw.cSh_nonneg i
  positivity

/-- A mode forgets all but a part of what it held. -/
theorem mode_decay {p r q x ρ : ℝ} (hr : 0 ≤ r) (hρ : r ≤ ρ) (hρ1 : ρ < 1) :
    (p * q + r * x) ^ 2 ≤ (1 + ρ ^ 2) / 2 * x ^ 2 + p ^ 2 * (1 + 2 * ρ ^ 2 / (1 - ρ ^ 2)) * q ^ 2 := by
  have hρ0 := hr.trans hρ
  have hρ2 : 0 < 1 - ρ ^ 2 := by nlinarith
  have h1 : r ^ 2 ≤ ρ ^ 2 := pow_le_pow_left₀ hr hρ 2
  have h2 : 2 * (p * q) * (r * x) ≤ (1 - ρ ^ 2) / 2 * x ^ 2 + 2 * r ^ 2 / (1 - ρ ^ 2) * (p * q) ^ 2 := by
    have h3 : 2 * r ^ 2 / (1 - ρ ^ 2) * (1 - ρ ^ 2) = 2 * r ^ 2 := div_mul_cancel₀ _ hρ2.ne'
    generalize 2 * r ^ 2 / (1 - ρ ^ 2) = b at *
    have h4 : 0 ≤ (2 * (1 - ρ ^ 2)) * ((1 - ρ ^ 2) / 2 * x ^ 2 + b * (p * q) ^ 2 - 2 * (p * q) * (r * x)) := by
      nlinarith [sq_nonneg ((1 - ρ ^ 2) * x - 2 * r * (p * q))]
    have := nonneg_of_mul_nonneg_right h4 (by positivity)
    linarith
  have h5 : 2 * r ^ 2 / (1 - ρ ^ 2) ≤ 2 * ρ ^ 2 / (1 - ρ ^ 2) := div_le_div_of_nonneg_right (by linarith) hρ2.le
  have h6 := mul_le_mul_of_nonneg_right h5 (sq_nonneg (p * q))
  have h7 := mul_le_mul_of_nonneg_right h1 (sq_nonneg x)
  nlinarith

/-- **Contraction.** One rate for all differences of steps of a house. -/
theorem energy_contracts (hw : WellFormed h hR dt) (hP : Passive h hR) (hpt : Partitions h hR) (hw0 : ∀ i, 0 ≤ w i) (hg : ∀ i, 0 < h.gSh i)
    (hl : LosesHeat h w) :
    ∃ (V : J → (Fin 12 → ℝ) → ℝ) (e κ δ K ρ L : ℝ), Stores h hR V e κ ∧ 0 ≤ δ ∧ 0 ≤ K ∧ 0 ≤ ρ ∧ ρ < 1 ∧ 0 ≤ L ∧ ∀ g : Gap h hR dt w,
      energyOf h dt V δ K g.d g.f g.next (fun j l => h.ratio j l * g.y j l) ≤ ρ * energyOf h dt V δ K g.old g.oldF g.x g.y ∧
      (∀ i, g.d i ^ 2 ≤ L * energyOf h dt V δ K g.old g.oldF g.x g.y) ∧ (∀ i, g.f i ^ 2 ≤ L * energyOf h dt V δ K g.old g.oldF g.x g.y) ∧
      (∀ j, g.s j ^ 2 ≤ L * energyOf h dt V δ K g.old g.oldF g.x g.y) := by
  classical
  obtain ⟨V, e, κ, hV⟩ := exists_stores hP
  obtain ⟨R, hR0, hR1, hRle⟩ := exists_ratio hP
  have he := hV.e_pos
  have hRR : 0 < 1 - R ^ 2 := by nlinarith
  obtain ⟨K0, hK0, H0⟩ := bd_stored hw he hw0 hg hl hV
  -- the rooms, furniture and surfaces
  obtain ⟨L0, hL0, HL⟩ : Bounded (Gap.base (h := h) (hR := hR) (dt := dt) (w := w) e)
      fun g => ∑ i, (g.d i ^ 2 + g.f i ^ 2) + ∑ j, g.s j ^ 2 :=
    Bounded.add (Bounded.sum _ fun i _ => (bd_room hw he hw0 hl i).add (bd_furniture hw he hw0 hg hl i))
      (Bounded.sum _ fun j _ => bd_surface hw he hw0 hl j)
  -- the rear sides
  obtain ⟨E0, hE0, HE⟩ : Bounded (fun g : Gap h hR dt w => Gap.heldSq g.y) fun g => ∑ j, h.area j * (g.idle j ^ 2 / (2 * e)) := by
    refine Bounded.sum _ fun j _ => Bounded.smul (hw.area_pos j).le ?_
    refine ((Bounded.sq_sum Finset.univ (F := fun l (g : Gap h hR dt w) => g.y j l) fun l _ => ?_).smul (a := (2 * e)⁻¹) (by positivity)).mono
      fun g => by rw [div_eq_inv_mul]; rfl
    exact ⟨1, zero_le_one, fun g => by rw [one_mul]; exact le_heldSq g.y j l⟩
  -- the modes
  obtain ⟨C2, hC2, HC⟩ : Bounded (Gap.spent (h := h) (hR := hR) (dt := dt) (w := w) e)
      fun g => ∑ j, ∑ l, h.phiA1 j l ^ 2 * (1 + 2 * R ^ 2 / (1 - R ^ 2)) * g.q j ^ 2 :=
    Bounded.sum _ fun j _ => Bounded.sum _ fun l _ => (bd_flow hw he hw0 j).smul (by positivity)
  obtain ⟨δ, hδ, hδC⟩ : ∃ δ : ℝ, 0 < δ ∧ δ * C2 ≤ 1 / 2 := by
    refine ⟨1 / (2 * (C2 + 1)), by positivity, ?_⟩
    rw [div_mul_eq_mul_div, one_mul, div_le_div_iff₀ (by positivity) (by norm_num)]
    linarith
  obtain ⟨K, hKdef⟩ : ∃ K, K = (E0 + 1) / (1 - R ^ 2) := ⟨_, rfl⟩
  have hK : 0 < K := by rw [hKdef]; positivity
  have hK1 : K * (1 - R ^ 2) = E0 + 1 := by rw [hKdef, div_mul_cancel₀ _ hRR.ne']
  -- loss per step
  obtain ⟨μ, hμ, hμ1, hμ2, hμ3⟩ : ∃ μ : ℝ, 0 < μ ∧ μ ≤ 1 / 2 ∧ μ ≤ δ * ((1 - R ^ 2) / 2) ∧ μ ≤ 1 :=
    ⟨min (1 / 2) (δ * ((1 - R ^ 2) / 2)), lt_min (by norm_num) (by positivity), min_le_left _ _, min_le_right _ _,
      (min_le_left _ _).trans (by norm_num)⟩
  have key : ∀ g : Gap h hR dt w, energyOf h dt V δ K g.d g.f g.next (fun j l => h.ratio j l * g.y j l) + μ * g.base e
      ≤ energyOf h dt V δ K g.old g.oldF g.x g.y := by
    intro g
    have a1 := g.energy hw hV hpt
    have a2 := HE g
    have sp := (spent_parts hw he hw0 g).1
    have hX := heldSq_nonneg g.x
    have hY := heldSq_nonneg g.y
    have a3 : Gap.heldSq g.next ≤ (1 + R ^ 2) / 2 * Gap.heldSq g.x + C2 * g.spent e := by
      refine le_trans ?_ (add_le_add_right (HC g) _)
      unfold Gap.heldSq
      rw [Finset.mul_sum, ← Finset.sum_add_distrib]
      refine Finset.sum_le_sum fun j _ => ?_
      rw [Finset.mul_sum, ← Finset.sum_add_distrib]
      exact Finset.sum_le_sum fun l _ => mode_decay (hP.ratio j l).1 (hRle j l) hR1
    have a4 : Gap.heldSq (fun j l => h.ratio j l * g.y j l) ≤ R ^ 2 * Gap.heldSq g.y := by
      unfold Gap.heldSq
      simp only [Finset.mul_sum]
      refine Finset.sum_le_sum fun j _ => Finset.sum_le_sum fun l _ => ?_
      rw [mul_pow]
      exact mul_le_mul_of_nonneg_right (pow_le_pow_left₀ (hP.ratio j l).1 (hRle j l) 2) (sq_nonneg _)
    have b3 := mul_le_mul_of_nonneg_left a3 hδ.le
    have b4 := mul_le_mul_of_nonneg_left a4 hK.le
    have b5 := mul_le_mul_of_nonneg_right hδC sp
    have b6 := mul_le_mul_of_nonneg_right hμ1 sp
    have b7 := mul_le_mul_of_nonneg_right hμ2 hX
    have b8 := mul_le_mul_of_nonneg_right hμ3 hY
    have b9 : K * (R ^ 2 * Gap.heldSq g.y) = K * Gap.heldSq g.y - (E0 + 1) * Gap.heldSq g.y := by linear_combination -Gap.heldSq g.y * hK1
    unfold energyOf Gap.base
    nlinarith
  -- all is bounded by the loss
  obtain ⟨K1, hK10, HK1⟩ : Bounded (Gap.base (h := h) (hR := hR) (dt := dt) (w := w) e)
      fun g => energyOf h dt V δ K g.d g.f g.next (fun j l => h.ratio j l * g.y j l) :=
    Bounded.add (Bounded.add ⟨K0, hK0, H0⟩ (Bounded.smul hδ.le (Bounded.sum _ fun j _ => Bounded.sum _ fun l _ => bd_next hw he hw0 j l)))
      (Bounded.smul hK.le (Bounded.sum _ fun j _ => Bounded.sum _ fun l _ => (bd_modeT hw he hw0 j l).sq_smul _))
  have enn : ∀ (d f : I → ℝ) (x y : J → Fin 12 → ℝ), 0 ≤ energyOf h dt V δ K d f x y := fun d f x y =>
    add_nonneg (add_nonneg (stored_nonneg hw hV d f x) (mul_nonneg hδ.le (heldSq_nonneg x))) (mul_nonneg hK.le (heldSq_nonneg y))
  have hμK : 0 < μ / (K1 + 1) := by positivity
  refine ⟨V, e, κ, δ, K, 1 / (1 + μ / (K1 + 1)), L0 / μ, hV, hδ.le, hK.le, by positivity, by rw [div_lt_one (by positivity)]; linarith,
    by positivity, fun g => ?_⟩
  have k1 := key g
  have hb := base_nonneg hw he hw0 g
  have hE := enn g.d g.f g.next (fun j l => h.ratio j l * g.y j l)
  have hbound : g.base e ≤ energyOf h dt V δ K g.old g.oldF g.x g.y / μ := by
    rw [le_div_iff₀ hμ]; linarith
  have hall : ∑ i, (g.d i ^ 2 + g.f i ^ 2) + ∑ j, g.s j ^ 2 ≤ L0 / μ * energyOf h dt V δ K g.old g.oldF g.x g.y := by
    rw [div_mul_eq_mul_div, mul_div_assoc]
    exact (HL g).trans (mul_le_mul_of_nonneg_left hbound hL0)
  have a1 : ∀ i, g.d i ^ 2 + g.f i ^ 2 ≤ ∑ i, (g.d i ^ 2 + g.f i ^ 2) := fun i =>
    Finset.single_le_sum (f := fun i => g.d i ^ 2 + g.f i ^ 2) (fun i _ => by positivity) (Finset.mem_univ i)
  have a1' : 0 ≤ ∑ i, (g.d i ^ 2 + g.f i ^ 2) := Finset.sum_nonneg fun i _ => by positivity
  have a2 : ∀ j, g.s j ^ 2 ≤ ∑ j, g.s j ^ 2 := fun j =>
    Finset.single_le_sum (f := fun j => g.s j ^ 2) (fun i _ => by positivity) (Finset.mem_univ j)
  have a2' : 0 ≤ ∑ j, g.s j ^ 2 := Finset.sum_nonneg fun j _ => by positivity
  refine ⟨?_, fun i => ?_, fun i => ?_, fun j => ?_⟩
  · have h1 : energyOf h dt V δ K g.d g.f g.next (fun j l => h.ratio j l * g.y j l) ≤ K1 * g.base e := HK1 g
    generalize energyOf h dt V δ K g.d g.f g.next (fun j l => h.ratio j l * g.y j l) = E' at *
    rw [div_mul_eq_mul_div, one_mul, le_div_iff₀ (by positivity), mul_add, mul_one]
    have h2 : E' * (μ / (K1 + 1)) ≤ μ * g.base e := by
      rw [mul_div_assoc', div_le_iff₀ (by positivity)]
      have h3 := mul_le_mul_of_nonneg_left h1 hμ.le
      have h4 := mul_nonneg hμ.le hb
      linarith
    linarith
  · have := a1 i; have := sq_nonneg (g.f i); linarith
  · have := a1 i; have := sq_nonneg (g.d i); linarith
  · have := a2 j; linarith

end

end HLC
