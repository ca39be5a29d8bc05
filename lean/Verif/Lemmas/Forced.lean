import Verif.Lemmas.Energy
import Verif.Lemmas.WellFormed
import Verif.Lemmas.House

/-!
# The answer of a free-running house to small sources
-/

set_option linter.unusedSectionVars false

namespace HLC
open Spec

variable {I J : Type} [Fintype I] [DecidableEq I] [Fintype J] [DecidableEq J]

/-- The difference of two steps of a free-running house from the same state under data that differ: `o` outdoor air, `gain` heat gains, `sun` solar
gains, `rear` temperatures behind the parts. All are at most `ε`. -/
structure Forced (h : House I J) (hR : J → ℝ) (dt : ℝ) (w : I → ℝ) where
  ε : ℝ
  o : ℝ
  gain : I → ℝ
  sun : I → ℝ
  rear : J → ℝ
  d : I → ℝ
  f : I → ℝ
  v : I → ℝ
  s : J → ℝ
  q : J → ℝ
  o_le : |o| ≤ ε
  gain_le : ∀ i, |gain i| ≤ ε
  sun_le : ∀ i, |sun i| ≤ ε
  rear_le : ∀ j, |rear j| ≤ ε
  room : ∀ i, h.vRoom i * airCap * d i / dt = convection h i (d i) s + h.gSh i * (f i - d i) + airCap * v i * (o - d i)
    - airCap * ∑ l, h.vInt i l * d l + gain i
  furniture : ∀ i, h.cSh i * f i = dt * (h.gSh i * (d i - f i) + sun i * 0.5)
  flux : ∀ j, q j = h.hC j * (d (h.room j) - s j) + hR j * (roomMrt h hR (h.room j) s - s j)
    + (∑ i, h.p i j * (sun i / h.aSrfAbs i)) * ind (h.solarAbs j) * (1 - House.rSolFnt)
  wall : ∀ j, s j = h.phiA0 j * q j + (match h.kEi j with | none => 0 | some (m, _) => s m + q m / (h.hC m + hR m)) + (h.phiT0 j + ∑ l, h.phiT1 j l) * (h.kEo j * rear j)
  vent : ∀ i, w i + (∑ l, h.vInt i l + ∑ l, h.vInt l i) / 2 ≤ v i

namespace Forced
variable {h : House I J} {hR : J → ℝ} {dt : ℝ} {w : I → ℝ} (F : Forced h hR dt w)

/-- Sun absorbed by a surface. -/
noncomputable def z (j : J) : ℝ := (∑ i, h.p i j * (F.sun i / h.aSrfAbs i)) * ind (h.solarAbs j) * (1 - House.rSolFnt)

/-- What the sources do to the surfaces of a house whose rooms keep their temperature, beyond the change outdoors: right-hand side. -/
noncomputable def b (j : J) : ℝ :=
  h.phiA0 j * F.z j + (match h.kEi j with | none => -F.o | some (m, _) => F.z m / (h.hC j + hR j)) + (h.phiT0 j + ∑ l, h.phiT1 j l) * (h.kEo j * F.rear j)

/-- Temperatures of the surfaces. -/
noncomputable def s0 (j : J) : ℝ := (h.ax hR)⁻¹.mulVec F.b j

/-- Heat flows into the surfaces. -/
noncomputable def q0 (j : J) : ℝ := h.hC j * (0 - F.s0 j) + hR j * (roomMrt h hR (h.room j) F.s0 - F.s0 j) + F.z j

theorem wall0 (hw : WellFormed h hR dt) (hpt : Partitions h hR) (j : J) :
    F.s0 j = h.phiA0 j * F.q0 j + (match h.kEi j with | none => -F.o | some (m, _) => F.s0 m + F.q0 m / (h.hC m + hR m))
      + (h.phiT0 j + ∑ l, h.phiT1 j l) * (h.kEo j * F.rear j) := by
  have hs := congrFun (mulVec_npInv (ax_inv hw) F.b) j
  change (h.ax hR).mulVec F.s0 j = F.b j at hs
  rw [ax_mulVec, kEi_mulVec] at hs
  unfold b at hs
  unfold q0
  cases hK : h.kEi j with
  | none =>
    simp only [hK] at hs ⊢
    linear_combination hs
  | some mc =>
    obtain ⟨m, coef⟩ := mc
    simp only [hK] at hs ⊢
    obtain ⟨f1, f2, -⟩ := hpt.films j m coef hK
    have c1 := (hpt.side j m coef hK).1
    have t1 := (hpt.steady j m coef hK).1
    have hne : h.hC j + hR j ≠ 0 := (add_pos (hw.hC_pos j) (hw.hR_pos j)).ne'
    rw [f1, f2]
    have hs' : (1 + h.phiA0 j * (h.hC j + hR j)) * F.s0 j - hR j * h.phiA0 j * roomMrt h hR (h.room j) F.s0
        - hR j * 1 / (h.hC j + hR j) * (1 * roomMrt h hR (h.room m) F.s0)
        = h.phiA0 j * F.z j + F.z m / (h.hC j + hR j) + (h.phiT0 j + ∑ l, h.phiT1 j l) * (h.kEo j * F.rear j) := by
      rw [← hs, c1, t1]
    have e : F.s0 m + (h.hC j * (0 - F.s0 m) + hR j * (roomMrt h hR (h.room m) F.s0 - F.s0 m) + F.z m) / (h.hC j + hR j)
        = hR j * 1 / (h.hC j + hR j) * (1 * roomMrt h hR (h.room m) F.s0) + F.z m / (h.hC j + hR j) := by
      field_simp
      ring
    rw [e]
    linear_combination hs'

theorem roomMrt_add (i : I) (x y : J → ℝ) : roomMrt h hR i (fun j => x j + y j) = roomMrt h hR i x + roomMrt h hR i y := by
  unfold roomMrt
  rw [← add_div, ← Finset.sum_add_distrib]
  congr 1
  exact Finset.sum_congr rfl fun j _ => by ring

/-- The answer to the sources as the answer of a house without sources to a start. -/
noncomputable def gap (hw : WellFormed h hR dt) (hpt : Partitions h hR) (hg : ∀ i, 0 < h.gSh i) : Gap h hR dt w where
  old i := -F.o + dt / (h.vRoom i * airCap)
    * (∑ j ∈ surfaces h i, h.area j * h.hC j * F.s0 j + F.sun i * 0.5 - airCap * ∑ l, h.vInt i l * F.o + F.gain i)
  oldF i := -F.o - F.sun i * 0.5 / h.gSh i
  d i := F.d i - F.o
  f i := F.f i - F.o - F.sun i * 0.5 / h.gSh i
  v := F.v
  s j := F.s j - (F.o + F.s0 j)
  q j := F.q j - F.q0 j
  x _ _ := 0
  y _ _ := 0
  room i := by
    have hcap : h.vRoom i * airCap ≠ 0 := (mul_pos (hw.vRoom_pos i) (by unfold airCap; norm_num)).ne'
    have e1 : convection h i (F.d i - F.o) (fun j => F.s j - (F.o + F.s0 j))
        = convection h i (F.d i) F.s - ∑ j ∈ surfaces h i, h.area j * h.hC j * F.s0 j := by
      unfold convection
      rw [← Finset.sum_sub_distrib]
      exact Finset.sum_congr rfl fun j _ => by ring
    have e2 : ∑ l, h.vInt i l * (F.d l - F.o) = ∑ l, h.vInt i l * F.d l - ∑ l, h.vInt i l * F.o := by
      rw [← Finset.sum_sub_distrib]
      exact Finset.sum_congr rfl fun j _ => by ring
    have e3 : h.gSh i * (F.sun i * 0.5 / h.gSh i) = F.sun i * 0.5 := mul_div_cancel₀ _ (hg i).ne'
    have e4 : ∀ S : ℝ, h.vRoom i * airCap * (F.d i - F.o - (-F.o + dt / (h.vRoom i * airCap) * S)) / dt = h.vRoom i * airCap * F.d i / dt - S := by
      intro S
      have := hw.dt_pos.ne'
      generalize h.vRoom i * airCap = C at *
      field_simp
      ring
    rw [e4, e1, e2, F.room i]
    linear_combination e3
  furniture i := by
    have e3 : h.gSh i * (F.sun i * 0.5 / h.gSh i) = F.sun i * 0.5 := mul_div_cancel₀ _ (hg i).ne'
    linear_combination F.furniture i - dt * e3
  flux j := by
    have e1 : roomMrt h hR (h.room j) (fun j => F.s j - (F.o + F.s0 j)) = roomMrt h hR (h.room j) F.s - (F.o + roomMrt h hR (h.room j) F.s0) := by
      have a := roomMrt_add (h := h) (hR := hR) (h.room j) (fun j => F.s j - (F.o + F.s0 j)) (fun j => F.o + F.s0 j)
      have b := roomMrt_add (h := h) (hR := hR) (h.room j) (fun _ => F.o) F.s0
      have e : (fun j => F.s j - (F.o + F.s0 j) + (F.o + F.s0 j)) = F.s := by funext j; ring
      rw [e, b, roomMrt_const hw] at a
      linarith
    rw [e1, F.flux j]
    unfold q0 z
    ring
  wall j := by
    have a := F.wall j
    have b := F.wall0 hw hpt j
    cases hK : h.kEi j with
    | none =>
      simp only [hK] at a b ⊢
      simp
      linear_combination a - b
    | some mc =>
      obtain ⟨m, coef⟩ := mc
      simp only [hK] at a b ⊢
      simp
      rw [sub_div]
      linear_combination a - b
  vent := F.vent
  empty := fun _ _ _ => ⟨rfl, rfl⟩

/-- All sources are bounded by `ε`, and so are the answers of the surfaces. -/
theorem bd_o : Bounded (fun F : Forced h hR dt w => F.ε ^ 2) fun F => F.o ^ 2 :=
  ⟨1, zero_le_one, fun F => by rw [one_mul]; exact sq_le_sq.2 (F.o_le.trans (le_abs_self _))⟩

theorem bd_gain (i : I) : Bounded (fun F : Forced h hR dt w => F.ε ^ 2) fun F => F.gain i ^ 2 :=
  ⟨1, zero_le_one, fun F => by rw [one_mul]; exact sq_le_sq.2 ((F.gain_le i).trans (le_abs_self _))⟩

theorem bd_sun (i : I) : Bounded (fun F : Forced h hR dt w => F.ε ^ 2) fun F => F.sun i ^ 2 :=
  ⟨1, zero_le_one, fun F => by rw [one_mul]; exact sq_le_sq.2 ((F.sun_le i).trans (le_abs_self _))⟩

theorem bd_rear (j : J) : Bounded (fun F : Forced h hR dt w => F.ε ^ 2) fun F => F.rear j ^ 2 :=
  ⟨1, zero_le_one, fun F => by rw [one_mul]; exact sq_le_sq.2 ((F.rear_le j).trans (le_abs_self _))⟩

theorem bd_z (j : J) : Bounded (fun F : Forced h hR dt w => F.ε ^ 2) fun F => F.z j ^ 2 :=
  ((Bounded.sq_sum Finset.univ fun i _ => (bd_sun i).sq_smul (h.p i j * (1 / h.aSrfAbs i))).sq_smul
    (ind (h.solarAbs j) * (1 - House.rSolFnt))).sq_congr fun F => by
      unfold z
      rw [mul_assoc, mul_comm]
      congr 1
      exact Finset.sum_congr rfl fun i _ => by ring

theorem bd_b (j : J) : Bounded (fun F : Forced h hR dt w => F.ε ^ 2) fun F => F.b j ^ 2 := by
  have h1 : Bounded (fun F : Forced h hR dt w => F.ε ^ 2)
      fun F => (match h.kEi j with | none => -F.o | some (m, _) => F.z m / (h.hC j + hR j)) ^ 2 := by
    cases h.kEi j with
    | none => exact (bd_o.sq_smul (-1)).sq_congr fun F => by simp
    | some mc => exact ((bd_z mc.1).sq_smul (1 / (h.hC j + hR j))).sq_congr fun F => by simp; ring
  exact ((((bd_z j).sq_smul (h.phiA0 j)).sq_add h1).sq_add ((bd_rear j).sq_smul ((h.phiT0 j + ∑ l, h.phiT1 j l) * h.kEo j))).sq_congr fun F => by
    unfold b
    ring

theorem bd_s0 (j : J) : Bounded (fun F : Forced h hR dt w => F.ε ^ 2) fun F => F.s0 j ^ 2 :=
  (Bounded.sq_sum Finset.univ fun k _ => (bd_b k).sq_smul ((h.ax hR)⁻¹ j k)).sq_congr fun F => by
    unfold s0
    rfl

/-- One constant for the house bounds the answers to all sources. -/
theorem answers (hw : WellFormed h hR dt) (hP : Passive h hR) (hpt : Partitions h hR) (hw0 : ∀ i, 0 ≤ w i) (hg : ∀ i, 0 < h.gSh i)
    (hl : LosesHeat h w) : ∃ K, 0 ≤ K ∧ ∀ F : Forced h hR dt w, (∀ i, |F.d i| ≤ K * F.ε) ∧ (∀ i, |F.f i| ≤ K * F.ε) ∧ (∀ j, |F.s j| ≤ K * F.ε) ∧
      ∀ j, |F.q j| ≤ K * F.ε := by
  obtain ⟨V, e, κ, δ, K, ρ, L, hV, hδ, hK, hρ0, hρ1, hL, HG⟩ := energy_contracts hw hP hpt hw0 hg hl
  have hdt := hw.dt_pos
  have hcap : (0 : ℝ) < airCap := by unfold airCap; norm_num
  have b1 : ∀ i, Bounded (fun F : Forced h hR dt w => F.ε ^ 2) fun F => (F.gap hw hpt hg).old i ^ 2 := fun i => by
    have a1 : Bounded (fun F : Forced h hR dt w => F.ε ^ 2) fun F => (∑ j ∈ surfaces h i, h.area j * h.hC j * F.s0 j) ^ 2 :=
      Bounded.sq_sum _ fun j _ => (bd_s0 j).sq_smul _
    have a2 : Bounded (fun F : Forced h hR dt w => F.ε ^ 2) fun F => (∑ l, h.vInt i l * F.o) ^ 2 :=
      Bounded.sq_sum _ fun l _ => bd_o.sq_smul _
    exact ((bd_o.sq_smul (-1)).sq_add
      ((((a1.sq_add ((bd_sun i).sq_smul 0.5)).sq_sub (a2.sq_smul airCap)).sq_add (bd_gain i)).sq_smul (dt / (h.vRoom i * airCap)))).sq_congr
        fun F => by simp only [gap]; ring
  have b2 : ∀ i, Bounded (fun F : Forced h hR dt w => F.ε ^ 2) fun F => (F.gap hw hpt hg).oldF i ^ 2 := fun i =>
    ((bd_o.sq_smul (-1)).sq_sub ((bd_sun i).sq_smul (0.5 / h.gSh i))).sq_congr fun F => by simp only [gap]; ring
  have bE : Bounded (fun F : Forced h hR dt w => F.ε ^ 2) fun F =>
      energyOf h dt V δ K (F.gap hw hpt hg).old (F.gap hw hpt hg).oldF (F.gap hw hpt hg).x (F.gap hw hpt hg).y := by
    unfold energyOf stored Gap.heldSq
    refine Bounded.add (Bounded.add (Bounded.add (Bounded.sum _ fun i _ => ?_) (Bounded.sum _ fun j _ => ?_)) ?_) ?_
    · have c1 : 0 ≤ h.vRoom i * airCap / dt := by have := hw.vRoom_pos i; positivity
      have c2 : 0 ≤ h.cSh i / dt := div_nonneg (hw.cSh_nonneg i) hdt.le
      exact ((((b1 i).smul c1).add ((b2 i).smul c2)).smul (one_half_pos.le)).mono fun p => by linarith
    · refine Bounded.smul (hw.area_pos j).le (Bounded.zero.mono fun F => ?_)
      refine (hV.le j _).trans ?_
      simp [gap]
    · exact Bounded.zero.mono fun F => by simp [gap]
    · exact Bounded.zero.mono fun F => by simp [gap]
  have bd : ∀ i, Bounded (fun F : Forced h hR dt w => F.ε ^ 2) fun F => F.d i ^ 2 := fun i =>
    (((bE.smul hL).mono fun F => (HG (F.gap hw hpt hg)).2.1 i).sq_add bd_o).sq_congr fun F => by simp only [gap]; ring
  have bf : ∀ i, Bounded (fun F : Forced h hR dt w => F.ε ^ 2) fun F => F.f i ^ 2 := fun i =>
    ((((bE.smul hL).mono fun F => (HG (F.gap hw hpt hg)).2.2.1 i).sq_add bd_o).sq_add ((bd_sun i).sq_smul (0.5 / h.gSh i))).sq_congr fun F => by
      simp only [gap]; ring
  have bs : ∀ j, Bounded (fun F : Forced h hR dt w => F.ε ^ 2) fun F => F.s j ^ 2 := fun j =>
    ((((bE.smul hL).mono fun F => (HG (F.gap hw hpt hg)).2.2.2 j).sq_add bd_o).sq_add (bd_s0 j)).sq_congr fun F => by
      simp only [gap]; ring
  have bm : ∀ i, Bounded (fun F : Forced h hR dt w => F.ε ^ 2) fun F => (roomMrt h hR i F.s) ^ 2 := fun i =>
    ((Bounded.sq_sum (surfaces h i) fun j _ => (bs j).sq_smul (h.area j * hR j)).sq_smul (1 / ∑ j ∈ surfaces h i, h.area j * hR j)).sq_congr fun F => by
      unfold roomMrt; ring
  have bq : ∀ j, Bounded (fun F : Forced h hR dt w => F.ε ^ 2) fun F => F.q j ^ 2 := fun j =>
    (((((bd (h.room j)).sq_sub (bs j)).sq_smul (h.hC j)).sq_add (((bm (h.room j)).sq_sub (bs j)).sq_smul (hR j))).sq_add (bd_z j)).sq_congr fun F => by
      rw [F.flux j]; rfl
  -- one constant
  obtain ⟨C, hC, HC⟩ : Bounded (fun F : Forced h hR dt w => F.ε ^ 2) fun F =>
      ∑ i, F.d i ^ 2 + ∑ i, F.f i ^ 2 + ∑ j, F.s j ^ 2 + ∑ j, F.q j ^ 2 :=
    (((Bounded.sum _ fun i _ => bd i).add (Bounded.sum _ fun i _ => bf i)).add (Bounded.sum _ fun j _ => bs j)).add (Bounded.sum _ fun j _ => bq j)
  refine ⟨√C, Real.sqrt_nonneg C, fun F => ?_⟩
  have hε : 0 ≤ F.ε := (abs_nonneg _).trans F.o_le
  have key : ∀ {x : ℝ}, x ^ 2 ≤ C * F.ε ^ 2 → |x| ≤ √C * F.ε := fun {x} hx => by
    refine abs_le_of_sq_le_sq ?_ (by positivity)
    rw [mul_pow, Real.sq_sqrt hC]
    exact hx
  have H := HC F
  have n1 : 0 ≤ ∑ i, F.d i ^ 2 := Finset.sum_nonneg fun i _ => sq_nonneg _
  have n2 : 0 ≤ ∑ i, F.f i ^ 2 := Finset.sum_nonneg fun i _ => sq_nonneg _
  have n3 : 0 ≤ ∑ j, F.s j ^ 2 := Finset.sum_nonneg fun i _ => sq_nonneg _
  have n4 : 0 ≤ ∑ j, F.q j ^ 2 := Finset.sum_nonneg fun i _ => sq_nonneg _
  refine ⟨fun i => key ?_, fun i => key ?_, fun j => key ?_, fun j => key ?_⟩
  · have := Finset.single_le_sum (f := fun i => F.d i ^ 2) (fun i _ => sq_nonneg _) (Finset.mem_univ i)
    linarith
  · have := Finset.single_le_sum (f := fun i => F.f i ^ 2) (fun i _ => sq_nonneg _) (Finset.mem_univ i)
    linarith
  · have := Finset.single_le_sum (f := fun i => F.s i ^ 2) (fun i _ => sq_nonneg _) (Finset.mem_univ j)
    linarith
  · have := Finset.single_le_sum (f := fun i => F.q i ^ 2) (fun i _ => sq_nonneg _) (Finset.mem_univ j)
    linarith

end Forced

end HLC
