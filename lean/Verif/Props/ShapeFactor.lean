import Verif.Model.ShapeFactor
import Verif.Spec.Radiation
import Mathlib.Topology.Order.IntermediateValue
import Mathlib.Topology.Algebra.GroupWithZero
import Mathlib.Algebra.Order.BigOperators.Group.List
import Mathlib.Data.Fin.VecNotation
import Mathlib.Data.List.Sort

/-!
# C33, C34: shape factors
-/

namespace HLC

set_option linter.unusedSectionVars false

open Spec

/-! ## One surface -/

theorem sign_sqrt (x : ℝ) : Real.sign x * Real.sqrt |x| = Real.sqrt x - Real.sqrt (-x) := by
  rcases lt_trichotomy x 0 with h | h | h
  · rw [Real.sign_of_neg h, abs_of_neg h, Real.sqrt_eq_zero_of_nonpos h.le]; ring
  · subst h; simp
  · rw [Real.sign_of_pos h, abs_of_pos h, Real.sqrt_eq_zero_of_nonpos (by linarith : -x ≤ 0)]; ring

theorem getFj_eq (v r : ℝ) : getFj v r = (1 - Real.sqrt (1 - 4 * r / v) + Real.sqrt (4 * r / v - 1)) / 2 := by
  unfold getFj
  rw [sign_sqrt, neg_sub]; ring

theorem getFj_factor {v r : ℝ} (hv : 0 < v) : getFj v r = factor v r := by
  rw [getFj_eq]
  unfold factor
  split_ifs with h
  · have : 4 * r / v ≤ 1 := by rw [div_le_one hv]; exact h
    rw [Real.sqrt_eq_zero_of_nonpos (by linarith : 4 * r / v - 1 ≤ 0)]; ring
  · have : 1 < 4 * r / v := by rw [one_lt_div hv]; exact not_le.mp h
    rw [Real.sqrt_eq_zero_of_nonpos (by linarith : 1 - 4 * r / v ≤ 0)]; ring

/-- `x ↦ √x - √(-x)` is strictly increasing. -/
theorem ssqrt_strictMono {x y : ℝ} (h : x < y) : Real.sqrt x - Real.sqrt (-x) < Real.sqrt y - Real.sqrt (-y) := by
  rcases le_or_gt 0 x with hx | hx
  · have h1 := Real.sqrt_lt_sqrt hx h
    rw [Real.sqrt_eq_zero_of_nonpos (by linarith : -x ≤ 0), Real.sqrt_eq_zero_of_nonpos (by linarith : -y ≤ 0)]
    linarith
  · have h1 : Real.sqrt x = 0 := Real.sqrt_eq_zero_of_nonpos hx.le
    have h2 : Real.sqrt (-y) < Real.sqrt (-x) := by
      rcases le_or_gt 0 (-y) with h0 | h0
      · exact Real.sqrt_lt_sqrt h0 (by linarith)
      · rw [Real.sqrt_eq_zero_of_nonpos h0.le]; exact Real.sqrt_pos.mpr (by linarith)
    have h3 := Real.sqrt_nonneg y
    linarith

theorem getFj_ssqrt (v r : ℝ) : getFj v r = (1 - (Real.sqrt (1 - 4 * r / v) - Real.sqrt (-(1 - 4 * r / v)))) / 2 := by
  rw [getFj_eq, neg_sub]; ring

theorem getFj_pos {v r : ℝ} (hv : 0 < v) (hr : 0 < r) : 0 < getFj v r := by
  rw [getFj_ssqrt]
  have h1 : 1 - 4 * r / v < 1 := by have : 0 < 4 * r / v := by positivity
                                    linarith
  have h2 := ssqrt_strictMono h1
  rw [Real.sqrt_one, Real.sqrt_eq_zero_of_nonpos (by norm_num : -(1 : ℝ) ≤ 0)] at h2
  linarith

theorem getFj_neg {v r : ℝ} (hv : v < 0) (hr : 0 < r) : getFj v r < 0 := by
  rw [getFj_ssqrt]
  have h1 : 1 < 1 - 4 * r / v := by
    have : 4 * r / v < 0 := div_neg_of_pos_of_neg (by linarith) hv
    linarith
  have h2 := ssqrt_strictMono h1
  rw [Real.sqrt_one, Real.sqrt_eq_zero_of_nonpos (by norm_num : -(1 : ℝ) ≤ 0)] at h2
  linarith

theorem getFj_zero (r : ℝ) : getFj 0 r = 0 := by
  rw [getFj_eq]; simp [Real.sqrt_eq_zero_of_nonpos (by norm_num : -(1 : ℝ) ≤ 0)]

theorem getFj_anti {v w r : ℝ} (hv : 0 < v) (h : v < w) (hr : 0 < r) : getFj w r < getFj v r := by
  rw [getFj_ssqrt, getFj_ssqrt]
  have h1 : 1 - 4 * r / v < 1 - 4 * r / w := by
    have : 4 * r / w < 4 * r / v := div_lt_div_of_pos_left (by linarith) hv h
    linarith
  have := ssqrt_strictMono h1
  linarith

theorem getFj_mono {v r s : ℝ} (hv : 0 < v) (h : r < s) : getFj v r < getFj v s := by
  rw [getFj_ssqrt, getFj_ssqrt]
  have h1 : 1 - 4 * s / v < 1 - 4 * r / v := by
    have : 4 * r / v < 4 * s / v := by gcongr
    linarith
  have := ssqrt_strictMono h1
  linarith

theorem getFj_continuousOn (r : ℝ) : ContinuousOn (fun v => getFj v r) (Set.Ioi 0) := by
  have : (fun v => getFj v r) = fun v => (1 - Real.sqrt (1 - 4 * r / v) + Real.sqrt (4 * r / v - 1)) / 2 := by
    funext v; exact getFj_eq v r
  rw [this]
  have hd : ContinuousOn (fun v : ℝ => 4 * r / v) (Set.Ioi 0) :=
    continuousOn_const.div continuousOn_id fun v hv => ne_of_gt hv
  exact (((continuousOn_const.sub (Real.continuous_sqrt.comp_continuousOn (continuousOn_const.sub hd))).add
    (Real.continuous_sqrt.comp_continuousOn (hd.sub continuousOn_const))).div_const 2)

/-! ## A room -/

theorem shapeEq_continuousOn (rs : List ℝ) : ContinuousOn (shapeEq rs) (Set.Ioi 0) := by
  unfold shapeEq
  apply ContinuousOn.sub _ continuousOn_const
  induction rs with
  | nil => simp only [List.map_nil, List.sum_nil]; exact continuousOn_const
  | cons r rs ih =>
    simp only [List.map_cons, List.sum_cons]
    exact (getFj_continuousOn r).add ih

theorem sum_map_nonneg {f : ℝ → ℝ} {rs : List ℝ} (h : ∀ r ∈ rs, 0 ≤ f r) : 0 ≤ (rs.map f).sum := by
  apply List.sum_nonneg
  intro x hx
  obtain ⟨r, hr, rfl⟩ := List.mem_map.mp hx
  exact h r hr

theorem shapeEq_anti {rs : List ℝ} (hpos : ∀ r ∈ rs, 0 < r) (hne : rs ≠ []) {v w : ℝ} (hv : 0 < v) (h : v < w) :
    shapeEq rs w < shapeEq rs v := by
  unfold shapeEq
  apply sub_lt_sub_right
  apply List.sum_lt_sum
  · intro r hr; exact (getFj_anti hv h (hpos r hr)).le
  · obtain ⟨r, hr⟩ := List.exists_mem_of_ne_nil rs hne
    exact ⟨r, hr, getFj_anti hv h (hpos r hr)⟩

/-- A root of the equation is positive. -/
theorem root_pos {rs : List ℝ} (hpos : ∀ r ∈ rs, 0 < r) {v : ℝ} (h : shapeEq rs v = 0) : 0 < v := by
  unfold shapeEq at h
  rcases lt_trichotomy v 0 with hv | hv | hv
  · have : 0 ≤ (rs.map fun r => -getFj v r).sum := sum_map_nonneg fun r hr => by linarith [getFj_neg hv (hpos r hr)]
    have e : ∀ l : List ℝ, (l.map fun r => -getFj v r).sum = -(l.map (getFj v)).sum := by
      intro l
      induction l with
      | nil => simp
      | cons r l ih => simp only [List.map_cons, List.sum_cons, ih]; ring
    rw [e] at this
    linarith
  · subst hv
    have : (rs.map (getFj 0)).sum = 0 := by
      apply List.sum_eq_zero
      intro x hx
      obtain ⟨r, -, rfl⟩ := List.mem_map.mp hx
      exact getFj_zero r
    linarith
  · exact hv

theorem getFj_small {v r : ℝ} (hv : 4 ≤ v) (hr : 0 ≤ r) (hr1 : r ≤ 1) : getFj v r ≤ r / 2 := by
  rw [getFj_factor (by linarith)]
  unfold factor
  rw [if_pos (by linarith)]
  have h0 : 0 ≤ 4 * r / v := by positivity
  have h1 : 4 * r / v ≤ r := by rw [div_le_iff₀ (by linarith)]; nlinarith
  have h2 : 1 - 4 * r / v ≤ Real.sqrt (1 - 4 * r / v) := by
    apply Real.le_sqrt_of_sq_le
    nlinarith
  linarith

theorem sum_le_sum_half {rs : List ℝ} {f : ℝ → ℝ} (h : ∀ r ∈ rs, f r ≤ r / 2) : (rs.map f).sum ≤ rs.sum / 2 := by
  induction rs with
  | nil => simp
  | cons r rs ih =>
    simp only [List.map_cons, List.sum_cons]
    have h1 := h r (by simp)
    have h2 := ih fun x hx => h x (by simp [hx])
    linarith

theorem mem_le_sum {rs : List ℝ} (h0 : ∀ r ∈ rs, 0 ≤ r) {r : ℝ} (hr : r ∈ rs) : r ≤ rs.sum := List.single_le_sum h0 r hr

/-- The shape factor equation of positive area ratios summing to one has exactly one root. -/
theorem shapeEq_existsUnique {rs : List ℝ} (hpos : ∀ r ∈ rs, 0 < r) (hsum : rs.sum = 1) : ∃! v, shapeEq rs v = 0 := by
  have hne : rs ≠ [] := by rintro rfl; simp at hsum
  obtain ⟨r0, hr0⟩ := List.exists_mem_of_ne_nil rs hne
  have hr0p := hpos r0 hr0
  have hr01 : r0 ≤ 1 := hsum ▸ mem_le_sum (fun r hr => (hpos r hr).le) hr0
  have hlo : 0 ≤ shapeEq rs (2 * r0) := by
    unfold shapeEq
    have h1 : getFj (2 * r0) r0 = 1 := by
      rw [getFj_eq]
      have : 4 * r0 / (2 * r0) = 2 := by field_simp; norm_num
      rw [this, Real.sqrt_eq_zero_of_nonpos (by norm_num)]
      norm_num
    have h2 : getFj (2 * r0) r0 ≤ (rs.map (getFj (2 * r0))).sum := by
      apply mem_le_sum
      · intro x hx
        obtain ⟨r, hr, rfl⟩ := List.mem_map.mp hx
        exact (getFj_pos (by linarith) (hpos r hr)).le
      · exact List.mem_map.mpr ⟨r0, hr0, rfl⟩
    linarith
  have hhi : shapeEq rs 4 ≤ 0 := by
    unfold shapeEq
    have : (rs.map (getFj 4)).sum ≤ rs.sum / 2 := sum_le_sum_half fun r hr =>
      getFj_small le_rfl (hpos r hr).le (hsum ▸ mem_le_sum (fun r hr => (hpos r hr).le) hr)
    rw [hsum] at this
    linarith
  have hle : 2 * r0 ≤ 4 := by linarith
  have hc : ContinuousOn (shapeEq rs) (Set.Icc (2 * r0) 4) :=
    (shapeEq_continuousOn rs).mono fun x hx => lt_of_lt_of_le (by linarith : (0 : ℝ) < 2 * r0) hx.1
  obtain ⟨v, -, hv⟩ := intermediate_value_Icc' hle hc ⟨hhi, hlo⟩
  refine ⟨v, hv, ?_⟩
  intro w hw
  have hv0 := root_pos hpos hv
  have hw0 := root_pos hpos hw
  rcases lt_trichotomy v w with h | h | h
  · have := shapeEq_anti hpos hne hv0 h; rw [hv] at this; have hw' : shapeEq rs w = 0 := hw; linarith
  · exact h.symm
  · have := shapeEq_anti hpos hne hw0 h; rw [hv] at this; have hw' : shapeEq rs w = 0 := hw; linarith

theorem areaRatios_pos {as : List ℝ} (hpos : ∀ a ∈ as, 0 < a) : ∀ r ∈ areaRatios as, 0 < r := by
  intro r hr
  obtain ⟨a, ha, rfl⟩ := List.mem_map.mp hr
  have h1 := hpos a ha
  have h2 := mem_le_sum (fun r hr => (hpos r hr).le) ha
  exact div_pos h1 (by linarith)

theorem areaRatios_sum {as : List ℝ} (hpos : ∀ a ∈ as, 0 < a) (hne : as ≠ []) : (areaRatios as).sum = 1 := by
  obtain ⟨a, ha⟩ := List.exists_mem_of_ne_nil as hne
  have h0 : 0 < as.sum := lt_of_lt_of_le (hpos a ha) (mem_le_sum (fun r hr => (hpos r hr).le) ha)
  have : ∀ (l : List ℝ) (s : ℝ), (l.map (· / s)).sum = l.sum / s := by
    intro l s
    induction l with
    | nil => simp
    | cons x l ih => simp only [List.map_cons, List.sum_cons, ih]; ring
  unfold areaRatios
  rw [this, div_self h0.ne']

/-- **C33 (well posed).** For every non-empty list of positive areas the shape factor equation of the room has exactly one root. -/
theorem C33_root (as : List ℝ) (hpos : ∀ a ∈ as, 0 < a) (hne : as ≠ []) : ∃! v, shapeEq (areaRatios as) v = 0 :=
  shapeEq_existsUnique (areaRatios_pos hpos) (areaRatios_sum hpos hne)

/-- **C33 (factors).** Whatever root of a room's equation the solver finds, there is one factor per surface, each is positive and at
most one (less than one with at least two surfaces), their sum is one, and a larger surface has a larger factor. -/
theorem C33_factors (solve : List ℝ → ℝ) (as : List ℝ) (hpos : ∀ a ∈ as, 0 < a)
    (hroot : shapeEq (areaRatios as) (solve (areaRatios as)) = 0) :
    (getFi solve as).length = as.length ∧ (getFi solve as).sum = 1 ∧
    (∀ f ∈ getFi solve as, 0 < f ∧ f ≤ 1) ∧ (2 ≤ as.length → ∀ f ∈ getFi solve as, f < 1) ∧
    (∀ i j (hi : i < as.length) (hj : j < as.length), as[i] < as[j] →
      ∃ fi fj, (getFi solve as)[i]? = some fi ∧ (getFi solve as)[j]? = some fj ∧ fi < fj) := by
  have hr := areaRatios_pos hpos
  have hv := root_pos hr hroot
  have hf : ∀ f ∈ getFi solve as, 0 < f := by
    intro f hf
    obtain ⟨r, hr', rfl⟩ := List.mem_map.mp hf
    exact getFj_pos hv (hr r hr')
  have hsum : (getFi solve as).sum = 1 := by
    have : (getFi solve as).sum - 1 = 0 := hroot
    linarith
  have hlen : (getFi solve as).length = as.length := by simp [getFi, areaRatios]
  refine ⟨hlen, hsum, fun f h => ⟨hf f h, hsum ▸ mem_le_sum (fun x hx => (hf x hx).le) h⟩, ?_, ?_⟩
  · intro h2 f hmem
    obtain ⟨l1, l2, e⟩ := List.append_of_mem hmem
    rw [e] at hsum hlen hf
    simp only [List.sum_append, List.sum_cons, List.length_append, List.length_cons] at hsum hlen
    have s1 : 0 ≤ l1.sum := List.sum_nonneg fun x hx => (hf x (by simp [hx])).le
    have s2 : 0 ≤ l2.sum := List.sum_nonneg fun x hx => (hf x (by simp [hx])).le
    cases l1 with
    | cons a l1 =>
      have h3 := hf a (by simp)
      have h4 : 0 ≤ l1.sum := List.sum_nonneg fun x hx => (hf x (by simp [hx])).le
      simp only [List.sum_cons] at hsum
      linarith
    | nil =>
      cases l2 with
      | nil => simp at hlen; omega
      | cons a l2 =>
        have h3 := hf a (by simp)
        have h4 : 0 ≤ l2.sum := List.sum_nonneg fun x hx => (hf x (by simp [hx])).le
        simp only [List.sum_cons] at hsum s1
        simp at hsum
        linarith
  · intro i j hi hj hlt
    have hs : 0 < as.sum := lt_of_lt_of_le (hpos _ (List.getElem_mem hi)) (mem_le_sum (fun r hr => (hpos r hr).le) (List.getElem_mem hi))
    refine ⟨_, _, ?_, ?_, getFj_mono hv (r := as[i] / as.sum) (s := as[j] / as.sum) (by gcongr)⟩
    · simp [getFi, areaRatios, hi]
    · simp [getFi, areaRatios, hj]

/-! ## The whole house -/

variable {k m : ℕ}

/-- Indices of the boundaries of room `i`, in order. -/
def roomIdx (room : Fin m → Fin k) (i : Fin k) : List (Fin m) := (List.finRange m).filter fun j => decide (room j = i)

theorem maskSelect_room {α : Type} (room : Fin m → Fin k) (i : Fin k) (f : Fin m → α) :
    maskSelect (fun j => decide (room j = i)) f = (roomIdx room i).map f := rfl

theorem sum_filter_map {ι : Type} (l : List ι) (p : ι → Bool) (f : ι → ℝ) :
    ((l.filter p).map f).sum = (l.map fun j => if p j then f j else 0).sum := by
  induction l with
  | nil => simp
  | cons x l ih =>
    by_cases h : p x = true
    · simp [h, ih]
    · simp [h, ih]

theorem sum_roomIdx (room : Fin m → Fin k) (i : Fin k) (f : Fin m → ℝ) :
    ((roomIdx room i).map f).sum = ∑ l ∈ Finset.univ.filter (fun l => room l = i), f l := by
  unfold roomIdx
  rw [sum_filter_map, Finset.sum_filter, Fin.sum_univ_def]
  simp

theorem areaRatios_room (area : Fin m → ℝ) (room : Fin m → Fin k) (i : Fin k) :
    areaRatios ((roomIdx room i).map area) = (roomIdx room i).map (share area room) := by
  unfold areaRatios
  rw [sum_roomIdx, List.map_map]
  apply List.map_congr_left
  intro j hj
  have : room j = i := by simpa [roomIdx] using hj
  simp [share, roomArea, this]

/-- The solver finds a root for every room. -/
def SolvesRooms (solve : List ℝ → ℝ) (area : Fin m → ℝ) (room : Fin m → Fin k) : Prop :=
  ∀ i, roomIdx room i ≠ [] → shapeEq ((roomIdx room i).map (share area room)) (solve ((roomIdx room i).map (share area room))) = 0

theorem getHrList_eq (solve : List ℝ → ℝ) (area : Fin m → ℝ) (room : Fin m → Fin k) :
    getHrList solve area room = ((List.finRange k).flatMap (roomIdx room)).map fun j =>
      hrOfShape (getFj (solve ((roomIdx room (room j)).map (share area room))) (share area room j)) := by
  unfold getHrList
  rw [List.map_flatMap, List.map_flatMap]
  congr 1
  funext i
  rw [maskSelect_room]
  unfold getFi
  rw [areaRatios_room, List.map_map, List.map_map]
  apply List.map_congr_left
  intro j hj
  have : room j = i := by simpa [roomIdx] using hj
  simp [this]

theorem nodup_rooms (room : Fin m → Fin k) : ((List.finRange k).flatMap (roomIdx room)).Nodup := by
  rw [List.nodup_flatMap]
  refine ⟨fun i _ => (List.nodup_finRange m).filter _, ?_⟩
  apply (List.nodup_finRange k).imp
  intro a b hab x hx hy
  have h1 : room x = a := by simpa [roomIdx] using hx
  have h2 : room x = b := by simpa [roomIdx] using hy
  exact hab (h1.symm.trans h2)

theorem perm_rooms (room : Fin m → Fin k) : ((List.finRange k).flatMap (roomIdx room)).Perm (List.finRange m) := by
  rw [List.perm_ext_iff_of_nodup (nodup_rooms room) (List.nodup_finRange m)]
  intro j
  simp [roomIdx]

/-- One coefficient per boundary, whatever the order of the boundaries. -/
theorem getHrList_length (solve : List ℝ → ℝ) (area : Fin m → ℝ) (room : Fin m → Fin k) :
    (getHrList solve area room).length = m := by
  rw [getHrList_eq, List.length_map, (perm_rooms room).length_eq, List.length_finRange]

/-- Boundaries listed room by room: the concatenation is in boundary order. -/
theorem rooms_sorted (room : Fin m → Fin k) (hm : Monotone room) : (List.finRange k).flatMap (roomIdx room) = List.finRange m := by
  have hlt : ∀ n : ℕ, (List.finRange n).Pairwise (· < ·) := fun n => List.pairwise_lt_finRange n
  have s1 : ((List.finRange k).flatMap (roomIdx room)).Pairwise (· < ·) := by
    rw [List.pairwise_flatMap]
    refine ⟨fun i _ => (hlt m).filter _, ?_⟩
    apply (hlt k).imp
    intro a b hab x hx y hy
    have h1 : room x = a := by simpa [roomIdx] using hx
    have h2 : room y = b := by simpa [roomIdx] using hy
    by_contra hn
    have := hm (not_lt.mp hn)
    rw [h1, h2] at this
    exact absurd hab (not_lt.mpr this)
  exact List.Perm.eq_of_pairwise (fun a b _ _ h1 h2 => absurd h1 (not_lt.mpr h2.le)) s1 (hlt m) (perm_rooms room)

theorem hrOfShape_eq (f : ℝ) : hrOfShape f = radiative f := by
  unfold hrOfShape radiative eps sgm; norm_num

theorem radiative_bounds {f : ℝ} (h0 : 0 ≤ f) (h1 : f ≤ 1) : radiative 0 ≤ radiative f ∧ radiative f ≤ radiative 1 := by
  have c : (0 : ℝ) < 4 * (5.67 * (10 : ℝ) ^ (-8 : ℤ)) * 293.15 ^ 3 := by positivity
  have e : ∀ f, radiative f = 0.9 / (1 - 0.9 * f) * (4 * (5.67 * (10 : ℝ) ^ (-8 : ℤ)) * 293.15 ^ 3) := by
    intro f; unfold radiative; ring
  rw [e, e, e]
  constructor
  · apply mul_le_mul_of_nonneg_right _ c.le
    apply div_le_div_of_nonneg_left <;> linarith
  · apply mul_le_mul_of_nonneg_right _ c.le
    apply div_le_div_of_nonneg_left <;> linarith

theorem radiative_zero_pos : 0 < radiative 0 := by unfold radiative; positivity

theorem radiative_strictMono {f g : ℝ} (h1 : g ≤ 1) (h : f < g) : radiative f < radiative g := by
  have c : (0 : ℝ) < 4 * (5.67 * (10 : ℝ) ^ (-8 : ℤ)) * 293.15 ^ 3 := by positivity
  have e : ∀ f, radiative f = 0.9 / (1 - 0.9 * f) * (4 * (5.67 * (10 : ℝ) ^ (-8 : ℤ)) * 293.15 ^ 3) := by
    intro f; unfold radiative; ring
  rw [e, e]
  apply mul_lt_mul_of_pos_right _ c
  apply div_lt_div_of_pos_left <;> linarith

theorem share_pos {area : Fin m → ℝ} {room : Fin m → Fin k} (hpos : ∀ j, 0 < area j) (j : Fin m) : 0 < share area room j := by
  unfold share roomArea
  apply div_pos (hpos j)
  exact Finset.sum_pos (fun l _ => hpos l) ⟨j, by simp⟩

/-- What the solver returns for a room with a boundary is the room constant of the specification. -/
theorem solve_isRoomConst {solve : List ℝ → ℝ} {area : Fin m → ℝ} {room : Fin m → Fin k} (hpos : ∀ j, 0 < area j)
    (hs : SolvesRooms solve area room) (j : Fin m) :
    IsRoomConst area room (room j) (solve ((roomIdx room (room j)).map (share area room))) := by
  have hne : roomIdx room (room j) ≠ [] := by
    intro h
    have : j ∈ roomIdx room (room j) := by simp [roomIdx]
    rw [h] at this; simp at this
  have hr : ∀ r ∈ (roomIdx room (room j)).map (share area room), 0 < r := by
    intro r hr
    obtain ⟨l, -, rfl⟩ := List.mem_map.mp hr
    exact share_pos hpos l
  have h := hs (room j) hne
  have hv := root_pos hr h
  refine ⟨hv, ?_⟩
  unfold shapeEq at h
  rw [List.map_map, sum_roomIdx] at h
  have e : ∀ l, (getFj (solve ((roomIdx room (room j)).map (share area room))) ∘ share area room) l
      = factor (solve ((roomIdx room (room j)).map (share area room))) (share area room l) := fun l => getFj_factor hv
  simp only [e] at h
  linarith

theorem factor_mem {area : Fin m → ℝ} {room : Fin m → Fin k} (hpos : ∀ j, 0 < area j) {j : Fin m} {v : ℝ}
    (hv : IsRoomConst area room (room j) v) : 0 < factor v (share area room j) ∧ factor v (share area room j) ≤ 1 := by
  have h0 : ∀ l, 0 < factor v (share area room l) := fun l => by
    rw [← getFj_factor hv.1]; exact getFj_pos hv.1 (share_pos hpos l)
  refine ⟨h0 j, ?_⟩
  rw [← hv.2]
  exact Finset.single_le_sum (f := fun l => factor v (share area room l)) (fun l _ => (h0 l).le) (by simp)

/-- **C33 (coefficients).** If the solver finds a root in every room, every boundary gets a radiative coefficient between 5.14 and 51.4
W/(m2 K) (those of the factors 0 and 1), in particular a positive and finite one, whatever the order of the boundaries. -/
theorem C33_coefficients (solve : List ℝ → ℝ) (area : Fin m → ℝ) (room : Fin m → Fin k) (hpos : ∀ j, 0 < area j)
    (hs : SolvesRooms solve area room) (j : Fin m) :
    0 < radiative 0 ∧ radiative 0 ≤ getHr solve area room j ∧ getHr solve area room j ≤ radiative 1 := by
  refine ⟨radiative_zero_pos, ?_⟩
  have hl := getHrList_length solve area room
  have hj : (j : ℕ) < (getHrList solve area room).length := by rw [hl]; exact j.isLt
  have e : getHr solve area room j = (getHrList solve area room)[(j : ℕ)] := by
    unfold getHr
    rw [List.getD_eq_getElem?_getD, List.getElem?_eq_getElem hj]; rfl
  have hmem := List.getElem_mem hj
  rw [← e] at hmem
  generalize getHr solve area room j = x at hmem
  rw [getHrList_eq] at hmem
  obtain ⟨l, -, rfl⟩ := List.mem_map.mp hmem
  have hc := solve_isRoomConst hpos hs l
  rw [hrOfShape_eq, getFj_factor hc.1]
  obtain ⟨h0, h1⟩ := factor_mem hpos hc
  exact radiative_bounds h0.le h1

/-- **C34 (partial).** If the boundaries are listed room by room (in increasing room order) and the solver finds a root in every room,
the coefficient of every boundary is the one of its own area share in its own room. Missing: other orders, where it fails
(`C34_violated`). -/
theorem C34_own_coefficient_partial (solve : List ℝ → ℝ) (area : Fin m → ℝ) (room : Fin m → Fin k) (hpos : ∀ j, 0 < area j)
    (hs : SolvesRooms solve area room) (hm : Monotone room) (j : Fin m) (v : ℝ) (hv : IsRoomConst area room (room j) v) :
    getHr solve area room j = radiative (factor v (share area room j)) := by
  have hc := solve_isRoomConst hpos hs j
  have huniq : v = solve ((roomIdx room (room j)).map (share area room)) := by
    have key : ∀ w, IsRoomConst area room (room j) w → shapeEq ((roomIdx room (room j)).map (share area room)) w = 0 := by
      intro w hw
      unfold shapeEq
      rw [List.map_map, sum_roomIdx]
      have e : ∀ l, (getFj w ∘ share area room) l = factor w (share area room l) := fun l => getFj_factor hw.1
      simp only [e, hw.2, sub_self]
    have hmem : j ∈ roomIdx room (room j) := by simp [roomIdx]
    have hne : (roomIdx room (room j)).map (share area room) ≠ [] := by
      intro h
      rw [List.map_eq_nil_iff] at h
      rw [h] at hmem; simp at hmem
    have hr : ∀ r ∈ (roomIdx room (room j)).map (share area room), 0 < r := by
      intro r hr
      obtain ⟨l, -, rfl⟩ := List.mem_map.mp hr
      exact share_pos hpos l
    rcases lt_trichotomy v (solve ((roomIdx room (room j)).map (share area room))) with h | h | h
    · have := shapeEq_anti hr hne hv.1 h
      rw [key _ hv, key _ hc] at this; linarith
    · exact h
    · have := shapeEq_anti hr hne hc.1 h
      rw [key _ hv, key _ hc] at this; linarith
  unfold getHr
  rw [getHrList_eq, rooms_sorted room hm, List.getD_eq_getElem?_getD, List.getElem?_map]
  have : (List.finRange m)[(j : ℕ)]? = some j := by simp
  rw [this]
  simp only [Option.map_some, Option.getD_some]
  rw [hrOfShape_eq, getFj_factor hc.1, huniq]

/-- A solver that always finds the root. -/
theorem exists_solver : ∃ solve : List ℝ → ℝ, ∀ rs : List ℝ, (∀ r ∈ rs, 0 < r) → rs.sum = 1 → shapeEq rs (solve rs) = 0 := by
  classical
  refine ⟨fun rs => if h : (∀ r ∈ rs, 0 < r) ∧ rs.sum = 1 then (shapeEq_existsUnique h.1 h.2).choose else 0, ?_⟩
  intro rs h1 h2
  simp only [dif_pos (And.intro h1 h2)]
  exact (shapeEq_existsUnique h1 h2).choose_spec.1

theorem share_sum {area : Fin m → ℝ} {room : Fin m → Fin k} (hpos : ∀ j, 0 < area j) {i : Fin k} (hne : roomIdx room i ≠ []) :
    ((roomIdx room i).map (share area room)).sum = 1 := by
  rw [← areaRatios_room]
  apply areaRatios_sum
  · intro a ha
    obtain ⟨l, -, rfl⟩ := List.mem_map.mp ha
    exact hpos l
  · intro h; rw [List.map_eq_nil_iff] at h; exact hne h

theorem solvesRooms_of {solve : List ℝ → ℝ} (h : ∀ rs : List ℝ, (∀ r ∈ rs, 0 < r) → rs.sum = 1 → shapeEq rs (solve rs) = 0)
    {area : Fin m → ℝ} (room : Fin m → Fin k) (hpos : ∀ j, 0 < area j) : SolvesRooms solve area room := by
  intro i hne
  apply h _ _ (share_sum hpos hne)
  intro r hr
  obtain ⟨l, -, rfl⟩ := List.mem_map.mp hr
  exact share_pos hpos l

/-- Two rooms with two surfaces each, listed alternately. -/
def exRoom : Fin 4 → Fin 2 := ![0, 1, 0, 1]
/-- Areas: 10 and 10 in room 0, 10 and 30 in room 1. -/
noncomputable def exArea : Fin 4 → ℝ := ![10, 10, 10, 30]

theorem exArea_vals : exArea 0 = 10 ∧ exArea 1 = 10 ∧ exArea 2 = 10 ∧ exArea 3 = 30 := ⟨rfl, rfl, rfl, rfl⟩

/-- **C34 (violated).** When boundaries of different rooms alternate in the list, a boundary gets the coefficient of a boundary of
another room: with every solver that finds the roots, boundary 1 (a quarter of the area of room 1) gets the coefficient of one half of
room 0. -/
theorem C34_violated : ∃ (k m : ℕ) (area : Fin m → ℝ) (room : Fin m → Fin k) (j : Fin m), (∀ j, 0 < area j) ∧
    (∃ v, IsRoomConst area room (room j) v) ∧
    ∀ solve : List ℝ → ℝ, SolvesRooms solve area room → ∀ v, IsRoomConst area room (room j) v →
      getHr solve area room j ≠ radiative (factor v (share area room j)) := by
  have hpos : ∀ j, 0 < exArea j := by intro j; fin_cases j <;> norm_num [exArea]
  refine ⟨2, 4, exArea, exRoom, 1, hpos, ?_, ?_⟩
  · obtain ⟨solve, hsol⟩ := exists_solver
    exact ⟨_, solve_isRoomConst hpos (solvesRooms_of hsol exRoom hpos) 1⟩
  intro solve hs v hv
  have hc2 := solve_isRoomConst hpos hs 2
  have hidx0 : roomIdx exRoom 0 = [0, 2] := by decide
  have hidx1 : roomIdx exRoom 1 = [1, 3] := by decide
  have hlist : getHr solve exArea exRoom 1 = radiative (factor (solve ((roomIdx exRoom 0).map (share exArea exRoom))) (share exArea exRoom 2)) := by
    unfold getHr
    rw [getHrList_eq]
    have : (List.finRange 2).flatMap (roomIdx exRoom) = [0, 2, 1, 3] := by decide
    rw [this]
    have e : exRoom 2 = 0 := rfl
    simp only [List.map_cons, Fin.isValue, Fin.coe_ofNat_eq_mod, Nat.one_mod, List.getD_cons_succ, List.getD_cons_zero]
    rw [hrOfShape_eq, e, getFj_factor]
    rw [e] at hc2; exact hc2.1
  have e2 : exRoom 2 = 0 := rfl
  have e1 : exRoom 1 = 1 := rfl
  rw [e2] at hc2
  rw [e1] at hv
  rw [hlist]
  generalize solve ((roomIdx exRoom 0).map (share exArea exRoom)) = w at *
  have f0 := hc2.2
  rw [← sum_roomIdx, hidx0] at f0
  have f1 := hv.2
  rw [← sum_roomIdx, hidx1] at f1
  simp only [List.map_cons, List.map_nil, List.sum_cons, List.sum_nil, add_zero] at f0 f1
  have a0 : roomArea exArea exRoom 0 = 20 := by
    unfold roomArea; rw [← sum_roomIdx, hidx0]; norm_num [exArea_vals]
  have a1 : roomArea exArea exRoom 1 = 40 := by
    unfold roomArea; rw [← sum_roomIdx, hidx1]; norm_num [exArea_vals]
  have s0 : share exArea exRoom 0 = 1 / 2 := by
    show exArea 0 / roomArea exArea exRoom 0 = _
    rw [a0]; norm_num [exArea_vals]
  have s2 : share exArea exRoom 2 = 1 / 2 := by
    show exArea 2 / roomArea exArea exRoom 0 = _
    rw [a0]; norm_num [exArea_vals]
  have s1 : share exArea exRoom 1 = 1 / 4 := by
    show exArea 1 / roomArea exArea exRoom 1 = _
    rw [a1]; norm_num [exArea_vals]
  have s3 : share exArea exRoom 3 = 3 / 4 := by
    show exArea 3 / roomArea exArea exRoom 1 = _
    rw [a1]; norm_num [exArea_vals]
  rw [s0, s2] at f0
  rw [s1, s3] at f1
  rw [s1, s2]
  have g0 : factor w (1 / 2) = 1 / 2 := by linarith
  have g1 : factor v (1 / 4) < factor v (3 / 4) := by
    rw [← getFj_factor hv.1, ← getFj_factor hv.1]
    exact getFj_mono hv.1 (by norm_num)
  have g2 : factor v (1 / 4) < 1 / 2 := by linarith
  rw [g0]
  exact (radiative_strictMono (by norm_num) g2).ne'

/-- The hypotheses of the C33 and C34 theorems are met by a house with two rooms of two different surfaces each, listed in order. -/
example : ∃ (solve : List ℝ → ℝ), SolvesRooms solve exArea (![0, 0, 1, 1] : Fin 4 → Fin 2) ∧ Monotone (![0, 0, 1, 1] : Fin 4 → Fin 2) ∧
    (∀ j, 0 < exArea j) ∧ ∃ v, IsRoomConst exArea (![0, 0, 1, 1] : Fin 4 → Fin 2) 1 v := by
  have hpos : ∀ j, 0 < exArea j := by intro j; fin_cases j <;> norm_num [exArea]
  obtain ⟨solve, hsol⟩ := exists_solver
  have hs := solvesRooms_of hsol (![0, 0, 1, 1] : Fin 4 → Fin 2) hpos
  refine ⟨solve, hs, by decide, hpos, _, solve_isRoomConst hpos hs 2⟩

end HLC
