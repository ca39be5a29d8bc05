import Verif.Spec.Cycle
import Verif.Props.Period

/-!
# C93, C94: over a period after which the house is as it was, parts pass heat by their U values
-/

namespace HLC

set_option linter.unusedSectionVars false

open Spec Finset

variable {I J : Type} [Fintype I] [DecidableEq I] [Fintype J] [DecidableEq J] {N : ℕ} {h : House I J} {hR : J → ℝ}
  {data : Fin N → Record I J} {dt : ℝ} {ss : PreCalc I J N} {n : ℕ → ℤ} {k : ℕ → Fin N} {s : ℕ → Cond I J} {t : ℕ → TickVars I J} {P : ℕ} {j : J}

theorem sum_shift (x : ℕ → ℝ) (hx : x P = x 0) : ∑ p ∈ range P, x (p + 1) = ∑ p ∈ range P, x p := by
  have h1 := sum_range_succ x P
  have h2 := sum_range_succ' x P
  linarith

/-- A quantity that decays by the factor `r` and is fed by `f x`, over a period after which it returns. -/
theorem sum_recursion {f r : ℝ} (hr : r ≠ 1) (D x : ℕ → ℝ) (hD : ∀ p < P, D (p + 1) = f * x p + r * D p) (h0 : D P = D 0) :
    ∑ p ∈ range P, D (p + 1) = f / (1 - r) * ∑ p ∈ range P, x p := by
  have h1 : ∑ p ∈ range P, D (p + 1) = ∑ p ∈ range P, (f * x p + r * D p) := sum_congr rfl fun p hp => hD p (mem_range.1 hp)
  rw [sum_add_distrib, ← mul_sum, ← mul_sum, ← sum_shift D h0] at h1
  have h2 : 1 - r ≠ 0 := sub_ne_zero.2 (Ne.symm hr)
  rw [div_mul_eq_mul_div, eq_div_iff h2]
  linarith

theorem exposureIn_eq {n : ℤ} {k : Fin N} {c : Cond I J} {t : TickVars I J} (Hp : makePreCalc h hR dt data = .ok ss)
    (H : runTick n dt ss c = .ok t) (hk : pyIndex N n = .ok k) (j : J) :
    t.thetaEi j = exposureIn h hR (data k) t j := by
  obtain ⟨ivs, k', -, hs, hk', e⟩ := step_eqs Hp H
  have : k' = k := Except.ok.inj (hk'.symm.trans hk)
  subst this
  subst hs
  rw [e.thetaEi]
  simp only [Tick.thetaEi, preCalcOf]
  rw [pT_mulVec, pT_fMrt_mulVec, flr_mulVec]
  unfold exposureIn exposure
  ring

theorem exposureIn_flux {n : ℤ} {k : Fin N} {c : Cond I J} {t : TickVars I J} (Hp : makePreCalc h hR dt data = .ok ss)
    (H : runTick n dt ss c = .ok t) (hk : pyIndex N n = .ok k) (j : J) (hh : h.hC j + hR j ≠ 0) :
    t.qSrf j = (h.hC j + hR j) * (exposureIn h hR (data k) t j - t.thetaS j) := by
  rw [C16_surface_flux Hp H hk j hh]
  unfold exposureIn exposure
  rw [mul_sub (h.hC j + hR j), mul_div_cancel₀ _ hh]
  ring

/-- The wall equation of one step. -/
theorem wall_coded {n : ℤ} {k : Fin N} {c : Cond I J} {t : TickVars I J} (Hp : makePreCalc h hR dt data = .ok ss)
    (H : runTick n dt ss c = .ok t) (hk : pyIndex N n = .ok k) (j : J) (hh : h.hC j + hR j ≠ 0) :
    t.thetaS j = h.phiA0 j * t.qSrf j
      + h.phiT0 j * (rearTemp h (data k).thetaOSol (exposureIn h hR (data k) t) j + misread h hR (data k) t j)
      + ∑ l, (t.dshT j l + t.dshA j l) := by
  cases hK : h.kEi j with
  | none =>
    have := C17_wall_equation_partial Hp H hk j hh (fun m coef hm => by rw [hK] at hm; cases hm)
    rw [this]
    unfold rearTemp misread
    rw [hK]
    ring
  | some a =>
    obtain ⟨m, coef⟩ := a
    have := C17_equation_as_coded Hp H hk j hh m coef hK
    rw [this]
    unfold rearTemp misread
    rw [hK]
    ring

/-- A part whose other side has the same coefficients and area is not misread. -/
theorem misread_even (hev : EvenSides h hR j) (d : Record I J) (t : TickVars I J) : misread h hR d t j = 0 := by
  unfold misread
  cases hK : h.kEi j with
  | none => rfl
  | some a =>
    obtain ⟨m, coef⟩ := a
    obtain ⟨e1, e2, e3⟩ := hev m coef hK
    simp only []
    unfold exposureIn exposure
    rw [e1, e2, e3, sub_self, mul_zero]

/-- Sums over a period after which the house is as it was: surface temperatures are the temperatures behind the part plus resistance times
flux. -/
theorem cycle_wall (Hp : makePreCalc h hR dt data = .ok ss) (Hs : Steps ss dt P n k s t) (hret : SameHeat (s 0) (s P)) (j : J)
    (hh : h.hC j + hR j ≠ 0) (htr : Transmits h j) :
    ∑ p ∈ range P, (t p).thetaS j = resistance h j * ∑ p ∈ range P, (t p).qSrf j
      + ∑ p ∈ range P, rearTemp h (data (k p)).thetaOSol (exposureIn h hR (data (k p)) (t p)) j
      + h.phiT0 j * ∑ p ∈ range P, misread h hR (data (k p)) (t p) j := by
  have hei : ∀ p < P, (t p).thetaEi = exposureIn h hR (data (k p)) (t p) := fun p hp =>
    funext fun j => exposureIn_eq Hp (Hs.executed p hp) (Hs.record p hp) j
  have hwall : ∀ p ∈ range P, (t p).thetaS j = h.phiA0 j * (t p).qSrf j
      + h.phiT0 j * (rearTemp h (data (k p)).thetaOSol (t p).thetaEi j + misread h hR (data (k p)) (t p) j)
      + (∑ l, (s (p + 1)).dshT j l + ∑ l, (s (p + 1)).dshA j l) := by
    intro p hp
    have hp := mem_range.1 hp
    have := wall_coded Hp (Hs.executed p hp) (Hs.record p hp) j hh
    rw [this, Hs.handed p hp, sum_add_distrib, hei p hp]
    rfl
  have hA : ∀ l, ∑ p ∈ range P, (s (p + 1)).dshA j l = h.phiA1 j l / (1 - h.ratio j l) * ∑ p ∈ range P, (s p).qSrf j := fun l => by
    apply sum_recursion (htr.ratio_ne l) (fun p => (s p).dshA j l) (fun p => (s p).qSrf j)
    · intro p hp
      obtain ⟨ivs, k', -, hss, -, e⟩ := step_eqs Hp (Hs.executed p hp)
      rw [Hs.handed p hp]
      simp only [TickVars.next]
      rw [e.dshA, hss]
      rfl
    · rw [hret.absorbed]
  have hq : ∑ p ∈ range P, (s p).qSrf j = ∑ p ∈ range P, (t p).qSrf j := by
    rw [← sum_shift (fun p => (s p).qSrf j) (by rw [hret.flux])]
    exact sum_congr rfl fun p hp => by rw [Hs.handed p (mem_range.1 hp)]; rfl
  have hT : ∀ l, ∑ p ∈ range P, (s (p + 1)).dshT j l
      = h.phiT1 j l / (1 - h.ratio j l) * ∑ p ∈ range P, rearTemp h (data (k p)).thetaOSol (s p).thetaEi j := fun l => by
    apply sum_recursion (htr.ratio_ne l) (fun p => (s p).dshT j l)
    · intro p hp
      obtain ⟨ivs, k', -, hss, hk', e⟩ := step_eqs Hp (Hs.executed p hp)
      have : k' = k p := Except.ok.inj (hk'.symm.trans (Hs.record p hp))
      subst this
      have hrear : (t p).thetaRear j = rearTemp h (data (k p)).thetaOSol (s p).thetaEi j := by
        rw [e.thetaRear, hss]
        simp only [Tick.thetaRear, preCalcOf, House.thetaDstrb, kEi_mulVec, rearTemp]
        cases h.kEi j <;> ring
      rw [Hs.handed p hp]
      simp only [TickVars.next]
      rw [e.dshT]
      simp only [Tick.dshT]
      rw [hrear, hss]
      simp only [preCalcOf]
      ring
    · rw [hret.transmitted]
  have hr : ∑ p ∈ range P, rearTemp h (data (k p)).thetaOSol (s p).thetaEi j
      = ∑ p ∈ range P, rearTemp h (data (k p)).thetaOSol (t p).thetaEi j := by
    unfold rearTemp
    rw [sum_add_distrib, sum_add_distrib]
    congr 1
    cases hk : h.kEi j with
    | none => rfl
    | some a =>
      simp only []
      rw [← sum_shift (fun p => a.2 * (s p).thetaEi a.1) (by rw [hret.equivalent])]
      exact sum_congr rfl fun p hp => by rw [Hs.handed p (mem_range.1 hp)]; rfl
  have hb : ∑ p ∈ range P, rearTemp h (data (k p)).thetaOSol (exposureIn h hR (data (k p)) (t p)) j
      = ∑ p ∈ range P, rearTemp h (data (k p)).thetaOSol (t p).thetaEi j :=
    sum_congr rfl fun p hp => by rw [hei p (mem_range.1 hp)]
  rw [sum_congr rfl hwall, sum_add_distrib, sum_add_distrib, sum_add_distrib, ← mul_sum, ← mul_sum, sum_add_distrib, sum_comm,
    sum_comm (t := univ), hb]
  simp only [hA, hT]
  rw [← sum_mul, ← sum_mul, hq, hr]
  unfold resistance
  linear_combination (∑ p ∈ range P, rearTemp h (data (k p)).thetaOSol (t p).thetaEi j) * htr.total

/-- **C93 (parts, exact).** Over every period of any length after which the house holds the same heat as before, the heat that a part takes
from its room is, in total, U value times temperature difference of its two sides, less what comes from misreading the temperature behind it. -/
theorem C93_part_exact (Hp : makePreCalc h hR dt data = .ok ss) (Hs : Steps ss dt P n k s t) (hret : SameHeat (s 0) (s P)) (j : J)
    (hh : 0 < h.hC j + hR j) (hres : 0 ≤ resistance h j) (htr : Transmits h j) :
    ∑ p ∈ range P, (t p).qSrf j = ∑ p ∈ range P, transmission h hR (data (k p)) (t p) j
      - uValue h hR j * h.phiT0 j * ∑ p ∈ range P, misread h hR (data (k p)) (t p) j := by
  have h1 := cycle_wall Hp Hs hret j hh.ne' htr
  have h2 : ∑ p ∈ range P, (t p).qSrf j
      = (h.hC j + hR j) * (∑ p ∈ range P, exposureIn h hR (data (k p)) (t p) j - ∑ p ∈ range P, (t p).thetaS j) := by
    rw [← sum_sub_distrib, mul_sum]
    exact sum_congr rfl fun p hp =>
      exposureIn_flux Hp (Hs.executed p (mem_range.1 hp)) (Hs.record p (mem_range.1 hp)) j hh.ne'
  have hpos : 0 < 1 / (h.hC j + hR j) + resistance h j := by have := one_div_pos.2 hh; linarith
  unfold transmission
  rw [← mul_sum, sum_sub_distrib, mul_assoc, ← mul_sub]
  unfold uValue
  rw [one_div_mul_eq_div, eq_div_iff hpos.ne']
  have h3 : (1 / (h.hC j + hR j)) * ∑ p ∈ range P, (t p).qSrf j
      = ∑ p ∈ range P, exposureIn h hR (data (k p)) (t p) j - ∑ p ∈ range P, (t p).thetaS j := by
    rw [h2, ← mul_assoc, one_div_mul_cancel hh.ne', one_mul]
  linear_combination h3 - h1

/-- **C93 (parts, partial).** Over every period of any length after which the house holds the same heat as before, the heat that a part takes
from its room is, in total, U value times temperature difference of its two sides, whatever happened in between. Missing: parts whose other
side has other coefficients or another area (`C93_part_exact`). -/
theorem C93_part_partial (Hp : makePreCalc h hR dt data = .ok ss) (Hs : Steps ss dt P n k s t) (hret : SameHeat (s 0) (s P)) (j : J)
    (hh : 0 < h.hC j + hR j) (hres : 0 ≤ resistance h j) (htr : Transmits h j) (hev : EvenSides h hR j) :
    ∑ p ∈ range P, (t p).qSrf j = ∑ p ∈ range P, transmission h hR (data (k p)) (t p) j := by
  rw [C93_part_exact Hp Hs hret j hh hres htr, sum_eq_zero (fun p _ => misread_even hev _ _), mul_zero, sub_zero]

/-- **C93 (rooms).** Over every period after which the house holds the same heat as before, what is put into a room is what it loses by the
textbook: U value times area times temperature difference for its parts, and ventilation. Missing: rooms into which air flows from other
rooms (see C14), and rooms with parts whose other side has other coefficients or another area (see C17). -/
theorem C93_room_partial (Hp : makePreCalc h hR dt data = .ok ss) (hw : WellFormed h hR dt) (Hs : Steps ss dt P n k s t)
    (hret : SameHeat (s 0) (s P)) (i : I) (habs : ∑ j ∈ surfaces h i, h.area j * (if h.solarAbs j then 1 else 0) ≠ 0)
    (hflr : ∑ j ∈ surfaces h i, h.flr j = 1 ∨ ∀ p < P, (t p).lr i = 0) (hv : ∀ l, h.vInt i l = 0)
    (hp : ∀ j ∈ surfaces h i, 0 ≤ resistance h j ∧ Transmits h j ∧ EvenSides h hR j) :
    ∑ p ∈ range P, heatPut (data (k p)) (t p) i = ∑ p ∈ range P, heatLost h hR (data (k p)) (t p) i := by
  have hstep : ∀ p ∈ range P, heatPut (data (k p)) (t p) i - ∑ j ∈ surfaces h i, h.area j * (t p).qSrf j
      - airCap * (t p).vOut i * ((t p).thetaR i - (data (k p)).thetaO)
      = 1 / dt * (h.vRoom i * airCap * ((s (p + 1)).thetaR i - (s p).thetaR i) + h.cSh i * ((s (p + 1)).thetaFrt i - (s p).thetaFrt i)) := by
    intro p hp
    have hp := mem_range.1 hp
    have h1 := heat_step Hp (Hs.executed p hp) (Hs.record p hp) hw i habs (hflr.imp id fun h0 => h0 p hp)
    have h4 := (C23_natural_ventilation Hp (Hs.executed p hp) (Hs.record p hp) i).2.2.1
    have e : ∑ l, h.vInt i l * (2 * (t p).thetaR l - (t p).thetaR i) = 0 := sum_eq_zero fun l _ => by rw [hv, zero_mul]
    have e' : interRoomHeat h i (LogRow.ofTick (t p)).thetaR = 0 := by
      unfold interRoomHeat
      rw [sum_eq_zero fun l _ => by rw [hv, zero_mul], mul_zero]
    rw [Hs.handed p hp]
    simp only [TickVars.next]
    rw [h1, e, ← mul_assoc, one_div_mul_cancel hw.dt_pos.ne', one_mul]
    unfold heatReceived
    rw [e', h4]
    simp only [LogRow.ofTick, heatPut]
    ring
  have hz := sum_congr rfl hstep
  rw [← mul_sum] at hz
  simp only [sum_add_distrib, sum_sub_distrib, ← mul_sum] at hz
  rw [sum_shift (fun p => (s p).thetaR i) (by rw [hret.room]),
    sum_shift (fun p => (s p).thetaFrt i) (by rw [hret.furniture])] at hz
  unfold heatLost
  rw [sum_add_distrib, sum_comm]
  have hparts : ∀ j ∈ surfaces h i, ∑ p ∈ range P, h.area j * transmission h hR (data (k p)) (t p) j
      = ∑ p ∈ range P, h.area j * (t p).qSrf j := by
    intro j hj
    obtain ⟨h1, h2, h3⟩ := hp j hj
    rw [← mul_sum, ← C93_part_partial Hp Hs hret j (add_pos (hw.hC_pos j) (hw.hR_pos j)) h1 h2 h3, mul_sum]
  rw [sum_congr rfl hparts, sum_comm]
  linarith

/-- Parts `j` and `m` are the two sides of one partition. -/
theorem transmission_partition {j m : J} (hj : h.kEi j = some (m, 1)) (hoj : h.kEo j = 0) (d : Record I J) (t : TickVars I J) :
    transmission h hR d t j = uValue h hR j * (exposureIn h hR d t j - exposureIn h hR d t m) := by
  unfold transmission rearTemp
  rw [hj, hoj]
  ring

/-- **C94 (exact).** The two sides of a partition over a period after which the house holds the same heat as before: what leaves both
rooms is the difference of U value times area of the two sides, times the total temperature difference. -/
theorem C94_partition_exact (Hp : makePreCalc h hR dt data = .ok ss) (hw : WellFormed h hR dt) (Hs : Steps ss dt P n k s t)
    (hret : SameHeat (s 0) (s P)) {j m : J} (hj : h.kEi j = some (m, 1)) (hm : h.kEi m = some (j, 1)) (hoj : h.kEo j = 0) (hom : h.kEo m = 0)
    (hrj : 0 ≤ resistance h j) (hrm : 0 ≤ resistance h m) (htj : Transmits h j) (htm : Transmits h m)
    (hev : h.hC m = h.hC j ∧ hR m = hR j ∧ h.area m = h.area j) :
    ∑ p ∈ range P, (h.area j * (t p).qSrf j + h.area m * (t p).qSrf m)
      = (h.area j * uValue h hR j - h.area m * uValue h hR m)
        * ∑ p ∈ range P, (exposureIn h hR (data (k p)) (t p) j - exposureIn h hR (data (k p)) (t p) m) := by
  have h1 := C93_part_partial Hp Hs hret j (add_pos (hw.hC_pos j) (hw.hR_pos j)) hrj htj
    (fun m' coef e => by rw [hj] at e; cases e; exact hev)
  have h2 := C93_part_partial Hp Hs hret m (add_pos (hw.hC_pos m) (hw.hR_pos m)) hrm htm
    (fun m' coef e => by rw [hm] at e; cases e; exact ⟨hev.1.symm, hev.2.1.symm, hev.2.2.symm⟩)
  simp only [transmission_partition hj hoj, transmission_partition hm hom] at h1 h2
  rw [sum_add_distrib, ← mul_sum, ← mul_sum, h1, h2, ← mul_sum, ← mul_sum, sum_sub_distrib, sum_sub_distrib]
  ring

/-- **C94 (partial).** If the two sides of a partition are entered with the same total resistance, the heat that leaves one room through it
over a period enters the other room. Missing: partitions whose sides have different film coefficients (see C17), where nothing of the kind
is guaranteed. -/
theorem C94_partition_partial (Hp : makePreCalc h hR dt data = .ok ss) (hw : WellFormed h hR dt) (Hs : Steps ss dt P n k s t)
    (hret : SameHeat (s 0) (s P)) {j m : J} (hj : h.kEi j = some (m, 1)) (hm : h.kEi m = some (j, 1)) (hoj : h.kEo j = 0) (hom : h.kEo m = 0)
    (hrj : 0 ≤ resistance h j) (htj : Transmits h j) (htm : Transmits h m)
    (hev : h.hC m = h.hC j ∧ hR m = hR j ∧ h.area m = h.area j) (hres : resistance h m = resistance h j) :
    ∑ p ∈ range P, h.area m * (t p).qSrf m = - ∑ p ∈ range P, h.area j * (t p).qSrf j := by
  have := C94_partition_exact Hp hw Hs hret hj hm hoj hom hrj (hres ▸ hrj) htj htm hev
  rw [sum_add_distrib] at this
  have hu : h.area j * uValue h hR j - h.area m * uValue h hR m = 0 := by
    unfold uValue
    rw [hres, hev.1, hev.2.1, hev.2.2, sub_self]
  rw [hu, zero_mul] at this
  linarith

/-- **C94 (when).** Heat is conserved over a period exactly if the sides have the same resistance or are, on average, exposed to the same
temperature. -/
theorem C94_partition_iff (Hp : makePreCalc h hR dt data = .ok ss) (hw : WellFormed h hR dt) (Hs : Steps ss dt P n k s t)
    (hret : SameHeat (s 0) (s P)) {j m : J} (hj : h.kEi j = some (m, 1)) (hm : h.kEi m = some (j, 1)) (hoj : h.kEo j = 0) (hom : h.kEo m = 0)
    (hrj : 0 ≤ resistance h j) (hrm : 0 ≤ resistance h m) (htj : Transmits h j) (htm : Transmits h m)
    (hev : h.hC m = h.hC j ∧ hR m = hR j ∧ h.area m = h.area j) :
    ∑ p ∈ range P, h.area m * (t p).qSrf m = - ∑ p ∈ range P, h.area j * (t p).qSrf j ↔
      resistance h m = resistance h j ∨
        ∑ p ∈ range P, (exposureIn h hR (data (k p)) (t p) j - exposureIn h hR (data (k p)) (t p) m) = 0 := by
  have e := C94_partition_exact Hp hw Hs hret hj hm hoj hom hrj hrm htj htm hev
  rw [sum_add_distrib] at e
  have hpos : 0 < 1 / (h.hC j + hR j) := one_div_pos.2 (add_pos (hw.hC_pos j) (hw.hR_pos j))
  have hu : h.area j * uValue h hR j - h.area m * uValue h hR m = 0 ↔ resistance h m = resistance h j := by
    unfold uValue
    rw [hev.1, hev.2.1, hev.2.2, ← mul_sub, mul_eq_zero, or_iff_right (hw.area_pos j).ne', sub_eq_zero,
      div_eq_div_iff (by linarith) (by linarith)]
    constructor <;> intro h0 <;> linarith
  rw [← hu, ← mul_eq_zero, ← e]
  constructor <;> intro h0 <;> linarith

end HLC
