import Verif.Props.Pipeline
import Verif.Props.Steady
import Verif.Props.Pieces

/-!
# C96: the U value of the input and the U value of the calculation
-/

namespace HLC

set_option linter.unusedSectionVars false

open Spec Init Finset

variable {rnd : ℕ → ℝ → ℝ} {w : List Step} {f : ScheduleFile} {d : Input} {dt : ℝ} {o : Output}
  {h : House (Fin o.spaces.length) (Fin o.boundaries.length)} {solve : List ℝ → ℝ}

/-- What the calculation takes over of a part given by its U value. -/
theorem given_by_u (hr : IsRounding rnd) (hd : CompleteInput d) (hp : PhysicalInput d dt) (H : makeHouse rnd w f d = .ok o)
    (Hr : readHouse o = .ok h) (hs : SolvesRooms solve h.area h.room) (j : Fin o.boundaries.length) {b : BoundaryDict}
    (hb : d.boundaries[j.1]? = some b) (hu : GivenByU b) :
    ∃ u, b.uValue = some u ∧ 0 < u ∧ u * b.rIn < 1 ∧ resistance h j = 1 / u - b.rIn ∧ Transmits h j ∧ h.hC j = b.hC ∧ 0 < b.hC ∧
      0 < getHr solve h.area h.room j := by
  obtain ⟨h', e, hls, hlb, -, hpart, -⟩ := C72_read_back_partial rnd hr w f d hd o H
  cases Hr.symm.trans e
  have hm := List.mem_of_getElem? hb
  have hP := hpart j b hb
  obtain ⟨u, e1, e2, e3, e4, e5⟩ := hP.steady hu
  obtain ⟨u1, u2⟩ := hd.uValue b hm u e1
  have hpos : ∀ j, 0 < h.area j := fun j => by
    have hj : j.1 < d.boundaries.length := hlb ▸ j.2
    rw [(hpart j _ (List.getElem?_eq_getElem hj)).area]
    exact hd.area _ (List.getElem_mem hj)
  refine ⟨u, e1, u1, u2, ?_, ⟨fun l => (hP.ratio l).2.ne, ?_⟩, hP.coefficient, hp.hC b hm, ?_⟩
  · unfold resistance
    rw [e3, sum_eq_zero (fun l _ => by rw [e5, zero_div]), add_zero]
  · rw [e2, sum_eq_zero (fun l _ => by rw [e4, zero_div]), add_zero]
  · have := C33_coefficients solve h.area h.room hpos hs j
    linarith [this.1, this.2.1]

/-- **C96 (exact).** Part entered by its U value: the resistance from room to outdoors that the calculation works with is the one entered,
with the entered resistance of the inner surface replaced by that of the computed film. -/
theorem C96_exact (hr : IsRounding rnd) (hd : CompleteInput d) (hp : PhysicalInput d dt) (H : makeHouse rnd w f d = .ok o)
    (Hr : readHouse o = .ok h) (hs : SolvesRooms solve h.area h.room) (j : Fin o.boundaries.length) {b : BoundaryDict}
    (hb : d.boundaries[j.1]? = some b) (hu : GivenByU b) :
    ∃ u, b.uValue = some u ∧ 0 < uValue h (getHr solve h.area h.room) j ∧
      1 / uValue h (getHr solve h.area h.room) j = 1 / u - b.rIn + 1 / (b.hC + getHr solve h.area h.room j) := by
  obtain ⟨u, e1, u1, u2, e2, -, e3, c1, c2⟩ := given_by_u hr hd hp H Hr hs j hb hu
  have hR : 0 < 1 / u - b.rIn := by rw [sub_pos, lt_div_iff₀ u1]; linarith
  have hf : 0 < 1 / (b.hC + getHr solve h.area h.room j) := by positivity
  refine ⟨u, e1, ?_, ?_⟩
  · unfold uValue
    rw [e2, e3]
    positivity
  · unfold uValue
    rw [e2, e3, one_div_one_div, add_comm]

/-- **C96 (when it holds).** The calculation works with the U value entered exactly if the resistance of the inner surface entered is that
of the film computed from the shape of the room. -/
theorem C96_iff (hr : IsRounding rnd) (hd : CompleteInput d) (hp : PhysicalInput d dt) (H : makeHouse rnd w f d = .ok o)
    (Hr : readHouse o = .ok h) (hs : SolvesRooms solve h.area h.room) (j : Fin o.boundaries.length) {b : BoundaryDict}
    (hb : d.boundaries[j.1]? = some b) (hu : GivenByU b) :
    ∃ u, b.uValue = some u ∧
      (uValue h (getHr solve h.area h.room) j = u ↔ 1 / (b.hC + getHr solve h.area h.room j) = b.rIn) ∧
      (uValue h (getHr solve h.area h.room) j < u ↔ b.rIn < 1 / (b.hC + getHr solve h.area h.room j)) := by
  obtain ⟨u, e1, p1, e2⟩ := C96_exact hr hd hp H Hr hs j hb hu
  have u1 := (hd.uValue b (List.mem_of_getElem? hb) u e1).1
  refine ⟨u, e1, ?_, ?_⟩
  · rw [← inv_inj, ← one_div, ← one_div, e2]
    constructor <;> intro e <;> linarith
  · rw [← one_div_lt_one_div u1 p1, e2]
    constructor <;> intro e <;> linarith

/-- **C96 (heat).** If the entered resistance of the inner surface is that of the computed film, a part entered by its U value takes, over every
period after which the house holds the same heat, the U value entered times the sum of the temperature differences to what is behind it: the
outdoors with the temperature difference coefficient, for the rest (rounded to 0.1) its own side. Missing: all other resistances, see
`C96_iff` and `C96_areas_violated`. -/
theorem C96_heat_partial (hr : IsRounding rnd) (hd : CompleteInput d) (hp : PhysicalInput d dt) (H : makeHouse rnd w f d = .ok o)
    (Hr : readHouse o = .ok h) (hs : SolvesRooms solve h.area h.room) (j : Fin o.boundaries.length) {b : BoundaryDict}
    (hb : d.boundaries[j.1]? = some b) (hu : GivenByU b) (hfilm : 1 / (b.hC + getHr solve h.area h.room j) = b.rIn)
    {N P : ℕ} {data : Fin N → Record (Fin o.spaces.length) (Fin o.boundaries.length)} {ss : PreCalc (Fin o.spaces.length) (Fin o.boundaries.length) N}
    {n : ℕ → ℤ} {k : ℕ → Fin N} {s : ℕ → Cond (Fin o.spaces.length) (Fin o.boundaries.length)}
    {t : ℕ → TickVars (Fin o.spaces.length) (Fin o.boundaries.length)}
    (Hp : makePreCalc h (getHr solve h.area h.room) dt data = .ok ss) (Hs : Steps ss dt P n k s t) (hret : SameHeat (s 0) (s P)) :
    ∃ u c v, b.uValue = some u ∧ b.tempDifCoef = some c ∧ 0 ≤ v ∧ v ≤ 1 ∧ |c + v - 1| ≤ 0.05 ∧ (c = 1 → v = 0) ∧
      ∑ p ∈ range P, (t p).qSrf j = u * ∑ p ∈ range P, (exposureIn h (getHr solve h.area h.room) (data (k p)) (t p) j
        - (c * (data (k p)).thetaOSol j + v * exposureIn h (getHr solve h.area h.room) (data (k p)) (t p) j)) := by
  obtain ⟨u, e1, hU, -⟩ := C96_iff hr hd hp H Hr hs j hb hu
  obtain ⟨u', e1', u1, u2, e2, htr, e3, c1, c2⟩ := given_by_u hr hd hp H Hr hs j hb hu
  cases e1.symm.trans e1'
  obtain ⟨h', e, -, -, -, hpart, -⟩ := C72_read_back_partial rnd hr w f d hd o H
  cases Hr.symm.trans e
  have hext : isExternal b.boundaryType = true := by rcases hu with e | e <;> rw [e] <;> rfl
  obtain ⟨c, ec, k1, k2, k3⟩ := (hpart j b hb).outdoor hext
  have hR : 0 ≤ resistance h j := by rw [e2, sub_nonneg, le_div_iff₀ u1]; linarith
  have hc1 : c ≤ 1 := (hd.tempDif b (List.mem_of_getElem? hb) c ec).2
  rcases hc1.eq_or_lt with rfl | hlt
  · refine ⟨u, 1, 0, e1, ec, le_rfl, zero_le_one, by norm_num, fun _ => rfl, ?_⟩
    rw [C93_part_partial Hp Hs hret j (by rw [e3]; linarith) hR htr (fun m coef e => by rw [k2 rfl] at e; cases e), mul_sum]
    refine sum_congr rfl fun p _ => ?_
    unfold transmission rearTemp
    rw [hU.2 hfilm, k1, k2 rfl]
    ring
  · obtain ⟨v, kv, v0, v1, v2⟩ := k3 hlt
    refine ⟨u, c, v, e1, ec, v0, v1, v2, fun h1 => absurd h1 hlt.ne, ?_⟩
    have hev : EvenSides h (getHr solve h.area h.room) j := fun m coef e => by
      rw [kv] at e
      cases e
      exact ⟨rfl, rfl, rfl⟩
    rw [C93_part_partial Hp Hs hret j (by rw [e3]; linarith) hR htr hev, mul_sum]
    refine sum_congr rfl fun p _ => ?_
    unfold transmission rearTemp
    rw [hU.2 hfilm, k1, kv]

/-- **C96 (bounds).** The resistance used differs from the one entered by at most what the radiative coefficient can vary. -/
theorem C96_bounds (hr : IsRounding rnd) (hd : CompleteInput d) (hp : PhysicalInput d dt) (H : makeHouse rnd w f d = .ok o)
    (Hr : readHouse o = .ok h) (hs : SolvesRooms solve h.area h.room) (j : Fin o.boundaries.length) {b : BoundaryDict}
    (hb : d.boundaries[j.1]? = some b) (hu : GivenByU b) :
    ∃ u, b.uValue = some u ∧
      1 / u - b.rIn + 1 / (b.hC + radiative 1) ≤ 1 / uValue h (getHr solve h.area h.room) j ∧
      1 / uValue h (getHr solve h.area h.room) j ≤ 1 / u - b.rIn + 1 / (b.hC + radiative 0) := by
  obtain ⟨u, e1, p1, e2⟩ := C96_exact hr hd hp H Hr hs j hb hu
  obtain ⟨h', e, hls, hlb, -, hpart, -⟩ := C72_read_back_partial rnd hr w f d hd o H
  cases Hr.symm.trans e
  have hpos : ∀ j, 0 < h.area j := fun j => by
    have hj : j.1 < d.boundaries.length := hlb ▸ j.2
    rw [(hpart j _ (List.getElem?_eq_getElem hj)).area]
    exact hd.area _ (List.getElem_mem hj)
  obtain ⟨c0, c1, c2⟩ := C33_coefficients solve h.area h.room hpos hs j
  have hC := hp.hC b (List.mem_of_getElem? hb)
  refine ⟨u, e1, ?_, ?_⟩
  · rw [e2]
    have : 1 / (b.hC + radiative 1) ≤ 1 / (b.hC + getHr solve h.area h.room j) := one_div_le_one_div_of_le (by linarith) (by linarith)
    linarith
  · rw [e2]
    have : 1 / (b.hC + getHr solve h.area h.room j) ≤ 1 / (b.hC + radiative 0) := one_div_le_one_div_of_le (by linarith) (by linarith)
    linarith

/-- **C96 (layers).** Part described by layers: the resistance used is the sum of the layers, the outer film entered and the computed inner
film. -/
theorem C96_layers (hr : IsRounding rnd) (hd : CompleteInput d) (H : makeHouse rnd w f d = .ok o)
    (Hr : readHouse o = .ok h) (j : Fin o.boundaries.length) {b : BoundaryDict}
    (hb : d.boundaries[j.1]? = some b) (hl : b.boundaryType = "external_general_part" ∨ b.boundaryType = "internal") :
    ∃ l r, b.layers = some l ∧ b.rOut = some r ∧
      1 / uValue h (getHr solve h.area h.room) j = (l.map Prod.snd).sum + r + 1 / (b.hC + getHr solve h.area h.room j) := by
  obtain ⟨h', e, hls, hlb, -, hpart, -⟩ := C72_read_back_partial rnd hr w f d hd o H
  cases Hr.symm.trans e
  obtain ⟨l, r, e1, e2, e3, -⟩ := (hpart j b hb).layered hl
  refine ⟨l, r, e1, e2, ?_⟩
  unfold uValue resistance
  rw [e3, one_div_one_div, (hpart j b hb).coefficient, add_comm]

/-- In a house listed room by room the larger of two parts of a room has the larger radiative coefficient. -/
theorem larger_radiates {k m : ℕ} {area : Fin m → ℝ} {room : Fin m → Fin k} (hpos : ∀ j, 0 < area j) (hs : SolvesRooms solve area room)
    (hm : Monotone room) {j j' : Fin m} (hroom : room j' = room j) (ha : area j < area j') :
    getHr solve area room j < getHr solve area room j' := by
  have hv := solve_isRoomConst hpos hs j
  rw [C34_own_coefficient_partial solve area room hpos hs hm j _ hv, C34_own_coefficient_partial solve area room hpos hs hm j' _ (hroom ▸ hv)]
  apply radiative_strictMono (factor_mem hpos (hroom ▸ hv)).2
  rw [hroom, ← getFj_factor hv.1, ← getFj_factor hv.1]
  apply getFj_mono hv.1
  unfold share
  rw [hroom]
  exact div_lt_div_of_pos_right ha (Finset.sum_pos (fun l _ => hpos l) ⟨j, by simp⟩)

/-- **C96 (violated).** Two parts of a room entered by U values, with the same coefficients and the same resistance of the inner surface but
of different size: at most one of them has its U value in the calculation. -/
theorem C96_areas_violated (hr : IsRounding rnd) (hd : CompleteInput d) (hp : PhysicalInput d dt) (H : makeHouse rnd w f d = .ok o)
    (Hr : readHouse o = .ok h) (hs : SolvesRooms solve h.area h.room) (hord : d.boundaries.Pairwise fun a b => a.connectedRoom ≤ b.connectedRoom)
    (j j' : Fin o.boundaries.length) {b b' : BoundaryDict} (hb : d.boundaries[j.1]? = some b) (hb' : d.boundaries[j'.1]? = some b')
    (hu : GivenByU b) (hu' : GivenByU b') (hroom : b'.connectedRoom = b.connectedRoom) (hC : b'.hC = b.hC) (hrI : b'.rIn = b.rIn)
    (ha : b.area ≠ b'.area) :
    ¬ (b.uValue = some (uValue h (getHr solve h.area h.room) j) ∧ b'.uValue = some (uValue h (getHr solve h.area h.room) j')) := by
  rintro ⟨v1, v2⟩
  obtain ⟨u, e1, hU, -⟩ := C96_iff hr hd hp H Hr hs j hb hu
  obtain ⟨u', e1', hU', -⟩ := C96_iff hr hd hp H Hr hs j' hb' hu'
  have f1 := hU.1 (Option.some.inj (v1.symm.trans e1))
  have f2 := hU'.1 (Option.some.inj (v2.symm.trans e1'))
  rw [hC, hrI, ← f1, one_div, one_div, inv_inj, add_right_inj] at f2
  obtain ⟨h', e, hls, hlb, -, hpart, -⟩ := C72_read_back_partial rnd hr w f d hd o H
  cases Hr.symm.trans e
  have hlt : ∀ j : Fin o.boundaries.length, j.1 < d.boundaries.length := fun j => hlb ▸ j.2
  have hpos : ∀ j, 0 < h.area j := fun j => by
    rw [(hpart j _ (List.getElem?_eq_getElem (hlt j))).area]
    exact hd.area _ (List.getElem_mem (hlt j))
  have hm : Monotone h.room := by
    intro a c hac
    rcases hac.eq_or_lt with rfl | hac
    · exact le_rfl
    have h1 := (hpart a _ (List.getElem?_eq_getElem (hlt a))).room
    have h2 := (hpart c _ (List.getElem?_eq_getElem (hlt c))).room
    have h3 := List.pairwise_iff_getElem.1 hord a.1 c.1 (hlt a) (hlt c) hac
    rw [← h1, ← h2] at h3
    exact_mod_cast h3
  have hsame : h.room j' = h.room j := by
    have h1 := (hpart j b hb).room
    have h2 := (hpart j' b' hb').room
    rw [hroom, ← h1] at h2
    exact Fin.ext (by exact_mod_cast h2)
  have ha' : h.area j ≠ h.area j' := by rw [(hpart j b hb).area, (hpart j' b' hb').area]; exact ha
  rcases lt_or_gt_of_ne ha' with hlt | hlt
  · exact (larger_radiates hpos hs hm hsame hlt).ne f2.symm
  · exact (larger_radiates hpos hs hm hsame.symm hlt).ne f2

/-- **C96 (violated, example).** In the example house (floor of 30 m2 and 100 m2 of other outer parts, each entered with 2 W/m2K and 0.15 m2K/W on the
inside) the floor is calculated with more than 2.03 W/m2K. The hypotheses of `C96_areas_violated` are met. -/
theorem C96_violated (hr : IsRounding rnd) (w : List Step) (hsol : ∀ rs : List ℝ, (∀ r ∈ rs, 0 < r) → rs.sum = 1 → shapeEq rs (solve rs) = 0) :
    ∃ o h, makeHouse rnd w exSchedule (exInput false exUnit) = .ok o ∧ readHouse o = .ok h ∧ ∃ j j' : Fin o.boundaries.length, ∃ b b',
      (exInput false exUnit).boundaries[j.1]? = some b ∧ (exInput false exUnit).boundaries[j'.1]? = some b' ∧ GivenByU b ∧ GivenByU b' ∧
      b'.connectedRoom = b.connectedRoom ∧ b'.hC = b.hC ∧ b'.rIn = b.rIn ∧ b.area ≠ b'.area ∧ b.uValue = some 2 ∧
      2.03 < uValue h (getHr solve h.area h.room) j := by
  obtain ⟨o, ho⟩ := exInput_accepted rnd w false exUnit exUnit_known
  obtain ⟨h, hh, hls, hl, -, hpart, -⟩ := C72_read_back_partial rnd hr w _ _ (exInput_complete false) o ho
  have hpos : ∀ j, 0 < h.area j := fun j => by
    have hj : j.1 < (exInput false exUnit).boundaries.length := hl ▸ j.2
    rw [(hpart j _ (List.getElem?_eq_getElem hj)).area]
    exact (exInput_complete false).area _ (List.getElem_mem hj)
  have h0 : 0 < o.boundaries.length := by rw [hl]; exact Nat.zero_lt_two
  have h1 : 1 < o.boundaries.length := by rw [hl]; exact Nat.one_lt_two
  refine ⟨o, h, ho, hh, ⟨0, h0⟩, ⟨1, h1⟩, _, _, rfl, rfl, Or.inr rfl, Or.inr rfl, rfl, rfl, rfl, ?_, rfl, ?_⟩
  · show (30 : ℝ) ≠ 100
    norm_num
  · obtain ⟨u, e1, p1, e2⟩ := C96_exact hr (exInput_complete false) (exInput_physical false) ho hh (solvesRooms_of hsol h.room hpos) ⟨0, h0⟩ rfl (Or.inr rfl)
    obtain ⟨u', e1', -, b2⟩ := C96_bounds hr (exInput_complete false) (exInput_physical false) ho hh (solvesRooms_of hsol h.room hpos) ⟨0, h0⟩ rfl (Or.inr rfl)
    cases e1'
    have b3 : 1 / uValue h (getHr solve h.area h.room) ⟨0, h0⟩ ≤ 1 / 2 - 0.15 + 1 / (2 + radiative 0) := b2
    have b4 : 1 / (2 + radiative 0) < 0.15 - 1 / 2 + 1 / 2.03 := by
      unfold radiative
      norm_num
    have b5 : 1 / uValue h (getHr solve h.area h.room) ⟨0, h0⟩ < 1 / 2.03 := by linarith
    exact (one_div_lt_one_div p1 (by norm_num)).1 b5

/-- A house outdoors whose surfaces are at 19 degC with air at 20 degC inside and outside stands still, if the outer sides are as cold as
that needs and the appliances give what flows through the parts. -/
theorem stands_still {I J : Type} [Fintype I] [DecidableEq I] [Fintype J] [DecidableEq J] [Nonempty I] {h : House I J} {hR : J → ℝ} {dt : ℝ}
    (hw : WellFormed h hR dt) (hH : ∀ i, h.isRadHeating i = false) (hC : ∀ i, h.isRadCooling i = false)
    (habs : ∀ i, ∑ j ∈ surfaces h i, h.area j * (if h.solarAbs j then 1 else 0) ≠ 0) (hv : ∀ i l, h.vInt i l = 0)
    (hp : ∀ j, 0 ≤ resistance h j ∧ Transmits h j) (hout : ∀ j, h.kEi j = none ∧ h.kEo j = 1) :
    ∃ (data : Fin 1 → Record I J) (ss : PreCalc I J 1) (c : Cond I J) (t : TickVars I J), makePreCalc h hR dt data = .ok ss ∧
      runTick 0 dt ss c = .ok t ∧ SameHeat c t.next ∧ ∀ j, t.qSrf j = h.hC j := by
  let e : J → ℝ := fun j => 20 - hR j / (h.hC j + hR j)
  have he : ∀ j, (h.hC j + hR j) * (e j - 19) = h.hC j := fun j => by
    have : h.hC j + hR j ≠ 0 := (add_pos (hw.hC_pos j) (hw.hR_pos j)).ne'
    simp only [e]
    field_simp
    ring
  let d : Record I J :=
    { thetaO := 20
      xO := 0.005
      vLocal := fun _ => 0
      qGen := fun i => ∑ j ∈ surfaces h i, h.area j * h.hC j
      xGen := fun _ => 0
      nHum := fun _ => 0
      acDemand := fun _ => 0
      qTrsSol := fun _ => 0
      thetaOSol := fun j => e j - h.hC j / uValue h hR j }
  have hexp : exposure h hR d (fun _ => 20) (fun _ => 0) (fun _ => 19) = e := by
    funext j
    have hq : h.qSol d j = 0 := by unfold House.qSol; simp [d]
    have : h.hC j + hR j ≠ 0 := (add_pos (hw.hC_pos j) (hw.hR_pos j)).ne'
    unfold exposure
    rw [roomMrt_const hw, hq]
    simp only [e]
    field_simp
    ring
  have hU : ∀ j, uValue h hR j ≠ 0 := fun j => by
    unfold uValue
    have h1 : 0 < 1 / (h.hC j + hR j) := one_div_pos.2 (add_pos (hw.hC_pos j) (hw.hR_pos j))
    exact one_div_ne_zero (by linarith [(hp j).1])
  let c : Cond I J := { initialConditions I J with
    thetaR := fun _ => 20
    thetaFrt := fun _ => 20
    thetaEi := e
    qSrf := h.hC
    dshA := fun j l => h.phiA1 j l / (1 - h.ratio j l) * h.hC j
    dshT := fun j l => h.phiT1 j l / (1 - h.ratio j l) * rearTemp h d.thetaOSol e j }
  obtain ⟨ss, t, Hp, H⟩ := C21_step_completes_partial (c := c) (data := fun _ : Fin 1 => d) (n := 0) hw hH hC (fun _ _ => le_rfl)
    (fun i => by simp [c, initialConditions, initialMode]) (by norm_num)
  have hq : t.qHum = fun _ => 0 := by
    obtain ⟨ivs, k', -, hss, hk', e⟩ := step_eqs Hp H
    subst hss
    funext i
    rw [e.qHum]
    simp [Tick.qHum, preCalcOf, d]
  have hs : SteadyState h hR d t.vOut t.qHum (fun _ => 0) (fun _ => 0) (fun _ => 20) (fun _ => 20) (fun _ => 19) := by
    refine ⟨fun j => ?_, fun i => ?_, fun i => by simp [d]⟩
    · rw [hexp, he]
      unfold rearTemp
      rw [(hout j).1, (hout j).2]
      simp only [d]
      rw [one_mul, add_zero, sub_sub_cancel, mul_div_cancel₀ _ (hU j)]
    · rw [hexp, hq]
      simp only [he]
      simp [d]
  have hc : Settled h hR d (fun _ => 0) (fun _ => 20) (fun _ => 20) (fun _ => 19) c :=
    ⟨rfl, rfl, fun j => by rw [hexp, he], by rw [hexp], fun j l => by rw [hexp, he], fun j l => by rw [hexp]⟩
  obtain ⟨-, -, -, h4⟩ := C95_stays_partial Hp hw H (k := 0) rfl habs hv
    (fun j => ⟨(hp j).1, (hp j).2, fun m coef e => by rw [(hout j).1] at e; cases e⟩) (fun _ => le_rfl) hs hc
  exact ⟨_, ss, c, t, Hp, H, h4, fun j => congrFun h4.flux j⟩

/-- A room of two parts, the second larger: the radiative coefficient of the larger one. -/
theorem two_parts {m k : ℕ} {area : Fin m → ℝ} {room : Fin m → Fin k} (hm : m = 2) (hk : k = 1) (hs : SolvesRooms solve area room)
    (ha : ∀ j, area j = if j.1 = 0 then 30 else 100) (j : Fin m) (hj : j.1 = 1) :
    getHr solve area room j = radiative ((1 + Real.sqrt (7 / 13)) / 2) := by
  subst hm hk
  have hpos : ∀ j, 0 < area j := fun j => by rw [ha]; split_ifs <;> norm_num
  have hroom : ∀ l, room l = room j := fun l => Subsingleton.elim _ _
  have hA : roomArea area room (room j) = 130 := by
    unfold roomArea
    simp only [hroom, filter_true, Fin.sum_univ_two, ha]
    norm_num
  have hsh : ∀ l, share area room l = if l.1 = 0 then 3 / 13 else 10 / 13 := by
    intro l
    unfold share
    rw [hroom l, hA, ha]
    split_ifs <;> norm_num
  have hc : IsRoomConst area room (room j) 2 := by
    refine ⟨two_pos, ?_⟩
    simp only [hroom, filter_true, Fin.sum_univ_two, hsh]
    unfold factor
    norm_num
    ring
  rw [C34_own_coefficient_partial solve area room hpos hs (fun _ _ _ => le_of_eq (Subsingleton.elim _ _)) j 2 hc, hsh, if_neg (by omega)]
  unfold factor
  norm_num

/-- The hypotheses of `C96_heat_partial` are met by the example house, if the wall is entered with the resistance of its film. Its wall takes
2 W/m2. -/
example (hr : IsRounding rnd) (w : List Step) (hsol : ∀ rs : List ℝ, (∀ r ∈ rs, 0 < r) → rs.sum = 1 → shapeEq rs (solve rs) = 0) :
    ∃ r o h, makeHouse rnd w exSchedule (exInput false exUnit r) = .ok o ∧ readHouse o = .ok h ∧ CompleteInput (exInput false exUnit r) ∧
      PhysicalInput (exInput false exUnit r) 900 ∧ SolvesRooms solve h.area h.room ∧ ∃ j : Fin o.boundaries.length, ∃ b,
      (exInput false exUnit r).boundaries[j.1]? = some b ∧ GivenByU b ∧ b.tempDifCoef = some 1 ∧
      1 / (b.hC + getHr solve h.area h.room j) = b.rIn ∧
      ∃ data ss c t, makePreCalc h (getHr solve h.area h.room) 900 data = .ok ss ∧
        Steps (N := 1) ss 900 1 (fun _ => 0) (fun _ => 0) (fun p => if p = 0 then c else t.next) (fun _ => t) ∧ SameHeat c t.next ∧ t.qSrf j = 2 := by
  have hx : 5 < radiative ((1 + Real.sqrt (7 / 13)) / 2) := by
    have h1 : radiative 0 < radiative ((1 + Real.sqrt (7 / 13)) / 2) := by
      refine radiative_strictMono ?_ (by positivity)
      have : Real.sqrt (7 / 13) ≤ 1 := Real.sqrt_le_one.2 (by norm_num)
      linarith
    have h2 : 5 < radiative 0 := by unfold radiative; norm_num
    linarith
  set r := 1 / (2 + radiative ((1 + Real.sqrt (7 / 13)) / 2)) with hrdef
  have hr0 : 0 < r := by positivity
  have hr1 : 2 * r < 1 := by
    rw [hrdef, mul_one_div, div_lt_one (by linarith)]; linarith
  have hcomp := exInput_complete false r hr1
  obtain ⟨o, ho⟩ := exInput_accepted rnd w false exUnit exUnit_known r hr0.ne'
  obtain ⟨h, hh, hls, hl, hroom, hpart, -⟩ := C72_read_back_partial rnd hr w _ _ hcomp o ho
  have hlt : ∀ j : Fin o.boundaries.length, j.1 < (exInput false exUnit r).boundaries.length := fun j => hl ▸ j.2
  have hpos : ∀ j, 0 < h.area j := fun j => by
    rw [(hpart j _ (List.getElem?_eq_getElem (hlt j))).area]
    exact hcomp.area _ (List.getElem_mem (hlt j))
  have hS := solvesRooms_of hsol h.room hpos
  have h1 : 1 < o.boundaries.length := by rw [hl]; exact Nat.one_lt_two
  have hcases : ∀ j : Fin o.boundaries.length, j.1 = 0 ∨ j.1 = 1 := fun j => by
    have : j.1 < 2 := hlt j
    omega
  have harea : ∀ j, h.area j = if j.1 = 0 then 30 else 100 := fun j => by
    rcases hcases j with e | e
    · rw [(hpart j _ (by rw [e]; rfl)).area, if_pos e]
    · rw [(hpart j _ (by rw [e]; rfl)).area, if_neg (by omega)]
  have hhr := two_parts (solve := solve) (room := h.room) hl hls hS harea ⟨1, h1⟩ rfl
  have hgiven : ∀ j : Fin o.boundaries.length, GivenByU ((exInput false exUnit r).boundaries[j.1]'(hlt j)) ∧
      ((exInput false exUnit r).boundaries[j.1]'(hlt j)).tempDifCoef = some 1 ∧
      ((exInput false exUnit r).boundaries[j.1]'(hlt j)).isSolarAbsorbed = if j.1 = 0 then true else false := fun j => by
    rcases hcases j with e | e <;> simp only [e] <;> exact ⟨Or.inr rfl, rfl, rfl⟩
  have hw := C75_wellformed rnd hr w exSchedule _ hcomp 900 (exInput_physical false r) o ho h hh
    (fun j b hb hn => by
      rw [List.getElem?_eq_getElem (hlt j)] at hb
      cases hb
      exact absurd (hgiven j).1 hn) solve hS
  have h0 : 0 < o.spaces.length := by rw [hls]; exact Nat.one_pos
  have : Nonempty (Fin o.spaces.length) := ⟨⟨0, h0⟩⟩
  have hone : ∀ i i' : Fin o.spaces.length, i = i' := fun i i' => by
    have e1 : i.1 < 1 := lt_of_lt_of_eq i.2 hls
    have e2 : i'.1 < 1 := lt_of_lt_of_eq i'.2 hls
    exact Fin.ext (by omega)
  have hRoom : ∀ i, SameRoom h i ((exInput false exUnit r).rooms[0]'Nat.one_pos) := fun i => hroom i _ (by
    have e1 : i.1 < 1 := lt_of_lt_of_eq i.2 hls
    have : i.1 = 0 := by omega
    rw [this]; rfl)
  obtain ⟨data, ss, c, t, Hp, H, hsame, hq⟩ := stands_still hw
    (fun i => Bool.eq_false_iff.2 fun c => by have := (hRoom i).heating.1.1 c; simp [exInput, exNoEquip] at this)
    (fun i => (hRoom i).cooling.1)
    (fun i => by
      have hj : 0 < o.boundaries.length := by omega
      have hpos0 : 0 < ∑ j ∈ surfaces h i, h.area j * (if h.solarAbs j then 1 else 0) := by
        refine sum_pos' (fun j _ => mul_nonneg (hpos j).le (by split_ifs <;> norm_num)) ⟨⟨0, hj⟩, ?_, ?_⟩
        · simp [surfaces, hone _ i]
        · have := (hpart ⟨0, hj⟩ _ (List.getElem?_eq_getElem (hlt _))).absorbing
          rw [(hgiven ⟨0, hj⟩).2.2, if_pos rfl] at this
          rw [this, if_pos rfl, mul_one]
          exact hpos _
      exact hpos0.ne')
    (fun i l => by rw [(hRoom i).inflow]; simp [exInput, flowFrom])
    (fun j => by
      obtain ⟨u, -, u1, u2, e2, htr, -⟩ := given_by_u hr hcomp (exInput_physical false r) ho hh hS j (List.getElem?_eq_getElem (hlt j)) (hgiven j).1
      refine ⟨?_, htr⟩
      rw [e2, sub_nonneg, le_div_iff₀ u1]
      linarith)
    (fun j => by
      have hP := hpart j _ (List.getElem?_eq_getElem (hlt j))
      have hext : isExternal ((exInput false exUnit r).boundaries[j.1]'(hlt j)).boundaryType = true := by
        rcases (hgiven j).1 with e | e <;> rw [e] <;> rfl
      obtain ⟨c, ec, k1, k2, -⟩ := hP.outdoor hext
      cases (hgiven j).2.1.symm.trans ec
      exact ⟨k2 rfl, k1⟩)
  refine ⟨r, o, h, ho, hh, hcomp, exInput_physical false r, hS, ⟨1, h1⟩, _, rfl, Or.inr rfl, rfl, ?_, data, ss, c, t, Hp,
    ⟨fun p h0 => ?_, fun _ _ => rfl, fun p h0 => by simp⟩, hsame, ?_⟩
  · rw [hhr]
  · have : p = 0 := by omega
    subst this
    exact H
  · rw [hq, (hpart ⟨1, h1⟩ _ rfl).coefficient]

end HLC
