import Verif.Model.ConvRooms
import Verif.Spec.HouseAir
import Mathlib.Tactic.FieldSimp
import Mathlib.Tactic.Ring
import Mathlib.Tactic.NormNum
import Verif.Lemmas.Except

/-!
# C66, C77, C78: rooms of the exported house
-/

namespace HLC

open HLC.Conv

theorem vVentEx_ok {aA aMr aOr n : ℝ} (h : aMr + aOr ≠ 0) :
    vVentEx aA aMr aOr n = .ok (Spec.houseAir aA n * aMr / (aMr + aOr), Spec.houseAir aA n * aOr / (aMr + aOr)) := by
  simp [vVentEx, pyDiv, h, Spec.houseAir, Bind.bind, Except.bind, pure, Except.pure]

theorem makeInitialRooms_ok {aA aMr aOr aNr aUf n : ℝ} {nvMr nvOr : PyVal} (hm : 0 < aMr) (ho : 0 ≤ aOr) :
    makeInitialRooms aA aMr aOr aNr aUf n nvMr nvOr = .ok (initialRooms aMr aOr aNr aUf
      (Spec.houseAir aA n * aMr / (aMr + aOr)) (Spec.houseAir aA n * aOr / (aMr + aOr)) nvMr nvOr) := by
  have h : aMr + aOr ≠ 0 := by positivity
  simp [makeInitialRooms, vVentEx_ok h, Bind.bind, Except.bind, pure, Except.pure, not_le.2 hm]

/-- **C66.** For every positive main floor area, non-negative area of the other rooms, air change rate and whatever the
remaining areas: the export produces rooms; the outdoor air of all of them together is the air of the house; the room
`main_occupant_room` and, when its area is positive, `other_occupant_room` take it in proportion to their floor areas;
and whenever there are non-occupied rooms, they take no outdoor air and receive from each occupied room, as a list
of inflows, exactly what that room took in. -/
theorem C66_balance {aA aMr aOr aNr aUf n : ℝ} {nvMr nvOr : PyVal} (hm : 0 < aMr) (ho : 0 ≤ aOr) :
    ∃ rooms, makeInitialRooms aA aMr aOr aNr aUf n nvMr nvOr = .ok rooms ∧
      (rooms.map (·.vent)).sum = Spec.houseAir aA n ∧
      ∃ main ∈ rooms, main.name = "main_occupant_room" ∧ main.volume = aMr * 2.4 ∧
        (aOr = 0 → (∀ r ∈ rooms, r.name ≠ "other_occupant_room") ∧
          ∀ nr ∈ rooms, nr.name = "non_occupant_room" → nr.vent = 0 ∧ ∃ v, nr.nextVent.map (·.volume) = [v] ∧
            Spec.AirBalanced [⟨aMr, main.vent, v⟩] (Spec.houseAir aA n) (nr.nextVent.map (·.volume)).sum) ∧
        (0 < aOr → ∃ other ∈ rooms, other.name = "other_occupant_room" ∧ other.volume = aOr * 2.4 ∧
          main.vent * aOr = other.vent * aMr ∧
          ∀ nr ∈ rooms, nr.name = "non_occupant_room" → nr.vent = 0 ∧ ∃ v w, nr.nextVent.map (·.volume) = [v, w] ∧
            Spec.AirBalanced [⟨aMr, main.vent, v⟩, ⟨aOr, other.vent, w⟩] (Spec.houseAir aA n)
              (nr.nextVent.map (·.volume)).sum) ∧
        (0 < aNr ↔ ∃ nr ∈ rooms, nr.name = "non_occupant_room") := by
  have h : aMr + aOr ≠ 0 := by positivity
  have e := makeInitialRooms_ok (aA := aA) (aNr := aNr) (aUf := aUf) (n := n) (nvMr := nvMr) (nvOr := nvOr) hm ho
  generalize Spec.houseAir aA n = V at e ⊢
  have hsum : V * aMr / (aMr + aOr) + V * aOr / (aMr + aOr) = V := by
    rw [← add_div, ← mul_add, mul_div_assoc, div_self h, mul_one]
  have hprop : V * aMr / (aMr + aOr) * aOr = V * aOr / (aMr + aOr) * aMr := by ring
  refine ⟨_, e, ?_, _, List.mem_append_left _ (List.mem_append_left _ (List.mem_append_left _ (List.mem_singleton.2 rfl))),
    rfl, rfl, ?_, ?_, ?_⟩
  · rcases ho.eq_or_lt with h0 | h0
    · rw [← h0] at hsum
      by_cases h1 : 0 < aNr <;> by_cases h2 : 0 < aUf <;> simp [initialRooms, ← h0, h1, h2, hm.ne']
    · by_cases h1 : 0 < aNr <;> by_cases h2 : 0 < aUf <;> simpa [initialRooms, h0, h1, h2] using hsum
  · rintro rfl
    constructor
    · by_cases h1 : 0 < aNr <;> by_cases h2 : 0 < aUf <;> simp [initialRooms, h1, h2]
    · intro nr hnr hn
      have : nr.vent = 0 ∧ nr.nextVent = [⟨"main", V * aMr / (aMr + 0)⟩] := by
        by_cases h1 : 0 < aNr <;> by_cases h2 : 0 < aUf <;> simp [initialRooms, vVent, h1, h2, hm] at hnr <;> aesop
      refine ⟨this.1, V * aMr / (aMr + 0), by rw [this.2]; rfl, ⟨?_, ?_, ?_, ?_⟩⟩
      · simp
      · simpa using hsum
      · simp
      · simp [this.2]
  · intro h0
    refine ⟨_, List.mem_append_left _ (List.mem_append_left _ (List.mem_append_right _ (by rw [if_pos h0]; exact List.mem_singleton.2 rfl))),
      rfl, rfl, hprop, ?_⟩
    intro nr hnr hn
    have : nr.vent = 0 ∧ nr.nextVent = [⟨"main", V * aMr / (aMr + aOr)⟩, ⟨"other", V * aOr / (aMr + aOr)⟩] := by
      by_cases h1 : 0 < aNr <;> by_cases h2 : 0 < aUf <;> simp [initialRooms, vVent, h0, h1, h2, hm] at hnr <;> aesop
    refine ⟨this.1, V * aMr / (aMr + aOr), V * aOr / (aMr + aOr), by rw [this.2]; rfl, ⟨?_, ?_, ?_, ?_⟩⟩
    · simp [hprop]
    · simpa using hsum
    · simp
    · simp [this.2]
  · by_cases h0 : 0 < aOr <;> by_cases h1 : 0 < aNr <;> by_cases h2 : 0 < aUf <;> simp [initialRooms, h0, h1, h2]

/-- **C66, which rooms.** The export consists of the main room, and of the other rooms, the non-occupied rooms and the underfloor
space as far as they have an area, in this order, with 2.4 m (underfloor 0.4 m) of height; it is refused if the
main room has no area. Natural ventilation is entered for the occupied rooms as given, and all rooms get the same leakage. -/
theorem C66_rooms {aA aMr aOr aNr aUf n : ℝ} {nvMr nvOr : PyVal} {rooms : List ExpRoom}
    (h : makeInitialRooms aA aMr aOr aNr aUf n nvMr nvOr = .ok rooms) :
    0 < aMr ∧ rooms.map (fun r => (r.name, r.volume, r.naturalVent)) =
        [("main_occupant_room", 2.4 * aMr, nvMr)] ++ (if 0 < aOr then [("other_occupant_room", 2.4 * aOr, nvOr)] else [])
          ++ (if 0 < aNr then [("non_occupant_room", 2.4 * aNr, .num 0)] else []) ++ (if 0 < aUf then [("underfloor", 0.4 * aUf, .num 0)] else [])
      ∧ ∀ r ∈ rooms, r.cValue = 5 ∧ (r.nextVent ≠ [] → r.name = "non_occupant_room") := by
  simp only [makeInitialRooms, bind_ok_iff] at h
  obtain ⟨⟨m, o⟩, -, h⟩ := h
  by_cases h0 : aMr ≤ 0
  · rw [if_pos h0] at h; cases h
  rw [if_neg h0] at h
  cases h
  refine ⟨not_le.1 h0, ?_, ?_⟩
  · by_cases h1 : 0 < aOr <;> by_cases h2 : 0 < aNr <;> by_cases h3 : 0 < aUf <;> simp [initialRooms, h1, h2, h3, mul_comm]
  · by_cases h1 : 0 < aOr <;> by_cases h2 : 0 < aNr <;> by_cases h3 : 0 < aUf <;> simp [initialRooms, h1, h2, h3]

/-- A house of 120 m² with 30 m² main room and 60 m² other rooms meets the hypotheses of C66. -/
example : ∃ rooms, makeInitialRooms 120 30 60 30 0 0.5 (.num 5) (.num 5) = .ok rooms ∧ (rooms.map (·.vent)).sum = 158.4 := by
  obtain ⟨rooms, h, hs, -⟩ := C66_balance (aA := 120) (aMr := 30) (aOr := 60) (aNr := 30) (aUf := 0) (n := 0.5)
    (nvMr := .num 5) (nvOr := .num 5) (by norm_num) (by norm_num)
  exact ⟨rooms, h, hs.trans (by norm_num [Spec.houseAir])⟩

/-- **C77, violated.** Whatever the areas and rates, as soon as there are non-occupied rooms the export contains an
inflow, and no inflow comes from a room that exists in the export. -/
theorem C77_violated {aA aMr aOr aNr aUf n : ℝ} {nvMr nvOr : PyVal} {rooms : List ExpRoom} (hn : 0 < aNr)
    (h : makeInitialRooms aA aMr aOr aNr aUf n nvMr nvOr = .ok rooms) :
    (∃ r ∈ rooms, r.nextVent ≠ []) ∧ ∀ r ∈ rooms, ∀ v ∈ r.nextVent, ∀ s ∈ rooms, s.name ≠ v.upstream := by
  simp only [makeInitialRooms, bind_ok_iff] at h
  obtain ⟨⟨m, o⟩, -, h⟩ := h
  by_cases h0 : aMr ≤ 0
  · rw [if_pos h0] at h; cases h
  rw [if_neg h0] at h
  have h0 := not_le.1 h0
  cases h
  constructor
  · refine ⟨_, List.mem_append_left _ (List.mem_append_right _ (by rw [if_pos hn]; exact List.mem_singleton.2 rfl)), ?_⟩
    simp [h0]
  · intro r hr v hv s hs
    have hv' : v.upstream = "main" ∨ v.upstream = "other" := by
      by_cases h1 : 0 < aOr <;> by_cases h2 : 0 < aUf <;> simp [initialRooms, h0, h1, h2, hn] at hr <;>
        rcases hr with rfl | hr <;> aesop
    have hs' : s.name ∈ ["main_occupant_room", "other_occupant_room", "non_occupant_room", "underfloor"] := by
      by_cases h1 : 0 < aOr <;> by_cases h2 : 0 < aUf <;> simp [initialRooms, h1, h2, hn] at hs ⊢ <;> aesop
    rcases hv' with e | e <;> rw [e] <;> intro e' <;> rw [e'] at hs' <;> simp at hs'

/-- **C78, violated.** No call of the level-4 export returns: whatever house is given, it ends with an exception. -/
theorem C78_violated (region : ℤ) (common envelope d naturalVent : PyVal) :
    ∀ r, convertLv4 region common envelope d naturalVent ≠ .ok r := by
  intro r h
  simp only [convertLv4, bind_ok_iff, makeRooms] at h
  obtain ⟨_, _, _, _, _, _, _, _, _, _, _, _, _, _, _, _, h⟩ := h
  aesop

end HLC
