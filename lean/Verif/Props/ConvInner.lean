import Verif.Spec.InnerParts
import Verif.Lemmas.Except
import Mathlib.Tactic.NormNum
import Mathlib.Tactic.Ring
import Mathlib.Tactic.Positivity
import Mathlib.Algebra.Order.BigOperators.Group.List

/-!
# C61: inner floors and walls
-/

namespace HLC

set_option linter.unnecessarySeqFocus false

open HLC.Conv

theorem sum_filter_area {α : Type} (p : α → Bool) (f : α → ℝ) (l : List α) :
    ((l.filter p).map f).sum = (l.map fun x => if p x = true then f x else 0).sum := by
  induction l with
  | nil => rfl
  | cons x l ih =>
    by_cases h : p x = true
    · simp [h, ih]
    · simp [h, ih]

open Classical in
theorem downwardArea_eq (l : List AreaPart) (r : Spec.Room) : downwardArea l r.space = Spec.envelopeArea l r.space Spec.Down := by
  rw [downwardArea, sum_filter_area, Spec.envelopeArea]
  congr 1
  refine List.map_congr_left fun x _ => if_congr ?_ rfl rfl
  simp [Spec.Down]

open Classical in
theorem horizontalArea_eq (l : List AreaPart) (r : Spec.Room) : horizontalArea l r.space = Spec.envelopeArea l r.space Spec.Sideways := by
  rw [horizontalArea, sum_filter_area, Spec.envelopeArea]
  congr 1
  refine List.map_congr_left fun x _ => if_congr ?_ rfl rfl
  have : x.direction.isHorizontal = true ↔ Spec.Sideways x.direction := by
    cases x.direction <;> simp [Direction.isHorizontal, Spec.Sideways]
  simp [this]

theorem earthfloorArea_eq (l : List Efc) (s : String) : earthfloorArea l s = Spec.groundArea l s := by
  rw [earthfloorArea, sum_filter_area, Spec.groundArea]
  simp

theorem appendFloor_pos {n : String} {a : ℝ} {u l : String} {x : InnerFloor} (h : x ∈ appendFloor n a u l) :
    0 < x.area ∧ x.upper = u ∧ x.lower = l ∧ x.layers = innerFloorLayers := by
  unfold appendFloor at h
  split_ifs at h with h0
  · rw [List.mem_singleton] at h; subst h; exact ⟨h0, rfl, rfl, rfl⟩
  · simp at h

theorem appendWall_pos {n : String} {a : ℝ} {u l : String} {x : InnerWall} (h : x ∈ appendWall n a u l) :
    0 < x.area ∧ x.space1 = u ∧ x.space2 = l ∧ x.layers = innerWallLayers := by
  unfold appendWall at h
  split_ifs at h with h0
  · rw [List.mem_singleton] at h; subst h; exact ⟨h0, rfl, rfl, rfl⟩
  · simp at h

theorem floorsOf_append (l l' : List InnerFloor) (r : Spec.Room) :
    Spec.floorsOf (l ++ l') r = Spec.floorsOf l r + Spec.floorsOf l' r := by simp [Spec.floorsOf]

theorem overUnderfloor_append (l l' : List InnerFloor) :
    Spec.floorsOverUnderfloor (l ++ l') = Spec.floorsOverUnderfloor l + Spec.floorsOverUnderfloor l' := by
  simp [Spec.floorsOverUnderfloor]

theorem wallsOf_append (l l' : List InnerWall) (r : Spec.Room) : Spec.wallsOf (l ++ l') r = Spec.wallsOf l r + Spec.wallsOf l' r := by
  simp [Spec.wallsOf]

theorem floorsOf_appendFloor {n : String} {a : ℝ} {u l : String} (ha : 0 ≤ a) (r : Spec.Room) :
    Spec.floorsOf (appendFloor n a u l) r = if u = r.name then a else 0 := by
  unfold appendFloor Spec.floorsOf
  by_cases h : a > 0
  · simp [h]
  · have : a = 0 := le_antisymm (not_lt.1 h) ha
    simp [this]

theorem overUnderfloor_appendFloor {n : String} {a : ℝ} {u l : String} (ha : 0 ≤ a) :
    Spec.floorsOverUnderfloor (appendFloor n a u l) = if l = "underfloor" then a else 0 := by
  unfold appendFloor Spec.floorsOverUnderfloor
  by_cases h : a > 0
  · simp [h]
  · have : a = 0 := le_antisymm (not_lt.1 h) ha
    simp [this]

theorem wallsOf_appendWall {n : String} {a : ℝ} {u l : String} (ha : 0 ≤ a) (r : Spec.Room) :
    Spec.wallsOf (appendWall n a u l) r = if u = r.name ∨ l = r.name then a else 0 := by
  unfold appendWall Spec.wallsOf
  by_cases h : a > 0
  · simp [h]
  · have : a = 0 := le_antisymm (not_lt.1 h) ha
    simp [this]

theorem envelopeArea_nonneg {parts : List AreaPart} (hp : ∀ p ∈ parts, 0 ≤ p.area) (s : SpaceType) (d : Direction → Prop) :
    0 ≤ Spec.envelopeArea parts s d := by
  refine List.sum_nonneg fun x hx => ?_
  obtain ⟨p, hp', rfl⟩ := List.mem_map.1 hx
  split_ifs
  · exact hp p hp'
  · exact le_rfl

theorem groundArea_nonneg {ecs : List Efc} (he : ∀ e ∈ ecs, 0 ≤ e.area) (s : String) : 0 ≤ Spec.groundArea ecs s := by
  refine List.sum_nonneg fun x hx => ?_
  obtain ⟨p, hp', rfl⟩ := List.mem_map.1 hx
  split_ifs
  · exact he p hp'
  · exact le_rfl

/-- **C61, floors.** Whatever the floor areas, envelope and earth floors: every inner floor that is emitted has a positive
area and lies between two different spaces, the upper one a room. -/
theorem C61_floors_positive {f : FloorAreas} {parts : List AreaPart} {ecs : List Efc} {l : List InnerFloor}
    (h : makeInnerFloors f parts ecs = .ok l) :
    ∀ x ∈ l, 0 < x.area ∧ x.upper ≠ x.lower ∧ (∃ r : Spec.Room, x.upper = r.name) ∧
      ((∃ r : Spec.Room, x.lower = r.name) ∨ x.lower = "underfloor") := by
  simp only [makeInnerFloors, bind_ok_iff] at h
  obtain ⟨b, -, h⟩ := h
  cases h
  intro x hx
  simp only [List.mem_append] at hx
  rcases hx with (((((((hx | hx) | hx) | hx) | hx) | hx) | hx) | hx) | hx <;> obtain ⟨h1, h2, h3, -⟩ := appendFloor_pos hx <;>
    refine ⟨h1, by rw [h2, h3]; decide, ?_, ?_⟩
  all_goals first
    | exact ⟨.main, h2⟩
    | exact ⟨.other, h2⟩
    | exact ⟨.non, h2⟩
    | exact .inr h3
    | exact .inl ⟨.main, h3⟩
    | exact .inl ⟨.other, h3⟩
    | exact .inl ⟨.non, h3⟩

/-- **C61, walls.** Whatever the floor areas and envelope: every inner wall that is emitted has a positive area, lies
between two different rooms, and there is at most one wall between any two rooms, in either order. -/
theorem C61_walls_positive {f : FloorAreas} {parts : List AreaPart} {l : List InnerWall} (h : makeInnerWalls f parts = .ok l) :
    (∀ x ∈ l, 0 < x.area ∧ x.space1 ≠ x.space2 ∧ (∃ r : Spec.Room, x.space1 = r.name) ∧ ∃ r : Spec.Room, x.space2 = r.name) ∧
      l.Pairwise fun x y => ¬(x.space1 = y.space1 ∧ x.space2 = y.space2) ∧ ¬(x.space1 = y.space2 ∧ x.space2 = y.space1) := by
  simp only [makeInnerWalls, bind_ok_iff] at h
  obtain ⟨w, -, b, -, h⟩ := h
  cases h
  constructor
  · intro x hx
    simp only [List.mem_append] at hx
    rcases hx with (hx | hx) | hx <;> obtain ⟨h1, h2, h3, -⟩ := appendWall_pos hx <;>
      refine ⟨h1, by rw [h2, h3]; decide, ?_, ?_⟩
    all_goals first
      | exact ⟨.main, h2⟩
      | exact ⟨.other, h2⟩
      | exact ⟨.other, h3⟩
      | exact ⟨.non, h3⟩
  · unfold appendWall
    split_ifs <;> simp

/-- **C61, sums of the floors.** Let the house have a main room and at least one more kind of room, no negative areas, and
no more underfloor space than inner floor. Then the emitted floors of each kind of room add up to its inner floor, and those
over the underfloor space cover the underfloor space. -/
theorem C61_floors_sum {f : FloorAreas} {parts : List AreaPart} {ecs : List Efc} {l : List InnerFloor}
    (h2 : 0 < f.other ∨ 0 < Spec.Room.non.floor f)
    (hp : ∀ p ∈ parts, 0 ≤ p.area) (he : ∀ e ∈ ecs, 0 ≤ e.area)
    (hu : Spec.groundArea ecs "underfloor" ≤
      Spec.Room.main.innerFloor f parts ecs + Spec.Room.other.innerFloor f parts ecs + Spec.Room.non.innerFloor f parts ecs)
    (h : makeInnerFloors f parts ecs = .ok l) :
    (∀ r : Spec.Room, Spec.floorsOf l r = r.innerFloor f parts ecs) ∧
      Spec.floorsOverUnderfloor l = Spec.groundArea ecs "underfloor" := by
  simp only [makeInnerFloors, bind_ok_iff] at h
  obtain ⟨b, hb, h⟩ := h
  have hd := downwardArea_eq parts
  have d1 := hd .main
  have d2 := hd .other
  have d3 := hd .non
  simp only [Spec.Room.space] at d1 d2 d3
  rw [d1, d2, d3] at hb h
  simp only [earthfloorArea_eq] at hb h
  have ha : innerFloorTotal f
      ⟨Spec.envelopeArea parts .mainOccupantRoom Spec.Down, Spec.envelopeArea parts .otherOccupantRoom Spec.Down,
        Spec.envelopeArea parts .nonOccupantRoom Spec.Down⟩
      ⟨Spec.groundArea ecs "main_occupant_room", Spec.groundArea ecs "other_occupant_room", Spec.groundArea ecs "non_occupant_room"⟩
      = ⟨Spec.Room.main.innerFloor f parts ecs, Spec.Room.other.innerFloor f parts ecs, Spec.Room.non.innerFloor f parts ecs⟩ := rfl
  rw [ha] at hb h
  have hg := groundArea_nonneg he "underfloor"
  have hzero : ∀ r : Spec.Room, r.floor f ≤ 0 → r.innerFloor f parts ecs = 0 := fun r hr => by
    have h1 := envelopeArea_nonneg hp r.space Spec.Down
    have h2 := groundArea_nonneg he r.name
    exact max_eq_left (by linarith)
  have hnn : ∀ r : Spec.Room, 0 ≤ r.innerFloor f parts ecs := fun r => le_max_left _ _
  generalize hA : Spec.Room.main.innerFloor f parts ecs = A at *
  generalize hB : Spec.Room.other.innerFloor f parts ecs = B at *
  generalize hC : Spec.Room.non.innerFloor f parts ecs = C at *
  generalize Spec.groundArea ecs "underfloor" = U at *
  have nA : 0 ≤ A := hA ▸ hnn .main
  have nB : 0 ≤ B := hB ▸ hnn .other
  have nC : 0 ≤ C := hC ▸ hnn .non
  -- the floors over the underfloor space
  obtain ⟨x, y, z, hxyz, nx, ny, nz, lx, ly, lz, hs⟩ : ∃ x y z : ℝ, innerFloorUnderfloor ⟨A, B, C⟩ U = ⟨x, y, z⟩ ∧ 0 ≤ x ∧ 0 ≤ y ∧
      0 ≤ z ∧ x ≤ A ∧ y ≤ B ∧ z ≤ C ∧ x + y + z = U := by
    unfold innerFloorUnderfloor
    by_cases hs : A + B + C > 0
    · refine ⟨_, _, _, if_pos hs, by positivity, by positivity, by positivity, ?_, ?_, ?_, ?_⟩
      · rw [div_le_iff₀ hs, mul_comm]; exact mul_le_mul_of_nonneg_left hu nA
      · rw [div_le_iff₀ hs, mul_comm]; exact mul_le_mul_of_nonneg_left hu nB
      · rw [div_le_iff₀ hs, mul_comm]; exact mul_le_mul_of_nonneg_left hu nC
      · rw [← add_div, ← add_div, ← mul_add, ← mul_add]; exact mul_div_cancel_right₀ _ hs.ne'
    · have hU : U = 0 := by linarith
      exact ⟨0, 0, 0, if_neg hs, le_rfl, le_rfl, le_rfl, nA, nB, nC, by rw [hU]; norm_num⟩
  rw [hxyz] at hb h
  have nb : 0 ≤ b.mrOr ∧ 0 ≤ b.mrNr ∧ 0 ≤ b.orMr ∧ 0 ≤ b.orNr ∧ 0 ≤ b.nrMr ∧ 0 ≤ b.nrOr ∧ b.mrOr + b.mrNr = A - x ∧
      b.orMr + b.orNr = B - y ∧ b.nrMr + b.nrOr = C - z := by
    unfold innerFloorBetween at hb
    have mx : max 0 (A - x) = A - x := max_eq_right (by linarith)
    have my : max 0 (B - y) = B - y := max_eq_right (by linarith)
    have mz : max 0 (C - z) = C - z := max_eq_right (by linarith)
    simp only [mx, my, mz] at hb
    split_ifs at hb with h0 h1 h3 h4
    · exact absurd h2 (not_or.2 ⟨not_lt.2 h1.1, not_lt.2 h1.2⟩)
    · cases hb
      have : B = 0 := hB ▸ hzero .other h3
      refine ⟨le_rfl, ?_, le_rfl, le_rfl, ?_, le_rfl, ?_, ?_, ?_⟩ <;> simp <;> linarith
    · cases hb
      have : C = 0 := hC ▸ hzero .non h4
      refine ⟨?_, le_rfl, ?_, le_rfl, le_rfl, le_rfl, ?_, ?_, ?_⟩ <;> simp <;> linarith
    · cases hb
      refine ⟨?_, ?_, ?_, ?_, ?_, ?_, ?_, ?_, ?_⟩ <;> simp <;> linarith
  obtain ⟨n1, n2, n3, n4, n5, n6, s1, s2, s3⟩ := nb
  cases h
  constructor
  · intro r
    simp only [floorsOf_append, floorsOf_appendFloor nx, floorsOf_appendFloor ny, floorsOf_appendFloor nz,
      floorsOf_appendFloor n1, floorsOf_appendFloor n2, floorsOf_appendFloor n3, floorsOf_appendFloor n4,
      floorsOf_appendFloor n5, floorsOf_appendFloor n6]
    cases r
    · simp [Spec.Room.name]; linarith
    · simp [Spec.Room.name]; linarith
    · simp [Spec.Room.name]; linarith
  · simp only [overUnderfloor_append, overUnderfloor_appendFloor nx, overUnderfloor_appendFloor ny, overUnderfloor_appendFloor nz,
      overUnderfloor_appendFloor n1, overUnderfloor_appendFloor n2, overUnderfloor_appendFloor n3, overUnderfloor_appendFloor n4,
      overUnderfloor_appendFloor n5, overUnderfloor_appendFloor n6]
    simpa using hs

theorem innerWallTotal_ok {f : FloorAreas} {parts : List AreaPart} {w : Three}
    (h : innerWallTotal f ⟨horizontalArea parts .mainOccupantRoom, horizontalArea parts .otherOccupantRoom,
      horizontalArea parts .nonOccupantRoom⟩ = .ok w) :
    w = ⟨Spec.Room.main.innerWall f parts, Spec.Room.other.innerWall f parts, Spec.Room.non.innerWall f parts⟩ := by
  have hd := horizontalArea_eq parts
  have d1 := hd .main
  have d2 := hd .other
  have d3 := hd .non
  simp only [Spec.Room.space] at d1 d2 d3
  rw [d1, d2, d3] at h
  simp only [innerWallTotal, bind_ok_iff] at h
  obtain ⟨a, ha, b, hb, c, hc, h⟩ := h
  have key : ∀ x y, pySqrt x = .ok y → y = Real.sqrt x := fun x y hx => by
    unfold pySqrt at hx
    split_ifs at hx
    cases hx; rfl
  cases h
  rw [key _ _ ha, key _ _ hb, key _ _ hc]
  simp [Spec.Room.innerWall, Spec.Room.floor, Spec.Room.space]

/-- **C61, sums of the walls.** In a house with all three kinds of rooms whose wall totals satisfy the triangle inequality
(no room has more partition wall than the two others together) the emitted walls of each room add up to its total. -/
theorem C61_walls_sum {f : FloorAreas} {parts : List AreaPart} {l : List InnerWall}
    (hf : ∀ r : Spec.Room, 0 < r.floor f)
    (ht : ∀ r s t : Spec.Room, r ≠ s → s ≠ t → r ≠ t → r.innerWall f parts ≤ s.innerWall f parts + t.innerWall f parts)
    (h : makeInnerWalls f parts = .ok l) : ∀ r : Spec.Room, Spec.wallsOf l r = r.innerWall f parts := by
  simp only [makeInnerWalls, bind_ok_iff] at h
  obtain ⟨w, hw, b, hb, h⟩ := h
  obtain rfl := innerWallTotal_ok hw
  have p1 := hf .main
  have p2 := hf .other
  have p3 := hf .non
  simp only [Spec.Room.floor] at p1 p2 p3
  simp only [innerWallBetween, not_le.2 p1, not_le.2 p2, not_le.2 p3, if_false, false_and] at hb
  have t1 := ht .main .other .non (by decide) (by decide) (by decide)
  have t2 := ht .other .main .non (by decide) (by decide) (by decide)
  have t3 := ht .non .main .other (by decide) (by decide) (by decide)
  cases hb
  cases h
  intro r
  simp only [wallsOf_append, wallsOf_appendWall (le_max_left _ _)]
  rw [max_eq_right (by linarith), max_eq_right (by linarith), max_eq_right (by linarith)]
  cases r <;> simp [Spec.Room.name] <;> ring

/-- **C61, two rooms.** In a house with only two kinds of rooms there is one inner wall, the mean of what the two rooms
ask for, so that the total over both rooms is conserved. -/
theorem C61_walls_two {f : FloorAreas} {parts : List AreaPart} {l : List InnerWall} {r : Spec.Room} (hr : r ≠ .main)
    (hf : ∀ s : Spec.Room, s ≠ r → 0 < s.floor f) (h0 : r.floor f = 0)
    (h : makeInnerWalls f parts = .ok l) :
    Spec.wallsOf l r = 0 ∧ ∀ s t : Spec.Room, s ≠ r → t ≠ r → s ≠ t →
      Spec.wallsOf l s = (s.innerWall f parts + t.innerWall f parts) / 2 := by
  simp only [makeInnerWalls, bind_ok_iff] at h
  obtain ⟨w, hw, b, hb, h⟩ := h
  obtain rfl := innerWallTotal_ok hw
  have hm := hf .main hr.symm
  have hnn : ∀ s : Spec.Room, 0 ≤ s.innerWall f parts := fun s => le_max_left _ _
  have n1 := hnn .main
  have n2 := hnn .other
  have n3 := hnn .non
  simp only [Spec.Room.floor] at hm
  cases r with
  | main => exact absurd rfl hr
  | other =>
    have hn := hf .non (by decide)
    simp only [Spec.Room.floor] at hn h0
    simp only [innerWallBetween, not_le.2 hm, h0.le, not_le.2 hn, if_false, and_false, if_true] at hb
    cases hb
    cases h
    simp only [wallsOf_append, wallsOf_appendWall le_rfl]
    rw [wallsOf_appendWall (by positivity)]
    refine ⟨by simp [Spec.Room.name], fun s t hs ht hst => ?_⟩
    rw [wallsOf_appendWall (by positivity)]
    cases s <;> cases t <;> simp_all [Spec.Room.name] <;> ring
  | non =>
    have hn := hf .other (by decide)
    simp only [Spec.Room.floor] at hn h0
    simp only [innerWallBetween, not_le.2 hm, h0.le, not_le.2 hn, if_false, false_and, if_true] at hb
    cases hb
    cases h
    simp only [wallsOf_append, wallsOf_appendWall le_rfl]
    rw [wallsOf_appendWall (by positivity)]
    refine ⟨by simp [Spec.Room.name], fun s t hs ht hst => ?_⟩
    rw [wallsOf_appendWall (by positivity)]
    cases s <;> cases t <;> simp_all [Spec.Room.name] <;> ring

/-- **C61, completeness.** A house with a main room and no negative floor area gets its inner floors and walls. -/
theorem C61_defined {f : FloorAreas} {parts : List AreaPart} {ecs : List Efc} (hm : 0 < f.main) (hf : ∀ r : Spec.Room, 0 ≤ r.floor f) :
    (∃ l, makeInnerFloors f parts ecs = .ok l) ∧ ∃ l, makeInnerWalls f parts = .ok l := by
  constructor
  · have : ∀ a u, ∃ b, innerFloorBetween f a u = .ok b := fun a u => by
      unfold innerFloorBetween
      simp only [not_le.2 hm, if_false]
      split_ifs <;> exact ⟨_, rfl⟩
    simp only [makeInnerFloors]
    obtain ⟨b, hb⟩ := this _ _
    exact ⟨_, bind_ok_iff.2 ⟨b, hb, rfl⟩⟩
  · have h1 : ∀ x, 0 ≤ x → pySqrt x = .ok (Real.sqrt x) := fun x hx => by simp [pySqrt, not_lt.2 hx]
    have e1 := h1 _ (hf .main)
    have e2 := h1 _ (hf .other)
    have e3 := h1 _ (hf .non)
    simp only [Spec.Room.floor] at e1 e2 e3
    have : ∀ w, ∃ b, innerWallBetween f w = .ok b := fun w => by
      unfold innerWallBetween
      simp only [not_le.2 hm, if_false]
      split_ifs <;> exact ⟨_, rfl⟩
    simp only [makeInnerWalls, innerWallTotal, e1, e2, e3]
    obtain ⟨b, hb⟩ := this _
    exact ⟨_, bind_ok_iff.2 ⟨_, rfl, bind_ok_iff.2 ⟨b, hb, rfl⟩⟩⟩

open Classical in
/-- **C61, program.** The floors and walls that `convert_spec` writes are those of the theorems above, for the floor areas in the file, its earth
floors and the envelope that consists of all general parts, windows and doors in the file. -/
theorem C61_program {common env out : PyVal} (h : convertLv3ToLv4 common env = .ok out) :
    ∃ f gps ws ds ecs parts floors walls, FloorAreas.make common = .ok f ∧
      (∃ l, env.getList "general_parts" = .ok l ∧ l.mapM GP.make = .ok gps) ∧ (∃ l, env.getList "windows" = .ok l ∧ l.mapM Win.make = .ok ws) ∧
      (∃ l, env.getList "doors" = .ok l ∧ l.mapM Door.make = .ok ds) ∧
      (∃ l, env.getList "earthfloor_centers" = .ok l ∧ l.mapM Efc.make = .ok ecs) ∧
      out.getList "inner_floors" = .ok (floors.map InnerFloor.asDict) ∧ out.getList "inner_walls" = .ok (walls.map InnerWall.asDict) ∧
      makeInnerFloors f parts ecs = .ok floors ∧ makeInnerWalls f parts = .ok walls ∧
      ∀ room facing, Spec.envelopeArea parts room facing =
        (gps.map fun p => if p.spaceType = room ∧ facing p.direction then p.area else 0).sum
        + (ws.map fun p => if p.spaceType = room ∧ facing p.direction then p.area else 0).sum
        + (ds.map fun p => if p.spaceType = room ∧ facing p.direction then p.area else 0).sum := by
  simp only [convertLv3ToLv4, bind_ok_iff] at h
  obtain ⟨gl, h1, gps, h2, wl, h3, ws, h4, dl, h5, ds, h6, el, h7, eps, h8, cl, h9, ecs, h10, bl, h11, hbs, h12, f, h13, ifs, h14, iws, h15, h⟩ := h
  cases h
  refine ⟨f, gps, ws, ds, ecs, _, ifs, iws, h13, ⟨gl, h1, h2⟩, ⟨wl, h3, h4⟩, ⟨dl, h5, h6⟩, ⟨cl, h9, h10⟩, rfl, rfl, h14, h15, fun room facing => ?_⟩
  simp [Spec.envelopeArea, areaParts, add_assoc, Function.comp_def]

/-- A house of 36, 49 and 36 m² with an earth floor of 50 m² meets all hypotheses of the theorems on sums. -/
theorem C61_example :
    ∃ l w, makeInnerFloors ⟨36, 49, 121⟩ [] [⟨⟨"earth", 50, "underfloor"⟩, .list []⟩] = .ok l ∧
      makeInnerWalls ⟨36, 49, 121⟩ [] = .ok w ∧ Spec.floorsOf l .main = 36 ∧ Spec.floorsOf l .other = 49 ∧
      Spec.floorsOverUnderfloor l = 50 ∧ Spec.wallsOf w .main = 80.64 := by
  obtain ⟨⟨l, hl⟩, w, hw⟩ := C61_defined (f := ⟨36, 49, 121⟩) (parts := [])
    (ecs := [⟨⟨"earth", 50, "underfloor"⟩, .list []⟩]) (by norm_num)
    (fun r => by cases r <;> norm_num [Spec.Room.floor])
  have hG : ∀ r : Spec.Room, Spec.groundArea [⟨⟨"earth", 50, "underfloor"⟩, .list []⟩] r.name = 0 := by
    intro r; cases r <;> simp [Spec.groundArea, Spec.Room.name]
  have hF : ∀ r : Spec.Room, r.innerFloor ⟨36, 49, 121⟩ [] [⟨⟨"earth", 50, "underfloor"⟩, .list []⟩] =
      match r with | .main => 36 | .other => 49 | .non => 36 := by
    intro r
    simp only [Spec.Room.innerFloor, hG, Spec.envelopeArea]
    cases r <;> norm_num [Spec.Room.floor]
  have e1 := C61_floors_sum (by norm_num) (by simp) (by simp)
    (by simp only [hF]; norm_num [Spec.groundArea]) hl
  have q6 : Real.sqrt 36 = 6 := by rw [show (36 : ℝ) = 6 ^ 2 by norm_num]; exact Real.sqrt_sq (by norm_num)
  have q7 : Real.sqrt 49 = 7 := by rw [show (49 : ℝ) = 7 ^ 2 by norm_num]; exact Real.sqrt_sq (by norm_num)
  have q6' : Real.sqrt (121 - 36 - 49) = 6 := by norm_num [q6]
  have hW : ∀ r : Spec.Room, r.innerWall ⟨36, 49, 121⟩ [] = match r with | .main => 80.64 | .other => 109.76 | .non => 94.08 := by
    intro r
    cases r <;> simp only [Spec.Room.innerWall, Spec.Room.floor, Spec.envelopeArea, List.map_nil, List.sum_nil, q6, q7, q6', if_true, reduceCtorEq, if_false] <;> norm_num
  have e2 := C61_walls_sum (fun r => by cases r <;> norm_num [Spec.Room.floor])
    (fun r s t _ _ _ => by simp only [hW]; cases r <;> cases s <;> cases t <;> first | (exfalso; simp_all; done) | norm_num) hw
  refine ⟨l, w, hl, hw, ?_, ?_, ?_, ?_⟩
  · rw [e1.1, hF]
  · rw [e1.1, hF]
  · rw [e1.2]; norm_num [Spec.groundArea]
  · rw [e2, hW]

end HLC
