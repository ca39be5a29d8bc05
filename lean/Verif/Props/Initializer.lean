import Verif.Spec.Initializer
import Verif.Spec.Weather
import Verif.Lemmas.Except
import Mathlib.Tactic.Linarith
import Mathlib.Tactic.NormNum
import Mathlib.Tactic.Ring
import Mathlib.Tactic.IntervalCases
import Mathlib.Tactic.FieldSimp
import Mathlib.Algebra.BigOperators.Field
import Mathlib.Algebra.Order.BigOperators.Group.List

/-!
# The initializer: rooms, ventilation, view factors, rear sides (C50-C53)
-/

namespace HLC.Init
open HLC.Spec

/-! ## Rooms -/

theorem RoomType.ofString_ok (s : String) : (∃ t, RoomType.ofString s = .ok t) ↔ s ∈ roomTypeNames := by
  unfold RoomType.ofString roomTypeNames
  split_ifs with h1 h2 h3 h4
  · simp [h1]
  · simp [h2]
  · simp [h3]
  · simp [h4]
  · simp [h1, h2, h3, h4]

/-- The name of a room type. -/
def RoomType.name : RoomType → String
  | .main => "main_occupant_room"
  | .other => "other_occupant_room"
  | .nonOccupant => "non_occupant_room"
  | .underfloor => "underfloor"

theorem RoomType.ofString_eq {s : String} {t u : RoomType} (h : RoomType.ofString s = .ok t) : t = u ↔ s = u.name := by
  unfold RoomType.ofString at h
  split_ifs at h with h1 h2 h3 h4 <;> cases h <;> cases u <;> simp [RoomType.name, *]

theorem count_types {rooms : List RoomDict} {types : List RoomType} (h : rooms.mapM (fun r => RoomType.ofString r.roomType) = .ok types)
    (t : RoomType) : types.count t = occurrences rooms t.name := by
  rw [mapM_ok_iff] at h
  induction h with
  | nil => rfl
  | @cons r t' rs ts h1 _ ih =>
    unfold occurrences at ih ⊢
    rw [List.count_cons, List.countP_cons, ih]
    congr 1
    have := RoomType.ofString_eq (u := t) h1
    by_cases c : t' = t
    · simp [c, this.1 c]
    · have c' : ¬ r.roomType = t.name := fun e => c (this.2 e)
      simp [c, c']

theorem Equip.read_ok (e : EquipDict) : (∃ x, Equip.read e = .ok x) ↔ KnownEquipment e := by
  unfold Equip.read KnownEquipment
  split_ifs with h1 h2 h3
  · simp [h1]
  · cases hc : e.convective <;> simp [h2, key, bind, Except.bind]
  · cases hc : e.radiative <;> simp [h3, key, bind, Except.bind]
  · simp [h1, h2, h3]

theorem pyIndex_ok (n : ℕ) (x : ℤ) : (∃ k, pyIndex n x = .ok k) ↔ -(n : ℤ) ≤ x ∧ x < n := by
  unfold pyIndex
  split_ifs with h1 h2
  · exact ⟨fun _ => by omega, fun _ => ⟨_, rfl⟩⟩
  · exact ⟨fun _ => by omega, fun _ => ⟨_, rfl⟩⟩
  · exact ⟨fun ⟨_, h⟩ => (nomatch h), fun h => by omega⟩

theorem ventRow_ok {n : ℕ} (vs : List NextVent) (row : Fin n → ℝ) :
    (∃ r, ventRow row vs = .ok r) ↔ ∀ v ∈ vs, -(n : ℤ) ≤ v.upstream ∧ v.upstream < n := by
  induction vs generalizing row with
  | nil => simp [ventRow]
  | cons v vs ih =>
    unfold ventRow
    simp only [bind_ok_iff, List.forall_mem_cons, ← pyIndex_ok]
    constructor
    · rintro ⟨r, k, hk, hr⟩
      exact ⟨⟨k, hk⟩, fun w hw => (pyIndex_ok _ _).2 ((ih _).1 ⟨r, hr⟩ w hw)⟩
    · rintro ⟨⟨k, hk⟩, h⟩
      obtain ⟨r, hr⟩ := (ih (fun l => if l = k then row l + v.volume / 3600 else row l)).2 fun w hw => (pyIndex_ok _ _).1 (h w hw)
      exact ⟨r, k, hk, hr⟩

theorem checkIds_ok (rooms : List RoomDict) : checkIds rooms = .ok () ↔ ∀ i (h : i < rooms.length), rooms[i].id = i := by
  unfold checkIds
  have : (rooms.map RoomDict.id = (List.range rooms.length).map (fun i : ℕ => (i : ℤ))) ↔ ∀ i (h : i < rooms.length), rooms[i].id = i := by
    rw [List.ext_getElem_iff]
    simp
  rw [← this]
  split_ifs with h <;> simp [h]

theorem check_ok {p : Prop} [Decidable p] {e : PyErr} : (if p then (.error e : Except PyErr Unit) else .ok ()) = .ok () ↔ ¬ p := by
  split_ifs with h <;> simp [h]

/-- **C51 (acceptance).** The rooms are accepted exactly when they are numbered 0 … n-1, have known types with exactly one main
room and at most one room of each type, known equipment, and inter-room ventilation from an index numpy accepts (-n … n-1). In
all other cases an error is raised. There are at most four rooms. -/
theorem C51_accepted_iff_partial (rooms : List RoomDict) :
    ((∃ s, makeSpaces rooms = .ok s) ↔ ValidRooms (-(rooms.length : ℤ)) rooms) ∧
    (¬ ValidRooms (-(rooms.length : ℤ)) rooms → ∃ e, makeSpaces rooms = .error e) ∧
    (ValidRooms (-(rooms.length : ℤ)) rooms → 1 ≤ rooms.length ∧ rooms.length ≤ 4) := by
  have main : (∃ s, makeSpaces rooms = .ok s) ↔ ValidRooms (-(rooms.length : ℤ)) rooms := by
    unfold makeSpaces checkOnce checkAtMostOnce
    simp only [bind_ok_iff]
    constructor
    · rintro ⟨s, ⟨⟩, h0, types, h1, ⟨⟩, h2, ⟨⟩, h3, ⟨⟩, h4, ⟨⟩, h5, ⟨⟩, h6, hes, h7, ces, h8, v, h9, -⟩
      rw [check_ok] at h2 h3 h4 h5 h6
      rw [count_types h1] at h2 h3 h4 h5 h6
      simp only [RoomType.name, not_lt, not_not, gt_iff_lt] at h2 h3 h4 h5 h6
      refine ⟨(checkIds_ok _).1 h0, fun r hr => (RoomType.ofString_ok _).1 (ok_of_mapM_ok h1 r hr), h2, ?_,
        fun r hr => (Equip.read_ok _).1 (ok_of_mapM_ok h7 r hr), fun r hr => (Equip.read_ok _).1 (ok_of_mapM_ok h8 r hr), ?_⟩
      · intro t ht
        simp only [roomTypeNames, List.mem_cons, List.not_mem_nil, or_false] at ht
        rcases ht with rfl | rfl | rfl | rfl <;> assumption
      · intro r hr
        exact (ventRow_ok _ _).1 (ok_of_mapM_ok h9 r hr)
    · intro h
      obtain ⟨types, h1⟩ := mapM_ok_of (f := fun r : RoomDict => RoomType.ofString r.roomType)
        fun r hr => (RoomType.ofString_ok _).2 (h.types r hr)
      obtain ⟨hes, h7⟩ := mapM_ok_of (f := fun r : RoomDict => Equip.read r.heating) fun r hr => (Equip.read_ok _).2 (h.heating r hr)
      obtain ⟨ces, h8⟩ := mapM_ok_of (f := fun r : RoomDict => Equip.read r.cooling) fun r hr => (Equip.read_ok _).2 (h.cooling r hr)
      obtain ⟨v, h9⟩ := mapM_ok_of (f := fun r : RoomDict => ventRow (fun _ : Fin rooms.length => 0) r.nextVent)
        fun r hr => (ventRow_ok _ _).2 (h.upstream r hr)
      refine ⟨_, (), (checkIds_ok _).2 h.ids, types, h1, (), ?_, (), ?_, (), ?_, (), ?_, (), ?_, hes, h7, ces, h8, v, h9, rfl⟩
      all_goals rw [check_ok, count_types h1]
      · rw [not_not]; exact h.main
      · exact not_lt.2 (h.others _ (by simp [roomTypeNames, RoomType.name]))
      · exact not_lt.2 (h.others _ (by simp [roomTypeNames, RoomType.name]))
      · exact not_lt.2 (h.others _ (by simp [roomTypeNames, RoomType.name]))
      · exact not_lt.2 (h.others _ (by simp [roomTypeNames, RoomType.name]))
  refine ⟨main, fun h => ?_, fun h => ?_⟩
  · cases e : makeSpaces rooms with
    | error x => exact ⟨x, rfl⟩
    | ok s => exact absurd (main.1 ⟨s, e⟩) h
  · have hlen : rooms.length = occurrences rooms "main_occupant_room" + occurrences rooms "other_occupant_room"
        + occurrences rooms "non_occupant_room" + occurrences rooms "underfloor" := by
      have := h.types
      clear main h
      unfold occurrences
      induction rooms with
      | nil => rfl
      | cons r rs ih =>
        rw [List.forall_mem_cons] at this
        rw [List.length_cons, ih this.2]
        simp only [List.countP_cons]
        have h1 := this.1
        simp only [roomTypeNames, List.mem_cons, List.not_mem_nil, or_false] at h1
        rcases h1 with e | e | e | e <;> rw [e] <;> simp <;> omega
    have h1 := h.main
    have h2 := h.others "other_occupant_room" (by simp [roomTypeNames])
    have h3 := h.others "non_occupant_room" (by simp [roomTypeNames])
    have h4 := h.others "underfloor" (by simp [roomTypeNames])
    omega

/-- No equipment. -/
def exNoEquip : EquipDict := ⟨"not_installed", none, none⟩

/-- Two rooms; 60 m³/h flow into the first one from the room with number `u`. -/
noncomputable def exRooms (u : ℤ) : List RoomDict :=
  [⟨0, "main_occupant_room", "main_occupant_room", 30, 72, 60, [⟨u, 60⟩], 5, exNoEquip, exNoEquip⟩,
   ⟨1, "other_occupant_room", "other_occupant_room", 50, 120, 0, [], 5, exNoEquip, exNoEquip⟩]

theorem exRooms_valid (u : ℤ) (h : -2 ≤ u ∧ u < 2) : ValidRooms (-2) (exRooms u) where
  ids := by
    intro i hi
    have : i < 2 := hi
    interval_cases i <;> rfl
  types := by
    intro r hr
    simp only [exRooms, List.mem_cons, List.not_mem_nil, or_false] at hr
    rcases hr with rfl | rfl <;> simp [roomTypeNames]
  main := by simp [occurrences, exRooms]
  others := by
    intro t ht
    simp only [roomTypeNames, List.mem_cons, List.not_mem_nil, or_false] at ht
    rcases ht with rfl | rfl | rfl | rfl <;> simp [occurrences, exRooms]
  heating := by
    intro r hr
    simp only [exRooms, List.mem_cons, List.not_mem_nil, or_false] at hr
    rcases hr with rfl | rfl <;> exact Or.inl rfl
  cooling := by
    intro r hr
    simp only [exRooms, List.mem_cons, List.not_mem_nil, or_false] at hr
    rcases hr with rfl | rfl <;> exact Or.inl rfl
  upstream := by
    intro r hr
    simp only [exRooms, List.mem_cons, List.not_mem_nil, or_false] at hr
    rcases hr with rfl | rfl
    · intro v hv
      simp only [List.mem_cons, List.not_mem_nil, or_false] at hv
      subst hv
      exact h
    · simp

/-- **C51 (violation).** Ventilation from a room that does not exist is accepted if its number is negative: room -1 is taken to be the last
room. -/
theorem C51_violated : (∃ s, makeSpaces (exRooms (-1)) = .ok s) ∧
    ventRow (fun _ : Fin 2 => (0 : ℝ)) [⟨-1, 60⟩] = .ok fun k => if k = 1 then 60 / 3600 else 0 := by
  refine ⟨(C51_accepted_iff_partial _).1.2 (exRooms_valid (-1) (by omega)), ?_⟩
  have : pyIndex 2 (-1) = .ok 1 := rfl
  simp only [ventRow, this, bind, Except.bind, zero_add]

/-! ## Inter-room ventilation -/

theorem ventRow_eq {n : ℕ} (vs : List NextVent) (row r : Fin n → ℝ) (hv : ∀ v ∈ vs, 0 ≤ v.upstream) (H : ventRow row vs = .ok r) (k : Fin n) :
    r k = row k + flowFrom vs k.1 / 3600 := by
  induction vs generalizing row with
  | nil => cases H; simp [flowFrom]
  | cons v vs ih =>
    unfold ventRow at H
    obtain ⟨k', hk', H⟩ := bind_ok_iff.1 H
    rw [List.forall_mem_cons] at hv
    rw [ih _ hv.2 H]
    have hkv : k = k' ↔ v.upstream = (k.1 : ℤ) := by
      unfold pyIndex at hk'
      split_ifs at hk' with h1 h2
      · cases hk'
        rw [Fin.ext_iff]
        simp only
        omega
      · omega
    unfold flowFrom
    rw [List.filter_cons]
    by_cases c : k = k'
    · rw [if_pos c, if_pos (by simpa using hkv.1 c), List.map_cons, List.sum_cons]; ring
    · rw [if_neg c, if_neg (by simpa using fun e => c (hkv.2 e))]

/-- **C52.** In the matrix written for the rooms, entry `(i, k)` is the total flow specified from room `k` to room `i`, in m³/s; several routes between the
same rooms add up. The sum of a row is the total inflow of the room. -/
theorem C52_matrix (rooms : List RoomDict) (hv : ValidRooms 0 rooms) :
    ∃ m, ventMatrix rooms.length rooms = .ok m ∧ ∃ hl : m.length = rooms.length, ∀ i (hi : i < rooms.length),
      (∀ k : Fin rooms.length, (m[i]'(hl.symm ▸ hi)) k = flowFrom rooms[i].nextVent k.1 / 3600) ∧
      ∑ k, (m[i]'(hl.symm ▸ hi)) k = (rooms[i].nextVent.map NextVent.volume).sum / 3600 := by
  obtain ⟨m, hm⟩ := mapM_ok_of (f := fun r : RoomDict => ventRow (fun _ : Fin rooms.length => 0) r.nextVent)
    fun r hr => (ventRow_ok _ _).2 fun v h => ⟨by have := (hv.upstream r hr v h).1; omega, (hv.upstream r hr v h).2⟩
  refine ⟨m, hm, mapM_length hm, fun i hi => ?_⟩
  have hr := mapM_getElem hm hi
  have he : ∀ k : Fin rooms.length, (m[i]'((mapM_length hm).symm ▸ hi)) k = flowFrom rooms[i].nextVent k.1 / 3600 := by
    intro k
    rw [ventRow_eq _ _ _ (fun v h => (hv.upstream _ (List.getElem_mem hi) v h).1) hr, zero_add]
  refine ⟨he, ?_⟩
  simp only [he]
  rw [← Finset.sum_div]
  congr 1
  have hu : ∀ v ∈ rooms[i].nextVent, _ := hv.upstream rooms[i] (List.getElem_mem hi)
  generalize rooms[i].nextVent = vs at hu
  induction vs with
  | nil => simp [flowFrom]
  | cons v vs ih =>
    rw [List.forall_mem_cons] at hu
    rw [List.map_cons, List.sum_cons, ← ih hu.2]
    have : ∀ k : Fin rooms.length, flowFrom (v :: vs) k.1 = (if k = ⟨v.upstream.toNat, by omega⟩ then v.volume else 0) + flowFrom vs k.1 := by
      intro k
      unfold flowFrom
      rw [List.filter_cons]
      by_cases c : v.upstream = (k.1 : ℤ)
      · rw [if_pos (by simpa using c), if_pos (by rw [Fin.ext_iff]; simp only; omega), List.map_cons, List.sum_cons]
      · rw [if_neg (by simpa using c), if_neg (by rw [Fin.ext_iff]; simp only; omega), zero_add]
    simp only [this, Finset.sum_add_distrib, Finset.sum_ite_eq', Finset.mem_univ, if_true]

theorem zipSpaces_get {n : ℕ} {rooms : List RoomDict} {hes ces : List Equip} {v : List (Fin n → ℝ)} (h1 : hes.length = rooms.length)
    (h2 : ces.length = rooms.length) (h3 : v.length = rooms.length) :
    ∃ hl : (zipSpaces rooms hes ces v).length = rooms.length, ∀ i (hi : i < rooms.length),
      (zipSpaces rooms hes ces v)[i]'(hl.symm ▸ hi) = makeSpace rooms[i] (hes[i]'(h1.symm ▸ hi)) (ces[i]'(h2.symm ▸ hi)) (v[i]'(h3.symm ▸ hi)) := by
  induction rooms generalizing hes ces v with
  | nil => exact ⟨rfl, fun i hi => absurd hi (Nat.not_lt_zero _)⟩
  | cons r rs ih =>
    obtain _ | ⟨he, hes⟩ := hes
    · simp at h1
    obtain _ | ⟨ce, ces⟩ := ces
    · simp at h2
    obtain _ | ⟨w, v⟩ := v
    · simp at h3
    simp only [List.length_cons, add_left_inj] at h1 h2 h3
    obtain ⟨hl, hg⟩ := ih h1 h2 h3
    refine ⟨by simp only [zipSpaces, List.length_cons, hl], fun i hi => ?_⟩
    cases i with
    | zero => rfl
    | succ i => exact hg i (by simpa using hi)

/-- **C52 (file).** The matrix is what the written spaces contain, room by room, together with the other data of the room: volume, mechanical and
natural ventilation in m³/s and the capacities of the furniture. -/
theorem C52_spaces (rooms : List RoomDict) (hv : ValidRooms 0 rooms) :
    ∃ s, makeSpaces rooms = .ok s ∧ ∃ hl : s.length = rooms.length, ∀ i (hi : i < rooms.length),
      (s[i]'(hl.symm ▸ hi)).id = i ∧ (s[i]'(hl.symm ▸ hi)).name = rooms[i].name ∧ (s[i]'(hl.symm ▸ hi)).volume = rooms[i].volume ∧
      (s[i]'(hl.symm ▸ hi)).mechanical = rooms[i].vent / 3600 ∧
      (s[i]'(hl.symm ▸ hi)).natural = rooms[i].volume * rooms[i].naturalVentTime / 3600 ∧
      (s[i]'(hl.symm ▸ hi)).nextSpaces = List.ofFn (fun k : Fin rooms.length => flowFrom rooms[i].nextVent k.1 / 3600) ∧
      (s[i]'(hl.symm ▸ hi)).heatCapacity = 12600 * rooms[i].volume ∧ (s[i]'(hl.symm ▸ hi)).heatCond = 2.772 * rooms[i].volume ∧
      (s[i]'(hl.symm ▸ hi)).moistureCapacity = 16.8 * rooms[i].volume ∧ (s[i]'(hl.symm ▸ hi)).moistureCond = 0.03024 * rooms[i].volume := by
  have hv' : ValidRooms (-(rooms.length : ℤ)) rooms :=
    ⟨hv.ids, hv.types, hv.main, hv.others, hv.heating, hv.cooling, fun r hr v h => ⟨by have := (hv.upstream r hr v h).1; omega, (hv.upstream r hr v h).2⟩⟩
  obtain ⟨s, hs⟩ := (C51_accepted_iff_partial rooms).1.2 hv'
  have hs' := hs
  unfold makeSpaces checkOnce checkAtMostOnce at hs'
  simp only [bind_ok_iff] at hs'
  obtain ⟨⟨⟩, -, types, -, ⟨⟩, -, ⟨⟩, -, ⟨⟩, -, ⟨⟩, -, ⟨⟩, -, hes, h7, ces, h8, v, h9, e⟩ := hs'
  obtain ⟨m, hm, hlm, hmat⟩ := C52_matrix rooms hv
  cases h9.symm.trans hm
  cases e
  obtain ⟨hl, hg⟩ := zipSpaces_get (mapM_length h7) (mapM_length h8) (mapM_length h9)
  refine ⟨_, hs, hl, fun i hi => ?_⟩
  rw [hg i hi]
  refine ⟨hv.ids i hi, rfl, rfl, rfl, rfl, ?_, ?_, ?_, rfl, ?_⟩
  · simp only [makeSpace]
    exact congrArg _ (funext fun k => (hmat i hi).1 k)
  · simp only [makeSpace, cShFrt]; ring
  · simp only [makeSpace, gShFrt, cShFrt]; ring
  · simp only [makeSpace, gLhFrt, cLhFrt]; ring

/-- The hypotheses of the theorems above are met by the two example rooms. -/
example : ∃ m, ventMatrix (exRooms 1).length (exRooms 1) = .ok m ∧ ∃ hl : m.length = 2, (m[0]'(by omega)) ⟨1, by simp [exRooms]⟩ = 60 / 3600 ∧ (m[1]'(by omega)) ⟨0, by simp [exRooms]⟩ = 0 := by
  have hv : ValidRooms 0 (exRooms 1) := by
    have h := exRooms_valid 1 (by omega)
    refine ⟨h.ids, h.types, h.main, h.others, h.heating, h.cooling, ?_⟩
    intro r hr v hv
    simp only [exRooms, List.mem_cons, List.not_mem_nil, or_false] at hr
    rcases hr with rfl | rfl
    · simp only [List.mem_cons, List.not_mem_nil, or_false] at hv
      subst hv
      exact ⟨by decide, by simp [exRooms]⟩
    · simp at hv
  obtain ⟨m, hm, hl, h⟩ := C52_matrix _ hv
  refine ⟨m, hm, hl, ?_, ?_⟩
  · rw [(h 0 (by simp [exRooms])).1 ⟨1, by simp [exRooms]⟩]; simp [flowFrom, exRooms]
  · rw [(h 1 (by simp [exRooms])).1 ⟨0, by simp [exRooms]⟩]; simp [flowFrom, exRooms]

/-! ## View factors and radiant heating -/

theorem sum_split {α : Type} (l : List α) (p q : α → Bool) (f : α → ℝ) :
    ((l.filter p).map f).sum = ((l.filter fun a => p a && q a).map f).sum + ((l.filter fun a => p a && !q a).map f).sum := by
  induction l with
  | nil => simp
  | cons a l ih =>
    simp only [List.filter_cons]
    cases hp : p a <;> cases hq : q a <;> simp [ih] <;> ring

theorem areaWhere_pos {bss : List Bs} (ha : ∀ b ∈ bss, 0 < b.area) {i : ℤ} {f : Bs → Bool} (h : ∃ b ∈ bss, b.room = i ∧ f b = true) :
    0 < areaWhere bss i f := by
  obtain ⟨b, hb, hr, hf⟩ := h
  unfold areaWhere
  have hm : b.area ∈ (bss.filter fun b => b.room = i && f b).map Bs.area :=
    List.mem_map_of_mem (List.mem_filter.2 ⟨hb, by simp [hr, hf]⟩)
  refine lt_of_lt_of_le (ha b hb) (List.single_le_sum ?_ _ hm)
  intro x hx
  obtain ⟨c, hc, rfl⟩ := List.mem_map.1 hx
  exact (ha c (List.mem_filter.1 hc).1).le

theorem sum_area_share {bss : List Bs} {i : ℤ} {f : Bs → Bool} (h : areaWhere bss i f ≠ 0) (c : ℝ) :
    ((bss.filter fun b => b.room = i && f b).map fun b => b.area / areaWhere bss i f * c).sum = c := by
  have : ∀ l : List Bs, (l.map fun b => b.area / areaWhere bss i f * c).sum = (l.map Bs.area).sum / areaWhere bss i f * c := by
    intro l
    induction l with
    | nil => simp
    | cons b l ih => simp only [List.map_cons, List.sum_cons, ih]; ring
  rw [this]
  have e : ((bss.filter fun b => b.room = i && f b).map Bs.area).sum = areaWhere bss i f := rfl
  rw [e, div_self h, one_mul]

/-- **C53 (view factors).** In a room with a floor and at least one other part, all of positive area, the occupants' view factors of the parts are positive
numbers that sum to one; 45 % belong to the floor. Within the floor, and within the rest, they are proportional to the area. -/
theorem C53_view_factors_partial (bss : List Bs) (ha : ∀ b ∈ bss, 0 < b.area) (i : ℤ) (hf : ∃ b ∈ bss, b.room = i ∧ b.isFloor = true)
    (hn : ∃ b ∈ bss, b.room = i ∧ b.isFloor = false) :
    ∃ f : Bs → ℝ, (∀ b ∈ bss, b.room = i → viewFactor bss b = some (f b) ∧ 0 < f b) ∧
      ((bss.filter fun b => b.room = i).map f).sum = 1 ∧
      ((bss.filter fun b => b.room = i && b.isFloor).map f).sum = 0.45 ∧
      (∀ b ∈ bss, ∀ c ∈ bss, b.room = i → c.room = i → b.isFloor = c.isFloor → f b * c.area = f c * b.area) := by
  have hF : 0 < areaWhere bss i fun c => c.isFloor := areaWhere_pos ha hf
  have hN : 0 < areaWhere bss i fun c => !c.isFloor := areaWhere_pos ha (by
    obtain ⟨b, hb, hr, hb'⟩ := hn
    exact ⟨b, hb, hr, by simp [hb']⟩)
  let f : Bs → ℝ := fun b => if b.isFloor then b.area / (areaWhere bss i fun c => c.isFloor) * 0.45
    else b.area / (areaWhere bss i fun c => !c.isFloor) * (1 - 0.45)
  have e1 : ((bss.filter fun b => b.room = i && b.isFloor).map f).sum = 0.45 := by
    rw [← sum_area_share (f := fun b => b.isFloor) hF.ne' 0.45]
    refine congrArg _ (List.map_congr_left fun b hb => ?_)
    have := (List.mem_filter.1 hb).2
    simp only [Bool.and_eq_true] at this
    simp only [f, this.2, if_true]
  have e2 : ((bss.filter fun b => b.room = i && !b.isFloor).map f).sum = 1 - 0.45 := by
    rw [← sum_area_share (f := fun b => !b.isFloor) hN.ne' (1 - 0.45)]
    refine congrArg _ (List.map_congr_left fun b hb => ?_)
    have := (List.mem_filter.1 hb).2
    simp only [Bool.and_eq_true, Bool.not_eq_true'] at this
    simp only [f, this.2, Bool.false_eq_true, if_false]
  refine ⟨f, ?_, ?_, e1, ?_⟩
  · intro b hb hr
    subst hr
    unfold viewFactor npDiv
    cases hbf : b.isFloor
    · rw [if_neg (by simp), if_neg hN.ne']
      refine ⟨by simp [f, hbf], ?_⟩
      simp only [f, hbf, Bool.false_eq_true, if_false]
      have := div_pos (ha b hb) hN
      nlinarith
    · rw [if_pos rfl, if_neg hF.ne']
      refine ⟨by simp [f, hbf], ?_⟩
      simp only [f, hbf, if_true]
      have := div_pos (ha b hb) hF
      nlinarith
  · rw [sum_split bss (fun b => decide (b.room = i)) (fun b => b.isFloor) f, e1, e2]; norm_num
  · intro b _ c _ _ _ h
    simp only [f, h]
    split_ifs <;> ring

/-- **C53 (radiant heating).** In a room with a floor, all parts of positive area, the shares of radiant heating are non-negative numbers; in a room
with radiant heating they sum to one and belong to the floor in proportion to the area, otherwise they are zero. -/
theorem C53_heating_shares_partial (bss : List Bs) (ha : ∀ b ∈ bss, 0 < b.area) (i : ℤ) (hf : ∃ b ∈ bss, b.room = i ∧ b.isFloor = true) (rad : Bool) :
    ∃ f : Bs → ℝ, (∀ b ∈ bss, b.room = i → heatingShare bss rad b = some (f b) ∧ 0 ≤ f b ∧ (b.isFloor = false → f b = 0)) ∧
      ((bss.filter fun b => b.room = i).map f).sum = (if rad then 1 else 0) ∧
      (∀ b ∈ bss, ∀ c ∈ bss, b.room = i → c.room = i → b.isFloor = true → c.isFloor = true → f b * c.area = f c * b.area) := by
  have hF : 0 < areaWhere bss i fun c => c.isFloor := areaWhere_pos ha hf
  let f : Bs → ℝ := fun b => b.area / (areaWhere bss i fun c => c.isFloor) * ind rad * ind b.isFloor
  refine ⟨f, ?_, ?_, ?_⟩
  · intro b hb hr
    subst hr
    unfold heatingShare npDiv
    rw [if_neg hF.ne']
    refine ⟨rfl, ?_, ?_⟩
    · have := (div_pos (ha b hb) hF).le
      simp only [f, ind]
      split_ifs <;> simp [this]
    · intro h; simp [f, h, ind]
  · rw [sum_split bss (fun b => decide (b.room = i)) (fun b => b.isFloor) f]
    have e1 : ((bss.filter fun b => b.room = i && b.isFloor).map f).sum = ind rad := by
      rw [← sum_area_share (f := fun b => b.isFloor) hF.ne' (ind rad)]
      refine congrArg _ (List.map_congr_left fun b hb => ?_)
      have := (List.mem_filter.1 hb).2
      simp only [Bool.and_eq_true] at this
      simp [f, this.2, ind]
    have e2 : ((bss.filter fun b => b.room = i && !b.isFloor).map f).sum = 0 := by
      refine List.sum_eq_zero fun x hx => ?_
      obtain ⟨b, hb, rfl⟩ := List.mem_map.1 hx
      have := (List.mem_filter.1 hb).2
      simp only [Bool.and_eq_true, Bool.not_eq_true'] at this
      simp [f, this.2, ind]
    rw [e1, e2, add_zero]
    rfl
  · intro b _ c _ _ _ hb hc
    simp only [f, hb, hc]; ring

/-- **C53 (violation).** In a room without a floor every share of radiant heating is not a number, whether or not the room is heated that way; and
the view factors of a room that consists only of walls sum to 55 %. -/
theorem C53_violated (bss : List Bs) (ha : ∀ b ∈ bss, 0 < b.area) (i : ℤ) (hn : ∃ b ∈ bss, b.room = i) (hf : ∀ b ∈ bss, b.room = i → b.isFloor = false) :
    (∀ rad, ∀ b ∈ bss, b.room = i → heatingShare bss rad b = none) ∧
    ∃ f : Bs → ℝ, (∀ b ∈ bss, b.room = i → viewFactor bss b = some (f b)) ∧ ((bss.filter fun b => b.room = i).map f).sum = 0.55 := by
  have hF : areaWhere bss i (fun c => c.isFloor) = 0 := by
    unfold areaWhere
    rw [show (bss.filter fun b => b.room = i && b.isFloor) = [] from List.filter_eq_nil_iff.2 fun b hb => by
      by_cases c : b.room = i
      · simp [hf b hb c]
      · simp [c]]
    rfl
  have hN : 0 < areaWhere bss i fun c => !c.isFloor := areaWhere_pos ha (by
    obtain ⟨b, hb, hr⟩ := hn
    exact ⟨b, hb, hr, by simp [hf b hb hr]⟩)
  refine ⟨?_, fun b => b.area / (areaWhere bss i fun c => !c.isFloor) * (1 - 0.45), ?_, ?_⟩
  · rintro rad b hb rfl
    unfold heatingShare npDiv
    rw [if_pos hF]; rfl
  · rintro b hb rfl
    unfold viewFactor npDiv
    rw [if_neg (by simp [hf b hb rfl]), if_neg hN.ne']; rfl
  · rw [show (bss.filter fun b => b.room = i) = bss.filter fun b => b.room = i && !b.isFloor from List.filter_congr fun b hb => by
      by_cases c : b.room = i
      · simp [hf b hb c]
      · simp [c], sum_area_share (f := fun b => !b.isFloor) hN.ne']
    norm_num

/-! ## Rear sides -/

/-- **C50 (what is proved).** For every part facing outdoors with temperature difference coefficient between 0 and 1, the weight of the outdoor side is the
coefficient and the weight of the part's own room is a number between 0 and 1 on the part itself; the two sum to one up to 0.05,
and exactly if the coefficient is a multiple of 0.1. An internal part puts weight one on its partner and none on the outdoor side. -/
theorem C50_weights_partial (rnd : ℕ → ℝ → ℝ) (hr : IsRounding rnd) (rooms : List RoomDict) (bss : List Bs) (b : Bs) (spec : SpecJson) :
    (b.bType.isExternal = true → 0 ≤ b.hTd → b.hTd ≤ 1 →
      (boundaryJson rnd rooms bss b spec).kOutside = b.hTd ∧
      (b.hTd = 1 → (boundaryJson rnd rooms bss b spec).kInside = none) ∧
      (b.hTd < 1 → ∃ c, (boundaryJson rnd rooms bss b spec).kInside = some (b.id, c) ∧ 0 ≤ c ∧ c ≤ 1 ∧ |b.hTd + c - 1| ≤ 0.05 ∧
        ((∃ k : ℤ, b.hTd = k / 10) → b.hTd + c = 1))) ∧
    (∀ r, b.bType = .internal → b.rear = some r → b.hTd = 0 →
      (boundaryJson rnd rooms bss b spec).kOutside = 0 ∧ (boundaryJson rnd rooms bss b spec).kInside = some (r, 1)) := by
  constructor
  · intro he h0 h1
    refine ⟨rfl, fun e => ?_, fun hlt => ?_⟩
    · simp only [boundaryJson, kInside, he, if_true, e, lt_irrefl, if_false]
    · obtain ⟨⟨k, hk⟩, hd⟩ := hr 1 (1 - b.hTd)
      have hd' := abs_le.1 hd
      simp only [pow_one] at hk hd'
      refine ⟨rnd 1 (1 - b.hTd), by simp only [boundaryJson, kInside, he, if_true, hlt], ?_, ?_, ?_, ?_⟩
      · have : (-1 : ℝ) < k := by
          have := hd'.1; rw [hk] at this
          linarith
        have : -1 < k := by exact_mod_cast this
        rw [hk]
        have : (0 : ℝ) ≤ k := by exact_mod_cast (by omega : 0 ≤ k)
        positivity
      · have : (k : ℝ) < 11 := by
          have := hd'.2; rw [hk] at this
          linarith
        have : k < 11 := by exact_mod_cast this
        rw [hk]
        have : (k : ℝ) ≤ 10 := by exact_mod_cast (by omega : k ≤ 10)
        linarith
      · rw [abs_le]; constructor <;> linarith [hd'.1, hd'.2]
      · rintro ⟨m, hm⟩
        have h1' : |((k : ℝ) - (10 - m)) / 10| ≤ 0.05 := by
          rw [abs_le]
          rw [hk, hm] at hd'
          constructor <;> linarith [hd'.1, hd'.2]
        have h2 : |(k : ℝ) - (10 - m)| < 1 := by
          rw [abs_div, abs_of_pos (by norm_num : (0 : ℝ) < 10), div_le_iff₀ (by norm_num)] at h1'
          linarith
        have h3 : |k - (10 - m)| < 1 := by exact_mod_cast h2
        have h4 : k = 10 - m := by rw [abs_lt] at h3; omega
        rw [hk, hm, h4]
        push_cast; ring
  · intro r hi hre h0
    refine ⟨h0, ?_⟩
    simp [boundaryJson, kInside, hi, BType.isExternal, hre]

/-- **C50 (violation).** For the coefficient 0.15 (and 0.05) the weights do not sum to one, whichever way ties are rounded: the sum is 0.95 or
1.05. For a part in contact with the ground both weights are zero. -/
theorem C50_violated (rnd : ℕ → ℝ → ℝ) (hr : IsRounding rnd) (rooms : List RoomDict) (bss : List Bs) (b : Bs) (spec : SpecJson) :
    (b.bType.isExternal = true → b.hTd = 0.15 ∨ b.hTd = 0.05 →
      ∃ c, (boundaryJson rnd rooms bss b spec).kInside = some (b.id, c) ∧ (b.hTd + c = 0.95 ∨ b.hTd + c = 1.05)) ∧
    (b.bType = .ground → b.hTd = 0 →
      (boundaryJson rnd rooms bss b spec).kOutside = 0 ∧ (boundaryJson rnd rooms bss b spec).kInside = none) := by
  constructor
  · intro he h
    obtain ⟨⟨k, hk⟩, hd⟩ := hr 1 (1 - b.hTd)
    have hd' := abs_le.1 hd
    simp only [pow_one] at hk hd'
    have hlt : b.hTd < 1 := by rcases h with h | h <;> rw [h] <;> norm_num
    refine ⟨rnd 1 (1 - b.hTd), by simp only [boundaryJson, kInside, he, if_true, hlt], ?_⟩
    rw [hk] at hd' ⊢
    rcases h with h | h
    · rw [h] at hd' ⊢
      have a : (7 : ℝ) < k := by linarith [hd'.1]
      have b : (k : ℝ) < 10 := by linarith [hd'.2]
      have a' : 7 < k := by exact_mod_cast a
      have b' : k < 10 := by exact_mod_cast b
      have : k = 8 ∨ k = 9 := by omega
      rcases this with rfl | rfl <;> norm_num
    · rw [h] at hd' ⊢
      have a : (8 : ℝ) < k := by linarith [hd'.1]
      have b : (k : ℝ) < 11 := by linarith [hd'.2]
      have a' : 8 < k := by exact_mod_cast a
      have b' : k < 11 := by exact_mod_cast b
      have : k = 9 ∨ k = 10 := by omega
      rcases this with rfl | rfl <;> norm_num
  · intro hg h0
    refine ⟨h0, ?_⟩
    simp [boundaryJson, kInside, hg, BType.isExternal]

/-- A part for the examples below. -/
noncomputable def exBs (t : BType) (floor : Bool) (area hTd : ℝ) : Bs :=
  ⟨0, "part", "", 0, t, area, hTd, -1, none, floor, floor, some false, none, 9, 2.5, [], []⟩

/-- A room with a floor of 20 m² and walls of 40 m² and 20 m² meets the hypotheses: the view factors are 0.45, 0.55·2/3 and 0.55/3. -/
example : viewFactor [exBs .ground true 20 0, exBs .generalPart false 40 1, exBs .generalPart false 20 1] (exBs .generalPart false 40 1)
    = some (0.55 * (2 / 3)) ∧
    heatingShare [exBs .ground true 20 0, exBs .generalPart false 40 1, exBs .generalPart false 20 1] true (exBs .ground true 20 0) = some 1 := by
  constructor
  · simp [viewFactor, areaWhere, exBs, npDiv]; norm_num
  · simp [heatingShare, areaWhere, exBs, npDiv, ind]

end HLC.Init
