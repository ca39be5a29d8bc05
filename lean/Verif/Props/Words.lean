import Verif.Spec.Words
import Verif.Props.Initializer
import Verif.Props.Reader
import Verif.Props.Lv4Parts

/-!
# C114: the words of an input mean what they say
-/

namespace HLC

open Spec

/-- **C114, rooms.** The type of a room and the type of the room behind a part are the same four words, numbered in the same order; any other
word is refused. -/
theorem C114_rooms (s : String) :
    ((∃ t, Init.RoomType.ofString s = .ok t) ↔ s ∈ roomTypeNames) ∧ (∀ n : ℤ, Init.nextRoomNumber s = .ok n ↔ ∃ k : ℕ, n = k ∧ roomTypeNames[k]? = some s) ∧
    (s ∉ roomTypeNames → Init.RoomType.ofString s = .error .valueError ∧ Init.nextRoomNumber s = .error .keyError) := by
  refine ⟨Init.RoomType.ofString_ok s, fun n => ⟨fun h => ?_, ?_⟩, fun h => ?_⟩
  · unfold Init.nextRoomNumber at h
    split_ifs at h with h1 h2 h3 h4 <;> cases h
    · exact ⟨0, rfl, by simp [roomTypeNames, h1]⟩
    · exact ⟨1, rfl, by simp [roomTypeNames, h2]⟩
    · exact ⟨2, rfl, by simp [roomTypeNames, h3]⟩
    · exact ⟨3, rfl, by simp [roomTypeNames, h4]⟩
  · rintro ⟨k, rfl, hk⟩
    obtain ⟨hl, e⟩ := List.getElem?_eq_some_iff.1 hk
    simp only [roomTypeNames, List.length_cons, List.length_nil] at hl
    unfold Init.nextRoomNumber
    interval_cases k <;> simp [roomTypeNames] at e <;> subst e <;> simp
  · simp only [roomTypeNames, List.mem_cons, List.not_mem_nil, or_false, not_or] at h
    obtain ⟨h1, h2, h3, h4⟩ := h
    simp [Init.RoomType.ofString, Init.nextRoomNumber, h1, h2, h3, h4]

/-- **C114, rooms.** The four types of rooms, word by word. -/
theorem C114_room_names : Init.RoomType.ofString "main_occupant_room" = .ok .main ∧ Init.RoomType.ofString "other_occupant_room" = .ok .other ∧
    Init.RoomType.ofString "non_occupant_room" = .ok .nonOccupant ∧ Init.RoomType.ofString "underfloor" = .ok .underfloor := by
  refine ⟨?_, ?_, ?_, ?_⟩ <;> simp [Init.RoomType.ofString]

/-- **C114, parts.** The kinds of parts are five words; the kind is written to the next file as the word it was read from. -/
theorem C114_parts (s : String) :
    (∀ t, Init.BType.ofString s = .ok t ↔ s = t.value) ∧ ((∃ t, Init.BType.ofString s = .ok t) ↔ s ∈ partWords) ∧
      (s ∉ partWords → Init.BType.ofString s = .error .valueError) := by
  refine ⟨fun t => ⟨Init.BType.ofString_value, ?_⟩, ⟨?_, ?_⟩, fun h => ?_⟩
  · rintro rfl
    cases t <;> simp [Init.BType.ofString, Init.BType.value]
  · rintro ⟨t, h⟩
    rw [Init.BType.ofString_value h]
    cases t <;> simp [partWords, Init.BType.value]
  · simp only [partWords, List.mem_cons, List.not_mem_nil, or_false]
    rintro (h | h | h | h | h) <;> subst h <;> simp [Init.BType.ofString]
  · simp only [partWords, List.mem_cons, List.not_mem_nil, or_false, not_or] at h
    obtain ⟨h1, h2, h3, h4, h5⟩ := h
    simp [Init.BType.ofString, h1, h2, h3, h4, h5]

/-- **C114, directions.** Azimuth and tilt of a direction are those of the point of the compass; any other word is refused. -/
theorem C114_directions (s : String) :
    (∀ a b, Init.angles s = .ok (a, b) ↔ ∃ az tilt, Turned s az tilt ∧ a = Weather.radians az ∧ b = Weather.radians tilt) ∧
      ((∀ az tilt, ¬ Turned s az tilt) → Init.angles s = .error .keyError) := by
  constructor
  · intro a b
    constructor
    · intro h
      unfold Init.angles at h
      split_ifs at h with h0 h1 h2 h3 h4 h5 h6 h7 h8 h9 <;> obtain ⟨rfl, rfl⟩ := Prod.mk.inj (Except.ok.inj h)
      · exact ⟨_, _, Or.inl ⟨0, by simp [points, h0], rfl, rfl⟩, by norm_num [pointAzimuth], rfl⟩
      · exact ⟨_, _, Or.inl ⟨1, by simp [points, h1], rfl, rfl⟩, by norm_num [pointAzimuth], rfl⟩
      · exact ⟨_, _, Or.inl ⟨2, by simp [points, h2], rfl, rfl⟩, by norm_num [pointAzimuth], rfl⟩
      · exact ⟨_, _, Or.inl ⟨3, by simp [points, h3], rfl, rfl⟩, by norm_num [pointAzimuth], rfl⟩
      · exact ⟨_, _, Or.inl ⟨4, by simp [points, h4], rfl, rfl⟩, by norm_num [pointAzimuth], rfl⟩
      · exact ⟨_, _, Or.inl ⟨5, by simp [points, h5], rfl, rfl⟩, by norm_num [pointAzimuth], rfl⟩
      · exact ⟨_, _, Or.inl ⟨6, by simp [points, h6], rfl, rfl⟩, by norm_num [pointAzimuth], rfl⟩
      · exact ⟨_, _, Or.inl ⟨7, by simp [points, h7], rfl, rfl⟩, by norm_num [pointAzimuth], rfl⟩
      · exact ⟨_, _, Or.inr (Or.inl ⟨h8, rfl, rfl⟩), rfl, rfl⟩
      · exact ⟨_, _, Or.inr (Or.inr ⟨h9, rfl, rfl⟩), rfl, rfl⟩
    · rintro ⟨az, tilt, ⟨k, hk, rfl, rfl⟩ | ⟨rfl, rfl, rfl⟩ | ⟨rfl, rfl, rfl⟩, rfl, rfl⟩
      · obtain ⟨hl, e⟩ := List.getElem?_eq_some_iff.1 hk
        simp only [points, List.length_cons, List.length_nil] at hl
        interval_cases k <;> simp [points] at e <;> subst e <;> simp [Init.angles, pointAzimuth] <;> norm_num
      · simp [Init.angles]
      · simp [Init.angles]
  · intro h
    have hp : ∀ k, points[k]? ≠ some s := fun k hk => h _ _ (Or.inl ⟨k, hk, rfl, rfl⟩)
    have h0 := hp 0; have h1 := hp 1; have h2 := hp 2; have h3 := hp 3; have h4 := hp 4; have h5 := hp 5; have h6 := hp 6; have h7 := hp 7
    have h8 : s ≠ "top" := fun e => h _ _ (Or.inr (Or.inl ⟨e, rfl, rfl⟩))
    have h9 : s ≠ "bottom" := fun e => h _ _ (Or.inr (Or.inr ⟨e, rfl, rfl⟩))
    simp [points] at h0 h1 h2 h3 h4 h5 h6 h7
    simp [Init.angles, Ne.symm h0, Ne.symm h1, Ne.symm h2, Ne.symm h3, Ne.symm h4, Ne.symm h5, Ne.symm h6, Ne.symm h7, h8, h9]

/-- **C114, equipment.** Equipment is absent, convective or radiative; any other word is refused. -/
theorem C114_equipment (e : Init.EquipDict) :
    (∀ x, Init.Equip.read e = .ok x → (e.kind = "not_installed" ∧ x = .notInstalled) ∨ (e.kind = "convective" ∧ ∃ s, e.convective = some s ∧ x = .convective s) ∨
      (e.kind = "radiative" ∧ ∃ s, e.radiative = some s ∧ x = .radiative s)) ∧
    (e.kind ∉ ["not_installed", "convective", "radiative"] → Init.Equip.read e = .error .valueError) := by
  constructor
  · intro x h
    unfold Init.Equip.read at h
    split_ifs at h with h1 h2 h3
    · exact Or.inl ⟨h1, (Except.ok.inj h).symm⟩
    · rw [bind_ok_iff] at h
      obtain ⟨s, hs, h⟩ := h
      cases hc : e.convective with
      | none => rw [hc] at hs; cases hs
      | some s' => rw [hc] at hs; cases hs; exact Or.inr (Or.inl ⟨h2, _, rfl, (Except.ok.inj h).symm⟩)
    · rw [bind_ok_iff] at h
      obtain ⟨s, hs, h⟩ := h
      cases hc : e.radiative with
      | none => rw [hc] at hs; cases hs
      | some s' => rw [hc] at hs; cases hs; exact Or.inr (Or.inr ⟨h3, _, rfl, (Except.ok.inj h).symm⟩)
  · intro h
    simp only [List.mem_cons, List.not_mem_nil, or_false, not_or] at h
    simp [Init.Equip.read, h.1, h.2.1, h.2.2]

/-- **C114, regions.** The number of a region stands for the place of that region; any other number is refused. -/
theorem C114_regions (region : ℤ) :
    (∀ φ lam, Weather.location region = .ok (φ, lam) ↔ ∃ k : ℕ, region = k + 1 ∧ ∃ p, places[k]? = some p ∧ φ = p.1 * Real.pi / 180 ∧ lam = p.2 * Real.pi / 180) ∧
      (¬ (1 ≤ region ∧ region ≤ 8) → Weather.location region = .error .keyError) := by
  constructor
  · intro φ lam
    constructor
    · intro h
      unfold Weather.location at h
      split_ifs at h with h0 h1 h2 h3 h4 h5 h6 h7 <;> obtain ⟨rfl, rfl⟩ := Prod.mk.inj (Except.ok.inj h)
      · exact ⟨0, by simpa using h0, _, rfl, rfl, rfl⟩
      · exact ⟨1, by simpa using h1, _, rfl, rfl, rfl⟩
      · exact ⟨2, by simpa using h2, _, rfl, rfl, rfl⟩
      · exact ⟨3, by simpa using h3, _, rfl, rfl, rfl⟩
      · exact ⟨4, by simpa using h4, _, rfl, rfl, rfl⟩
      · exact ⟨5, by simpa using h5, _, rfl, rfl, rfl⟩
      · exact ⟨6, by simpa using h6, _, rfl, rfl, rfl⟩
      · exact ⟨7, by simpa using h7, _, rfl, rfl, rfl⟩
    · rintro ⟨k, rfl, p, hk, rfl, rfl⟩
      obtain ⟨hl, e⟩ := List.getElem?_eq_some_iff.1 hk
      simp only [places, List.length_cons, List.length_nil] at hl
      interval_cases k <;> simp [places] at e <;> subst e <;> simp [Weather.location, Weather.radians]
  · intro h
    unfold Weather.location
    repeat rw [if_neg (by omega)]

/-! ## The converter -/

open Conv

/-- The words for what a part faces at level 4. -/
def outerWords : List String := Lv4.compass.map Prod.fst ++ Lv4.spaces.map Prod.fst

/-- **C114, converter, outer parts.** The five tables of what a part faces know the same fourteen words, and no others. -/
theorem C114_outer (s : String) :
    ((∃ v, directionAngle s = .ok v) ↔ s ∈ outerWords) ∧ ((∃ v, inclinationAngle s = .ok v) ↔ s ∈ outerWords) ∧
    ((∃ v, tempSpace s = .ok v) ↔ s ∈ outerWords) ∧ ((∃ v, boundaryKind s = .ok v) ↔ s ∈ outerWords) ∧
    ((∃ v, directionOuter s = .ok v) ↔ s ∈ outerWords) ∧
    (s ∉ outerWords → directionAngle s = .error .keyError ∧ inclinationAngle s = .error .keyError ∧ tempSpace s = .error .keyError ∧
      boundaryKind s = .error .keyError ∧ directionOuter s = .error .keyError) := by
  have key : ∀ {α : Type} (l : List (String × α)), (l.map Prod.fst).Nodup → (∀ w, w ∈ l.map Prod.fst ↔ w ∈ outerWords) →
      ((∃ v, lookupKey l s = .ok v) ↔ s ∈ outerWords) ∧ (s ∉ outerWords → lookupKey l s = .error .keyError) := by
    intro α l hl hw
    obtain ⟨h1, h2⟩ := lookupKey_iff hl s
    refine ⟨?_, fun h => h2 fun h' => h ((hw s).1 h')⟩
    rw [← hw]
    simp only [h1, List.mem_map, Prod.exists, exists_and_right, exists_eq_right]
  have hw : ∀ l : List String, l = ["Top", "N", "NE", "E", "SE", "S", "SW", "W", "NW", "Bottom", "ClosedSpace", "OpenBackFloor", "ResidenceSpace", "ClosedBackFloor"] →
      ∀ w, w ∈ l ↔ w ∈ outerWords := by
    rintro l rfl w
    simp only [outerWords, Lv4.compass, Lv4.spaces, List.map_cons, List.map_nil, List.cons_append, List.nil_append, List.mem_cons, List.not_mem_nil, or_false]
    tauto
  have k1 := key [("Top", none), ("N", some (180 : ℝ)), ("NE", some (-135)), ("E", some (-90)), ("SE", some (-45)), ("S", some 0), ("SW", some 45),
    ("W", some 90), ("NW", some 135), ("Bottom", none), ("ClosedSpace", none), ("OpenBackFloor", none), ("ResidenceSpace", none),
    ("ClosedBackFloor", none)] (by simp) (hw _ rfl)
  have k2 := key [("Top", some (0 : ℝ)), ("N", some 90), ("NE", some 90), ("E", some 90), ("SE", some 90), ("S", some 90), ("SW", some 90),
    ("W", some 90), ("NW", some 90), ("Bottom", some 180), ("ClosedSpace", none), ("OpenBackFloor", none), ("ResidenceSpace", none),
    ("ClosedBackFloor", none)] (by simp) (hw _ rfl)
  have k3 := key [("Top", "outside"), ("N", "outside"), ("NE", "outside"), ("E", "outside"), ("SE", "outside"), ("S", "outside"),
    ("SW", "outside"), ("W", "outside"), ("NW", "outside"), ("Bottom", "outside"), ("ClosedSpace", "underfloor"),
    ("OpenBackFloor", "underfloor"), ("ResidenceSpace", "next_room"), ("ClosedBackFloor", "next_room")] (by simp) (hw _ rfl)
  have k4 := key [("Top", "Outdoor"), ("N", "Outdoor"), ("NE", "Outdoor"), ("E", "Outdoor"), ("SE", "Outdoor"), ("S", "Outdoor"),
    ("SW", "Outdoor"), ("W", "Outdoor"), ("NW", "Outdoor"), ("Bottom", "Outdoor"), ("ClosedSpace", "DeltaTCoeff"),
    ("OpenBackFloor", "DeltaTCoeff"), ("ResidenceSpace", "DeltaTCoeff"), ("ClosedBackFloor", "DeltaTCoeff")] (by simp) (hw _ rfl)
  have k5 := key [("Top", "Downward"), ("N", "Vertical"), ("NE", "Vertical"), ("E", "Vertical"), ("SE", "Vertical"), ("S", "Vertical"),
    ("SW", "Vertical"), ("W", "Vertical"), ("NW", "Vertical"), ("Bottom", "Upward"), ("ClosedSpace", "Vertical"),
    ("OpenBackFloor", "Upward"), ("ResidenceSpace", "Vertical"), ("ClosedBackFloor", "Upward")] (by simp) (hw _ rfl)
  exact ⟨k1.1, k2.1, k3.1, k4.1, k5.1, fun h => ⟨k1.2 h, k2.2 h, k3.2 h, k4.2 h, k5.2 h⟩⟩

/-- **C114, converter, surfaces.** A surface under the sky faces down into the room, one over the open or over an underfloor space faces up, every
other one is vertical. -/
theorem C114_surface (s d : String) : directionOuter s = .ok d ↔ s ∈ outerWords ∧ d = Lv4.outerSurface s := by
  constructor
  · intro h
    exact ⟨(C114_outer s).2.2.2.2.1.1 ⟨d, h⟩, directionOuter_surface h⟩
  · rintro ⟨h, rfl⟩
    obtain ⟨v, hv⟩ := (C114_outer s).2.2.2.2.1.2 h
    rw [hv, directionOuter_surface hv]

/-- **C114, converter, inner parts.** In a room the surface of an inner part faces as its kind says; in the underfloor space only a ground floor has
a direction. Other rooms and kinds are refused. -/
theorem C114_inner (space kind : String) (v : PyVal) : directionInner space kind = .ok v ↔ Lv4.InnerSurface space kind v := directionInner_iff space kind v

/-- **C114, converter, glass.** A window described by frame, glass and shade gets the coefficient of its group times the frame factor; any other word is
refused. -/
theorem C114_glass (frame glass shade : String) :
    (∀ e, etaFromSpec frame glass shade = .ok e ↔ ∃ f g, FrameFactor frame f ∧ GlassCoefficient glass shade g ∧ e = g * f) ∧
      ((∀ f g, ¬ (FrameFactor frame f ∧ GlassCoefficient glass shade g)) → etaFromSpec frame glass shade = .error .keyError) := by
  have hf : ∀ f, lookupKey [("WoodOrResin", (0.72 : ℝ)), ("Steel", 0.8)] frame = .ok f ↔ FrameFactor frame f := by
    intro f
    rw [(lookupKey_iff (by simp) frame).1]
    simp [FrameFactor]
  have hg : ∀ g, (∃ row, lookupKey glassTable glass = .ok row ∧ lookupKey row shade = .ok g) ↔ GlassCoefficient glass shade g := by
    intro g
    constructor
    · rintro ⟨row, h1, h2⟩
      have m1 := lookupKey_ok h1
      have m2 := lookupKey_ok h2
      simp only [glassTable, List.mem_cons, Prod.mk.injEq, List.not_mem_nil, or_false] at m1
      rcases m1 with ⟨rfl, rfl⟩ | ⟨rfl, rfl⟩ | ⟨rfl, rfl⟩ | ⟨rfl, rfl⟩ | ⟨rfl, rfl⟩ | ⟨rfl, rfl⟩ | ⟨rfl, rfl⟩ | ⟨rfl, rfl⟩ | ⟨rfl, rfl⟩ | ⟨rfl, rfl⟩ | ⟨rfl, rfl⟩ |
        ⟨rfl, rfl⟩ | ⟨rfl, rfl⟩ | ⟨rfl, rfl⟩ | ⟨rfl, rfl⟩ | ⟨rfl, rfl⟩ | ⟨rfl, rfl⟩ <;>
        simp only [List.mem_cons, Prod.mk.injEq, List.not_mem_nil, or_false] at m2 <;>
        simpa [GlassCoefficient, glassGroups] using m2
    · rintro ⟨grp, hgrp, hmem, h⟩
      simp only [glassGroups, List.mem_cons, List.not_mem_nil, or_false] at hgrp
      rcases hgrp with rfl | rfl | rfl | rfl | rfl | rfl | rfl | rfl <;>
        simp only [List.mem_cons, List.not_mem_nil, or_false] at hmem
      all_goals
        first
        | subst hmem
          rcases h with ⟨rfl, rfl⟩ | ⟨rfl, rfl⟩ | ⟨rfl, rfl⟩ <;> exact ⟨_, rfl, rfl⟩
        | (rcases hmem with rfl | rfl | rfl | rfl | rfl | rfl <;> rcases h with ⟨rfl, rfl⟩ | ⟨rfl, rfl⟩ | ⟨rfl, rfl⟩ <;> exact ⟨_, rfl, rfl⟩)
  have err : ∀ {α : Type} {l : List (String × α)} {k : String} {e : PyErr}, lookupKey l k = .error e → e = .keyError := by
    intro α l k e h
    unfold lookupKey at h
    split at h <;> cases h
    rfl
  constructor
  · intro e
    simp only [etaFromSpec, bind_ok_iff]
    constructor
    · rintro ⟨f, h1, row, h2, g, h3, h4⟩
      cases h4
      exact ⟨f, g, (hf f).1 h1, (hg g).1 ⟨row, h2, h3⟩, rfl⟩
    · rintro ⟨f, g, h1, h2, rfl⟩
      obtain ⟨row, h3, h4⟩ := (hg g).2 h2
      exact ⟨f, (hf f).2 h1, row, h3, g, h4, rfl⟩
  · intro h
    unfold etaFromSpec
    cases h1 : lookupKey [("WoodOrResin", (0.72 : ℝ)), ("Steel", 0.8)] frame with
    | error e => simp only [bind, Except.bind]; rw [err h1]
    | ok f =>
      cases h2 : lookupKey glassTable glass with
      | error e => simp only [bind, Except.bind]; rw [err h2]
      | ok row =>
        cases h3 : lookupKey row shade with
        | error e => simp only [bind, Except.bind, h3]; rw [err h3]
        | ok g => exact absurd ⟨(hf f).1 h1, (hg g).1 ⟨row, h2, h3⟩⟩ (h f g)

/-- **C114 fails for the outside blind.** Its word is spelt with an `a`; the English word is refused for every window. -/
theorem C114_blind_violated (frame glass : String) : etaFromSpec frame glass "ExternalBlind" = .error .keyError := by
  refine (C114_glass frame glass "ExternalBlind").2 ?_
  rintro f g ⟨-, grp, -, -, h⟩
  simp at h

/-- **C114 fails for `get_direction`.** Of the thirteen words it knows it returns one direction; all others become `True` or `False`. -/
theorem C114_flag_violated (s : String) :
    (s = "top" → getDirection s = .ok (.str "top")) ∧ (s ∈ points → getDirection s = .ok (.bool true)) ∧
      (s ∈ ["bottom", "upward", "horizontal", "downward"] → getDirection s = .ok (.bool false)) ∧
      (s ∉ "top" :: points ++ ["bottom", "upward", "horizontal", "downward"] → getDirection s = .error .keyError) := by
  refine ⟨?_, ?_, ?_, fun h => ?_⟩
  · rintro rfl
    simp [getDirection, lookupKey, List.lookup]
  · simp only [points, List.mem_cons, List.not_mem_nil, or_false]
    rintro (h | h | h | h | h | h | h | h) <;> subst h <;> simp [getDirection, lookupKey, List.lookup]
  · simp only [List.mem_cons, List.not_mem_nil, or_false]
    rintro (h | h | h | h) <;> subst h <;> simp [getDirection, lookupKey, List.lookup]
  · refine (lookupKey_iff (by simp) s).2 fun h' => h ?_
    simp only [points, List.map_cons, List.map_nil, List.cons_append, List.nil_append, List.mem_cons, List.not_mem_nil, or_false] at h' ⊢
    tauto

/-! ## Examples -/

/-- A wall to the south-west. -/
example : Init.angles "sw" = .ok (45 * Real.pi / 180, 90 * Real.pi / 180) :=
  ((C114_directions "sw").1 _ _).2 ⟨45, 90, Or.inl ⟨1, rfl, by norm_num [pointAzimuth], rfl⟩, rfl, rfl⟩

/-- Capitals are another word. -/
example : Init.angles "SW" = .error .keyError := by
  refine (C114_directions "SW").2 ?_
  rintro az tilt (⟨k, hk, -⟩ | ⟨h, -⟩ | ⟨h, -⟩)
  · obtain ⟨hl, e⟩ := List.getElem?_eq_some_iff.1 hk
    simp only [points, List.length_cons, List.length_nil] at hl
    interval_cases k <;> simp [points] at e
  · simp at h
  · simp at h

/-- Double low-emissivity glass with a paper screen in a wooden frame. -/
example : etaFromSpec "WoodOrResin" "2LgG" "Shoji" = .ok (0.38 * 0.72) :=
  ((C114_glass _ _ _).1 _).2 ⟨0.72, 0.38, Or.inl ⟨rfl, rfl⟩, ⟨(["2LgG"], 0.64, 0.38, 0.15), by simp [glassGroups], by simp, by simp⟩, rfl⟩

end HLC
