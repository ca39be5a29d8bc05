import Verif.Model.EesDict
import Verif.Lemmas.Except
import Mathlib.Tactic.NormNum

/-!
# C63: reading back exported building parts
-/

namespace HLC

open HLC.Conv

theorem get_here (k : String) (v : PyVal) (l : List (String × PyVal)) : (PyVal.dict ((k, v) :: l)).get k = .ok v := by
  simp [PyVal.get]

theorem get_next {k k' : String} (v : PyVal) (l : List (String × PyVal)) (h : k ≠ k') :
    (PyVal.dict ((k', v) :: l)).get k = (PyVal.dict l).get k := by
  have : (k == k') = false := by simpa using h
  simp [PyVal.get, List.lookup, this]

theorem ok_bind {α β : Type} (a : α) (f : α → Except PyErr β) : (Bind.bind (Except.ok a) f) = f a := rfl

theorem mapM_roundtrip {α : Type} (f : α → PyVal) (g : PyVal → Except PyErr α) :
    ∀ l : List α, (∀ x ∈ l, g (f x) = .ok x) → (l.map f).mapM g = .ok l
  | [], _ => rfl
  | x :: l, h => by
    rw [List.map_cons, List.mapM_cons, h x (by simp), mapM_roundtrip f g l fun y hy => h y (by simp [hy])]
    rfl

theorem RMethod.roundtrip (x : RMethod) : RMethod.ofValue x.value = .ok x := by cases x <;> rfl
theorem GPType.roundtrip (x : GPType) : GPType.ofValue x.value = .ok x := by cases x <;> rfl
theorem GlassType.roundtrip (x : GlassType) : GlassType.ofValue x.value = .ok x := by cases x <;> rfl
theorem FlameType.roundtrip (x : FlameType) : FlameType.ofValue x.value = .ok x := by cases x <;> rfl
theorem SpaceType.roundtrip (x : SpaceType) : SpaceType.ofValue x.value = .ok x := by cases x <;> rfl
theorem NextSpace.roundtrip (x : NextSpace) : NextSpace.ofValue x.value = .ok x := by cases x <;> rfl
theorem Direction.roundtrip (x : Direction) : Direction.ofValue x.value = .ok x := by cases x <;> rfl

/-- A layer that can have been read: the entry of the other input method is at its default. -/
def LayerCanon (l : Layer) : Prop :=
  match l.method with
  | .conductivity => l.resistance = 0
  | .resistance => l.conductivity = 0

theorem layer_canon {d : PyVal} {l : Layer} (h : Layer.make d = .ok l) : LayerCanon l := by
  simp only [Layer.make, bind_ok_iff] at h
  obtain ⟨s, -, m, -, h⟩ := h
  cases m with
  | conductivity =>
    simp only [bind_ok_iff] at h
    obtain ⟨_, -, _, -, _, -, _, -, h⟩ := h
    cases h; rfl
  | resistance =>
    simp only [bind_ok_iff] at h
    obtain ⟨_, -, _, -, _, -, _, -, h⟩ := h
    cases h; rfl

theorem layer_roundtrip {l : Layer} (h : LayerCanon l) : Layer.make l.asDict = .ok l := by
  obtain ⟨name, m, t, v, k, r⟩ := l
  cases m
  · simp only [LayerCanon] at h
    subst h
    simp [Layer.make, Layer.asDict, PyVal.getStr, PyVal.getNum, PyVal.get, PyVal.asStr, PyVal.asNum, List.lookup, ok_bind, RMethod.roundtrip,
      pure, Except.pure]
  · simp only [LayerCanon] at h
    subst h
    simp [Layer.make, Layer.asDict, PyVal.getStr, PyVal.getNum, PyVal.get, PyVal.asStr, PyVal.asNum, List.lookup, ok_bind, RMethod.roundtrip,
      pure, Except.pure]

/-- A list of sub-parts that can have been read: the shares of the area add up to one within the tolerance of the check. -/
def PartsCanon (ps : List PartPart) : Prop :=
  |(ps.map (·.ratio)).sum - 1| ≤ 0.000001 ∧ ∀ p ∈ ps, ∀ l ∈ p.layers, LayerCanon l

theorem mapM_all {α β : Type} {f : α → Except PyErr β} {P : β → Prop} (hf : ∀ a b, f a = .ok b → P b) {l : List α} {r : List β}
    (h : l.mapM f = .ok r) : ∀ b ∈ r, P b := by
  have h := mapM_ok_iff.1 h
  induction h with
  | nil => simp
  | cons h1 _ ih =>
    intro b hb
    rcases List.mem_cons.1 hb with rfl | hb
    · exact hf _ _ h1
    · exact ih (by rw [mapM_ok_iff]; assumption) b hb

theorem partPart_canon {d : PyVal} {p : PartPart} (h : PartPart.make d = .ok p) :
    d.getNum "part_area_ratio" = .ok p.ratio ∧ ∀ l ∈ p.layers, LayerCanon l := by
  simp only [PartPart.make, bind_ok_iff] at h
  obtain ⟨n, -, r, hr, ls, -, ls', hl, h⟩ := h
  cases h
  exact ⟨hr, mapM_all (fun _ _ => layer_canon) hl⟩

theorem parts_canon {ds : List PyVal} {ps : List PartPart} (h : PartPart.makeAll ds = .ok ps) : PartsCanon ps := by
  simp only [PartPart.makeAll, bind_ok_iff] at h
  obtain ⟨rs, hr, h⟩ := h
  split_ifs at h with h0
  have e : rs = ps.map (·.ratio) := by
    have h1 := mapM_ok_iff.1 hr
    have h2 := mapM_ok_iff.1 h
    clear h hr h0
    induction h1 generalizing ps with
    | nil => cases h2; rfl
    | cons a _ ih =>
      cases h2 with
      | cons b h2 =>
        have := (partPart_canon b).1.symm.trans a
        rw [List.map_cons, ih h2]
        rw [Except.ok.inj this]
  subst e
  exact ⟨not_lt.1 h0, mapM_all (fun _ _ hp => (partPart_canon hp).2) h⟩

theorem partPart_roundtrip {p : PartPart} (h : ∀ l ∈ p.layers, LayerCanon l) : PartPart.make p.asDict = .ok p := by
  simp [PartPart.make, PartPart.asDict, PyVal.getStr, PyVal.getNum, PyVal.getList, PyVal.get, PyVal.asStr, PyVal.asNum, PyVal.asList,
    List.lookup, ok_bind, pure, Except.pure, mapM_roundtrip Layer.asDict Layer.make p.layers fun l hl => layer_roundtrip (h l hl)]

theorem parts_roundtrip {ps : List PartPart} (h : PartsCanon ps) : PartPart.makeAll (ps.map PartPart.asDict) = .ok ps := by
  have e : (ps.map PartPart.asDict).mapM (fun d => d.getNum "part_area_ratio") = .ok (ps.map (·.ratio)) := by
    rw [mapM_ok_iff, List.forall₂_map_left_iff, List.forall₂_map_right_iff]
    exact List.forall₂_same.2 fun p _ => by simp [PartPart.asDict, PyVal.getNum, PyVal.get, List.lookup, ok_bind, PyVal.asNum]
  rw [PartPart.makeAll, e, ok_bind, if_neg (not_lt.2 h.1)]
  exact mapM_roundtrip _ _ ps fun p hp => partPart_roundtrip (h.2 p hp)

/-- A specification that can have been read for a part of type `t`. -/
def SpecCanon (t : GPType) : GPSpec → Prop
  | .wood d => PartsCanon d.parts
  | .rc d => PartsCanon d.parts
  | .steel _ d => PartsCanon d.parts
  | .other t' _ _ => t' = t

theorem detail_canon {x : PyVal} {d : Detail} (h : Detail.make x = .ok d) : PartsCanon d.parts := by
  simp only [Detail.make, bind_ok_iff] at h
  obtain ⟨_, -, _, -, _, -, _, hp, h⟩ := h
  cases h
  exact parts_canon hp

theorem spec_canon {x : PyVal} {t : GPType} {s : GPSpec} (h : GPSpec.make x t = .ok s) : SpecCanon t s := by
  simp only [GPSpec.make, bind_ok_iff] at h
  obtain ⟨n, -, h⟩ := h
  split_ifs at h
  · simp only [bind_ok_iff] at h
    obtain ⟨d, hd, h⟩ := h
    cases h; exact detail_canon hd
  · simp only [bind_ok_iff] at h
    obtain ⟨d, hd, h⟩ := h
    cases h; exact detail_canon hd
  · simp only [bind_ok_iff] at h
    obtain ⟨_, -, d, hd, h⟩ := h
    cases h; exact detail_canon hd
  · simp only [bind_ok_iff] at h
    obtain ⟨_, -, _, -, h⟩ := h
    cases h; rfl

theorem spec_roundtrip {t : GPType} {s : GPSpec} (h : SpecCanon t s) : GPSpec.make s.asDict t = .ok s := by
  cases s with
  | wood d =>
    have h : PartsCanon d.parts := h
    simp [GPSpec.make, GPSpec.asDict, Detail.make, Detail.entries, PyVal.getStr, PyVal.getNum, PyVal.getList, PyVal.get, PyVal.asStr,
      PyVal.asNum, PyVal.asList, List.lookup, ok_bind, pure, Except.pure, parts_roundtrip h]
  | rc d =>
    have h : PartsCanon d.parts := h
    simp [GPSpec.make, GPSpec.asDict, Detail.make, Detail.entries, PyVal.getStr, PyVal.getNum, PyVal.getList, PyVal.get, PyVal.asStr,
      PyVal.asNum, PyVal.asList, List.lookup, ok_bind, pure, Except.pure, parts_roundtrip h]
  | steel u d =>
    have h : PartsCanon d.parts := h
    simp [GPSpec.make, GPSpec.asDict, Detail.make, Detail.entries, PyVal.getStr, PyVal.getNum, PyVal.getList, PyVal.get, PyVal.asStr,
      PyVal.asNum, PyVal.asList, List.lookup, ok_bind, pure, Except.pure, parts_roundtrip h]
  | other t' u w =>
    have h : t' = t := h
    subst h
    simp [GPSpec.make, GPSpec.asDict, PyVal.getStr, PyVal.getNum, PyVal.get, PyVal.asStr, PyVal.asNum, List.lookup, ok_bind, pure, Except.pure]

/-- The sunshade of an opaque part is not a detailed one. -/
def OpaqueSimple : OpaqueShade → Prop
  | .input _ => False
  | _ => True

theorem opaque_roundtrip {s : OpaqueShade} (h : OpaqueSimple s) : OpaqueShade.make s.asDict = .ok s := by
  cases s with
  | input k => exact h.elim
  | notDefined => simp [OpaqueShade.make, OpaqueShade.asDict, PyVal.getBool, PyVal.get, PyVal.asBool, List.lookup, ok_bind, pure, Except.pure]
  | notInput =>
    simp [OpaqueShade.make, OpaqueShade.asDict, PyVal.getBool, PyVal.getStr, PyVal.get, PyVal.asBool, PyVal.asStr, List.lookup, ok_bind, pure,
      Except.pure]

/-- A sunshade of a window that can be read at all. -/
def TransientReadable : TransientShade → Prop
  | .notExist => False
  | .detail _ => False
  | _ => True

theorem transient_readable {d : PyVal} {s : TransientShade} (h : TransientShade.make d = .ok s) : TransientReadable s := by
  simp only [TransientShade.make, bind_ok_iff] at h
  obtain ⟨b, -, h⟩ := h
  cases b with
  | false => cases h; trivial
  | true =>
    simp only [bind_ok_iff] at h
    obtain ⟨i, -, h⟩ := h
    split_ifs at h
    · cases h; trivial
    · simp only [bind_ok_iff] at h
      obtain ⟨_, -, _, -, _, -, h⟩ := h
      cases h; trivial
    · simp only [bind_ok_iff] at h
      obtain ⟨_, -, h⟩ := h
      cases h

theorem transient_roundtrip {s : TransientShade} (h : TransientReadable s) : TransientShade.make s.asDict = .ok s := by
  cases s with
  | detail k => exact h.elim
  | notExist => exact h.elim
  | notDefined =>
    simp [TransientShade.make, TransientShade.asDict, PyVal.getBool, PyVal.get, PyVal.asBool, List.lookup, ok_bind, pure, Except.pure]
  | notInput =>
    simp [TransientShade.make, TransientShade.asDict, PyVal.getBool, PyVal.getStr, PyVal.get, PyVal.asBool, PyVal.asStr, List.lookup, ok_bind,
      pure, Except.pure]
  | simple a b c =>
    simp [TransientShade.make, TransientShade.asDict, PyVal.getBool, PyVal.getStr, PyVal.getNum, PyVal.get, PyVal.asBool, PyVal.asStr,
      PyVal.asNum, List.lookup, ok_bind, pure, Except.pure]

/-- A general part whose export can be read back. -/
def GPReadable (p : GP) : Prop := SpecCanon p.type p.spec ∧ OpaqueSimple p.sunshade

theorem gp_roundtrip {p : GP} (h : GPReadable p) : GP.make p.asDict = .ok p := by
  simp [GP.make, GP.asDict, PyVal.getStr, PyVal.getNum, PyVal.get, PyVal.asStr, PyVal.asNum, List.lookup, ok_bind, pure, Except.pure,
    GPType.roundtrip, NextSpace.roundtrip, Direction.roundtrip, SpaceType.roundtrip, opaque_roundtrip h.2, spec_roundtrip h.1]

theorem gp_canon {d : PyVal} {p : GP} (h : GP.make d = .ok p) : SpecCanon p.type p.spec := by
  simp only [GP.make, bind_ok_iff] at h
  obtain ⟨_, -, t, -, _, -, _, -, _, -, _, -, _, -, _, -, _, -, _, -, _, -, _, -, _, -, s, hs, h⟩ := h
  cases h
  exact spec_canon hs

theorem win_roundtrip {p : Win} (h : TransientReadable p.sunshade) : Win.make p.asDict = .ok p := by
  simp [Win.make, Win.asDict, WindowSpec.make, WindowSpec.asDict, PyVal.getStr, PyVal.getNum, PyVal.get, PyVal.asStr, PyVal.asNum, List.lookup,
    ok_bind, pure, Except.pure, NextSpace.roundtrip, Direction.roundtrip, SpaceType.roundtrip, transient_roundtrip h, GlassType.roundtrip,
    FlameType.roundtrip]

theorem door_roundtrip {p : Door} (h : OpaqueSimple p.sunshade) : Door.make p.asDict = .ok p := by
  simp [Door.make, Door.asDict, PyVal.getStr, PyVal.getNum, PyVal.get, PyVal.asStr, PyVal.asNum, List.lookup, ok_bind, pure, Except.pure,
    NextSpace.roundtrip, Direction.roundtrip, SpaceType.roundtrip, opaque_roundtrip h]

/-- **C63, opaque parts.** A general part that was read and carries no detailed sunshade is read back unchanged. -/
theorem C63_general_part_partial {d : PyVal} {p : GP} (h : GP.make d = .ok p) (hs : OpaqueSimple p.sunshade) :
    GP.make p.asDict = .ok p := gp_roundtrip ⟨gp_canon h, hs⟩

/-- **C63, doors.** Every door without a detailed sunshade is read back unchanged. -/
theorem C63_door_partial (p : Door) (hs : OpaqueSimple p.sunshade) : Door.make p.asDict = .ok p := door_roundtrip hs

/-- **C63, windows.** Every window that was read is read back unchanged. -/
theorem C63_window {d : PyVal} {p : Win} (h : Win.make d = .ok p) : Win.make p.asDict = .ok p := by
  apply win_roundtrip
  simp only [Win.make, bind_ok_iff] at h
  obtain ⟨_, -, _, -, _, -, _, -, _, -, _, -, _, -, _, -, _, -, s, hs, _, -, _, -, h⟩ := h
  cases h
  exact transient_readable hs

/-- **C63, perimeters of earth floors.** -/
theorem C63_earthfloor_perimeter (p : Efp) : Efp.make p.asDict = .ok p := by
  simp [Efp.make, Efp.asDict, PyVal.getStr, PyVal.getNum, PyVal.get, PyVal.asStr, PyVal.asNum, List.lookup, ok_bind, pure, Except.pure,
    NextSpace.roundtrip, SpaceType.roundtrip]

/-- **C63, earth floors.** -/
theorem C63_earthfloor_center (p : Efc) : Efc.make p.asDict = .ok p := by
  simp [Efc.make, Efc.asDict, PyVal.getStr, PyVal.getNum, PyVal.get, PyVal.asStr, PyVal.asNum, List.lookup, ok_bind, pure, Except.pure]

/-- **C63, heat bridges.** -/
theorem C63_heat_bridge (p : Heatbridge) : Heatbridge.make p.asDict = .ok p := by
  have h1 : (p.nextSpaces.map fun s => PyVal.str s.value).mapM (fun s => do NextSpace.ofValue (← s.asStr)) = .ok p.nextSpaces :=
    mapM_roundtrip _ _ _ fun x _ => by simp [PyVal.asStr, ok_bind, NextSpace.roundtrip]
  have h2 : (p.directions.map PyVal.str).mapM PyVal.asStr = .ok p.directions := mapM_roundtrip _ _ _ fun x _ => rfl
  have h3 : p.asDict.getList "next_spaces" = .ok (p.nextSpaces.map fun s => PyVal.str s.value) := by
    simp [Heatbridge.asDict, PyVal.getList, PyVal.get, PyVal.asList, List.lookup, ok_bind]
  have h4 : p.asDict.getList "directions" = .ok (p.directions.map PyVal.str) := by
    simp [Heatbridge.asDict, PyVal.getList, PyVal.get, PyVal.asList, List.lookup, ok_bind]
  rw [Heatbridge.make, h3, h4]
  simp only [ok_bind, h1, h2]
  simp [Heatbridge.asDict, PyVal.getStr, PyVal.getNum, PyVal.get, PyVal.asStr, PyVal.asNum,
    List.lookup, ok_bind, pure, Except.pure, SpaceType.roundtrip]

theorem innerFloor_roundtrip {p : InnerFloor} (h : ∀ l ∈ p.layers, LayerCanon l) : InnerFloor.make p.asDict = .ok p := by
  simp [InnerFloor.make, InnerFloor.asDict, PyVal.getStr, PyVal.getNum, PyVal.getList, PyVal.get, PyVal.asStr, PyVal.asNum, PyVal.asList,
    List.lookup, ok_bind, pure, Except.pure, mapM_roundtrip Layer.asDict Layer.make p.layers fun l hl => layer_roundtrip (h l hl)]

theorem innerWall_roundtrip {p : InnerWall} (h : ∀ l ∈ p.layers, LayerCanon l) : InnerWall.make p.asDict = .ok p := by
  simp [InnerWall.make, InnerWall.asDict, PyVal.getStr, PyVal.getNum, PyVal.getList, PyVal.get, PyVal.asStr, PyVal.asNum, PyVal.asList,
    List.lookup, ok_bind, pure, Except.pure, mapM_roundtrip Layer.asDict Layer.make p.layers fun l hl => layer_roundtrip (h l hl)]

/-- **C63, inner floors.** Every inner floor that was read is read back unchanged. -/
theorem C63_inner_floor {d : PyVal} {p : InnerFloor} (h : InnerFloor.make d = .ok p) : InnerFloor.make p.asDict = .ok p := by
  apply innerFloor_roundtrip
  simp only [InnerFloor.make, bind_ok_iff] at h
  obtain ⟨_, -, _, -, _, -, _, -, _, -, _, -, _, hl, h⟩ := h
  cases h
  exact mapM_all (fun _ _ => layer_canon) hl

/-- **C63, inner walls.** Every inner wall that was read is read back unchanged. -/
theorem C63_inner_wall {d : PyVal} {p : InnerWall} (h : InnerWall.make d = .ok p) : InnerWall.make p.asDict = .ok p := by
  apply innerWall_roundtrip
  simp only [InnerWall.make, bind_ok_iff] at h
  obtain ⟨_, -, _, -, _, -, _, -, _, -, _, -, _, hl, h⟩ := h
  cases h
  exact mapM_all (fun _ _ => layer_canon) hl

/-- **C63, violated.** Whatever the ten lengths, an opaque part with a detailed sunshade cannot be read back: the lengths are
written one level deeper than they are read. -/
theorem C63_violated (p : GP) (k : ShadeKernel) (h : p.sunshade = .input k) : GP.make p.asDict = .error .keyError := by
  have e : OpaqueShade.make p.sunshade.asDict = .error .keyError := by
    rw [h]
    simp [OpaqueShade.make, OpaqueShade.asDict, ShadeKernel.read, PyVal.getBool, PyVal.getStr, PyVal.getNum, PyVal.get, PyVal.asBool,
      PyVal.asStr, List.lookup, ok_bind]
    rfl
  simp [GP.make, GP.asDict, PyVal.getStr, PyVal.getNum, PyVal.get, PyVal.asStr, PyVal.asNum, List.lookup, ok_bind,
    GPType.roundtrip, NextSpace.roundtrip, Direction.roundtrip, SpaceType.roundtrip, e]
  rfl

/-- The dictionary of a wall with a detailed sunshade, as the reader expects it. -/
noncomputable def shadedWall : PyVal :=
  .dict [("name", .str "wall"), ("general_part_type", .str "wall"), ("next_space", .str "outdoor"), ("direction", .str "s"),
    ("area", .num 10), ("space_type", .str "undefined"),
    ("sunshade", .dict [("is_defined", .bool true), ("input", .str "complex"), ("x1", .num 0), ("x2", .num 1), ("x3", .num 0), ("y1", .num 0),
      ("y2", .num 1), ("y3", .num 0), ("z_x_pls", .num 0), ("z_x_mns", .num 0), ("z_y_pls", .num 1), ("z_y_mns", .num 0)]),
    ("spec", .dict [("structure", .str "other"), ("u_value_other", .num 0.5), ("weight", .str "light")])]

/-- **C63, violated for a part that was read.** The wall above is read, exported, and cannot be read back. -/
theorem C63_violated_example : ∃ p, GP.make shadedWall = .ok p ∧ GP.make p.asDict = .error .keyError := by
  refine ⟨⟨⟨"wall", .wall, .outdoor, .s, 10, .undefined, .input ⟨0, 1, 0, 0, 1, 0, 0, 0, 1, 0⟩⟩, .other .wall 0.5 "light"⟩, ?_,
    C63_violated _ _ rfl⟩
  simp [shadedWall, GP.make, GPSpec.make, OpaqueShade.make, ShadeKernel.read, PyVal.getStr, PyVal.getNum, PyVal.getBool, PyVal.get,
    PyVal.asStr, PyVal.asNum, PyVal.asBool, List.lookup, ok_bind, pure, Except.pure, GPType.ofValue, NextSpace.ofValue, Direction.ofValue,
    SpaceType.ofValue]

/-- A wall given by its layers that meets the hypotheses of `C63_general_part_partial`. -/
noncomputable def plainWall : GP :=
  { name := "wall", type := .wall, nextSpace := .outdoor, direction := .s, area := 10, spaceType := .undefined, sunshade := .notInput,
    spec := .wood { rIn := 0.11, rEx := 0.04, parts := [{ name := "stud", ratio := 0.2, layers := [plywood12] },
      { name := "cavity", ratio := 0.8, layers := [gypsum, insulation 0.1, plywood12] }] } }

/-- The hypotheses of `C63_general_part_partial` are met. -/
theorem C63_example : ∃ d, GP.make d = .ok plainWall ∧ OpaqueSimple plainWall.sunshade := by
  refine ⟨plainWall.asDict, gp_roundtrip ⟨⟨?_, ?_⟩, trivial⟩, trivial⟩
  · norm_num
  · intro p hp l hl
    simp at hp
    rcases hp with rfl | rfl
    · simp at hl; subst hl; rfl
    · simp at hl; rcases hl with rfl | rfl | rfl <;> rfl

end HLC
