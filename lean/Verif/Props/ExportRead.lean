import Verif.Spec.ExportRead
import Verif.Spec.PartExport
import Verif.Model.EesDict
import Verif.Model.Boundary
import Verif.Props.ConvUExport

/-!
# C84: exported parts are read by the initializer
-/

namespace HLC
open HLC.Conv HLC.Init HLC.Spec
set_option linter.unusedSectionVars false

theorem toInt_nat (n : ℕ) : toInt (n : ℝ) = n := by
  unfold toInt
  rw [if_pos (Nat.cast_nonneg n)]
  exact Int.floor_natCast n

theorem toInt_int (n : ℤ) : toInt (n : ℝ) = n := by
  unfold toInt
  split_ifs <;> simp

theorem connectedId_number {s : SpaceType} {n : ℕ} (h : s.connectedId = .ok n) : roomNumber s = some (toInt (n : ℝ)) := by
  rw [toInt_nat]
  cases s <;> cases h <;> rfl

theorem sunStriked_cases (n : NextSpace) : n.isSunStriked = true ∧ n = .outdoor ∨ n.isSunStriked = false ∧ n ≠ .outdoor := by
  cases n <;> simp [NextSpace.isSunStriked]

theorem mapM_mem {α β : Type} {f : α → Except PyErr β} {l : List α} {r : List β} (h : l.mapM f = .ok r) {b : β} (hb : b ∈ r) :
    ∃ a ∈ l, f a = .ok b := by
  obtain ⟨i, hi, rfl⟩ := List.mem_iff_getElem.1 hb
  have hi' : i < l.length := by rw [← mapM_length h]; exact hi
  exact ⟨l[i], List.getElem_mem hi', mapM_getElem h hi'⟩

/-- **C84 (violated).** No part exported for the initializer can be read by it: its number, the flag of floors and the convective coefficient are
missing. -/
theorem C84_violated (region : ℤ) : (∀ (p : GP) (uAdd : ℝ) (ds : List PyVal), p.initDict uAdd region = .ok ds → ∀ d ∈ ds, BoundaryDict.ofJson d = .error .keyError) ∧
    (∀ (w : Win) (d : PyVal), w.initDict region = .ok d → BoundaryDict.ofJson d = .error .keyError) ∧
    (∀ (p : Door) (d : PyVal), p.initDict region = .ok d → BoundaryDict.ofJson d = .error .keyError) := by
  refine ⟨fun p uAdd ds h d hd => ?_, fun w d h => ?_, fun p d h => ?_⟩
  · simp only [GP.initDict, bind_ok_iff] at h
    obtain ⟨xs, -, room, -, h⟩ := h
    obtain ⟨x, -, hx⟩ := mapM_mem h hd
    simp only [bind_ok_iff] at hx
    obtain ⟨hh, -, e⟩ := hx
    cases e
    cases hs : p.nextSpace.isSunStriked <;> simp [BoundaryDict.ofJson, PyVal.getNum, PyVal.get, List.lookup, bind, Except.bind]
  · simp only [Win.initDict, bind_ok_iff] at h
    obtain ⟨room, -, hh, -, e⟩ := h
    cases e
    cases hs : w.nextSpace.isSunStriked <;> simp [BoundaryDict.ofJson, PyVal.getNum, PyVal.get, List.lookup, bind, Except.bind]
  · simp only [Door.initDict, bind_ok_iff] at h
    obtain ⟨room, -, hh, -, e⟩ := h
    cases e
    simp [BoundaryDict.ofJson, PyVal.getNum, PyVal.get, List.lookup, bind, Except.bind]

/-- The entries missing in an exported wall, floor, roof or door. -/
def missing (id : ℤ) (floor : Bool) (hC : ℝ) : List (String × PyVal) := [("id", .num id), ("is_floor", .bool floor), ("h_c", .num hC)]

/-- The exported layers as read. -/
theorem layers_read (ls : List InitLayer) : (ls.map InitLayer.asDict).mapM layerOfJson = .ok (ls.map fun l => (l.c, l.r)) := by
  rw [mapM_ok_iff, List.forall₂_map_left_iff, List.forall₂_map_right_iff]
  exact List.forall₂_same.2 fun l _ => by
    simp [InitLayer.asDict, layerOfJson, PyVal.getNum, PyVal.get, List.lookup, PyVal.asNum, bind, Except.bind, pure, Except.pure]

/-- What the initializer makes of the sunshade of an exported opaque part. -/
theorem opaque_shade_read (s : OpaqueShade) : ∃ sd, ShadingDict.ofJson s.initDict = .ok sd ∧
    ((∃ k, s = .input k) ∧ sd.existence = true ∧ sd.inputMethod = some "detailed" ∨ (∀ k, s ≠ .input k) ∧ sd.existence = false) := by
  cases s with
  | notDefined => exact ⟨_, rfl, .inr ⟨fun k h => (by cases h), rfl⟩⟩
  | notInput => exact ⟨_, rfl, .inr ⟨fun k h => (by cases h), rfl⟩⟩
  | input k => exact ⟨_, rfl, .inl ⟨⟨k, rfl⟩, rfl, rfl⟩⟩

/-- **C84, walls, roofs and floors.** Once the missing entries are added, the initializer reads every exported part as it is: the place,
the area and the U value that were exported, the surface properties, and no sunshade; a part with a detailed sunshade is rejected when the sun
reaches it. -/
theorem C84_general_partial {p : GP} {uAdd : ℝ} {region : ℤ} {ds : List PyVal} (h : p.initDict uAdd region = .ok ds) (d : PyVal) (hd : d ∈ ds)
    (id : ℤ) (floor : Bool) (hC : ℝ) :
    ∃ b H, BoundaryDict.ofJson (withEntries (missing id floor hC) d) = .ok b ∧ p.nextSpace.getH region = .ok H ∧ b.id = id ∧ b.isFloor = floor ∧ b.hC = hC ∧
      b.boundaryType = "external_general_part" ∧ Placed b p.spaceType p.nextSpace p.direction H ∧
      (∀ area u, ExportsU d area u → ReadsU b area u) ∧ (∃ q : String, b.name = p.name ++ "_" ++ q) ∧
      b.isSolarAbsorbed = decide (p.type = .floor ∨ p.type = .downwardBoundaryFloor) ∧ b.absorption = some 0.8 ∧ b.emissivity = some 0.9 ∧
      ((∀ k, p.sunshade ≠ .input k) → Shading.create b = .ok .none) ∧
      ((∃ k, p.sunshade = .input k) → p.nextSpace = .outdoor → ∃ e, Shading.create b = .error e) := by
  have hname : ∀ xs, p.spec.initDict p.name p.area uAdd = .ok xs → ∀ x ∈ xs, ∃ q : String, x.name = p.name ++ "_" ++ q := by
    have hdet : ∀ (D : Detail) (v : ℝ) xs, D.initDict p.name p.area v = .ok xs → ∀ x ∈ xs, ∃ q : String, x.name = p.name ++ "_" ++ q := by
      intro D v xs hx x hm
      obtain ⟨y, -, hy⟩ := mapM_mem hx hm
      simp only [PartPart.initDict, bind_ok_iff] at hy
      obtain ⟨_, -, _, -, _, -, _, -, _, -, e⟩ := hy
      cases e
      exact ⟨_, rfl⟩
    intro xs hx
    cases hs : p.spec with
    | wood D => rw [hs] at hx; exact hdet D _ xs hx
    | rc D => rw [hs] at hx; exact hdet D _ xs hx
    | steel r D => rw [hs] at hx; exact hdet D _ xs hx
    | other t u w =>
      rw [hs] at hx
      simp only [GPSpec.initDict, bind_ok_iff] at hx
      obtain ⟨D, -, hx⟩ := hx
      exact hdet D _ xs hx
  simp only [GP.initDict, bind_ok_iff] at h
  obtain ⟨xs, hxs, room, hroom, h⟩ := h
  obtain ⟨x, hxm, hx⟩ := mapM_mem h hd
  simp only [bind_ok_iff] at hx
  obtain ⟨hh, hH, e⟩ := hx
  cases e
  obtain ⟨sd, hsd, hcase⟩ := opaque_shade_read p.sunshade
  have hls := layers_read x.layers
  refine ⟨{ id := id, name := x.name, connectedRoom := toInt (room : ℝ), boundaryType := "external_general_part", area := x.area
            isSunStruck := some p.nextSpace.isSunStriked, tempDifCoef := some hh, nextRoomType := none, rearSurface := none
            isSolarAbsorbed := p.type.isSolarAbsorbedInside, isFloor := floor
            direction := if p.nextSpace.isSunStriked then some p.direction.value else none, rIn := x.rIn, hC := hC
            absorption := some 0.8, emissivity := some 0.9, rOut := some x.rOut, shading := some sd, glazing := none, eta := none
            uValue := none, layers := some (x.layers.map fun l => (l.c, l.r)) }, hh, ?_, hH, rfl, rfl, rfl, rfl, ?_, ?_, ?_, ?_, rfl, rfl, ?_, ?_⟩
  · cases hs : p.nextSpace.isSunStriked <;>
      simp [BoundaryDict.ofJson, withEntries, missing, PyVal.getNum, PyVal.getStr, PyVal.getBool, PyVal.get, PyVal.opt, PyVal.optNum, PyVal.optStr,
        PyVal.optBool, PyVal.optList, List.lookup, bind, Except.bind, PyVal.asNum, PyVal.asStr, PyVal.asBool, shadingOfJson, layersOfJson, hsd, hls, pure,
        Except.pure, toInt_int]
  · refine ⟨connectedId_number hroom, ?_, fun ho => ?_, rfl⟩
    · exact (sunStriked_cases p.nextSpace).imp (And.imp_left (congrArg some)) (And.imp_left (congrArg some))
    · simp [ho, NextSpace.isSunStriked]
  · rintro area u ⟨rIn, rOut, layers, rs, h1, h2, h3, h4, h5, h6⟩
    have f1 : x.area = area := by
      simpa [PyVal.getNum, PyVal.get, List.lookup, bind, Except.bind, PyVal.asNum] using h1
    have f2 : x.rIn = rIn := by
      simpa [PyVal.getNum, PyVal.get, List.lookup, bind, Except.bind, PyVal.asNum] using h2
    have f3 : x.rOut = rOut := by
      simpa [PyVal.getNum, PyVal.get, List.lookup, bind, Except.bind, PyVal.asNum] using h3
    have f4 : x.layers.map InitLayer.asDict = layers := by
      simpa [PyVal.getList, PyVal.get, List.lookup, bind, Except.bind, PyVal.asList] using h4
    refine ⟨f1, _, _, rfl, rfl, ?_⟩
    have f5 : rs = x.layers.map (·.r) := by
      have : (x.layers.map InitLayer.asDict).mapM (fun l => l.getNum "thermal_resistance") = .ok (x.layers.map (·.r)) := by
        rw [mapM_ok_iff, List.forall₂_map_left_iff, List.forall₂_map_right_iff]
        exact List.forall₂_same.2 fun l _ => by simp [InitLayer.asDict, PyVal.getNum, PyVal.get, List.lookup, ok_bind, PyVal.asNum]
      rw [f4, h5] at this
      exact Except.ok.inj this
    rw [List.map_map]
    show u * (x.rIn + (x.layers.map (·.r)).sum + x.rOut) = 1
    rw [f2, f3, ← f5]
    exact h6
  · exact hname xs hxs x hxm
  · show p.type.isSolarAbsorbedInside = _
    cases p.type <;> simp [GPType.isSolarAbsorbedInside]
  · intro hk
    rcases hcase with ⟨⟨k, hk'⟩, -⟩ | ⟨-, he⟩
    · exact absurd hk' (hk k)
    · simp [Shading.create, key, bind, Except.bind, shadingSunStruck, isExternal, he]
  · rintro ⟨k, hk⟩ ho
    rcases hcase with ⟨-, he, hm⟩ | ⟨hn, -⟩
    · rw [ho]
      simp only [Shading.create, key, bind, Except.bind, shadingSunStruck, isExternal, he, hm, NextSpace.isSunStriked]
      simp
      split <;> exact ⟨_, rfl⟩
    · exact absurd hk (hn k)

/-- **C84, doors.** Once the missing entries are added, the initializer reads every exported door as it is. -/
theorem C84_door_partial {p : Door} {region : ℤ} {d : PyVal} (h : p.initDict region = .ok d) (id : ℤ) (floor : Bool) (hC : ℝ) :
    ∃ b H, BoundaryDict.ofJson (withEntries (missing id floor hC) d) = .ok b ∧ p.nextSpace.getH region = .ok H ∧ b.id = id ∧ b.isFloor = floor ∧ b.hC = hC ∧
      b.boundaryType = "external_opaque_part" ∧ Placed b p.spaceType p.nextSpace p.direction H ∧ b.name = p.name ∧ b.area = p.area ∧
      b.uValue = some p.u ∧ b.rIn = 0.13 ∧ b.rOut = some 0.04 ∧ b.isSolarAbsorbed = false ∧ b.absorption = some 0.8 ∧ b.emissivity = some 0.9 ∧
      ((∀ k, p.sunshade ≠ .input k) → Shading.create b = .ok .none) ∧
      ((∃ k, p.sunshade = .input k) → p.nextSpace = .outdoor → ∃ e, Shading.create b = .error e) := by
  simp only [Door.initDict, bind_ok_iff] at h
  obtain ⟨room, hroom, hh, hH, e⟩ := h
  cases e
  obtain ⟨sd, hsd, hcase⟩ := opaque_shade_read p.sunshade
  refine ⟨{ id := id, name := p.name, connectedRoom := toInt (room : ℝ), boundaryType := "external_opaque_part", area := p.area
            isSunStruck := some p.nextSpace.isSunStriked, tempDifCoef := some hh, nextRoomType := none, rearSurface := none
            isSolarAbsorbed := false, isFloor := floor, direction := some p.direction.value, rIn := 0.13, hC := hC
            absorption := some 0.8, emissivity := some 0.9, rOut := some 0.04, shading := some sd, glazing := none, eta := none
            uValue := some p.u, layers := none }, hh, ?_, hH, rfl, rfl, rfl, rfl, ?_, rfl, rfl, rfl, rfl, rfl, rfl, rfl, rfl, ?_, ?_⟩
  · simp [BoundaryDict.ofJson, withEntries, missing, PyVal.getNum, PyVal.getStr, PyVal.getBool, PyVal.get, PyVal.opt, PyVal.optNum, PyVal.optStr,
      PyVal.optBool, PyVal.optList, List.lookup, bind, Except.bind, PyVal.asNum, PyVal.asStr, PyVal.asBool, shadingOfJson, layersOfJson, hsd, pure,
      Except.pure, toInt_int]
  · exact ⟨connectedId_number hroom, (sunStriked_cases p.nextSpace).imp (And.imp_left (congrArg some)) (And.imp_left (congrArg some)), fun _ => rfl, rfl⟩
  · intro hk
    rcases hcase with ⟨⟨k, hk'⟩, -⟩ | ⟨-, he⟩
    · exact absurd hk' (hk k)
    · simp [Shading.create, key, bind, Except.bind, shadingSunStruck, isExternal, he]
  · rintro ⟨k, hk⟩ ho
    rcases hcase with ⟨-, he, hm⟩ | ⟨hn, -⟩
    · rw [ho]
      simp only [Shading.create, key, bind, Except.bind, shadingSunStruck, isExternal, he, hm, NextSpace.isSunStriked]
      simp
      split <;> exact ⟨_, rfl⟩
    · exact absurd hk (hn k)

/-- **C84, windows.** The number of the room is exported under another name, and the transmittance as two values. Once these and the
other missing entries are added, the initializer reads every exported window as it is, with the same overhang. -/
theorem C84_window_partial {p : Win} {region : ℤ} {d : PyVal} (h : p.initDict region = .ok d) (id : ℤ) (floor : Bool) (hC eta : ℝ) :
    ∃ room b H, d.getNum "connected_id" = .ok room ∧
      BoundaryDict.ofJson (withEntries (("connected_room_id", .num room) :: ("eta_value", .num eta) :: missing id floor hC) d) = .ok b ∧
      p.nextSpace.getH region = .ok H ∧ b.id = id ∧ b.isFloor = floor ∧ b.hC = hC ∧
      b.boundaryType = "external_transparent_part" ∧ Placed b p.spaceType p.nextSpace p.direction H ∧ b.name = p.name ∧ b.area = p.area ∧
      b.uValue = some p.spec.u ∧ b.eta = some eta ∧ b.rIn = 0.13 ∧ b.rOut = some 0.04 ∧ b.isSolarAbsorbed = false ∧ b.emissivity = some 0.9 ∧
      b.glazing = some p.spec.glass.value ∧
      (p.sunshade = .notDefined ∨ p.sunshade = .notExist ∨ p.nextSpace ≠ .outdoor → Shading.create b = .ok .none) ∧
      (∀ depth dH dE α β, p.sunshade = .simple depth dH dE → p.nextSpace = .outdoor → angles p.direction.value = .ok (α, β) →
        Shading.create b = .ok (.simple α depth dH dE)) ∧
      (p.sunshade = .notInput ∨ (∃ k, p.sunshade = .detail k) → p.nextSpace = .outdoor → ∃ e, Shading.create b = .error e) := by
  simp only [Win.initDict, bind_ok_iff] at h
  obtain ⟨room, hroom, hh, hH, e⟩ := h
  cases e
  obtain ⟨sd, hsd⟩ : ∃ sd, ShadingDict.ofJson p.sunshade.initDict = .ok sd := by
    cases p.sunshade <;> exact ⟨_, rfl⟩
  have hsun := sunStriked_cases p.nextSpace
  refine ⟨room,
          { id := id, name := p.name, connectedRoom := toInt (room : ℝ), boundaryType := "external_transparent_part", area := p.area,
            isSunStruck := some p.nextSpace.isSunStriked, tempDifCoef := some hh, nextRoomType := none, rearSurface := none,
            isSolarAbsorbed := false, isFloor := floor, direction := if p.nextSpace.isSunStriked then some p.direction.value else none, rIn := 0.13, hC := hC,
            absorption := none, emissivity := some 0.9, rOut := some 0.04, shading := some sd, glazing := some p.spec.glass.value, eta := some eta,
            uValue := some p.spec.u, layers := none }, hh, ?_, ?_, hH, rfl, rfl, rfl, rfl, ?_, rfl, rfl, rfl, rfl, rfl, rfl, rfl, rfl, rfl, ?_, ?_, ?_⟩
  · simp [PyVal.getNum, PyVal.get, List.lookup, bind, Except.bind, PyVal.asNum]
  · cases hs : p.nextSpace.isSunStriked <;>
    simp [BoundaryDict.ofJson, withEntries, missing, PyVal.getNum, PyVal.getStr, PyVal.getBool, PyVal.get, PyVal.opt, PyVal.optNum, PyVal.optStr,
      PyVal.optBool, PyVal.optList, List.lookup, bind, Except.bind, PyVal.asNum, PyVal.asStr, PyVal.asBool, shadingOfJson, layersOfJson, hsd, pure,
      Except.pure, toInt_int]
  · refine ⟨connectedId_number hroom, hsun.imp (And.imp_left (congrArg some)) (And.imp_left (congrArg some)), fun ho => ?_, rfl⟩
    simp [ho, NextSpace.isSunStriked]
  · intro hn
    have : (sd.existence && p.nextSpace.isSunStriked) = false := by
      rcases hn with hn | hn | hn
      · rw [hn] at hsd; cases hsd; rfl
      · rw [hn] at hsd; cases hsd; rfl
      · rcases hsun with ⟨-, b⟩ | ⟨a, -⟩
        · exact absurd b hn
        · rw [a, Bool.and_false]
    simp [Shading.create, key, bind, Except.bind, shadingSunStruck, isExternal, this]
  · intro depth dH dE α β hs ho ha
    rw [hs] at hsd
    cases hsd
    rw [ho]
    simp [Shading.create, key, bind, Except.bind, shadingSunStruck, isExternal, NextSpace.isSunStriked, PyVal.optStr, PyVal.optNum, PyVal.opt,
      TransientShade.initDict, List.lookup, ha]
  · intro hs ho
    have hsd' : sd.existence = true ∧ ∃ m, sd.inputMethod = some m ∧ m ≠ "simple" ∧ m ≠ "detail" := by
      rcases hs with hs | ⟨k, hs⟩ <;> rw [hs] at hsd <;> cases hsd
      · exact ⟨rfl, "default", rfl, by decide, by decide⟩
      · exact ⟨rfl, "detailed", rfl, by decide, by decide⟩
    obtain ⟨he, m, hm, m1, m2⟩ := hsd'
    rw [ho]
    simp only [Shading.create, key, bind, Except.bind, shadingSunStruck, isExternal, he, hm, NextSpace.isSunStriked]
    simp [m1, m2]
    split <;> exact ⟨_, rfl⟩

/-- **C84, detailed sunshades.** The ten lengths of an exported detailed sunshade are read each under its own name. -/
theorem C84_lengths (k : ShadeKernel) :
    (∃ sd, ShadingDict.ofJson (TransientShade.detail k).initDict = .ok sd ∧
      sd.detail = some ![k.x1, k.x2, k.x3, k.y1, k.y2, k.y3, k.zxPls, k.zxMns, k.zyPls, k.zyMns]) ∧
    ∃ sd, ShadingDict.ofJson (OpaqueShade.input k).initDict = .ok sd ∧
      sd.detail = some ![k.x1, k.x2, k.x3, k.y1, k.y2, k.y3, k.zxPls, k.zxMns, k.zyPls, k.zyMns] :=
  ⟨⟨_, rfl, rfl⟩, ⟨_, rfl, rfl⟩⟩

/-- A detailed sunshade of which one of the ten lengths is missing is not read. -/
theorem C84_length_missing {d : PyVal} {n : String}
    (hn : n ∈ ["x1", "x2", "x3", "y1", "y2", "y3", "z_x_pls", "z_x_mns", "z_y_pls", "z_y_mns"]) (h : d.opt n = none) {sd : ShadingDict}
    (H : ShadingDict.ofJson d = .ok sd) : sd.detail = none := by
  have hz : d.optNum n = none := by rw [PyVal.optNum, h]
  simp only [ShadingDict.ofJson, bind_ok_iff] at H
  obtain ⟨e, -, H⟩ := H
  cases H
  show detailOfJson d = none
  unfold detailOfJson
  simp only [List.mem_cons, List.not_mem_nil, or_false] at hn
  rcases hn with rfl | rfl | rfl | rfl | rfl | rfl | rfl | rfl | rfl | rfl <;> simp [hz]

/-- **C84, glass (violated).** A sunlit window whose glass is not single is rejected by the initializer even when the missing entries are
added: the names of the kinds of glass differ. -/
theorem C84_glass_violated {b : BoundaryDict} {g : GlassType} (hg : b.glazing = some g.value) (hn : g ≠ .single) (ht : b.boundaryType = "external_transparent_part")
    (hs : b.isSunStruck = some true) (w : List Step) (hw : w ≠ []) : ∃ e, getBoundarySimple w b = .error e := by
  cases hb : getBoundarySimple w b with
  | error e => exact ⟨e, rfl⟩
  | ok bs =>
    exfalso
    simp only [getBoundarySimple, bind_ok_iff] at hb
    obtain ⟨-, -, -, -, -, -, -, -, -, -, -, -, -, -, sh, -, oet, -, ts, -, tsr, h1, q, h2, -⟩ := hb
    simp only [Transmission.create, ht, if_true, hs, key, bind_ok_iff, hg] at h1
    obtain ⟨_, e, h1⟩ := h1
    cases e
    simp only [bind_ok_iff] at h1
    obtain ⟨dir, -, gl, e1, eta, -, e2⟩ := h1
    cases e1
    cases e2
    simp only [Transmission.series, bind_ok_iff] at h2
    obtain ⟨ab, -, h2⟩ := h2
    obtain ⟨s, hsw⟩ := List.exists_mem_of_ne_nil w hw
    obtain ⟨y, hy⟩ := ok_of_mapM_ok h2 s hsw
    simp only [transmitted, bind_ok_iff] at hy
    obtain ⟨_, -, _, -, tau, h3, -⟩ := hy
    cases g with
    | single => exact hn rfl
    | double => simp [tauD, GlassType.value] at h3
    | tripleAndMore => simp [tauD, GlassType.value] at h3
    | unknown => simp [tauD, GlassType.value] at h3

/-- A window with an overhang and a wall meet the hypotheses. -/
noncomputable def exOverhang : Win :=
  { name := "window", nextSpace := .outdoor, direction := .s, area := 2, spaceType := .mainOccupantRoom, sunshade := .simple 0.9 1.8 0.3
    spec := ⟨4.65, 0.63, 0.63, .double, .metal⟩ }

example : (∃ d, exOverhang.initDict 6 = .ok d) ∧ (∃ α β, angles exOverhang.direction.value = .ok (α, β)) ∧ ∃ ds, region8Wall.initDict 0 8 = .ok ds ∧ ds ≠ [] := by
  refine ⟨⟨_, rfl⟩, ⟨_, _, rfl⟩, ?_⟩
  obtain ⟨ds, h⟩ := C62_defined (p := region8Wall) (region := 8) rfl (by norm_num) (.inl rfl) (by simp [region8Wall]) (by norm_num)
  refine ⟨ds, h, ?_⟩
  rintro rfl
  obtain ⟨-, -, q, ⟨parts, hp, ha, -⟩, -, -⟩ := C62_violated rfl (by norm_num [region8Wall]) h
  cases hp
  norm_num [region8Wall] at ha

end HLC
