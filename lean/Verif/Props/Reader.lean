import Verif.Spec.Reader
import Verif.Props.Initializer
import Verif.Props.Response

/-!
# From the input file to the house of the calculation (C72, C73)
-/

namespace HLC.Init
open HLC.Spec

/-! ## Reading lists -/

theorem forFin_ok {α : Type} {n : ℕ} {f : Fin n → Except PyErr α} {g : Fin n → α} : forFin n f = .ok g ↔ ∀ i, f i = .ok (g i) := by
  induction n with
  | zero =>
    refine ⟨fun _ i => i.elim0, fun _ => ?_⟩
    show Except.ok _ = _
    exact congrArg _ (funext fun i => i.elim0)
  | succ n ih =>
    unfold forFin
    simp only [bind_ok_iff]
    constructor
    · rintro ⟨a, ha, g', hg, e⟩
      cases e
      refine Fin.cases ?_ ?_
      · simpa using ha
      · intro i
        simpa using (ih.1 hg) i
    · intro h
      refine ⟨g 0, h 0, fun i => g i.succ, ih.2 fun i => h i.succ, ?_⟩
      exact congrArg _ (funext (Fin.cases rfl fun i => rfl))

theorem forFin_exists {α : Type} {n : ℕ} {f : Fin n → Except PyErr α} (h : ∀ i, ∃ a, f i = .ok a) : ∃ g, forFin n f = .ok g ∧ ∀ i, f i = .ok (g i) := by
  choose g hg using h
  exact ⟨g, forFin_ok.2 hg, hg⟩

/-! ## Parts -/

/-- What `get_boundary_simple` takes from the input. -/
theorem getBoundarySimple_eq {w : List Step} {b : BoundaryDict} {bs : Bs} (H : getBoundarySimple w b = .ok bs) :
    bs.id = b.id ∧ bs.room = b.connectedRoom ∧ bs.area = b.area ∧ bs.hC = b.hC ∧ bs.isFloor = b.isFloor ∧
    bs.isSolarAbsorbed = b.isSolarAbsorbed ∧ BType.ofString b.boundaryType = .ok bs.bType ∧ readHtd b = .ok bs.hTd ∧ readRear b = .ok bs.rear := by
  unfold getBoundarySimple at H
  simp only [bind_ok_iff] at H
  obtain ⟨t, ht, sun, -, htd, h1, next, -, rear, h2, dir, -, hI, -, sh, -, oet, -, ts, -, tsr, -, q, -, e⟩ := H
  cases e
  exact ⟨rfl, rfl, rfl, rfl, rfl, rfl, ht, h1, h2⟩

theorem BType.ofString_value {s : String} {t : BType} (h : BType.ofString s = .ok t) : s = t.value := by
  unfold BType.ofString at h
  split_ifs at h with h1 h2 h3 h4 h5 <;> cases h <;> assumption

theorem BType.isExternal_value (t : BType) : HLC.Init.isExternal t.value = t.isExternal := by
  cases t <;> rfl

/-- The boundaries written to the file, one for each boundary of the input. -/
theorem makeBoundaries_get {rnd : ℕ → ℝ → ℝ} {rooms : List RoomDict} {bds : List BoundaryDict} {w : List Step} {bss : List Bs}
    {out : List BoundaryJson} (Hb : bds.mapM (getBoundarySimple w) = .ok bss) (H : makeBoundaries rnd rooms bds bss = .ok out) :
    ∃ (hl : bss.length = bds.length) (hl' : out.length = bds.length), ∀ j (hj : j < bds.length), ∃ spec,
      boundarySpec bds[j] (bss[j]'(hl ▸ hj)).bType = .ok spec ∧
      out[j]'(hl' ▸ hj) = boundaryJson rnd rooms bss (bss[j]'(hl ▸ hj)) spec := by
  have hl := mapM_length Hb
  unfold makeBoundaries at H
  obtain ⟨⟨⟩, -, H⟩ := bind_ok_iff.1 H
  obtain ⟨specs, hs, H⟩ := bind_ok_iff.1 H
  have hs' := mapM_length hs
  rw [List.length_zip, hl, min_self] at hs'
  cases H
  refine ⟨hl, by simp [hl, hs'], fun j hj => ⟨specs[j], ?_, ?_⟩⟩
  · have := mapM_getElem hs (i := j) (by rw [List.length_zip, hl, min_self]; exact hj)
    rwa [List.getElem_zip] at this
  · simp

theorem readResponse_layers {t : BType} (ht : t = .generalPart ∨ t = .internal) (l : List (ℝ × ℝ)) (r : ℝ) :
    ∃ rf, readResponse (.layers t.value l r) = .ok rf ∧
      RF.calcResponseFactor false (RF.mkLayers (l.map Prod.fst ++ [0]) (l.map Prod.snd ++ [r])) = .ok rf := by
  have hne : RF.mkLayers (l.map Prod.fst ++ [0]) (l.map Prod.snd ++ [r]) ≠ [] := by
    intro e
    have := congrArg List.length e
    simp [RF.mkLayers] at this
  obtain ⟨rf, hrf⟩ := (C68_total false (RF.mkLayers (l.map Prod.fst ++ [0]) (l.map Prod.snd ++ [r]))).1 hne
  refine ⟨rf, ?_, hrf⟩
  have hc : RF.create (SpecJson.layers t.value l r).toBSpec = .ok (.envelope (l.map Prod.fst) (l.map Prod.snd) r) := by
    rcases ht with rfl | rfl <;> simp [RF.create, SpecJson.toBSpec, BType.value]
  simp only [readResponse, hc, bind, Except.bind, RF.Factory.get, hrf]

theorem readResponse_ground (l : List (ℝ × ℝ)) :
    ∃ rf, readResponse (.layersGround BType.ground.value l) = .ok rf ∧
      RF.calcResponseFactor true (RF.mkLayers (l.map Prod.fst ++ [3300 * 3]) (l.map Prod.snd ++ [3 / 1])) = .ok rf := by
  have hne : RF.mkLayers (l.map Prod.fst ++ [3300 * 3]) (l.map Prod.snd ++ [3 / 1]) ≠ [] := by
    intro e
    have := congrArg List.length e
    simp [RF.mkLayers] at this
  obtain ⟨rf, hrf⟩ := (C68_total true (RF.mkLayers (l.map Prod.fst ++ [3300 * 3]) (l.map Prod.snd ++ [3 / 1]))).1 hne
  refine ⟨rf, ?_, hrf⟩
  have hc : RF.create (SpecJson.layersGround BType.ground.value l).toBSpec = .ok (.ground (l.map Prod.fst) (l.map Prod.snd)) := by
    simp [RF.create, SpecJson.toBSpec, BType.value]
  simp only [readResponse, hc, bind, Except.bind, RF.Factory.get, hrf]

theorem readResponse_steady {t : BType} (ht : t = .transparentPart ∨ t = .opaquePart) {u rIn : ℝ} (hu : 0 < u) (hr : u * rIn < 1) :
    readResponse (.uValue t.value u rIn) = .ok ⟨1, 1 / u - rIn, List.replicate 12 0, List.replicate 12 0, List.replicate 12 0, 0⟩ := by
  have hc : RF.create (SpecJson.uValue t.value u rIn).toBSpec = .ok (.steady u rIn) := by
    rcases ht with rfl | rfl <;> simp [RF.create, SpecJson.toBSpec, BType.value]
  have hne : ¬ (u = 0 ∨ 1 / u - rIn = 0) := by
    rintro (h | h)
    · exact hu.ne' h
    · have : 1 / u = rIn := by linarith
      rw [← this, mul_one_div_cancel hu.ne'] at hr
      exact lt_irrefl _ hr
  simp only [readResponse, hc, bind, Except.bind, RF.Factory.get, if_neg hne, one_div_one_div]

theorem mkLayers_r (l : List (ℝ × ℝ)) (c r : ℝ) :
    ((RF.mkLayers (l.map Prod.fst ++ [c]) (l.map Prod.snd ++ [r])).map RF.Layer.r).sum = (l.map Prod.snd).sum + r := by
  induction l with
  | nil => simp [RF.mkLayers]
  | cons a l ih =>
    simp only [RF.mkLayers, List.map_cons, List.cons_append, List.zipWith_cons_cons, List.sum_cons] at ih ⊢
    rw [ih]; ring

theorem sum_fin12 (f : ℕ → ℝ) : ∑ k : Fin 12, f k = ∑ k ∈ Finset.range 12, f k := (Finset.sum_range f).symm

theorem pyIndex_nat {m : ℕ} {x : ℤ} (h : 0 ≤ x ∧ x < m) : pyIndex m x = .ok ⟨x.toNat, by omega⟩ := by
  unfold pyIndex
  rw [dif_pos h]

theorem makeSpaces_get {rooms : List RoomDict} {s : List SpaceJson} (H : makeSpaces rooms = .ok s) :
    ∃ hl : s.length = rooms.length, ∀ i (hi : i < rooms.length), ∃ he ce row, Equip.read rooms[i].heating = .ok he ∧
      Equip.read rooms[i].cooling = .ok ce ∧ ventRow (fun _ : Fin rooms.length => 0) rooms[i].nextVent = .ok row ∧
      s[i]'(hl.symm ▸ hi) = makeSpace rooms[i] he ce row := by
  unfold makeSpaces at H
  simp only [bind_ok_iff] at H
  obtain ⟨⟨⟩, -, types, -, ⟨⟩, -, ⟨⟩, -, ⟨⟩, -, ⟨⟩, -, ⟨⟩, -, hes, h7, ces, h8, v, h9, e⟩ := H
  cases e
  obtain ⟨hl, hg⟩ := zipSpaces_get (mapM_length h7) (mapM_length h8) (mapM_length h9)
  exact ⟨hl, fun i hi => ⟨_, _, _, mapM_getElem h7 hi, mapM_getElem h8 hi, mapM_getElem h9 hi, hg i hi⟩⟩

theorem Equip.read_radiative {e : EquipDict} {x : Equip} (h : Equip.read e = .ok x) :
    (x.radiativeCapacity.isSome = true ↔ e.kind = "radiative") ∧ (e.kind ≠ "radiative" → x.radiativeCapacity = none) ∧
    (e.kind = "radiative" → ∃ s, e.radiative = some s ∧ x.radiativeCapacity = some (s.maxCapacity * s.area)) ∧
    (e.kind = "convective" → ∃ s, e.convective = some s ∧ x.convectiveSpec = some s ∧ x.radiativeCapacity = none) ∧
    (e.kind ≠ "convective" → x.convectiveSpec = none) := by
  unfold Equip.read at h
  split_ifs at h with h1 h2 h3
  · cases h; simp [Equip.radiativeCapacity, Equip.convectiveSpec, h1]
  · obtain ⟨s, hs, e'⟩ := bind_ok_iff.1 h
    cases e'
    cases hc : e.convective with
    | none => rw [hc] at hs; cases hs
    | some s' => rw [hc] at hs; cases hs; simp [Equip.radiativeCapacity, Equip.convectiveSpec, h2]
  · obtain ⟨s, hs, e'⟩ := bind_ok_iff.1 h
    cases e'
    cases hc : e.radiative with
    | none => rw [hc] at hs; cases hs
    | some s' => rw [hc] at hs; cases hs; simp [Equip.radiativeCapacity, Equip.convectiveSpec, h3]

/-- Reading back a room. -/
theorem readSpace_makeSpace {n n' : ℕ} (hn : n = n') (r : RoomDict) (he ce : Equip) (row : Fin n' → ℝ) (s : ConvectiveSpec)
    (hc : ce.convectiveSpec = some s) (hc' : ce.radiativeCapacity = none) :
    readSpace n (makeSpace r he ce row) = .ok {
      vRoom := r.volume, beta := 0, vVentEx := r.vent / 3600, vInt := fun k => row (Fin.cast hn k), vNtrl := r.volume * r.naturalVentTime / 3600
      cSh := cShFrt r.volume, gSh := gShFrt (cShFrt r.volume), cLh := cLhFrt r.volume, gLh := gLhFrt (cLhFrt r.volume)
      isRadHeating := he.radiativeCapacity.isSome, capH := he.radiativeCapacity.getD 0, rac := ⟨s.qMin, s.qMax, s.vMin, s.vMax⟩ } := by
  subst hn
  have h1 : readRow n (List.ofFn row) = .ok row := by
    unfold readRow
    rw [dif_pos (List.length_ofFn)]
    congr 1
    funext k
    simp
  simp only [readSpace, makeSpace, h1, bind, Except.bind, readRadiantCooling, hc', readRac, hc, Fin.cast_eq_self]

/-- Reading back a part. -/
theorem readPart_boundaryJson {rnd : ℕ → ℝ → ℝ} {rooms : List RoomDict} {bss : List Bs} {b : Bs} {spec : SpecJson} {n m : ℕ} (hn : n = rooms.length)
    (hroom : 0 ≤ b.room ∧ b.room < n) {rf : RF.ResponseFactor} (hrf : readResponse spec = .ok rf) {x y : ℝ}
    (hx : heatingShare bss (isRadiativeRoom rooms b.room) b = some x) (hy : viewFactor bss b = some y) {k : Option (Fin m × ℝ)}
    (hk : readLink m (kInside rnd b) = .ok k) :
    readPart n m (boundaryJson rnd rooms bss b spec) = .ok {
      isGround := decide (b.bType = .ground), room := ⟨b.room.toNat, by omega⟩, area := b.area, rf := rf, hC := b.hC, flr := x
      solarAbs := b.isSolarAbsorbed, fMrtHum := y, kEo := b.hTd, kEi := k } := by
  have hin : inRooms rooms b = true := by unfold inRooms; rw [← hn]; simpa using hroom
  have h1 : readBool "true" "false" (if b.bType = .ground then "true" else "false") = .ok (decide (b.bType = .ground)) := by
    by_cases c : b.bType = .ground <;> simp [readBool, c]
  have h2 : readBool "True" "False" (if b.isSolarAbsorbed then "True" else "False") = .ok b.isSolarAbsorbed := by
    cases b.isSolarAbsorbed <;> simp [readBool]
  have h3 : readRoom n b.room = .ok ⟨b.room.toNat, by omega⟩ := by unfold readRoom; rw [dif_pos hroom]
  simp only [readPart, boundaryJson, h1, h2, h3, hrf, hin, if_true, hx, hy, readNumber, hk, bind, Except.bind]

theorem sum_filter_fin {α : Type} (l : List α) (p : α → Bool) (f : α → ℝ) :
    ∑ j : Fin l.length with p l[j] = true, f l[j] = ((l.filter p).map f).sum := by
  rw [Finset.sum_filter]
  induction l with
  | nil => rfl
  | cons a l ih =>
    rw [List.filter_cons]
    have := Fin.sum_univ_succ (n := l.length) (fun j : Fin (a :: l).length => if p (a :: l)[j] = true then f (a :: l)[j] else 0)
    refine this.trans ?_
    have ih' : ∑ i : Fin l.length, (if p (a :: l)[i.succ] = true then f (a :: l)[i.succ] else 0) = ((l.filter p).map f).sum := ih
    rw [ih']
    by_cases c : p a = true
    · rw [if_pos c, List.map_cons, List.sum_cons]
      simp [c]
    · rw [if_neg c]
      simp [c]

theorem sum_filter_fin' {α : Type} {m : ℕ} (l : List α) (hm : m = l.length) (p : α → Bool) (f : α → ℝ) :
    ∑ j : Fin m with p (l[j.1]'(hm ▸ j.2)) = true, f (l[j.1]'(hm ▸ j.2)) = ((l.filter p).map f).sum := by
  subst hm
  exact sum_filter_fin l p f

theorem getD_replicate (k : ℕ) : (List.replicate 12 (0 : ℝ)).getD k 0 = 0 := by
  rw [List.getD_eq_getElem?_getD, List.getElem?_replicate]
  split <;> rfl

/-- The response factors read for a part of the input. -/
theorem part_response {b : BoundaryDict} {t : BType} (hv : b.boundaryType = t.value) (hu : ∀ u, b.uValue = some u → 0 < u ∧ u * b.rIn < 1)
    {spec : SpecJson} (hs : boundarySpec b t = .ok spec) :
    ∃ rf, readResponse spec = .ok rf ∧
      (b.boundaryType = "external_transparent_part" ∨ b.boundaryType = "external_opaque_part" →
        ∃ u, b.uValue = some u ∧ rf.rft0 = 1 ∧ rf.rfa0 = 1 / u - b.rIn ∧ (∀ k : Fin 12, rf.rft1.getD k 0 = 0) ∧ (∀ k : Fin 12, rf.rfa1.getD k 0 = 0)) ∧
      (b.boundaryType = "external_general_part" ∨ b.boundaryType = "internal" →
        ∃ l r, b.layers = some l ∧ b.rOut = some r ∧
          rf.rfa0 + ∑ k : Fin 12, rf.rfa1.getD k 0 / (1 - rf.row.getD k 0) = (l.map Prod.snd).sum + r ∧
          rf.rft0 + ∑ k : Fin 12, rf.rft1.getD k 0 / (1 - rf.row.getD k 0) = 1) ∧
      (b.boundaryType = "ground" → ∃ l, b.layers = some l ∧
          rf.rfa0 + ∑ k : Fin 12, rf.rfa1.getD k 0 / (1 - rf.row.getD k 0) = (l.map Prod.snd).sum + 3 ∧
          rf.rft0 + ∑ k : Fin 12, rf.rft1.getD k 0 / (1 - rf.row.getD k 0) = 1) ∧
      (∀ k : Fin 12, 0 ≤ rf.row.getD k 0 ∧ rf.row.getD k 0 < 1) := by
  have layered : t = .generalPart ∨ t = .internal → boundarySpec b t = (do
      let l ← key b.layers
      let r ← key b.rOut
      .ok (.layers t.value l r)) := by rintro (rfl | rfl) <;> rfl
  have steady : t = .transparentPart ∨ t = .opaquePart → boundarySpec b t = (do
      let u ← key b.uValue
      .ok (.uValue t.value u b.rIn)) := by rintro (rfl | rfl) <;> rfl
  have key_eq : ∀ {α : Type} {x : Option α} {a : α}, key x = .ok a → x = some a := by
    intro α x a h
    cases x with
    | none => cases h
    | some y => cases h; rfl
  have hcases : (t = .generalPart ∨ t = .internal) ∨ (t = .transparentPart ∨ t = .opaquePart) ∨ t = .ground := by cases t <;> simp
  rcases hcases with ht | ht | ht
  · rw [layered ht] at hs
    simp only [bind_ok_iff] at hs
    obtain ⟨l, hl, r, hr, e⟩ := hs
    cases e
    obtain ⟨rf, h1, h2⟩ := readResponse_layers ht l r
    obtain ⟨g1, g2, g3⟩ := C39_gain h2
    rw [← sum_fin12 (fun m => rf.rfa1.getD m 0 / (1 - rf.row.getD m 0)), mkLayers_r] at g1
    rw [← sum_fin12 (fun m => rf.rft1.getD m 0 / (1 - rf.row.getD m 0))] at g2
    refine ⟨rf, h1, ?_, fun _ => ⟨l, r, key_eq hl, key_eq hr, g1, g2⟩, ?_, fun k => g3 k⟩
    · rw [hv]; rcases ht with rfl | rfl <;> simp [BType.value]
    · rw [hv]; rcases ht with rfl | rfl <;> simp [BType.value]
  · rw [steady ht] at hs
    simp only [bind_ok_iff] at hs
    obtain ⟨u, hu', e⟩ := hs
    cases e
    obtain ⟨p1, p2⟩ := hu u (key_eq hu')
    refine ⟨_, readResponse_steady ht p1 p2, fun _ => ⟨u, key_eq hu', rfl, rfl, fun k => getD_replicate _, fun k => getD_replicate _⟩, ?_, ?_,
      fun k => by rw [getD_replicate]; norm_num⟩
    · rw [hv]; rcases ht with rfl | rfl <;> simp [BType.value]
    · rw [hv]; rcases ht with rfl | rfl <;> simp [BType.value]
  · subst ht
    simp only [boundarySpec, bind_ok_iff] at hs
    obtain ⟨l, hl, e⟩ := hs
    cases e
    obtain ⟨rf, h1, h2⟩ := readResponse_ground l
    obtain ⟨g1, g2, g3⟩ := C39_gain h2
    rw [← sum_fin12 (fun m => rf.rfa1.getD m 0 / (1 - rf.row.getD m 0)), mkLayers_r, div_one] at g1
    rw [← sum_fin12 (fun m => rf.rft1.getD m 0 / (1 - rf.row.getD m 0))] at g2
    refine ⟨rf, h1, ?_, ?_, fun _ => ⟨l, key_eq hl, g1, g2⟩, fun k => g3 k⟩
    · rw [hv]; simp [BType.value]
    · rw [hv]; simp [BType.value]

/-- The rear side read for a part of the input. -/
theorem part_link {rnd : ℕ → ℝ → ℝ} (hr : IsRounding rnd) {b : BoundaryDict} {bs : Bs} {m : ℕ} {j : ℕ} (hj : j < m) (hid : b.id = j)
    (hrear : ∀ r, b.rearSurface = some r → 0 ≤ r ∧ r < m) (htd : ∀ c, b.tempDifCoef = some c → 0 ≤ c ∧ c ≤ 1) {w : List Step}
    (H : getBoundarySimple w b = .ok bs) :
    ∃ k : Option (Fin m × ℝ), readLink m (kInside rnd bs) = .ok k ∧
      (isExternal b.boundaryType = true → ∃ c, b.tempDifCoef = some c ∧ bs.hTd = c ∧ (c = 1 → k = none) ∧
        (c < 1 → ∃ w, k = some (⟨j, hj⟩, w) ∧ 0 ≤ w ∧ w ≤ 1 ∧ |c + w - 1| ≤ 0.05)) ∧
      (b.boundaryType = "internal" → ∃ r, b.rearSurface = some r ∧ bs.hTd = 0 ∧ ∃ l : Fin m, (l : ℤ) = r ∧ k = some (l, 1)) ∧
      (b.boundaryType = "ground" → bs.hTd = 0 ∧ k = none) ∧ (∀ l c, k = some (l, c) → 0 ≤ c ∧ c ≤ 1) := by
  obtain ⟨e1, -, -, -, -, -, e2, e3, e4⟩ := getBoundarySimple_eq H
  have hv := BType.ofString_value e2
  have hext := BType.isExternal_value bs.bType
  rw [← hv] at hext
  have key_eq : ∀ {α : Type} {x : Option α} {a : α}, key x = .ok a → x = some a := by
    intro α x a h
    cases x with
    | none => cases h
    | some y => cases h; rfl
  by_cases hx : isExternal b.boundaryType = true
  · have hx' := hext ▸ hx
    unfold readHtd at e3
    rw [if_pos hx] at e3
    have hc := key_eq e3
    obtain ⟨h0, h1⟩ := htd _ hc
    obtain ⟨k0, k1, k2⟩ := (C50_weights_partial rnd hr [] [] bs (.layers "" [] 0)).1 hx' h0 h1
    have hn1 : b.boundaryType ≠ "internal" := by intro e; rw [e] at hx; exact absurd hx (by decide)
    have hn2 : b.boundaryType ≠ "ground" := by intro e; rw [e] at hx; exact absurd hx (by decide)
    rcases h1.lt_or_eq with hlt | heq
    · obtain ⟨c, hk, w0, w1, w2, -⟩ := k2 hlt
      refine ⟨some (⟨j, hj⟩, c), ?_, fun _ => ⟨_, hc, rfl, fun e => absurd e hlt.ne, fun _ => ⟨c, rfl, w0, w1, w2⟩⟩,
        fun e => absurd e hn1, fun e => absurd e hn2, fun l c' e => ?_⟩
      · have : kInside rnd bs = some (bs.id, c) := hk
        rw [this]
        have hp := pyIndex_nat (m := m) (x := bs.id) (by rw [e1, hid]; omega)
        simp only [readLink, hp, bind, Except.bind]
        congr 4
        rw [e1, hid]; rfl
      · cases e; exact ⟨w0, w1⟩
    · refine ⟨none, ?_, fun _ => ⟨_, hc, rfl, fun _ => rfl, fun e => absurd heq e.ne⟩, fun e => absurd e hn1, fun e => absurd e hn2,
        fun l c' e => by cases e⟩
      have : kInside rnd bs = none := k1 heq
      rw [this]; rfl
  · have hx' : bs.bType.isExternal = false := by rw [← hext]; simpa using hx
    unfold readHtd at e3
    rw [if_neg hx] at e3
    have h0 : bs.hTd = 0 := (Except.ok.inj e3).symm
    by_cases hi : bs.bType = .internal
    · have hvi : b.boundaryType = "internal" := by rw [hv, hi]; rfl
      unfold readRear at e4
      rw [if_pos hvi] at e4
      obtain ⟨r, hr', e5⟩ := bind_ok_iff.1 e4
      have hr'' := key_eq hr'
      have hb : bs.rear = some r := (Except.ok.inj e5).symm
      have hrange := hrear r hr''
      have hk : kInside rnd bs = some (r, 1) := by simp [kInside, BType.isExternal, hi, hb]
      refine ⟨some (⟨r.toNat, by omega⟩, 1), ?_, fun e => absurd e hx, fun _ => ⟨r, hr'', h0, _, ?_, rfl⟩, fun e => ?_, fun l c' e => ?_⟩
      · rw [hk]
        simp only [readLink, pyIndex_nat hrange, bind, Except.bind]
      · simp only; omega
      · rw [hvi] at e; exact absurd e (by decide)
      · cases e; norm_num
    · have hvi : b.boundaryType ≠ "internal" := by
        intro e
        apply hi
        have := e2
        rw [e] at this
        exact (Except.ok.inj this).symm
      have hk : kInside rnd bs = none := by simp [kInside, hx', hi]
      exact ⟨none, by rw [hk]; rfl, fun e => absurd e hx, fun e => absurd e hvi, fun _ => ⟨h0, rfl⟩, fun l c' e => by cases e⟩

theorem isRadiativeRoom_eq {rooms : List RoomDict} {i : ℕ} (hi : i < rooms.length) :
    isRadiativeRoom rooms (i : ℤ) = decide (rooms[i].heating.kind = "radiative") := by
  unfold isRadiativeRoom
  rw [Int.toNat_natCast, List.getElem?_eq_getElem hi]

theorem readHouse_ok {o : Output} {s : Fin o.spaces.length → SpaceIn o.spaces.length} {p : Fin o.boundaries.length → PartIn o.spaces.length o.boundaries.length}
    (hs : (forFin o.spaces.length fun i => readSpace o.spaces.length o.spaces[i]) = .ok s)
    (hp : (forFin o.boundaries.length fun j => readPart o.spaces.length o.boundaries.length o.boundaries[j]) = .ok p)
    (hb : o.building.infiltrationMethod = "balance_residential") : readHouse o = .ok (houseOf o.building s p) := by
  unfold readHouse
  rw [hs, hp]
  simp only [bind, Except.bind, readInfiltration, hb, if_true]

/-- **C72.** For every complete input that the initializer accepts, the calculation reads the written files without error, and the house it works on is the
house of the input: the same number of rooms and parts in the same order, every room and every part with its own data. -/
theorem C72_read_back_partial (rnd : ℕ → ℝ → ℝ) (hr : IsRounding rnd) (w : List Step) (f : ScheduleFile) (d : Input) (hd : CompleteInput d) (o : Output)
    (H : makeHouse rnd w f d = .ok o) :
    ∃ h, readHouse o = .ok h ∧ o.spaces.length = d.rooms.length ∧ o.boundaries.length = d.boundaries.length ∧
      (∀ i (r : RoomDict), d.rooms[i.1]? = some r → SameRoom h i r) ∧ (∀ j (b : BoundaryDict), d.boundaries[j.1]? = some b → SamePart h j b) ∧
      h.story = d.building.story ∧ h.cValue = d.building.cValue ∧ h.pressure = d.building.insidePressure ∧
      (∀ i, (∀ j, h.room j = i → 0 < h.fMrtHum j ∧ 0 ≤ h.flr j) ∧ ∑ j with h.room j = i, h.fMrtHum j = 1 ∧
        ∑ j with h.room j = i, h.flr j = if h.isRadHeating i then 1 else 0) := by
  unfold makeHouse at H
  simp only [bind_ok_iff] at H
  obtain ⟨bss, hb, q, -, sch, -, bd, hbd, ss, hss, bj, hbj, e⟩ := H
  obtain ⟨hls, hspace⟩ := makeSpaces_get hss
  obtain ⟨hlb, hlj, hpart⟩ := makeBoundaries_get hb hbj
  -- building
  have hB : bd = ⟨"balance_residential", d.building.story, d.building.cValue, d.building.insidePressure⟩ := by
    unfold makeBuilding at hbd
    split_ifs at hbd
    exact (Except.ok.inj hbd).symm
  -- facts on parts
  have hbs : ∀ j (hj : j < d.boundaries.length), getBoundarySimple w d.boundaries[j] = .ok (bss[j]'(hlb.symm ▸ hj)) := fun j hj => mapM_getElem hb hj
  have hmem : ∀ b ∈ bss, ∃ j, ∃ hj : j < d.boundaries.length, b = bss[j]'(hlb.symm ▸ hj) := by
    intro b hb'
    obtain ⟨j, hj, rfl⟩ := List.mem_iff_getElem.1 hb'
    exact ⟨j, hlb ▸ hj, rfl⟩
  have harea : ∀ b ∈ bss, 0 < b.area := by
    intro b hb'
    obtain ⟨j, hj, rfl⟩ := hmem b hb'
    rw [(getBoundarySimple_eq (hbs j hj)).2.2.1]
    exact hd.area _ (List.getElem_mem hj)
  have hfloor : ∀ v, (∀ i : ℕ, i < d.rooms.length → ∃ b ∈ d.boundaries, b.connectedRoom = i ∧ b.isFloor = v) →
      ∀ i : ℕ, i < d.rooms.length → ∃ b ∈ bss, b.room = (i : ℤ) ∧ b.isFloor = v := by
    intro v hv i hi
    obtain ⟨b, hb', h1, h2⟩ := hv i hi
    obtain ⟨j, hj, rfl⟩ := List.mem_iff_getElem.1 hb'
    have := getBoundarySimple_eq (hbs j hj)
    exact ⟨_, List.getElem_mem (hlb.symm ▸ hj), this.2.1.trans h1, this.2.2.2.2.1.trans h2⟩
  -- shares
  have hF : ∀ i : ℕ, i < d.rooms.length → _ := fun i hi => C53_view_factors_partial bss harea (i : ℤ) (hfloor true hd.floor i hi) (hfloor false hd.notOnlyFloor i hi)
  have hG : ∀ i : ℕ, i < d.rooms.length → _ := fun i hi => C53_heating_shares_partial bss harea (i : ℤ) (hfloor true hd.floor i hi) (isRadiativeRoom d.rooms (i : ℤ))
  cases e
  -- rooms
  have hS : ∀ i : Fin ss.length, ∃ he ce row s, Equip.read (d.rooms[i.1]'(hls ▸ i.2)).heating = .ok he ∧
      (d.rooms[i.1]'(hls ▸ i.2)).cooling.convective = some s ∧
      ventRow (fun _ : Fin d.rooms.length => 0) (d.rooms[i.1]'(hls ▸ i.2)).nextVent = .ok row ∧
      ce.convectiveSpec = some s ∧ ce.radiativeCapacity = none ∧ ss[i] = makeSpace (d.rooms[i.1]'(hls ▸ i.2)) he ce row := by
    intro i
    obtain ⟨he, ce, row, h1, h2, h3, h4⟩ := hspace i.1 (hls ▸ i.2)
    obtain ⟨s, c1, c2, c3⟩ := (Equip.read_radiative h2).2.2.2.1 (hd.cooling _ (List.getElem_mem _))
    exact ⟨he, ce, row, s, h1, c1, h3, c2, c3, h4⟩
  choose he ce row sp hhe hsp hrow hce1 hce2 hsj using hS
  have hS' := fun i : Fin ss.length => readSpace_makeSpace hls (d.rooms[i.1]'(hls ▸ i.2)) (he i) (ce i) (row i) (sp i) (hce1 i) (hce2 i)
  simp only [← hsj] at hS'
  -- parts
  have hP : ∀ j : Fin bj.length, ∃ (spec : SpecJson) (rf : RF.ResponseFactor) (x y : ℝ) (k : Option (Fin bj.length × ℝ)),
      bj[j] = boundaryJson rnd d.rooms bss (bss[j.1]'(by rw [hlb, ← hlj]; exact j.2)) spec ∧
      readResponse spec = .ok rf ∧ boundarySpec (d.boundaries[j.1]'(hlj ▸ j.2)) (bss[j.1]'(by rw [hlb, ← hlj]; exact j.2)).bType = .ok spec ∧
      heatingShare bss (isRadiativeRoom d.rooms (bss[j.1]'(by rw [hlb, ← hlj]; exact j.2)).room) (bss[j.1]'(by rw [hlb, ← hlj]; exact j.2)) = some x ∧
      viewFactor bss (bss[j.1]'(by rw [hlb, ← hlj]; exact j.2)) = some y ∧
      readLink bj.length (kInside rnd (bss[j.1]'(by rw [hlb, ← hlj]; exact j.2))) = .ok k := by
    intro j
    have hj : j.1 < d.boundaries.length := hlj ▸ j.2
    obtain ⟨spec, s1, s2⟩ := hpart j.1 hj
    obtain ⟨e1, e2, -, -, -, -, e7, -, -⟩ := getBoundarySimple_eq (hbs j.1 hj)
    have hm : d.boundaries[j.1] ∈ d.boundaries := List.getElem_mem hj
    obtain ⟨rf, hrf, -⟩ := part_response (BType.ofString_value e7) (hd.uValue _ hm) s1
    obtain ⟨k, hk, -⟩ := part_link (m := bj.length) hr (j := j.1) j.2 (hd.partId j.1 hj) (fun r h => by have := hd.rear _ hm r h; omega) (hd.tempDif _ hm) (hbs j.1 hj)
    obtain ⟨r0, r1⟩ := hd.partRoom _ hm
    have hroom : (bss[j.1]'(hlb.symm ▸ hj)).room = ((d.boundaries[j.1].connectedRoom.toNat : ℕ) : ℤ) := by rw [e2]; omega
    obtain ⟨f1, hf1, -⟩ := hF d.boundaries[j.1].connectedRoom.toNat (by omega)
    obtain ⟨g1, hg1, -⟩ := hG d.boundaries[j.1].connectedRoom.toNat (by omega)
    refine ⟨spec, rf, g1 (bss[j.1]'(hlb.symm ▸ hj)), f1 (bss[j.1]'(hlb.symm ▸ hj)), k, s2, hrf, s1, ?_, (hf1 _ (List.getElem_mem _) hroom).1, hk⟩
    rw [hroom]
    exact (hg1 _ (List.getElem_mem _) hroom).1
  choose spec rf x y k hj1 hj2 hj3 hj4 hj5 hj6 using hP
  have hroomJ : ∀ j : Fin bj.length, 0 ≤ (bss[j.1]'(by rw [hlb, ← hlj]; exact j.2)).room ∧
      (bss[j.1]'(by rw [hlb, ← hlj]; exact j.2)).room < (ss.length : ℤ) := by
    intro j
    have hj : j.1 < d.boundaries.length := hlj ▸ j.2
    rw [(getBoundarySimple_eq (hbs j.1 hj)).2.1, hls]
    exact hd.partRoom _ (List.getElem_mem hj)
  have hP' := fun j : Fin bj.length => readPart_boundaryJson (rnd := rnd) hls (hroomJ j) (hj2 j) (hj4 j) (hj5 j) (hj6 j)
  simp only [← hj1] at hP'
  refine ⟨_, readHouse_ok (o := ⟨bd, ss, bj, sch, q, bss.map Bs.thetaOSol⟩) (forFin_ok.2 hS') (forFin_ok.2 hP') (by rw [hB]), hls, hlj, ?_⟩
  have hsumF : ∀ i : Fin ss.length, _ := fun i => hF i.1 (hls ▸ i.2)
  have hsumG : ∀ i : Fin ss.length, _ := fun i => hG i.1 (hls ▸ i.2)
  have hroomIff : ∀ (i : Fin ss.length) (j : Fin bj.length), (⟨(bss[j.1]'(by rw [hlb, ← hlj]; exact j.2)).room.toNat, by have := hroomJ j; omega⟩ : Fin ss.length) = i ↔
      (bss[j.1]'(by rw [hlb, ← hlj]; exact j.2)).room = (i.1 : ℤ) := by
    intro i j
    have := hroomJ j
    rw [Fin.ext_iff]
    simp only
    omega
  have hmlen : bj.length = bss.length := by rw [hlb, hlj]
  have hradEq : ∀ i : Fin ss.length, (he i).radiativeCapacity.isSome = isRadiativeRoom d.rooms ((i.1 : ℕ) : ℤ) := by
    intro i
    rw [isRadiativeRoom_eq (hls ▸ i.2), Bool.eq_iff_iff, (Equip.read_radiative (hhe i)).1]
    simp
  refine ⟨?_, ?_, congrArg BuildingJson.story hB, congrArg BuildingJson.cValue hB, congrArg BuildingJson.insidePressure hB, ?_⟩
  · -- rooms
    intro i r hri
    have hi : i.1 < d.rooms.length := hls ▸ i.2
    rw [List.getElem?_eq_getElem hi, Option.some.injEq] at hri
    subst hri
    have hrad := Equip.read_radiative (hhe i)
    refine ⟨rfl, rfl, rfl, ?_, rfl, ⟨?_, ?_⟩, ⟨rfl, ?_⟩, ⟨hrad.1, ?_, ?_⟩, ⟨rfl, ?_⟩⟩
    · intro l
      show row i (Fin.cast hls l) = _
      rw [ventRow_eq _ _ _ (fun v hv => (hd.rooms.upstream _ (List.getElem_mem hi) v hv).1) (hrow i), zero_add]
      rfl
    · show cShFrt _ = _
      unfold cShFrt; ring
    · show gShFrt (cShFrt _) = _
      unfold gShFrt cShFrt; ring
    · show gLhFrt (cLhFrt _) = _
      unfold gLhFrt cLhFrt; ring
    · intro hne
      show (he i).radiativeCapacity.getD 0 = 0
      rw [hrad.2.1 hne]; rfl
    · intro hk s hs
      show (he i).radiativeCapacity.getD 0 = _
      obtain ⟨s', hs', e⟩ := hrad.2.2.1 hk
      rw [e]
      rw [hs] at hs'
      cases hs'
      rfl
    · intro s hs
      rw [hsp i] at hs
      cases hs
      rfl
  · -- parts
    intro j b hjb
    have hj : j.1 < d.boundaries.length := hlj ▸ j.2
    rw [List.getElem?_eq_getElem hj, Option.some.injEq] at hjb
    subst hjb
    obtain ⟨e1, e2, e3, e4, e5, e6, e7, e8, e9⟩ := getBoundarySimple_eq (hbs j.1 hj)
    have hm : d.boundaries[j.1] ∈ d.boundaries := List.getElem_mem hj
    obtain ⟨rf', hrf', q1, q2, q3, q4⟩ := part_response (BType.ofString_value e7) (hd.uValue _ hm) (hj3 j)
    cases (hj2 j).symm.trans hrf'
    obtain ⟨k', hk', l1, l2, l3, -⟩ := part_link (m := bj.length) hr (j := j.1) j.2 (hd.partId j.1 hj) (fun r h => by have := hd.rear _ hm r h; omega) (hd.tempDif _ hm)
      (hbs j.1 hj)
    cases (hj6 j).symm.trans hk'
    refine ⟨?_, e3, e4, e6, ?_, l1, l2, l3, ?_, q1, q2, q3, q4⟩
    · show (((bss[j.1]'(hlb.symm ▸ hj)).room.toNat : ℕ) : ℤ) = _
      rw [e2]
      have := hd.partRoom _ hm
      omega
    · show decide _ = true ↔ _
      rw [decide_eq_true_iff]
      have hv := BType.ofString_value e7
      constructor
      · intro h; rw [hv, h]; rfl
      · intro h
        rw [h] at e7
        exact (Except.ok.inj e7).symm
    · have hv := BType.ofString_value e7
      rw [hv]
      cases (bss[j.1]'(hlb.symm ▸ hj)).bType <;> simp [BType.value, isExternal]
  · -- shares
    intro i
    obtain ⟨f1, hf1, hf2, -⟩ := hsumF i
    obtain ⟨g1, hg1, hg2, -⟩ := hsumG i
    have hy : ∀ j : Fin bj.length, (bss[j.1]'(by rw [hlb, ← hlj]; exact j.2)).room = (i.1 : ℤ) → y j = f1 (bss[j.1]'(by rw [hlb, ← hlj]; exact j.2)) ∧ 0 < y j := by
      intro j hj
      have h1 := hf1 _ (List.getElem_mem _) hj
      have h2 := hj5 j
      rw [h1.1, Option.some.injEq] at h2
      exact ⟨h2.symm, h2 ▸ h1.2⟩
    have hx : ∀ j : Fin bj.length, (bss[j.1]'(by rw [hlb, ← hlj]; exact j.2)).room = (i.1 : ℤ) → x j = g1 (bss[j.1]'(by rw [hlb, ← hlj]; exact j.2)) ∧ 0 ≤ x j := by
      intro j hj
      have h1 := hg1 _ (List.getElem_mem _) hj
      have h2 := hj4 j
      rw [hj, h1.1, Option.some.injEq] at h2
      exact ⟨h2.symm, h2 ▸ h1.2.1⟩
    refine ⟨fun j hj => ⟨(hy j ((hroomIff i j).1 hj)).2, (hx j ((hroomIff i j).1 hj)).2⟩, ?_, ?_⟩
    · rw [← hf2, ← sum_filter_fin' bss hmlen]
      refine Finset.sum_congr (Finset.filter_congr fun j _ => ?_) fun j hj => ?_
      · rw [decide_eq_true_iff]; exact hroomIff i j
      · have := (Finset.mem_filter.1 hj).2
        rw [decide_eq_true_iff] at this
        exact (hy j this).1
    · refine Eq.trans ?_ (hg2.trans ?_)
      · rw [← sum_filter_fin' bss hmlen]
        refine Finset.sum_congr (Finset.filter_congr fun j _ => ?_) fun j hj => ?_
        · rw [decide_eq_true_iff]; exact hroomIff i j
        · have := (Finset.mem_filter.1 hj).2
          rw [decide_eq_true_iff] at this
          exact (hx j this).1
      · rw [← hradEq i]; rfl

end HLC.Init
