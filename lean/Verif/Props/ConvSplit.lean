import Verif.Spec.RoomSplit
import Verif.Props.ConvRoundTrip
import Mathlib.Tactic.Ring
import Mathlib.Tactic.FieldSimp

/-!
# C60: distributing the parts over the rooms
-/

namespace HLC

open HLC.Conv

theorem pyDiv_ok {a b x : ℝ} (h : pyDiv a b = .ok x) : b ≠ 0 ∧ x = a / b := by
  unfold pyDiv at h
  split_ifs at h with h0
  cases h
  exact ⟨h0, rfl⟩

theorem separate_ok {x : ℝ} {f : FloorAreas} {r : ℝ × ℝ × ℝ} (h : separate x f = .ok r) :
    f.total ≠ 0 ∧ r = (f.main / f.total * x, f.other / f.total * x, (f.total - f.main - f.other) / f.total * x) := by
  simp only [separate, bind_ok_iff] at h
  obtain ⟨m, hm, o, ho, n, hn, h⟩ := h
  cases h
  obtain ⟨h0, rfl⟩ := pyDiv_ok hm
  obtain ⟨-, rfl⟩ := pyDiv_ok ho
  obtain ⟨-, rfl⟩ := pyDiv_ok hn
  exact ⟨h0, rfl⟩

theorem splitPart_ok {α : Type} {f : FloorAreas} {size : α → ℝ} {lv3 : α → SpaceType → ℝ → α} {p : α} {l : List α}
    (h : splitPart f size lv3 p = .ok l) :
    f.total ≠ 0 ∧ l = [lv3 p .mainOccupantRoom (f.main / f.total * size p), lv3 p .otherOccupantRoom (f.other / f.total * size p),
      lv3 p .nonOccupantRoom ((f.total - f.main - f.other) / f.total * size p)] := by
  simp only [splitPart, bind_ok_iff] at h
  obtain ⟨r, hr, h⟩ := h
  obtain ⟨h0, rfl⟩ := separate_ok hr
  cases h
  exact ⟨h0, rfl⟩

theorem splitPart_defined {α : Type} {f : FloorAreas} {size : α → ℝ} {lv3 : α → SpaceType → ℝ → α} (p : α) (h0 : f.total ≠ 0) :
    ∃ l, splitPart f size lv3 p = .ok l := by
  refine ⟨[lv3 p .mainOccupantRoom (f.main / f.total * size p), lv3 p .otherOccupantRoom (f.other / f.total * size p),
      lv3 p .nonOccupantRoom ((f.total - f.main - f.other) / f.total * size p)], ?_⟩
  simp [splitPart, separate, pyDiv, h0, ok_bind, pure, Except.pure]

theorem shares {α : Type} {f : FloorAreas} {size : α → ℝ} {lv3 : α → SpaceType → ℝ → α} {same : α → α → Prop} {room : α → SpaceType} {name : α → String}
    (hs : ∀ p s a, size (lv3 p s a) = a) (hr : ∀ p s a, room (lv3 p s a) = s) (hsame : ∀ p s a, same p (lv3 p s a))
    (hn : ∀ p s a, name (lv3 p s a) = name p ++ "_" ++ s.value) {p : α} {l : List α}
    (h : splitPart f size lv3 p = .ok l) : Spec.SharesOf same size room name f p l := by
  obtain ⟨h0, rfl⟩ := splitPart_ok h
  refine ⟨by simp [hr], ?_, ?_, ?_, ?_⟩
  · simp only [List.map_cons, List.map_nil, hs]
    simp only [List.cons.injEq, and_true]
    refine ⟨?_, ?_, ?_⟩ <;> field_simp
  · simp only [List.map_cons, List.map_nil, hs, List.sum_cons, List.sum_nil]
    field_simp
    ring
  · simp [hsame]
  · simp [hn, SpaceType.value, String.append_assoc]

theorem split_into {α : Type} {f : FloorAreas} {size : α → ℝ} {lv3 : α → SpaceType → ℝ → α} {same : α → α → Prop} {room : α → SpaceType} {name : α → String}
    (hs : ∀ p s a, size (lv3 p s a) = a) (hr : ∀ p s a, room (lv3 p s a) = s) (hsame : ∀ p s a, same p (lv3 p s a))
    (hn : ∀ p s a, name (lv3 p s a) = name p ++ "_" ++ s.value) {l : List α} {ls : List (List α)}
    (h : l.mapM (splitPart f size lv3) = .ok ls) : Spec.SplitInto (Spec.SharesOf same size room name f) l ls.flatten :=
  ⟨ls, (mapM_ok_iff.1 h).imp fun _ _ h => shares hs hr hsame hn h, rfl⟩

/-- The sum of a quantity that may be undefined for some part. -/
noncomputable def sumM {α : Type} (g : α → Except PyErr ℝ) (l : List α) : Except PyErr ℝ := do return (← l.mapM g).sum

theorem sumM_nil {α : Type} (g : α → Except PyErr ℝ) : sumM g [] = .ok 0 := rfl

theorem sumM_cons {α : Type} (g : α → Except PyErr ℝ) (a : α) (l : List α) :
    sumM g (a :: l) = (do let x ← g a; let y ← sumM g l; return x + y) := by
  unfold sumM
  rw [List.mapM_cons]
  cases g a with
  | error e => rfl
  | ok x =>
    cases l.mapM g with
    | error e => rfl
    | ok r => simp [ok_bind, pure, Except.pure]

/-- A quantity proportional to the size has the same sum over the shares as over the original parts. -/
theorem sumM_split {α : Type} {f : FloorAreas} {size : α → ℝ} {lv3 : α → SpaceType → ℝ → α} {g : α → Except PyErr ℝ}
    (hg : ∀ p s c, g (lv3 p s (c * size p)) = (do return c * (← g p))) {l : List α} {ls : List (List α)}
    (h : l.mapM (splitPart f size lv3) = .ok ls) : sumM g ls.flatten = sumM g l := by
  replace h := mapM_ok_iff.1 h
  induction h with
  | nil => rfl
  | cons h1 _ ih =>
    obtain ⟨h0, rfl⟩ := splitPart_ok h1
    rename_i p l' ls' _
    simp only [List.flatten_cons, List.cons_append, List.nil_append, sumM_cons, hg, ih]
    cases g p with
    | error e => rfl
    | ok x =>
      cases sumM g l' with
      | error e => rfl
      | ok r =>
        simp only [ok_bind, pure, Except.pure]
        congr 1
        field_simp
        ring

theorem areas_split {α : Type} {f : FloorAreas} {size : α → ℝ} {lv3 : α → SpaceType → ℝ → α} (hs : ∀ p s a, size (lv3 p s a) = a)
    {l : List α} {ls : List (List α)} (h : l.mapM (splitPart f size lv3) = .ok ls) : (ls.flatten.map size).sum = (l.map size).sum := by
  replace h := mapM_ok_iff.1 h
  induction h with
  | nil => rfl
  | cons h1 _ ih =>
    obtain ⟨h0, rfl⟩ := splitPart_ok h1
    simp only [List.flatten_cons, List.cons_append, List.nil_append, List.map_cons, List.sum_cons, hs, ih]
    field_simp
    ring

theorem getQ_eq (e : Envelope) (region : ℤ) : e.getQ region = (do
    let g ← sumM (fun s : GP => s.getQ region) e.gps
    let w ← sumM (fun s : Win => s.getQ region) e.ws
    let d ← sumM (fun s : Door => s.getQ region) e.ds
    let p ← sumM (fun s : Efp => s.getQ region) e.eps
    return g + w + d + p) := by
  unfold Envelope.getQ sumM
  cases e.gps.mapM fun s => s.getQ region with
  | error _ => rfl
  | ok g =>
    cases e.ws.mapM fun s => s.getQ region with
    | error _ => rfl
    | ok w =>
      cases e.ds.mapM fun s => s.getQ region with
      | error _ => rfl
      | ok d =>
        cases e.eps.mapM fun s => s.getQ region with
        | error _ => rfl
        | ok p => simp [ok_bind, pure, Except.pure, add_assoc]

theorem getM_eq (e : Envelope) (region : ℤ) (season : String) : e.getM region season = (do
    let g ← sumM (fun s : GP => s.getM region season) e.gps
    let w ← sumM (fun s : Win => s.getM region season) e.ws
    let d ← sumM (fun s : Door => s.getM region season) e.ds
    return g + w + d) := by
  unfold Envelope.getM sumM
  cases e.gps.mapM fun s => s.getM region season with
  | error _ => rfl
  | ok g =>
    cases e.ws.mapM fun s => s.getM region season with
    | error _ => rfl
    | ok w =>
      cases e.ds.mapM fun s => s.getM region season with
      | error _ => rfl
      | ok d => simp [ok_bind, pure, Except.pure, add_assoc]

theorem gp_getQ_scale (region : ℤ) (p : GP) (s : SpaceType) (c : ℝ) :
    (GP.lv3 p s (c * p.area)).getQ region = (do return c * (← p.getQ region)) := by
  unfold GP.getQ GP.lv3
  cases p.spec.getU with
  | error e => rfl
  | ok u =>
    cases p.nextSpace.getH region with
    | error e => rfl
    | ok h => simp only [ok_bind, pure, Except.pure, mul_assoc]

theorem win_getQ_scale (region : ℤ) (p : Win) (s : SpaceType) (c : ℝ) :
    (Win.lv3 p s (c * p.area)).getQ region = (do return c * (← p.getQ region)) := by
  unfold Win.getQ Win.lv3
  cases p.nextSpace.getH region with
  | error e => rfl
  | ok h => simp only [ok_bind, pure, Except.pure, mul_assoc]

theorem door_getQ_scale (region : ℤ) (p : Door) (s : SpaceType) (c : ℝ) :
    (Door.lv3 p s (c * p.area)).getQ region = (do return c * (← p.getQ region)) := by
  unfold Door.getQ Door.lv3
  cases p.nextSpace.getH region with
  | error e => rfl
  | ok h => simp only [ok_bind, pure, Except.pure, mul_assoc]

theorem gp_getM_scale (region : ℤ) (season : String) (p : GP) (s : SpaceType) (c : ℝ) :
    (GP.lv3 p s (c * p.area)).getM region season = (do return c * (← p.getM region season)) := by
  unfold GP.getM GP.lv3
  dsimp only
  split_ifs
  · cases p.spec.getEta with
    | error e => rfl
    | ok u =>
      cases partNu p.nextSpace p.direction region season with
      | error e => rfl
      | ok h =>
        cases p.sunshade.getFSh region season p.direction with
        | error e => rfl
        | ok y => simp only [ok_bind, pure, Except.pure, mul_assoc]
  · simp [ok_bind, pure, Except.pure]

theorem win_getM_scale (region : ℤ) (season : String) (p : Win) (s : SpaceType) (c : ℝ) :
    (Win.lv3 p s (c * p.area)).getM region season = (do return c * (← p.getM region season)) := by
  unfold Win.getM Win.lv3
  dsimp only
  cases p.spec.getEtaD season with
  | error e => rfl
  | ok u =>
    cases p.sunshade.getF region season p.direction with
    | error e => rfl
    | ok h =>
      cases partNu p.nextSpace p.direction region season with
      | error e => rfl
      | ok y =>
        simp only [ok_bind, pure, Except.pure]
        congr 1
        ring

theorem door_getM_scale (region : ℤ) (season : String) (p : Door) (s : SpaceType) (c : ℝ) :
    (Door.lv3 p s (c * p.area)).getM region season = (do return c * (← p.getM region season)) := by
  unfold Door.getM Door.lv3
  dsimp only
  split_ifs
  · cases partNu p.nextSpace p.direction region season with
    | error e => rfl
    | ok h =>
      cases p.sunshade.getFSh region season p.direction with
      | error e => rfl
      | ok y => simp only [ok_bind, pure, Except.pure, mul_assoc]
  · simp [ok_bind, pure, Except.pure]

theorem split_all {α : Type} {f : FloorAreas} {size : α → ℝ} {lv3 : α → SpaceType → ℝ → α} {P : α → Prop}
    (hP : ∀ p s a, P p → P (lv3 p s a)) {l : List α} {ls : List (List α)} (h : l.mapM (splitPart f size lv3) = .ok ls)
    (hl : ∀ p ∈ l, P p) : ∀ p ∈ ls.flatten, P p := by
  replace h := mapM_ok_iff.1 h
  induction h with
  | nil => simp
  | cons h1 _ ih =>
    obtain ⟨h0, rfl⟩ := splitPart_ok h1
    intro x hx
    simp only [List.flatten_cons, List.cons_append, List.nil_append, List.mem_cons] at hx
    have hp := hl _ List.mem_cons_self
    rcases hx with rfl | rfl | rfl | hx
    · exact hP _ _ _ hp
    · exact hP _ _ _ hp
    · exact hP _ _ _ hp
    · exact ih (fun p h => hl p (List.mem_cons_of_mem _ h)) x hx

theorem win_readable {d : PyVal} {p : Win} (h : Win.make d = .ok p) : TransientReadable p.sunshade := by
  simp only [Win.make, bind_ok_iff] at h
  obtain ⟨_, -, _, -, _, -, _, -, _, -, _, -, _, -, _, -, _, -, s, hs, _, -, _, -, h⟩ := h
  cases h
  exact transient_readable hs

/-- What the conversion writes, in terms of the parts it reads. -/
theorem lv3_reads {common env env' : PyVal} {e : Envelope} (he : Envelope.make env = .ok e)
    (hg : ∀ p ∈ e.gps, OpaqueSimple p.sunshade) (hd : ∀ p ∈ e.ds, OpaqueSimple p.sunshade)
    (h : convertLv2ToLv3 common env = .ok env') :
    ∃ f gs ws ds hb hbs, FloorAreas.make common = .ok f ∧ e.gps.mapM (splitPart f (fun p => p.area) GP.lv3) = .ok gs ∧
      e.ws.mapM (splitPart f (fun p => p.area) Win.lv3) = .ok ws ∧ e.ds.mapM (splitPart f (fun p => p.area) Door.lv3) = .ok ds ∧
      (do (← env.getList "heat_bridges").mapM Heatbridge.make) = .ok hb ∧
      hb.mapM (splitPart f (fun p => p.length) Heatbridge.lv3) = .ok hbs ∧
      Envelope.make env' = .ok { gps := gs.flatten, ws := ws.flatten, ds := ds.flatten, eps := epsLv3 e.eps, ecs := ecsLv3 e.ecs } ∧
      (do (← env'.getList "heat_bridges").mapM Heatbridge.make) = .ok hbs.flatten := by
  simp only [Envelope.make, bind_ok_iff] at he
  obtain ⟨g0, hg0, g1, hg1, w0, hw0, w1, hw1, d0, hd0, d1, hd1, p0, hp0, p1, hp1, c0, hc0, c1, hc1, he⟩ := he
  cases he
  simp only [convertLv2ToLv3, gpsLv3, wsLv3, dsLv3, hbsLv3, bind_ok_iff, hg0, hw0, hd0, hp0, hc0, Except.ok.injEq] at h
  obtain ⟨f, hf, _, rfl, _, hg1', gl, ⟨gs, hgs, hgl⟩, _, rfl, _, hw1', wl, ⟨ws, hws, hwl⟩, _, rfl, _, hd1', dl, ⟨ds, hds, hdl⟩,
    h0, hh0, h1, hh1, hl, ⟨hs, hhs, hhl⟩, _, rfl, _, hp1', _, rfl, _, hc1', h⟩ := h
  cases hg1.symm.trans hg1'
  cases hw1.symm.trans hw1'
  cases hd1.symm.trans hd1'
  cases hp1.symm.trans hp1'
  cases hc1.symm.trans hc1'
  cases hgl; cases hwl; cases hdl; cases hhl; cases h
  have rg : (gs.flatten.map GP.asDict).mapM GP.make = .ok gs.flatten := mapM_roundtrip _ _ _ fun x hx => gp_roundtrip <|
    split_all (lv3 := GP.lv3) (P := GPReadable) (fun p s a h => h) hgs
      (fun p hp => ⟨mapM_all (P := fun p : GP => SpecCanon p.type p.spec) (fun _ _ h => gp_canon h) hg1 p hp, hg p hp⟩) x hx
  have rw' : (ws.flatten.map Win.asDict).mapM Win.make = .ok ws.flatten := mapM_roundtrip _ _ _ fun x hx => win_roundtrip <|
    split_all (lv3 := Win.lv3) (P := fun p : Win => TransientReadable p.sunshade) (fun p s a h => h) hws
      (fun p hp => mapM_all (P := fun p : Win => TransientReadable p.sunshade) (fun _ _ h => win_readable h) hw1 p hp) x hx
  have rd : (ds.flatten.map Door.asDict).mapM Door.make = .ok ds.flatten := mapM_roundtrip _ _ _ fun x hx => door_roundtrip <|
    split_all (lv3 := Door.lv3) (P := fun p : Door => OpaqueSimple p.sunshade) (fun p s a h => h) hds (fun p hp => hd p hp) x hx
  have rp : ((epsLv3 p1).map Efp.asDict).mapM Efp.make = .ok (epsLv3 p1) := mapM_roundtrip _ _ _ fun x _ => C63_earthfloor_perimeter x
  have rc : ((ecsLv3 c1).map Efc.asDict).mapM Efc.make = .ok (ecsLv3 c1) := mapM_roundtrip _ _ _ fun x _ => C63_earthfloor_center x
  have rh : (hs.flatten.map Heatbridge.asDict).mapM Heatbridge.make = .ok hs.flatten := mapM_roundtrip _ _ _ fun x _ => C63_heat_bridge x
  refine ⟨f, gs, ws, ds, h1, hs, hf, hgs, hws, hds, ?_, hhs, ?_, ?_⟩
  · rw [hh0]; exact hh1
  · simp [-List.map_flatten, Envelope.make, PyVal.getList, PyVal.get, List.lookup, PyVal.asList, ok_bind, rg, rw', rd, rp, rc, pure, Except.pure]
  · simp [-List.map_flatten, PyVal.getList, PyVal.get, List.lookup, PyVal.asList, ok_bind, rh]

/-- **C60, heat loss and solar gain.** Whatever envelope is converted (without detailed sunshades on opaque parts, see
C63), the checker gives for the converted envelope, in every region, the same U_A, eta_AH and eta_AC as for the
original one; if it refuses the one, it refuses the other for the same reason. -/
theorem C60_indices_partial {common env env' : PyVal} {e : Envelope} (he : Envelope.make env = .ok e)
    (hg : ∀ p ∈ e.gps, OpaqueSimple p.sunshade) (hd : ∀ p ∈ e.ds, OpaqueSimple p.sunshade)
    (h : convertLv2ToLv3 common env = .ok env') (region : ℤ) : checkUaEtaA region env' = checkUaEtaA region env := by
  obtain ⟨f, gs, ws, ds, hb, hbs, -, h1, h2, h3, -, -, h6, -⟩ := lv3_reads he hg hd h
  rw [checkUaEtaA, checkUaEtaA, he, h6, ok_bind, ok_bind]
  have hp : sumM (fun s : Efp => s.getQ region) (epsLv3 e.eps) = sumM (fun s : Efp => s.getQ region) e.eps := by
    unfold sumM epsLv3
    rw [List.mapM_map]
    rfl
  have ha : (Envelope.mk gs.flatten ws.flatten ds.flatten (epsLv3 e.eps) (ecsLv3 e.ecs)).area = e.area := by
    have a1 := areas_split (size := fun p : GP => p.area) (fun _ _ _ => rfl) h1
    have a2 := areas_split (size := fun p : Win => p.area) (fun _ _ _ => rfl) h2
    have a3 := areas_split (size := fun p : Door => p.area) (fun _ _ _ => rfl) h3
    have a4 : ((ecsLv3 e.ecs).map fun p => p.area) = e.ecs.map fun p => p.area := by simp [ecsLv3]
    simp only [Envelope.area, List.sum_append, a1, a2, a3, a4]
  have hq : (Envelope.mk gs.flatten ws.flatten ds.flatten (epsLv3 e.eps) (ecsLv3 e.ecs)).getQ region = e.getQ region := by
    rw [getQ_eq, getQ_eq]
    dsimp only
    rw [sumM_split (fun p s c => gp_getQ_scale region p s c) h1, sumM_split (fun p s c => win_getQ_scale region p s c) h2,
      sumM_split (fun p s c => door_getQ_scale region p s c) h3, hp]
  have hm : ∀ season, (Envelope.mk gs.flatten ws.flatten ds.flatten (epsLv3 e.eps) (ecsLv3 e.ecs)).getM region season = e.getM region season := by
    intro season
    rw [getM_eq, getM_eq]
    dsimp only
    rw [sumM_split (fun p s c => gp_getM_scale region season p s c) h1, sumM_split (fun p s c => win_getM_scale region season p s c) h2,
      sumM_split (fun p s c => door_getM_scale region season p s c) h3]
  simp only [Envelope.check, ha, hq, hm]

/-- **C60, sizes.** The converted envelope can be read; its general parts, windows, doors and heat bridges are, in order,
the three shares of the original ones (same construction, sizes proportional to the floor areas and adding up to the
original size), and its earth floors are the original ones, in the underfloor space. -/
theorem C60_parts_partial {common env env' : PyVal} {e : Envelope} (he : Envelope.make env = .ok e)
    (hg : ∀ p ∈ e.gps, OpaqueSimple p.sunshade) (hd : ∀ p ∈ e.ds, OpaqueSimple p.sunshade)
    (h : convertLv2ToLv3 common env = .ok env') : ∃ f e' hb hb', FloorAreas.make common = .ok f ∧ Envelope.make env' = .ok e' ∧
      Spec.SplitInto (Spec.SharesOf Spec.SameGP (fun p => p.area) (fun p => p.spaceType) (fun p => p.name) f) e.gps e'.gps ∧
      Spec.SplitInto (Spec.SharesOf Spec.SameWin (fun p => p.area) (fun p => p.spaceType) (fun p => p.name) f) e.ws e'.ws ∧
      Spec.SplitInto (Spec.SharesOf Spec.SameDoor (fun p => p.area) (fun p => p.spaceType) (fun p => p.name) f) e.ds e'.ds ∧
      e'.eps = e.eps.map (fun p => { p with spaceType := .underfloor }) ∧
      e'.ecs = e.ecs.map (fun p => { p with spaceType := "underfloor" }) ∧
      (do (← env.getList "heat_bridges").mapM Heatbridge.make) = .ok hb ∧
      (do (← env'.getList "heat_bridges").mapM Heatbridge.make) = .ok hb' ∧
      Spec.SplitInto (Spec.SharesOf Spec.SameBridge (fun p => p.length) (fun p => p.spaceType) (fun p => p.name) f) hb hb' := by
  obtain ⟨f, gs, ws, ds, hb, hbs, hf, h1, h2, h3, h4, h5, h6, h7⟩ := lv3_reads he hg hd h
  refine ⟨f, _, hb, _, hf, h6, ?_, ?_, ?_, rfl, rfl, h4, h7, ?_⟩
  · exact split_into (lv3 := GP.lv3) (fun _ _ _ => rfl) (fun _ _ _ => rfl) (fun _ _ _ => rfl) (fun _ _ _ => rfl) h1
  · exact split_into (lv3 := Win.lv3) (fun _ _ _ => rfl) (fun _ _ _ => rfl) (fun _ _ _ => rfl) (fun _ _ _ => rfl) h2
  · exact split_into (lv3 := Door.lv3) (fun _ _ _ => rfl) (fun _ _ _ => rfl) (fun _ _ _ => rfl) (fun _ _ _ => rfl) h3
  · exact split_into (lv3 := Heatbridge.lv3) (fun _ _ _ => rfl) (fun _ _ _ => rfl) (fun _ _ _ => rfl) (fun _ _ _ => rfl) h5

/-- **C60, completeness.** A readable envelope with a list of heat bridges is converted for all floor areas whose
total is not zero. -/
theorem C60_defined {common env : PyVal} {e : Envelope} {f : FloorAreas} {hb : List Heatbridge} (he : Envelope.make env = .ok e)
    (hh : (do (← env.getList "heat_bridges").mapM Heatbridge.make) = .ok hb) (hf : FloorAreas.make common = .ok f) (h0 : f.total ≠ 0) :
    ∃ env', convertLv2ToLv3 common env = .ok env' := by
  simp only [Envelope.make, bind_ok_iff] at he
  obtain ⟨g0, hg0, g1, hg1, w0, hw0, w1, hw1, d0, hd0, d1, hd1, p0, hp0, p1, hp1, c0, hc0, c1, hc1, he⟩ := he
  cases he
  obtain ⟨b0, hb0, hb1⟩ := bind_ok_iff.1 hh
  obtain ⟨gs, hgs⟩ := mapM_ok_of (f := splitPart f (fun p => p.area) GP.lv3) (l := g1) fun p _ => splitPart_defined p h0
  obtain ⟨ws, hws⟩ := mapM_ok_of (f := splitPart f (fun p => p.area) Win.lv3) (l := w1) fun p _ => splitPart_defined p h0
  obtain ⟨ds, hds⟩ := mapM_ok_of (f := splitPart f (fun p => p.area) Door.lv3) (l := d1) fun p _ => splitPart_defined p h0
  obtain ⟨hs, hhs⟩ := mapM_ok_of (f := splitPart f (fun p => p.length) Heatbridge.lv3) (l := hb) fun p _ => splitPart_defined p h0
  simp only [convertLv2ToLv3, hf, hg0, hg1, hw0, hw1, hd0, hd1, hb0, hb1, hp0, hp1, hc0, hc1, gpsLv3, wsLv3, dsLv3, hbsLv3, hgs, hws, hds, hhs, ok_bind]
  exact ⟨_, rfl⟩

/-- Shares of a part of non-negative size are not negative when no room has a negative floor area. -/
theorem C60_nonneg {α : Type} {same : α → α → Prop} {size : α → ℝ} {room : α → SpaceType} {name : α → String} {f : FloorAreas} {p : α} {l : List α}
    (h : Spec.SharesOf same size room name f p l) (hp : 0 ≤ size p) (ht : 0 < f.total) (hm : 0 ≤ f.main) (ho : 0 ≤ f.other)
    (hn : f.main + f.other ≤ f.total) : ∀ x ∈ l, 0 ≤ size x := by
  intro x hx
  have : size x * f.total ∈ l.map fun x => size x * f.total := List.mem_map.2 ⟨x, hx, rfl⟩
  rw [h.sizes] at this
  refine nonneg_of_mul_nonneg_left (a := size x) (b := f.total) ?_ ht
  simp only [List.mem_cons, List.not_mem_nil, or_false] at this
  rcases this with e | e | e <;> rw [e]
  · exact mul_nonneg hp hm
  · exact mul_nonneg hp ho
  · exact mul_nonneg hp (by linarith)

/-- The dictionary of an envelope. -/
def envDict (e : Envelope) (hb : List Heatbridge) : PyVal :=
  .dict [("general_parts", .list (e.gps.map GP.asDict)), ("windows", .list (e.ws.map Win.asDict)), ("doors", .list (e.ds.map Door.asDict)),
    ("heat_bridges", .list (hb.map Heatbridge.asDict)), ("earthfloor_perimeters", .list (e.eps.map Efp.asDict)),
    ("earthfloor_centers", .list (e.ecs.map Efc.asDict))]

theorem envDict_reads {e : Envelope} {hb : List Heatbridge} (hg : ∀ p ∈ e.gps, GPReadable p) (hw : ∀ p ∈ e.ws, TransientReadable p.sunshade)
    (hd : ∀ p ∈ e.ds, OpaqueSimple p.sunshade) : Envelope.make (envDict e hb) = .ok e ∧
      (do (← (envDict e hb).getList "heat_bridges").mapM Heatbridge.make) = .ok hb := by
  have rg : (e.gps.map GP.asDict).mapM GP.make = .ok e.gps := mapM_roundtrip _ _ _ fun x hx => gp_roundtrip (hg x hx)
  have rw' : (e.ws.map Win.asDict).mapM Win.make = .ok e.ws := mapM_roundtrip _ _ _ fun x hx => win_roundtrip (hw x hx)
  have rd : (e.ds.map Door.asDict).mapM Door.make = .ok e.ds := mapM_roundtrip _ _ _ fun x hx => door_roundtrip (hd x hx)
  have rp : (e.eps.map Efp.asDict).mapM Efp.make = .ok e.eps := mapM_roundtrip _ _ _ fun x _ => C63_earthfloor_perimeter x
  have rc : (e.ecs.map Efc.asDict).mapM Efc.make = .ok e.ecs := mapM_roundtrip _ _ _ fun x _ => C63_earthfloor_center x
  have rh : (hb.map Heatbridge.asDict).mapM Heatbridge.make = .ok hb := mapM_roundtrip _ _ _ fun x _ => C63_heat_bridge x
  constructor
  · simp [envDict, Envelope.make, PyVal.getList, PyVal.get, List.lookup, PyVal.asList, ok_bind, rg, rw', rd, rp, rc, pure, Except.pure]
  · simp [envDict, PyVal.getList, PyVal.get, List.lookup, PyVal.asList, ok_bind, rh]

/-- A house of one wall, one window, one door and an earth floor. -/
noncomputable def splitHouse : Envelope where
  gps := [plainWall]
  ws := [{ name := "w", nextSpace := .outdoor, direction := .s, area := 4, spaceType := .undefined, sunshade := .notInput,
           spec := { u := 4.65, etaDH := 0.5, etaDC := 0.5, glass := .single, flame := .metal } }]
  ds := [{ name := "d", nextSpace := .outdoor, direction := .n, area := 2, spaceType := .undefined, sunshade := .notInput, u := 4.65 }]
  eps := [{ name := "p", nextSpace := .outdoor, length := 3, spaceType := .undefined, psi := 0.8 }]
  ecs := [{ name := "c", area := 5, spaceType := "undefined", layers := .list [] }]

/-- Its heat bridge. -/
noncomputable def splitBridge : Heatbridge :=
  { name := "b", nextSpaces := [.outdoor], directions := ["s"], length := 2, spaceType := .undefined, psi := 0.3 }

/-- Its floor areas. -/
noncomputable def splitAreas : PyVal :=
  .dict [("main_occupant_room_floor_area", .num 30), ("other_occupant_room_floor_area", .num 60), ("total_floor_area", .num 120)]

/-- That house, with a heat bridge, meets the hypotheses of C60 and is converted. -/
theorem C60_example : ∃ env env', Envelope.make env = .ok splitHouse ∧ (∀ p ∈ splitHouse.gps, OpaqueSimple p.sunshade) ∧
    (∀ p ∈ splitHouse.ds, OpaqueSimple p.sunshade) ∧ convertLv2ToLv3 splitAreas env = .ok env' := by
  obtain ⟨d, h, hs⟩ := C63_example
  have hr : ∀ p ∈ splitHouse.gps, GPReadable p := by
    intro p hp
    rw [splitHouse, List.mem_singleton] at hp
    rw [hp]
    exact ⟨gp_canon h, hs⟩
  have hw : ∀ p ∈ splitHouse.ws, TransientReadable p.sunshade := by
    intro p hp
    rw [splitHouse, List.mem_singleton] at hp
    rw [hp]
    trivial
  have hd : ∀ p ∈ splitHouse.ds, OpaqueSimple p.sunshade := by
    intro p hp
    rw [splitHouse, List.mem_singleton] at hp
    rw [hp]
    trivial
  obtain ⟨h1, h2⟩ := envDict_reads (hb := [splitBridge]) hr hw hd
  have hf : FloorAreas.make splitAreas = .ok ⟨30, 60, 120⟩ := by
    simp [FloorAreas.make, splitAreas, PyVal.getNum, PyVal.get, List.lookup, PyVal.asNum, ok_bind, pure, Except.pure]
  obtain ⟨env', h3⟩ := C60_defined h1 h2 hf (by norm_num)
  exact ⟨_, env', h1, fun p hp => (hr p hp).2, hd, h3⟩

/-- A wall towards an open space with a detailed sunshade, as the reader expects it. -/
noncomputable def shadedInner : PyVal :=
  .dict [("name", .str "wall"), ("general_part_type", .str "wall"), ("next_space", .str "open_space"), ("direction", .str "horizontal"),
    ("area", .num 10), ("space_type", .str "undefined"),
    ("sunshade", .dict [("is_defined", .bool true), ("input", .str "complex"), ("x1", .num 0), ("x2", .num 1), ("x3", .num 0), ("y1", .num 0),
      ("y2", .num 1), ("y3", .num 0), ("z_x_pls", .num 0), ("z_x_mns", .num 0), ("z_y_pls", .num 1), ("z_y_mns", .num 0)]),
    ("spec", .dict [("structure", .str "other"), ("u_value_other", .num 0.5), ("weight", .str "light")])]

/-- The wall read from it. -/
noncomputable def shadedInnerPart : GP :=
  ⟨⟨"wall", .wall, .openSpace, .horizontal, 10, .undefined, .input ⟨0, 1, 0, 0, 1, 0, 0, 0, 1, 0⟩⟩, .other .wall 0.5 "light"⟩

theorem shadedInner_reads : GP.make shadedInner = .ok shadedInnerPart := by
  simp [shadedInner, shadedInnerPart, GP.make, GPSpec.make, OpaqueShade.make, ShadeKernel.read, PyVal.getStr, PyVal.getNum, PyVal.getBool, PyVal.get,
    PyVal.asStr, PyVal.asNum, PyVal.asBool, List.lookup, ok_bind, pure, Except.pure, GPType.ofValue, NextSpace.ofValue, Direction.ofValue,
    SpaceType.ofValue]

/-- An envelope made of that wall. -/
noncomputable def shadedEnvelope : PyVal :=
  .dict [("general_parts", .list [shadedInner]), ("windows", .list []), ("doors", .list []), ("heat_bridges", .list []),
    ("earthfloor_perimeters", .list []), ("earthfloor_centers", .list [])]

/-- **C60, violated.** The checker evaluates this envelope, the conversion accepts it, and the checker cannot read the
result: the detailed sunshade is written in another form than it is read (C63). -/
theorem C60_violated : ∃ env', (∃ r, checkUaEtaA 6 shadedEnvelope = .ok r) ∧ convertLv2ToLv3 splitAreas shadedEnvelope = .ok env' ∧
    checkUaEtaA 6 env' = .error .keyError := by
  have he : Envelope.make shadedEnvelope = .ok ⟨[shadedInnerPart], [], [], [], []⟩ := by
    simp [shadedEnvelope, Envelope.make, PyVal.getList, PyVal.get, List.lookup, PyVal.asList, ok_bind, shadedInner_reads, pure, Except.pure]
  have hf : FloorAreas.make splitAreas = .ok ⟨30, 60, 120⟩ := by
    simp [FloorAreas.make, splitAreas, PyVal.getNum, PyVal.get, List.lookup, PyVal.asNum, ok_bind, pure, Except.pure]
  have d : ∀ z, pyDiv z (10 : ℝ) = .ok (z / 10) := fun z => by rw [pyDiv, if_neg (by norm_num)]
  have d' : ∀ z, pyDiv z (120 : ℝ) = .ok (z / 120) := fun z => by rw [pyDiv, if_neg (by norm_num)]
  obtain ⟨env', h⟩ := C60_defined (hb := []) he
    (by simp [shadedEnvelope, PyVal.getList, PyVal.get, List.lookup, PyVal.asList, ok_bind, pure, Except.pure]) hf (by norm_num)
  refine ⟨env', ?_, h, ?_⟩
  · rw [checkUaEtaA, he, ok_bind]
    simp [Envelope.check, Envelope.area, Envelope.getQ, Envelope.getM, shadedInnerPart, GP.getQ, GP.getM, GPSpec.getU, NextSpace.getH, region8,
      ok_bind, pure, Except.pure, d]
  · simp only [convertLv2ToLv3, hf, ok_bind] at h
    simp [shadedEnvelope, PyVal.getList, PyVal.get, List.lookup, PyVal.asList, ok_bind, shadedInner_reads, gpsLv3, wsLv3, dsLv3, hbsLv3,
      splitPart, separate, d', pure, Except.pure] at h
    rw [← h]
    simp [checkUaEtaA, Envelope.make, PyVal.getList, PyVal.get, List.lookup, PyVal.asList, ok_bind]
    rw [C63_violated _ _ rfl]
    rfl

end HLC
