import Verif.Props.ModelHouse
import Verif.Props.UPsi
import Verif.Props.ConvUExport
import Verif.Props.ConvRooms
import Verif.Props.Tables
import Verif.Model.UPsi
import Verif.Model.Lv4Parts
import Mathlib.Tactic.FinCases

/-!
# Further facts about the parts of an envelope: faces, maxima, bridges, layers, factors
-/

namespace HLC

open HLC.Conv HLC.Spec

theorem detached_faces {fl : String} {bath : Option String} {T r hb ho : ℝ} {aEnv : Option ℝ} {g : Bool}
    (hfl : fl = "base" ∧ g = true ∧ hb = 0.5 ∧ ho = 0.5 ∨ fl = "floor" ∧ ho = 0)
    (hc : houseConsts "detached" (some fl) bath = .ok (detachedConsts hb ho))
    (hw : getBath "detached" (some fl) bath 1.82 1.82 = .ok (detachedBath fl g)) (hT : 0 < T) :
    ∃ s p, calcArea "detached" T r (some fl) bath aEnv = .ok s ∧ noSpec s = .ok p ∧
      Spec.face p "sw" = (List.zipWith (· * ·) s.lMs (Spec.storeys "detached")).sum ∧
      Spec.face p "nw" = (List.zipWith (· * ·) s.lOs (Spec.storeys "detached")).sum ∧
      Spec.face p "ne" = (List.zipWith (· * ·) s.lMs (Spec.storeys "detached")).sum ∧
      Spec.face p "se" = (List.zipWith (· * ·) s.lOs (Spec.storeys "detached")).sum := by
  have hfl' : fl = "floor" ∨ fl = "base" := by rcases hfl with ⟨h, -⟩ | ⟨h, -⟩ <;> simp [h]
  have hho : 0 ≤ ho := by rcases hfl with ⟨-, -, -, h⟩ | ⟨-, h⟩ <;> rw [h]; norm_num
  obtain ⟨f0, f1, h0, h1, hs, -⟩ := calc_detached (r := r) (aEnv := aEnv) hfl' hc hho hw hT
  have hn : noSpec (detachedShape fl hb ho (detachedBath fl g) T r f0 f1) =
      .ok (detachedParts fl (detachedShape fl hb ho (detachedBath fl g) T r f0 f1)) := by
    rcases hfl with ⟨rfl, rfl, rfl, rfl⟩ | ⟨rfl, rfl⟩
    · refine noSpec_base rfl rfl ?_
      simp [detachedShape, houseShape, detachedConsts, detachedEntrance, detachedBath, efOther]
    · refine noSpec_floor rfl rfl ?_
      cases g <;> simp [detachedShape, houseShape, detachedConsts, detachedEntrance, detachedBath, lBaseOther, Four.add3, Four.scale]
  refine ⟨_, _, hs, hn, ?_, ?_, ?_, ?_⟩ <;> rcases hfl' with rfl | rfl <;>
    simp [Spec.face, Spec.storeys, detachedParts, detachedShape, houseShape, srfTotal, outer, inner, eavesWindow, detachedConsts] <;> ring

/-- **C64, faces.** For every kind of standard house, positive floor area, window ratio and (optional) required envelope area: walls,
windows and doors on each of the four faces together are as large as the sides of the storeys on that face times the
heights of the storeys; opposite faces belong to the same sides. -/
theorem C64_faces {ht : String} {fl bath : Option String} {T r : ℝ} {aEnv : Option ℝ} (hk : Spec.HouseKind ht fl bath) (hT : 0 < T) :
    ∃ s p, calcArea ht T r fl bath aEnv = .ok s ∧ noSpec s = .ok p ∧
      Spec.face p "sw" = (List.zipWith (· * ·) s.lMs (Spec.storeys ht)).sum ∧
      Spec.face p "nw" = (List.zipWith (· * ·) s.lOs (Spec.storeys ht)).sum ∧
      Spec.face p "ne" = (List.zipWith (· * ·) s.lMs (Spec.storeys ht)).sum ∧
      Spec.face p "se" = (List.zipWith (· * ·) s.lOs (Spec.storeys ht)).sum := by
  cases hk with
  | attached hf hb =>
    obtain ⟨f, h1, hc, hE⟩ := calc_attached (r := r) (aEnv := aEnv) hf hb hT
    refine ⟨_, _, hc, noSpec_attached rfl ?_, ?_, ?_, ?_, ?_⟩
    · simp [attachedShape, houseShape, attachedConsts, attachedWet, efOther, lBaseOther, Four.add3, Four.scale]
    all_goals
      simp [Spec.face, Spec.storeys, attachedParts, attachedShape, houseShape, attachedConsts, srfTotal, Four.scale, inner, outer, eavesWindow] <;> ring
  | base hb =>
    refine detached_faces (hb := 0.5) (ho := 0.5) (g := true) (.inl ⟨rfl, rfl, rfl, rfl⟩) ?_ ?_ hT
    · obtain ⟨b, hb'⟩ : ∃ b, bathHeight bath = .ok b := by rcases hb with rfl | rfl | rfl | rfl <;> simp [bathHeight]
      simp [houseConsts, hb', byFloor, byHouse, ok_bind, detachedConsts]
    · simp [getBath, onHouse, onFloor, ok_bind, detachedBath, pure, Except.pure]
  | @floor b hb =>
    rcases hb with rfl | rfl | rfl
    · refine detached_faces (hb := 0.5) (ho := 0) (g := true) (.inr ⟨rfl, rfl⟩) ?_ ?_ hT
      · simp [houseConsts, bathHeight, byFloor, byHouse, ok_bind, detachedConsts]
      · simp [getBath, onHouse, onFloor, onBath, ok_bind, detachedBath, pure, Except.pure]
    all_goals
      refine detached_faces (hb := 0) (ho := 0) (g := false) (.inr ⟨rfl, rfl⟩) ?_ ?_ hT
      · simp [houseConsts, bathHeight, byFloor, byHouse, ok_bind, detachedConsts]
      · simp [getBath, onHouse, onFloor, onBath, ok_bind, detachedBath, pure, Except.pure]

/-- **C64, the figures reported.** Whatever house is calculated, the figures reported with it agree: the total is that without the foundations
and the foundations; the openings are the given ratio of the part without foundations; the windows are the openings without the doors, and
the windows of the four sides are all windows; the perimeter of every storey is four times the root of its area times its form factor and
twice the sum of its sides. -/
theorem C64_report {ht : String} {fl bath : Option String} {T r : ℝ} {aEnv : Option ℝ} {s : HouseShape}
    (h : calcArea ht T r fl bath aEnv = .ok s) :
    s.total = s.totalNotBase + s.baseOutside.sum + s.baseInside ∧
    s.totalNotBase = s.fTotal + s.efTotal + s.roof + s.wall.sum + s.windowTotal + s.door.sum ∧
    s.openTotal = r * s.totalNotBase ∧ s.windowTotal = s.openTotal - s.door.sum ∧ s.window.sum = s.windowTotal ∧
    List.Forall₂ (fun (x : ℝ × ℝ) l => l = 4 * Real.sqrt x.1 * x.2) (s.aF.zip s.fS) s.lPrm ∧
    List.Forall₂ (fun (x : ℝ × ℝ) p => x.1 + x.2 = p / 2) (s.lMs.zip s.lOs) ((s.lPrm.zip s.aF).map Prod.fst) := by
  simp only [calcArea, bind_ok_iff] at h
  obtain ⟨c, hc, aF, -, etrc, -, bth, -, fS, -, lPrm, hp, l, hl, door, hd, e⟩ := h
  cases e
  have hdoor : door.sum = c.doorEtrc + c.doorBack ∧ c.rWindow.sum = 1 := by
    simp only [houseConsts, bind_ok_iff] at hc
    obtain ⟨_, -, _, -, _, -, hc⟩ := hc
    unfold byHouse at hc
    simp only [getDoor, bind_ok_iff] at hd
    obtain ⟨d90, h9, d180, h18, e⟩ := hd
    cases e
    unfold byHouse at h9 h18
    split_ifs at hc h9 h18 with h1 h2
    · cases hc
      cases h9
      cases h18
      constructor <;> simp only [Four.sum] <;> norm_num
    · cases hc
      cases h9
      cases h18
      constructor <;> simp only [Four.sum] <;> norm_num
  have hw : (c.rWindow.scale ((houseShape ht fl r c etrc bth aF fS lPrm l.1 l.2 door).windowTotal)).sum =
      (houseShape ht fl r c etrc bth aF fS lPrm l.1 l.2 door).windowTotal := by
    have := hdoor.2
    simp only [Four.sum, Four.scale] at this ⊢
    linear_combination (houseShape ht fl r c etrc bth aF fS lPrm l.1 l.2 door).windowTotal * this
  refine ⟨rfl, ?_, ?_, ?_, hw, ?_, ?_⟩
  · have h1 := hdoor.1
    simp only [houseShape, Four.sum] at hw h1 ⊢
    simp only [Four.scale] at hw ⊢
    linarith
  · simp only [houseShape]
    ring
  · simp only [houseShape]
    rw [hdoor.1]
    ring
  · refine (mapM_ok_iff.1 hp).imp fun x y hy => ?_
    simp only [bind_ok_iff, pySqrt] at hy
    obtain ⟨v, hv, e⟩ := hy
    cases e
    split_ifs at hv
    cases hv
    rfl
  · have hlong : ∀ z : List (ℝ × ℝ), List.Forall₂ (fun (x : ℝ × ℝ) p => x.1 + x.2 = p / 2)
        ((z.map fun x => x.1 / 4 + sideDif x.1 x.2).zip (z.map fun x => x.1 / 4 - sideDif x.1 x.2)) (z.map Prod.fst) ∧
        List.Forall₂ (fun (x : ℝ × ℝ) p => x.1 + x.2 = p / 2)
        ((z.map fun x => x.1 / 4 - sideDif x.1 x.2).zip (z.map fun x => x.1 / 4 + sideDif x.1 x.2)) (z.map Prod.fst) := by
      intro z
      induction z with
      | nil => exact ⟨.nil, .nil⟩
      | cons a z ih => exact ⟨.cons (by dsimp only; ring) ih.1, .cons (by dsimp only; ring) ih.2⟩
    unfold getL byHouse at hl
    split_ifs at hl
    · cases hl
      exact (hlong (lPrm.zip aF)).1
    · cases hl
      exact (hlong (lPrm.zip aF)).2

/-- `C64_report` applies to the house of `convert_indices_to_lv2_info.py` 208-225. -/
example : ∃ s, calcArea "detached" 90 0.1 (some "floor") (some "base") (some 266.1) = .ok s ∧ s.openTotal = 0.1 * s.totalNotBase := by
  obtain ⟨s, p, h, -⟩ := C64_example
  exact ⟨s, h, (C64_report h).2.2.1⟩

/-- **C58, standard values.** In the regions 1 to 7 the standard value of every kind of part is attainable: it does not exceed the
maximum, so that a house losing as much heat as the standard one can always be described. -/
theorem C58_standard {region : ℤ} (h : 1 ≤ region ∧ region ≤ 7) (p : PT) : ∃ s, uPsiStd region p = .ok s ∧ s ≤ uPsiMax p := by
  refine ⟨uPsiStdRow p ⟨(region - 1).toNat, by omega⟩, by rw [uPsiStd, region8, dif_pos ⟨h.1, by omega⟩], ?_⟩
  obtain ⟨r, rfl⟩ : ∃ r : Fin 7, region = (r : ℤ) + 1 := ⟨⟨(region - 1).toNat, by omega⟩, by simp; omega⟩
  fin_cases r <;> cases p <;> simp [uPsiStdRow, uPsiMax] <;> norm_num

/-- **C58, region 8.** There the standard value is attainable except for boundary walls and boundary floors, whose standard exceeds
the maximum. -/
theorem C58_region8 (p : PT) : ∃ s, uPsiStd 8 p = .ok s ∧ (uPsiMax p < s ↔ p = .boundaryWall ∨ p = .boundaryFloor) := by
  refine ⟨uPsiStdRow p 7, by rw [uPsiStd, region8, dif_pos (by norm_num)]; rfl, ?_⟩
  cases p <;> simp [uPsiStdRow, uPsiMax] <;> norm_num

/-- The kind of part of `get_r_surf`, what it faces, and the bare board (thickness, conductivity) of a kind of opaque part: plasterboard of 9.5 mm
or, in floors, plywood of 12 mm. -/
noncomputable def bareBoard : PT → Option (String × String × ℝ × ℝ)
  | .roof => some ("roof", "outdoor", 0.0095, 0.22)
  | .ceiling => some ("ceiling", "closed_space", 0.0095, 0.22)
  | .wall => some ("wall", "outdoor", 0.0095, 0.22)
  | .floor => some ("floor", "outdoor", 0.012, 0.16)
  | .boundaryCeiling => some ("upward_boundary_floor", "air_conditioned", 0.0095, 0.22)
  | .boundaryWall => some ("boundary_wall", "air_conditioned", 0.0095, 0.22)
  | .boundaryFloor => some ("downward_boundary_floor", "air_conditioned", 0.012, 0.16)
  | .window => none
  | .door => none
  | .earthfloorPerimeter => none

/-- **C58, maxima.** The maximum for an opaque part is the heat transmission coefficient of an uninsulated board between the surface resistances
which the converter uses for that kind of part; windows and doors are limited to 6.51 W/m2K and the edges of floors on the ground practically not. -/
theorem C58_bare (p : PT) : (∀ k nx t l, bareBoard p = some (k, nx, t, l) → ∃ r, getRSurf k nx = .ok r ∧ uPsiMax p * (r.1 + t / l + r.2) = 1) ∧
    (bareBoard p = none → uPsiMax p = if p = .earthfloorPerimeter then 100 else 6.51) := by
  constructor
  · intro k nx t l h
    cases p <;> simp only [bareBoard, Option.some.injEq, Prod.mk.injEq, reduceCtorEq] at h <;> obtain ⟨rfl, rfl, rfl, rfl⟩ := h <;>
      simp only [getRSurf] <;> simp <;> norm_num [uPsiMax]
  · intro h
    cases p <;> simp [bareBoard] at h <;> simp [uPsiMax]

/-- The values of the standard of 2016 by zones: regions 1 and 2, region 3, regions 4 to 7, region 8. -/
noncomputable def standardZones : PT → ℝ × ℝ × ℝ × ℝ
  | .roof | .ceiling | .boundaryCeiling => (0.17, 0.24, 0.24, 0.24)
  | .wall | .boundaryWall => (0.35, 0.53, 0.53, 4.1)
  | .floor | .boundaryFloor => (0.34, 0.34, 0.48, 3.52)
  | .window | .door => (2.33, 3.49, 4.65, 6.51)
  | .earthfloorPerimeter => (0.53, 0.53, 0.76, 1.8)

/-- **C58, standard by zones.** The standard values are those of the zone of the region; no warmer region has a stricter value. -/
theorem C58_zones {region : ℤ} (h : 1 ≤ region ∧ region ≤ 8) (p : PT) :
    uPsiStd region p = .ok (if region ≤ 2 then (standardZones p).1 else if region ≤ 3 then (standardZones p).2.1
      else if region ≤ 7 then (standardZones p).2.2.1 else (standardZones p).2.2.2) ∧
    ∀ region', region ≤ region' → region' ≤ 8 → ∃ s s', uPsiStd region p = .ok s ∧ uPsiStd region' p = .ok s' ∧ s ≤ s' := by
  have key : ∀ region : ℤ, 1 ≤ region ∧ region ≤ 8 → uPsiStd region p = .ok (if region ≤ 2 then (standardZones p).1
      else if region ≤ 3 then (standardZones p).2.1 else if region ≤ 7 then (standardZones p).2.2.1 else (standardZones p).2.2.2) := by
    intro region h
    rw [uPsiStd, region8, dif_pos h]
    obtain ⟨r, rfl⟩ : ∃ r : Fin 8, region = (r : ℤ) + 1 := ⟨⟨(region - 1).toNat, by omega⟩, by simp; omega⟩
    congr 1
    fin_cases r <;> cases p <;> simp [uPsiStdRow, standardZones] <;> norm_num
  refine ⟨key region h, fun region' h1 h2 => ⟨_, _, key region h, key region' ⟨by omega, h2⟩, ?_⟩⟩
  have hz : (standardZones p).1 ≤ (standardZones p).2.1 ∧ (standardZones p).2.1 ≤ (standardZones p).2.2.1 ∧
      (standardZones p).2.2.1 ≤ (standardZones p).2.2.2 := by
    cases p <;> norm_num [standardZones]
  obtain ⟨z1, z2, z3⟩ := hz
  split_ifs <;> first | omega | linarith

/-- **C60, heat bridges.** A heat bridge between spaces loses its length times its coefficient times the mean of the temperature
difference coefficients of the spaces it borders; a bridge that borders no space has no loss: a division by zero. -/
theorem C60_bridges {region : ℤ} (hr : 1 ≤ region ∧ region ≤ 8) (b : Heatbridge) :
    (b.nextSpaces = [] → b.getQ region = .error .zeroDivisionError) ∧
    (b.nextSpaces ≠ [] → ∃ hs : List ℝ, List.Forall₂ (fun (s : NextSpace) h => s.getH region = .ok h) b.nextSpaces hs ∧
      b.getQ region = .ok (b.length * b.psi * (hs.sum / b.nextSpaces.length))) := by
  constructor
  · intro e
    simp [Heatbridge.getQ, e, pyDiv, pure, Except.pure, bind, Except.bind]
  · intro e
    obtain ⟨hs, h⟩ := mapM_ok_of (f := fun s : NextSpace => s.getH region) (l := b.nextSpaces)
      fun s _ => by obtain ⟨v, hv, -⟩ := (C56_spaces s region).1 hr; exact ⟨v, hv⟩
    have hl := mapM_length h
    refine ⟨hs, mapM_ok_iff.1 h, ?_⟩
    simp [Heatbridge.getQ, h, pyDiv, e, pure, Except.pure, bind, Except.bind, hl]

/-- C60, a concrete case: a bridge of 10 m with 0.5 W/(m K) between outdoor air and a closed space. -/
theorem C60_bridge_example : ∃ b : Heatbridge, b.nextSpaces ≠ [] ∧ b.getQ 6 = .ok 4.25 := by
  refine ⟨{ name := "", nextSpaces := [.outdoor, .closedSpace], directions := [], length := 10, spaceType := .undefined, psi := 0.5 }, by simp, ?_⟩
  obtain ⟨v, hv, -, -, h1, -⟩ := (C56_spaces .outdoor 6).1 (by norm_num)
  obtain ⟨w, hw, -, -, -, h2, -⟩ := (C56_spaces .closedSpace 6).1 (by norm_num)
  have h1 : v = 1 := h1.2 (.inl rfl)
  have h2 : w = 0.7 := h2.2 (.inl rfl)
  obtain ⟨hs, hf, hq⟩ := (C60_bridges (region := 6) (by norm_num)
    { name := "", nextSpaces := [.outdoor, .closedSpace], directions := [], length := 10, spaceType := .undefined, psi := 0.5 }).2 (by simp)
  cases hf with
  | cons a hf =>
    cases hf with
    | cons b hf =>
      cases hf
      cases Except.ok.inj (a.symm.trans hv)
      cases Except.ok.inj (b.symm.trans hw)
      rw [hq, h1, h2]
      norm_num

/-- **C60, solar heat through heat bridges.** The solar heat gain of a heat bridge is its length times 0.034 times its coefficient times the
mean direction factor of the spaces it borders, where a space other than outdoor air counts with zero; it is defined for all directions of
the table. -/
theorem C60_bridge_gains {region : ℤ} {season : String} (hr : 1 ≤ region ∧ region ≤ 8) (hs : season = "heating" ∨ season = "cooling")
    (h8 : ¬ (region = 8 ∧ season = "heating")) (b : Heatbridge) (hl : b.directions.length = b.nextSpaces.length) (hn : b.nextSpaces ≠ [])
    (hd : ∀ x ∈ b.nextSpaces.zip b.directions, ∃ d : Direction, d.value = x.2 ∧ (x.1 = .outdoor → InTable d)) :
    ∃ nus : List ℝ, List.Forall₂ (fun (x : NextSpace × String) nu => (x.1 ≠ .outdoor → nu = 0) ∧
        (x.1 = .outdoor → ∃ d : Direction, d.value = x.2 ∧ d.getNu region season = .ok (some nu))) (b.nextSpaces.zip b.directions) nus ∧
      b.getM region season = .ok (b.length * (0.034 * b.psi) * (nus.sum / b.nextSpaces.length)) := by
  have key : ∀ x ∈ b.nextSpaces.zip b.directions, ∃ v, (do
      let d ← Direction.ofValue x.2
      partNu x.1 d region season) = .ok v := by
    intro x hx
    obtain ⟨d, e, ht⟩ := hd x hx
    have e1 : Direction.ofValue x.2 = .ok d := e ▸ (C56_names "").2.1 d
    rw [e1, ok_bind]
    unfold partNu
    split_ifs with ho
    · have ht := ht ho
      rcases hs with rfl | rfl
      · obtain ⟨v, _, _, e2, -⟩ := C56_heating (r := region) (d := d) ⟨hr.1, by have := hr.2; rcases lt_or_eq_of_le this with h | h; omega; exact absurd ⟨h, rfl⟩ h8⟩ ht
        exact ⟨v, by rw [nuNum, e2]; rfl⟩
      · obtain ⟨v, _, e2, -⟩ := C56_cooling (r := region) (d := d) hr ht
        exact ⟨v, by rw [nuNum, e2]; rfl⟩
    · exact ⟨0, rfl⟩
  obtain ⟨nus, h⟩ := mapM_ok_of key
  have hlen := mapM_length h
  rw [List.length_zip, hl, min_self] at hlen
  refine ⟨nus, (mapM_ok_iff.1 h).imp fun x v hv => ?_, ?_⟩
  · simp only [bind_ok_iff] at hv
    obtain ⟨d, e1, e2⟩ := hv
    unfold partNu at e2
    refine ⟨fun hne => ?_, fun he => ?_⟩
    · rw [if_neg hne] at e2
      exact (Except.ok.inj e2).symm
    · rw [if_pos he] at e2
      refine ⟨d, ?_, ?_⟩
      · by_contra hne
        have hx : ∃ d' : Direction, d'.value = x.2 := by
          by_contra hall
          push Not at hall
          rw [(C56_names x.2).2.2.2 hall] at e1
          cases e1
        obtain ⟨d', hd'⟩ := hx
        rw [← hd', (C56_names "").2.1 d'] at e1
        cases e1
        exact hne hd'
      · simp only [nuNum, bind_ok_iff] at e2
        obtain ⟨v', e3, e4⟩ := e2
        cases v' with
        | none => cases e4
        | some y => cases e4; exact e3
  · have hz : (nus.length : ℝ) ≠ 0 := by
      rw [hlen]
      exact_mod_cast fun h => hn (List.length_eq_zero_iff.1 h)
    have h' : b.getNus region season = .ok nus := h
    rw [Heatbridge.getM, h', ok_bind, pyDiv, if_neg hz, ok_bind, hlen]
    rfl

/-- The hypotheses of `C60_bridge_gains` are met by a bridge of 10 m between the south and a closed space. -/
example : Heatbridge.getM { name := "", nextSpaces := [.outdoor, .closedSpace], directions := ["s", "horizontal"], length := 10, spaceType := .undefined, psi := 0.5 }
      6 "cooling" = .ok (10 * (0.034 * 0.5) * ((0.434 + 0) / 2)) := by
  obtain ⟨nus, h, e⟩ := C60_bridge_gains (region := 6) (season := "cooling") (by norm_num) (.inr rfl) (by norm_num)
    { name := "", nextSpaces := [.outdoor, .closedSpace], directions := ["s", "horizontal"], length := 10, spaceType := .undefined, psi := 0.5 } rfl
    (by simp) (by
      intro x hx
      simp only [List.zip_cons_cons, List.zip_nil_right, List.mem_cons, List.not_mem_nil, or_false] at hx
      rcases hx with rfl | rfl
      · exact ⟨.s, rfl, fun _ => by simp [InTable]⟩
      · exact ⟨.horizontal, rfl, fun h => by cases h⟩)
  cases h with
  | cons a h =>
    cases h with
    | cons b h =>
      cases h
      obtain ⟨d, h1, h2⟩ := a.2 rfl
      have hd : d = .s := by cases d <;> simp [Direction.value] at h1 ⊢
      subst hd
      rw [b.1 (by simp)] at e
      have h3 : Direction.s.getNu 6 "cooling" = .ok (some 0.434) := by
        simp [Direction.getNu, nuTable, nuCooling, region8, ok_bind]
      rw [h3] at h2
      cases h2
      rw [e]
      norm_num

theorem partPart_layers {p : PartPart} {rIn rEx area uAdd : ℝ} {name : String} {x : InitPart}
    (h : p.initDict rIn rEx name area uAdd = .ok x) :
    List.Forall₂ (fun (l : Layer) (y : InitLayer) => y.name = l.name ∧ y.c = l.thickness * l.volHeat) p.layers x.layers := by
  simp only [PartPart.initDict, bind_ok_iff] at h
  obtain ⟨_, -, _, -, _, -, sub, -, ls, hls, e⟩ := h
  cases e
  refine (mapM_ok_iff.1 hls).imp fun l y hy => ?_
  simp only [Layer.initDict, bind_ok_iff] at hy
  obtain ⟨_, -, e⟩ := hy
  cases e
  exact ⟨rfl, rfl⟩

/-- **C84, layers.** The layers of every part given by its construction are exported one by one, in their order, each with its name and with
the heat capacity of its thickness. -/
theorem C84_layers {p : GP} {d : Detail} {uAdd : ℝ} {region : ℤ} {ds : List PyVal} (hd : detailOf p.spec = some d)
    (h : p.initDict uAdd region = .ok ds) :
    List.Forall₂ (fun (q : PartPart) (x : PyVal) => ∃ ls, x.getList "layers" = .ok ls ∧
      List.Forall₂ (fun (l : Layer) (y : PyVal) => y.getStr "name" = .ok l.name ∧
        y.getNum "thermal_capacity" = .ok (l.thickness * l.volHeat)) q.layers ls) d.parts ds := by
  simp only [GP.initDict, bind_ok_iff] at h
  obtain ⟨xs, hx, room, -, h⟩ := h
  obtain ⟨v, hv⟩ : ∃ v, d.initDict p.name p.area v = .ok xs := by
    cases hs : p.spec with
    | wood d' => rw [hs] at hd hx; cases hd; exact ⟨_, hx⟩
    | rc d' => rw [hs] at hd hx; cases hd; exact ⟨_, hx⟩
    | steel u d' => rw [hs] at hd hx; cases hd; exact ⟨_, hx⟩
    | other t u w => rw [hs] at hd; cases hd
  have h1 := mapM_ok_iff.1 hv
  have h2 := mapM_ok_iff.1 h
  clear hv h hx hd
  generalize d.parts = ps at h1 ⊢
  induction h1 generalizing ds with
  | nil => cases h2; exact .nil
  | @cons q x ps xs a _ ih =>
    cases h2 with
    | @cons _ y _ ys b h2 =>
      refine .cons ?_ (ih h2)
      simp only [bind_ok_iff] at b
      obtain ⟨_, -, e⟩ := b
      cases e
      refine ⟨x.layers.map InitLayer.asDict, by simp [PyVal.getList, PyVal.get, List.lookup, ok_bind, PyVal.asList], ?_⟩
      rw [List.forall₂_map_right_iff]
      refine (partPart_layers a).imp fun l y hy => ?_
      simp [InitLayer.asDict, PyVal.getNum, PyVal.getStr, PyVal.get, List.lookup, ok_bind, PyVal.asNum, PyVal.asStr, hy.1, hy.2]

/-- **C56, numbers.** Where the table of directions answers at all, it answers with a number. -/
theorem C56_numbers {d : Direction} {region : ℤ} {season : String} {v : Option ℝ} (h : d.getNu region season = .ok v) : ∃ x, v = some x := by
  by_cases h8 : region = 8 ∧ season = "heating"
  · rw [(C56_rejected d region season).1 h8] at h; cases h
  by_cases hbad : (season ≠ "heating" ∧ season ≠ "cooling") ∨ ¬ InTable d ∨ ¬ (1 ≤ region ∧ region ≤ 8)
  · rw [(C56_rejected d region season).2 h8 hbad] at h; cases h
  push Not at hbad
  obtain ⟨hs, hd, hr⟩ := hbad
  by_cases hh : season = "heating"
  · subst hh
    obtain ⟨v', _, _, e, -⟩ := C56_heating (r := region) (d := d) ⟨hr.1, by have := hr.2; rcases lt_or_eq_of_le this with h | h; omega; exact absurd ⟨h, rfl⟩ h8⟩ hd
    rw [e] at h; cases h; exact ⟨_, rfl⟩
  · cases hs hh
    obtain ⟨v', _, e, -⟩ := C56_cooling (r := region) (d := d) hr hd
    rw [e] at h; cases h; exact ⟨_, rfl⟩

/-- **C59, values by kind.** The table of U values by kind answers with the value of each kind by its name, but for boundary floors with that of
boundary walls; other names raise `KeyError`. -/
theorem C59_values (u : PT → ℝ) :
    (∀ p : PT, getUPsi u p.name = .ok (if p = .boundaryFloor then u .boundaryWall else u p)) ∧
    ∀ s, (∀ p : PT, p.name ≠ s) → getUPsi u s = .error .keyError := by
  constructor
  · intro p
    cases p <;> simp [getUPsi, ptGet, PT.all, PT.name, List.find?]
  · intro s h
    have : PT.all.find? (fun p => p.name = s) = none := List.find?_eq_none.2 fun p _ => by simpa using h p
    simp [getUPsi, ptGet, this]

/-- **C59, one number for both seasons.** The shading coefficient of the windows returned for both seasons is that of the cooling season in
region 8, where there is no heating season, and elsewhere the mean of the two. -/
theorem C59_both_seasons {region : ℤ} {uA etaAH etaAC : ℝ} {gps : List GPNoSpec} {ds : List DoorNoSpec} {ws : List WinNoSpec}
    {eps : List EfpNoSpec} {ecs : List EfcNoSpec} {r : PartsSpec} (h : calcPartsSpec region uA etaAH etaAC gps ds ws eps ecs = .ok r) :
    (region ≠ 8 → r.etaD = (r.etaDH + r.etaDC) / 2) ∧ 0 ≤ r.etaD ∧ r.etaD ≤ 0.88 ∧ (∀ x y : ℝ, getEtaD 8 x y = y) := by
  simp only [calcPartsSpec, bind_ok_iff] at h
  obtain ⟨_, -, _, -, _, -, _, -, ⟨_, _⟩, -, ⟨a, b⟩, hab, e⟩ := h
  cases e
  simp only [getEtaDEach, bind_ok_iff] at hab
  obtain ⟨_, -, _, -, x, -, y, -, e⟩ := hab
  cases e
  have hx : 0 ≤ clipEta x ∧ clipEta x ≤ 0.88 := ⟨le_min (le_max_right _ _) (by norm_num), min_le_right _ _⟩
  have hy : 0 ≤ clipEta y ∧ clipEta y ≤ 0.88 := ⟨le_min (le_max_right _ _) (by norm_num), min_le_right _ _⟩
  refine ⟨fun h8 => by simp [getEtaD, h8], ?_, ?_, fun _ _ => by simp [getEtaD]⟩
  · simp only [getEtaD]; split_ifs; exact hy.1; linarith [hx.1, hy.1]
  · simp only [getEtaD]; split_ifs; exact hy.2; linarith [hx.2, hy.2]

/-- C84, a concrete case: a wall of two boards is exported with the heat capacities 10 and 40 of its boards. -/
theorem C84_layers_example : ∃ (p : GP) (d : Detail) (ds : List PyVal), detailOf p.spec = some d ∧ (d.parts.map fun q => q.layers.map fun l => l.thickness * l.volHeat) = [[10, 40]] ∧
    p.initDict 0 6 = .ok ds := by
  let l1 : Layer := { name := "a", method := .resistance, thickness := 1, volHeat := 10, resistance := 1 }
  let l2 : Layer := { name := "b", method := .resistance, thickness := 2, volHeat := 20, resistance := 1 }
  let d : Detail := { rIn := 1, rEx := 1, parts := [{ name := "p", ratio := 1, layers := [l1, l2] }] }
  let p : GP := { name := "w", type := .wall, nextSpace := .outdoor, direction := .s, area := 1, spaceType := .mainOccupantRoom, sunshade := .notInput, spec := .wood d }
  obtain ⟨v, hv, -⟩ := (C56_spaces .outdoor 6).1 (by norm_num)
  have h : ∃ ds, p.initDict 0 6 = .ok ds := by
    simp [p, d, l1, l2, GP.initDict, GPSpec.initDict, Detail.initDict, PartPart.initDict, PartPart.rTotal, Layer.r, Layer.initDict, pyDiv, bind, Except.bind,
      pure, Except.pure, SpaceType.connectedId, hv]
    norm_num
  obtain ⟨ds, h⟩ := h
  exact ⟨p, d, ds, rfl, by simp [d, l1, l2]; norm_num, h⟩

/-- **C78, space under the floor.** The space under the floor, where the export still computes it, is as large as the earth floors that lie under
it together; other earth floors do not count. -/
theorem C78_underfloor {ecs : List PyVal} {a : ℝ} (h : getAUf ecs = .ok a) :
    ∃ l : List (String × ℝ), List.Forall₂ (fun (e : PyVal) (x : String × ℝ) => e.getStr "space_type" = .ok x.1 ∧
      (x.1 = "underfloor" → e.getNum "area" = .ok x.2)) ecs l ∧ a = ((l.filter fun x => x.1 = "underfloor").map (·.2)).sum := by
  simp only [getAUf, bind_ok_iff] at h
  obtain ⟨l, hl, e⟩ := h
  cases e
  have h1 := mapM_ok_iff.1 hl
  clear hl
  induction h1 with
  | nil => exact ⟨[], .nil, by simp⟩
  | @cons e x es l a _ ih =>
    obtain ⟨r, hr, hs⟩ := ih
    simp only [bind_ok_iff] at a
    obtain ⟨s, h1, h2⟩ := a
    by_cases hu : s = "underfloor"
    · rw [decide_eq_true hu] at h2
      simp only [bind_ok_iff] at h2
      obtain ⟨v, hv, e⟩ := h2
      cases e
      refine ⟨(s, v) :: r, .cons ⟨h1, fun _ => hv⟩ hr, ?_⟩
      rw [List.filter_cons_of_pos (by simpa using hu), List.map_cons, List.sum_cons, List.flatten_cons, List.sum_append, hs]
      simp
    · rw [decide_eq_false hu] at h2
      cases h2
      refine ⟨(s, 0) :: r, .cons ⟨h1, fun h => absurd h hu⟩ hr, ?_⟩
      rw [List.filter_cons_of_neg (by simpa using hu), List.flatten_cons, List.sum_append, hs]
      simp

/-- **C78.** What stops it, when nothing is wrong with the house: if the lists of parts are there and can be read, the floor areas and rates are given and
every part can be exported, the exception is the one for the undefined name. -/
theorem C78_name_error {region : ℤ} {common envelope d naturalVent : PyVal} {gl wl dl el cl hl fl il : List PyVal} {v nvm nvo : PyVal}
    {m o t n : ℝ} {gps : List GP} {ws : List Win} {ds : List Door} {bs : List PyVal} {aUf : ℝ}
    (hm : common.getNum "main_occupant_room_floor_area" = .ok m) (ho : common.getNum "other_occupant_room_floor_area" = .ok o)
    (ht : common.getNum "total_floor_area" = .ok t) (hpos : 0 < m) (hpos' : 0 ≤ o)
    (hg : envelope.getList "general_parts" = .ok gl) (hgs : gl.mapM GP.make = .ok gps)
    (hw : envelope.getList "windows" = .ok wl) (hws : wl.mapM Win.make = .ok ws)
    (hd : envelope.getList "doors" = .ok dl) (hds : dl.mapM Door.make = .ok ds)
    (he : envelope.getList "earthfloor_perimeters" = .ok el) (hes : ∃ x, el.mapM Efp.make = .ok x)
    (hc : envelope.getList "earthfloor_centers" = .ok cl) (hcs : ∃ x, cl.mapM Efc.make = .ok x) (hu : getAUf cl = .ok aUf)
    (hh : envelope.getList "heat_bridges" = .ok hl) (hhs : ∃ x, hl.mapM Heatbridge.make = .ok x)
    (hf : envelope.getList "inner_floors" = .ok fl) (hfs : ∃ x, fl.mapM InnerFloor.make = .ok x)
    (hi : envelope.getList "inner_walls" = .ok il) (his : ∃ x, il.mapM InnerWall.make = .ok x)
    (hv : d.get "ventilation" = .ok v) (hn : v.getNum "air_change_rate" = .ok n)
    (hnm : naturalVent.get "main_occupant_room_natural_vent_time" = .ok nvm)
    (hno : naturalVent.get "other_occupant_room_natural_vent_time" = .ok nvo)
    (hb : exportBoundaries region gps ws ds = .ok bs) :
    convertLv4 region common envelope d naturalVent = .error .nameError := by
  obtain ⟨_, hes⟩ := hes
  obtain ⟨_, hcs⟩ := hcs
  obtain ⟨_, hhs⟩ := hhs
  obtain ⟨_, hfs⟩ := hfs
  obtain ⟨_, his⟩ := his
  have get_of : ∀ {k : String} {l : List PyVal}, envelope.getList k = .ok l → ∃ x, envelope.get k = .ok x := by
    intro k l h
    simp only [PyVal.getList, bind_ok_iff] at h
    exact ⟨_, h.choose_spec.1⟩
  obtain ⟨_, gd⟩ := get_of hd
  obtain ⟨_, ge⟩ := get_of he
  obtain ⟨rooms, hr, -⟩ := C66_balance (aA := t) (aNr := t - m - o) (aUf := aUf) (n := n) (nvMr := nvm) (nvOr := nvo) hpos hpos'
  simp only [convertLv4, FloorAreas.make, hm, ho, ht, hg, hgs, hw, hws, hd, hds, he, hes, hc, hcs, hh, hhs, hf, hfs, hi, his, hv, ok_bind, pure, Except.pure,
    makeRooms, gd, ge, hu, hn, hnm, hno, hr, hb]

/-- A house of a floor, a main room of 30 m2 and nothing else meets the hypotheses. -/
noncomputable def exBare : PyVal × PyVal × PyVal × PyVal :=
  (.dict [("main_occupant_room_floor_area", .num 30), ("other_occupant_room_floor_area", .num 60), ("total_floor_area", .num 120)],
    .dict [("general_parts", .list []), ("windows", .list []), ("doors", .list []), ("earthfloor_perimeters", .list []), ("earthfloor_centers", .list []),
      ("heat_bridges", .list []), ("inner_floors", .list []), ("inner_walls", .list [])],
    .dict [("ventilation", .dict [("air_change_rate", .num 0.5)])],
    .dict [("main_occupant_room_natural_vent_time", .num 5), ("other_occupant_room_natural_vent_time", .num 5)])

example : convertLv4 6 exBare.1 exBare.2.1 exBare.2.2.1 exBare.2.2.2 = .error .nameError := by
  refine C78_name_error (m := 30) (o := 60) (t := 120) (n := 0.5) (v := .dict [("air_change_rate", .num 0.5)]) (nvm := .num 5) (nvo := .num 5)
    (gl := []) (wl := []) (dl := []) (el := []) (cl := []) (hl := []) (fl := []) (il := []) (gps := []) (ws := []) (ds := []) (bs := []) (aUf := 0)
    ?_ ?_ ?_ (by norm_num) (by norm_num) ?_ rfl ?_ rfl ?_ rfl ?_ ⟨[], rfl⟩ ?_ ⟨[], rfl⟩ ?_ ?_ ⟨[], rfl⟩ ?_ ⟨[], rfl⟩ ?_ ⟨[], rfl⟩ ?_ ?_ ?_ ?_ rfl <;>
    simp [exBare, getAUf, PyVal.getNum, PyVal.getList, PyVal.get, List.lookup, PyVal.asNum, PyVal.asList, ok_bind, pure, Except.pure]

end HLC
