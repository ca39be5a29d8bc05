import Verif.Props.ConvRoundTrip
import Verif.Spec.PartExport
import Verif.Model.UPsi
import Mathlib.Tactic.FieldSimp
import Mathlib.Tactic.Ring
import Mathlib.Tactic.Positivity
import Mathlib.Tactic.LinearCombination

/-!
# C62: U values of exported parts
-/

namespace HLC

open HLC.Conv

theorem pyDiv_ok_iff {a b c : ℝ} : pyDiv a b = .ok c ↔ b ≠ 0 ∧ c = a / b := by
  unfold pyDiv
  by_cases h : b = 0
  · simp [h]
  · simp [h, eq_comm]

theorem layersR {ls : List Layer} {rs : List ℝ} {sub : ℝ} (h : ls.mapM Layer.r = .ok rs) {ils : List InitLayer}
    (hi : (ls.mapM fun l => l.initDict sub) = .ok ils) : ils.map (·.r) = rs.map (· * sub) := by
  have h1 := mapM_ok_iff.1 h
  have h2 := mapM_ok_iff.1 hi
  clear h hi
  induction h1 generalizing ils with
  | nil => cases h2; rfl
  | cons a _ ih =>
    cases h2 with
    | cons b h2 =>
      simp only [Layer.initDict, bind_ok_iff] at b
      obtain ⟨r, hr, e⟩ := b
      cases e
      rw [List.map_cons, List.map_cons, ih h2, Except.ok.inj (hr.symm.trans a)]

/-- One exported sub-part: its area, its surface resistances, and its U value. -/
theorem partPart_export {p : PartPart} {rIn rEx : ℝ} {name : String} {area uAdd : ℝ} {x : InitPart}
    (h : p.initDict rIn rEx name area uAdd = .ok x) :
    ∃ r, p.rTotal = .ok r ∧ rIn + r + rEx ≠ 0 ∧ x.area = area * p.ratio ∧ x.rIn = rIn ∧ x.rOut = rEx ∧
      (1 / (rIn + r + rEx) + uAdd) * (x.rIn + (x.layers.map (·.r)).sum + x.rOut) = 1 := by
  simp only [PartPart.initDict, bind_ok_iff, pyDiv_ok_iff] at h
  obtain ⟨r, hr, u, ⟨h1, rfl⟩, v, ⟨h2, rfl⟩, sub, ⟨h3, rfl⟩, ls, hl, h⟩ := h
  cases h
  refine ⟨r, hr, h1, rfl, rfl, rfl, ?_⟩
  simp only [PartPart.rTotal, bind_ok_iff] at hr
  obtain ⟨rs, hrs, e⟩ := hr
  cases e
  dsimp only
  rw [layersR hrs hl, List.sum_map_mul_right, List.map_id']
  rw [mul_div_cancel₀ _ h3]
  rw [show rIn + (1 / (1 / (rIn + rs.sum + rEx) + uAdd) - rIn - rEx) + rEx = 1 / (1 / (rIn + rs.sum + rEx) + uAdd) by ring]
  exact mul_one_div_cancel h2

/-- The sub-parts of a detailed specification: areas and heat losses add up. -/
theorem detail_export {d : Detail} {name : String} {area uAdd U : ℝ} {xs : List InitPart} (h : d.initDict name area uAdd = .ok xs)
    (hU : d.uGeneral = .ok U) :
    ∃ parts : List (ℝ × ℝ), List.Forall₂ (fun (x : InitPart) (y : ℝ × ℝ) => x.area = y.1 ∧ y.2 * (x.rIn + (x.layers.map (·.r)).sum + x.rOut) = 1)
        xs parts ∧ (parts.map (·.1)).sum = area * (d.parts.map (·.ratio)).sum ∧
      (parts.map fun y => y.1 * y.2).sum = area * (U + uAdd * (d.parts.map (·.ratio)).sum) := by
  simp only [Detail.uGeneral, bind_ok_iff] at hU
  obtain ⟨us, hus, e⟩ := hU
  cases e
  have h1 := mapM_ok_iff.1 hus
  have h2 := mapM_ok_iff.1 h
  clear hus h
  generalize d.parts = ps at h1 h2
  induction h1 generalizing xs with
  | nil => cases h2; exact ⟨[], .nil, by simp, by simp⟩
  | @cons p u ps us a _ ih =>
    cases h2 with
    | @cons _ x _ xs b h2 =>
      obtain ⟨parts, hf, hs, hq⟩ := ih h2
      obtain ⟨r, hr, hne, ha, hi, ho, hu⟩ := partPart_export b
      simp only [bind_ok_iff, pyDiv_ok_iff] at a
      obtain ⟨r', hr', -, rfl⟩ := a
      cases Except.ok.inj (hr'.symm.trans hr)
      refine ⟨(area * p.ratio, 1 / (d.rIn + r + d.rEx) + uAdd) :: parts, .cons ⟨ha, hu⟩ hf, ?_, ?_⟩
      · rw [List.map_cons, List.sum_cons, hs]; simp; ring
      · rw [List.map_cons, List.sum_cons, hq]; simp; ring

/-- The dictionaries written for the exported sub-parts say the same as the sub-parts. -/
theorem gp_dicts {p : GP} {uAdd : ℝ} {region : ℤ} {ds : List PyVal} (h : p.initDict uAdd region = .ok ds) :
    ∃ xs, p.spec.initDict p.name p.area uAdd = .ok xs ∧
      ∀ parts : List (ℝ × ℝ), List.Forall₂ (fun (x : InitPart) (y : ℝ × ℝ) => x.area = y.1 ∧
        y.2 * (x.rIn + (x.layers.map (·.r)).sum + x.rOut) = 1) xs parts → List.Forall₂ (fun d y => Spec.ExportsU d y.1 y.2) ds parts := by
  simp only [GP.initDict, bind_ok_iff] at h
  obtain ⟨xs, hx, room, -, h⟩ := h
  refine ⟨xs, hx, fun parts hp => ?_⟩
  have h1 := mapM_ok_iff.1 h
  clear h hx
  induction h1 generalizing parts with
  | nil => cases hp; exact .nil
  | @cons x d xs ds a _ ih =>
    cases hp with
    | @cons _ y _ parts b hp =>
      refine .cons ?_ (ih parts hp)
      simp only [bind_ok_iff] at a
      obtain ⟨hh, -, e⟩ := a
      cases e
      refine ⟨x.rIn, x.rOut, x.layers.map InitLayer.asDict, x.layers.map (·.r), ?_, ?_, ?_, ?_, ?_, b.2⟩
      · rw [← b.1]; simp [PyVal.getNum, PyVal.get, List.lookup, ok_bind, PyVal.asNum]
      · simp [PyVal.getNum, PyVal.get, List.lookup, ok_bind, PyVal.asNum]
      · simp [PyVal.getNum, PyVal.get, List.lookup, ok_bind, PyVal.asNum]
      · simp [PyVal.getList, PyVal.get, List.lookup, ok_bind, PyVal.asList]
      · rw [mapM_ok_iff, List.forall₂_map_left_iff, List.forall₂_map_right_iff]
        exact List.forall₂_same.2 fun l _ => by simp [InitLayer.asDict, PyVal.getNum, PyVal.get, List.lookup, ok_bind, PyVal.asNum]

/-- The construction of a part given by its layers. -/
def detailOf : GPSpec → Option Detail
  | .wood d => some d
  | .rc d => some d
  | .steel _ d => some d
  | .other _ _ _ => none

/-- **C62, layered parts.** For every part whose construction is given by layers (wood, concrete, steel), every region and
bridge allowance: the exported sub-parts have together the area of the part and, area-weighted, the U value by which
the part is evaluated plus the allowance. The shares of the sub-parts are assumed to add up to exactly one (the reader
accepts deviations up to one millionth). -/
theorem C62_layers {p : GP} {d : Detail} {uAdd U : ℝ} {region : ℤ} {ds : List PyVal} (hd : detailOf p.spec = some d)
    (hr : (d.parts.map (·.ratio)).sum = 1) (hU : p.spec.getU = .ok U) (h : p.initDict uAdd region = .ok ds) :
    Spec.ExportsLoss ds p.area (p.area * (U + uAdd)) := by
  obtain ⟨xs, hx, hds⟩ := gp_dicts h
  cases hs : p.spec with
  | wood d' =>
    rw [hs] at hd hU hx
    cases hd
    obtain ⟨parts, hf, h1, h2⟩ := detail_export (d := d) hx hU
    exact ⟨parts, hds parts hf, by rw [h1, hr, mul_one], by rw [h2, hr, mul_one]⟩
  | rc d' =>
    rw [hs] at hd hU hx
    cases hd
    obtain ⟨parts, hf, h1, h2⟩ := detail_export (d := d) hx hU
    exact ⟨parts, hds parts hf, by rw [h1, hr, mul_one], by rw [h2, hr, mul_one]⟩
  | steel uR d' =>
    rw [hs] at hd hU hx
    cases hd
    simp only [GPSpec.getU, bind_ok_iff] at hU
    obtain ⟨V, hV, e⟩ := hU
    cases e
    obtain ⟨parts, hf, h1, h2⟩ := detail_export (d := d) hx hV
    exact ⟨parts, hds parts hf, by rw [h1, hr, mul_one], by rw [h2, hr]; ring⟩
  | other t u w => rw [hs] at hd; cases hd

/-- The thermal resistance of the default construction of a part without its insulation, surfaces included. -/
noncomputable def bareR (w : String) (t : GPType) : ℝ :=
  t.rIn + t.rEx +
    (match defaultLayers w t with
    | .ok ls => ((ls.filterMap DefaultLayer.layer?).map fun l => l.thickness / l.conductivity).sum
    | .error _ => 0)

/-- A layer given by its conductivity, which is not zero. -/
def Conductive (l : Layer) : Prop := l.method = .conductivity ∧ l.conductivity ≠ 0

theorem Conductive.r {l : Layer} (h : Conductive l) : l.r = .ok (l.thickness / l.conductivity) := by
  unfold Layer.r
  rw [h.1]
  simp [pyDiv, h.2]

theorem conductive_sum {ls : List Layer} (h : ∀ l ∈ ls, Conductive l) : ls.mapM Layer.r = .ok (ls.map fun l => l.thickness / l.conductivity) := by
  rw [mapM_ok_iff, List.forall₂_map_right_iff]
  exact List.forall₂_same.2 fun l hl => (h l hl).r

/-- The layer an entry of the default construction stands for. -/
noncomputable def DefaultLayer.fill (t : ℝ) : DefaultLayer → Layer
  | .layer l => l
  | .ins => insulation t

theorem defaults_good {w : String} {t : GPType} {ls : List DefaultLayer} (h : defaultLayers w t = .ok ls) :
    (∀ l ∈ ls.filterMap DefaultLayer.layer?, Conductive l) ∧ ∀ x y : ℝ, ∀ f : Layer → ℝ, f (insulation x) = y →
      ((ls.map (DefaultLayer.fill x)).map f).sum = ((ls.filterMap DefaultLayer.layer?).map f).sum + y := by
  have c1 : Conductive gypsum := ⟨rfl, by norm_num [gypsum]⟩
  have c2 : Conductive plywood12 := ⟨rfl, by norm_num [plywood12]⟩
  have c3 : Conductive plywood24 := ⟨rfl, by norm_num [plywood24]⟩
  have c4 : Conductive concrete120 := ⟨rfl, by norm_num [concrete120]⟩
  have hw : w = "light" ∨ w = "heavy" := by
    unfold defaultLayers at h
    by_cases h1 : w = "light"
    · exact .inl h1
    · by_cases h2 : w = "heavy"
      · exact .inr h2
      · simp [h1, h2] at h
  rcases hw with rfl | rfl <;> cases t <;> simp [defaultLayers] at h <;> subst h <;>
    refine ⟨by simp [List.filterMap_cons, DefaultLayer.layer?, c1, c2, c3, c4], fun x y f hf => ?_⟩ <;>
    simp [List.filterMap_cons, DefaultLayer.layer?, DefaultLayer.fill, hf] <;> ring

theorem toDetail_ok {t : GPType} {u : ℝ} {w : String} {d : Detail} (h : toDetail t u w = .ok d) :
    u ≠ 0 ∧ d.rIn = t.rIn ∧ d.rEx = t.rEx ∧ ∃ p, d.parts = [p] ∧ p.ratio = 1 ∧ ∃ r, p.rTotal = .ok r ∧
      d.rIn + r + d.rEx = max (1 / u) (bareR w t) := by
  simp only [toDetail, bind_ok_iff, pyDiv_ok_iff] at h
  obtain ⟨ls, hls, rs, hrs, v, ⟨hu, rfl⟩, h⟩ := h
  cases h
  refine ⟨hu, rfl, rfl, _, rfl, rfl, ?_⟩
  obtain ⟨hc, hsum⟩ := defaults_good hls
  have hb : bareR w t = t.rIn + t.rEx + ((ls.filterMap DefaultLayer.layer?).map fun l => l.thickness / l.conductivity).sum := by
    unfold bareR; rw [hls]
  cases Except.ok.inj ((conductive_sum hc).symm.trans hrs)
  have hx := hsum (max (1 / u - t.rEx - ((ls.filterMap DefaultLayer.layer?).map fun l => l.thickness / l.conductivity).sum - t.rIn) 0 * 0.045)
    (max (1 / u - t.rEx - ((ls.filterMap DefaultLayer.layer?).map fun l => l.thickness / l.conductivity).sum - t.rIn) 0)
    (fun l => l.thickness / l.conductivity) (mul_div_cancel_right₀ _ (by norm_num [insulation]))
  generalize ((ls.filterMap DefaultLayer.layer?).map fun l => l.thickness / l.conductivity).sum = R at hb hx ⊢
  have hcond : ∀ l ∈ ls.map (DefaultLayer.fill (max (1 / u - t.rEx - R - t.rIn) 0 * 0.045)), Conductive l := by
    intro l hl
    obtain ⟨x, hx, rfl⟩ := List.mem_map.1 hl
    cases x with
    | layer l => exact hc l (List.mem_filterMap.2 ⟨_, hx, rfl⟩)
    | ins => exact ⟨rfl, by norm_num [DefaultLayer.fill, insulation]⟩
  refine ⟨(((ls.map (DefaultLayer.fill (max (1 / u - t.rEx - R - t.rIn) 0 * 0.045))).map fun l => l.thickness / l.conductivity)).sum, ?_, ?_⟩
  · change (List.mapM Layer.r (ls.map (DefaultLayer.fill (max (1 / u - t.rEx - R - t.rIn) 0 * 0.045))) >>= fun x => pure x.sum) = _
    rw [conductive_sum hcond]
    rfl
  · rw [hx, hb]
    dsimp only
    rcases le_total (1 / u) (t.rIn + t.rEx + R) with h | h
    · rw [max_eq_right h, max_eq_right (by linarith)]; ring
    · rw [max_eq_left h, max_eq_left (by linarith)]; ring

theorem bare_layers_pos {w : String} {t : GPType} {ls : List DefaultLayer} (h : defaultLayers w t = .ok ls) :
    0 < ((ls.filterMap DefaultLayer.layer?).map fun l => l.thickness / l.conductivity).sum := by
  have hw : w = "light" ∨ w = "heavy" := by
    unfold defaultLayers at h
    by_cases h1 : w = "light"
    · exact .inl h1
    · by_cases h2 : w = "heavy"
      · exact .inr h2
      · simp [h1, h2] at h
  rcases hw with rfl | rfl <;> cases t <;> simp [defaultLayers] at h <;> subst h <;>
    simp [List.filterMap_cons, DefaultLayer.layer?, gypsum, plywood12, plywood24, concrete120] <;> norm_num

theorem bareR_pos (w : String) (t : GPType) : 0 < bareR w t := by
  unfold bareR
  have h1 : 0 < t.rIn + t.rEx := by cases t <;> norm_num [GPType.rIn, GPType.rEx]
  cases h : defaultLayers w t with
  | error e => simpa using h1
  | ok ls =>
    have := bare_layers_pos h
    dsimp only
    linarith

/-- **C62, parts given by a U value.** For every positive U value, weight, type, region and bridge allowance: the exported part has
the area of the input and its U value plus the allowance, except that a U value above that of the default construction
without any insulation is replaced by the latter. -/
theorem C62_uvalue {p : GP} {t : GPType} {u uAdd : ℝ} {w : String} {region : ℤ} {ds : List PyVal} (hs : p.spec = .other t u w)
    (hu : 0 < u) (h : p.initDict uAdd region = .ok ds) :
    Spec.ExportsLoss ds p.area (p.area * (min u (1 / bareR w t) + uAdd)) := by
  obtain ⟨xs, hx, hds⟩ := gp_dicts h
  rw [hs] at hx
  simp only [GPSpec.initDict, bind_ok_iff] at hx
  obtain ⟨d, hd, hx⟩ := hx
  obtain ⟨-, hi, he, q, hp, hq, r, hr, hmax⟩ := toDetail_ok hd
  have hb := bareR_pos w t
  have hm : (1 : ℝ) / max (1 / u) (bareR w t) = min u (1 / bareR w t) := by
    rcases le_total (1 / u) (bareR w t) with h | h
    · rw [max_eq_right h, min_eq_right]
      rw [div_le_iff₀ hb]
      rwa [div_le_iff₀ hu, mul_comm] at h
    · rw [max_eq_left h, one_div_one_div, min_eq_left]
      rw [le_div_iff₀ hb]
      rwa [le_div_iff₀ hu, mul_comm] at h
  have hU : d.uGeneral = .ok (min u (1 / bareR w t)) := by
    rw [← hm, ← hmax]
    have : d.rIn + r + d.rEx ≠ 0 := by rw [hmax]; exact (lt_of_lt_of_le hb (le_max_right _ _)).ne'
    simp [Detail.uGeneral, hp, hr, hq, ok_bind, pyDiv, this, pure, Except.pure]
  obtain ⟨parts, hf, h1, h2⟩ := detail_export hx hU
  refine ⟨parts, hds parts hf, by rw [h1, hp]; simp [hq], by rw [h2, hp]; simp [hq]⟩

/-- **C62, parts given by a U value, when it can be reached.** -/
theorem C62_uvalue_partial {p : GP} {t : GPType} {u uAdd : ℝ} {w : String} {region : ℤ} {ds : List PyVal} (hs : p.spec = .other t u w)
    (hu : 0 < u) (hb : u ≤ 1 / bareR w t) (h : p.initDict uAdd region = .ok ds) :
    Spec.ExportsLoss ds p.area (p.area * (u + uAdd)) := by
  have := C62_uvalue hs hu h
  rwa [min_eq_left hb] at this

theorem exportsU_unique {d : PyVal} {a a' u u' : ℝ} (h : Spec.ExportsU d a u) (h' : Spec.ExportsU d a' u') : a = a' ∧ u = u' := by
  obtain ⟨i, o, l, rs, h1, h2, h3, h4, h5, h6⟩ := h
  obtain ⟨i', o', l', rs', h1', h2', h3', h4', h5', h6'⟩ := h'
  cases Except.ok.inj (h1.symm.trans h1')
  cases Except.ok.inj (h2.symm.trans h2')
  cases Except.ok.inj (h3.symm.trans h3')
  cases Except.ok.inj (h4.symm.trans h4')
  cases Except.ok.inj (h5.symm.trans h5')
  have : i + rs.sum + o ≠ 0 := fun e => by rw [e, mul_zero] at h6; exact zero_ne_one h6
  exact ⟨rfl, mul_right_cancel₀ this (h6.trans h6'.symm)⟩

/-- The heat loss of a list of exported parts is determined by it. -/
theorem exportsLoss_unique {ds : List PyVal} {a a' q q' : ℝ} (h : Spec.ExportsLoss ds a q) (h' : Spec.ExportsLoss ds a' q') : q = q' := by
  obtain ⟨ps, h1, -, rfl⟩ := h
  obtain ⟨ps', h1', -, rfl⟩ := h'
  congr 2
  induction h1 generalizing ps' with
  | nil => cases h1'; rfl
  | cons a _ ih =>
    cases h1' with
    | cons b h1' =>
      obtain ⟨e1, e2⟩ := exportsU_unique a b
      rw [ih _ h1', Prod.ext e1 e2]

/-- **C62, violated.** An outdoor wall with the standard U value of region 8 (4.10 W/m²K), the value the conversion itself assigns
to walls, is exported with a smaller U value. -/
theorem C62_violated {p : GP} (hs : p.spec = .other .wall 4.10 "light") (ha : 0 < p.area) {region : ℤ} {ds : List PyVal}
    (h : p.initDict 0 region = .ok ds) : uPsiStd 8 .wall = .ok 4.10 ∧ p.spec.getU = .ok 4.10 ∧
      ∃ q, Spec.ExportsLoss ds p.area q ∧ q < p.area * 4.10 ∧ ¬Spec.ExportsLoss ds p.area (p.area * 4.10) := by
  have h1 := C62_uvalue hs (by norm_num) h
  have hb : 1 / bareR "light" .wall < 4.10 := by
    simp [bareR, defaultLayers, List.filterMap_cons, DefaultLayer.layer?, GPType.rIn, GPType.rEx, gypsum, plywood12]
    norm_num
  rw [min_eq_right hb.le, add_zero] at h1
  have h2 : p.area * (1 / bareR "light" .wall) < p.area * 4.10 := mul_lt_mul_of_pos_left hb ha
  exact ⟨rfl, by rw [hs]; rfl, _, h1, h2, fun h3 => h2.ne (exportsLoss_unique h1 h3)⟩

/-- A wall as written by the conversion from the indices of a house in region 8. -/
noncomputable def region8Wall : GP :=
  { name := "wall", type := .wall, nextSpace := .outdoor, direction := .s, area := 10, spaceType := .mainOccupantRoom, sunshade := .notInput,
    spec := .other .wall 4.10 "light" }

/-- **C62, completeness.** A part given by a positive U value whose room is known is exported in every region. -/
theorem C62_defined {p : GP} {t : GPType} {u : ℝ} {w : String} (hs : p.spec = .other t u w) (hu : 0 < u) (hw : w = "light" ∨ w = "heavy")
    (hr : p.spaceType ≠ .undefined) {region : ℤ} (hreg : 1 ≤ region ∧ region ≤ 8) : ∃ ds, p.initDict 0 region = .ok ds := by
  obtain ⟨ls, hls⟩ : ∃ ls, defaultLayers w t = .ok ls := by
    rcases hw with rfl | rfl <;> exact ⟨_, rfl⟩
  have hc := (defaults_good hls).1
  obtain ⟨d, hd⟩ : ∃ d, toDetail t u w = .ok d := by
    simp only [toDetail, hls, ok_bind, conductive_sum hc, pyDiv, hu.ne', if_false]
    exact ⟨_, rfl⟩
  obtain ⟨-, hi, he, q, hp, hq, r, hrt, hmax⟩ := toDetail_ok hd
  have hpos : 0 < max (1 / u) (bareR w t) := lt_of_lt_of_le (bareR_pos w t) (le_max_right _ _)
  have hbare : bareR w t - t.rIn - t.rEx > 0 := by
    have := bare_layers_pos hls
    unfold bareR; rw [hls]; dsimp only; linarith
  have hr0 : r ≠ 0 := by
    have : bareR w t ≤ d.rIn + r + d.rEx := hmax ▸ le_max_right _ _
    rw [hi, he] at this
    intro e; rw [e] at this; linarith
  obtain ⟨x, hx⟩ : ∃ x, q.initDict d.rIn d.rEx p.name p.area 0 = .ok x := by
    have h1 : d.rIn + r + d.rEx ≠ 0 := by rw [hmax]; exact hpos.ne'
    have h2 : 1 / (d.rIn + r + d.rEx) + 0 ≠ 0 := by rw [add_zero]; exact one_div_ne_zero h1
    obtain ⟨il, hil⟩ : ∃ il, (q.layers.mapM fun l => l.initDict ((1 / (1 / (d.rIn + r + d.rEx) + 0) - d.rIn - d.rEx) / r)) = .ok il := by
      refine mapM_ok_of fun l hl => ?_
      simp only [PartPart.rTotal, bind_ok_iff] at hrt
      obtain ⟨rs, hrs, -⟩ := hrt
      obtain ⟨y, hy⟩ := ok_of_mapM_ok hrs l hl
      exact ⟨_, by rw [Layer.initDict, hy]; rfl⟩
    simp only [PartPart.initDict, hrt, ok_bind, pyDiv, h1, h2, hr0, if_false, hil]
    exact ⟨_, rfl⟩
  obtain ⟨id, hid⟩ : ∃ id, p.spaceType.connectedId = .ok id := by
    cases h : p.spaceType <;> first | exact ⟨_, rfl⟩ | exact absurd h hr
  obtain ⟨hh, hhh⟩ : ∃ hh, p.nextSpace.getH region = .ok hh := by
    simp only [NextSpace.getH, region8, hreg, and_self, dif_pos, ok_bind]
    cases p.nextSpace <;> exact ⟨_, rfl⟩
  have hsx : p.spec.initDict p.name p.area 0 = .ok [x] := by
    rw [hs]
    simp only [GPSpec.initDict, hd, ok_bind, Detail.initDict, hp, List.mapM_cons, hx, List.mapM_nil]
    rfl
  simp only [GP.initDict, hsx, hid, ok_bind, List.mapM_cons, List.mapM_nil, hhh]
  exact ⟨_, rfl⟩

/-- The wall of region 8 is exported, so that the violation is real. -/
theorem C62_violated_example : ∃ ds, region8Wall.initDict 0 8 = .ok ds ∧ ¬Spec.ExportsLoss ds 10 (10 * 4.10) := by
  obtain ⟨ds, h⟩ := C62_defined (p := region8Wall) (region := 8) rfl (by norm_num) (.inl rfl) (by simp [region8Wall]) (by norm_num)
  obtain ⟨-, -, q, -, -, h2⟩ := C62_violated rfl (by norm_num [region8Wall]) h
  exact ⟨ds, h, h2⟩

/-- A wall of two sub-parts and one with U = 0.5 meet the hypotheses of the positive theorems. -/
theorem C62_example : detailOf plainWall.spec = some { rIn := 0.11, rEx := 0.04, parts := [{ name := "stud", ratio := 0.2, layers := [plywood12] },
      { name := "cavity", ratio := 0.8, layers := [gypsum, insulation 0.1, plywood12] }] } ∧
    (0.5 : ℝ) ≤ 1 / bareR "light" .wall := by
  refine ⟨rfl, ?_⟩
  simp [bareR, defaultLayers, List.filterMap_cons, DefaultLayer.layer?, GPType.rIn, GPType.rEx, gypsum, plywood12]
  norm_num

end HLC
