import Verif.Spec.Indices
import Verif.Props.UPsi
import Verif.Props.ConvSplit
import Verif.Props.ModelHouse
import Verif.Props.Sunshade
import Mathlib.Tactic.IntervalCases

/-!
# C59: a house with given indices
-/

namespace HLC

open HLC.Conv

/-- The temperature difference coefficients are defined in all regions. -/
theorem getH_defined {region : ℤ} (h : 1 ≤ region ∧ region ≤ 8) : ∃ f : NextSpace → ℝ, (∀ s : NextSpace, s.getH region = .ok (f s)) ∧ ∀ s, 0 ≤ f s := by
  obtain ⟨h1, h2⟩ := h
  have : ∀ s : NextSpace, ∃ x, s.getH region = .ok x ∧ 0 ≤ x := by
    intro s
    interval_cases region <;> cases s <;> simp [NextSpace.getH, region8, ok_bind] <;> norm_num
  choose f hf hf' using this
  exact ⟨f, hf, hf'⟩

/-- The parts of a kind, weighted. -/
noncomputable def kindWeight (h : NextSpace → ℝ) (p : HouseNoSpec) : PT → ℝ
  | .roof => ((p.gps.filter fun g => g.type = .roof).map fun g => g.area * h g.nextSpace).sum
  | .ceiling => ((p.gps.filter fun g => g.type = .ceiling).map fun g => g.area * h g.nextSpace).sum
  | .wall => ((p.gps.filter fun g => g.type = .wall).map fun g => g.area * h g.nextSpace).sum
  | .floor => ((p.gps.filter fun g => g.type = .floor).map fun g => g.area * h g.nextSpace).sum
  | .boundaryCeiling => ((p.gps.filter fun g => g.type = .upwardBoundaryFloor).map fun g => g.area * h g.nextSpace).sum
  | .boundaryWall => ((p.gps.filter fun g => g.type = .boundaryWall).map fun g => g.area * h g.nextSpace).sum
  | .boundaryFloor => ((p.gps.filter fun g => g.type = .downwardBoundaryFloor).map fun g => g.area * h g.nextSpace).sum
  | .window => (p.ws.map fun g => g.area * h g.nextSpace).sum
  | .door => (p.ds.map fun g => g.area * h g.nextSpace).sum
  | .earthfloorPerimeter => (p.eps.map fun g => g.length * h g.nextSpace).sum

theorem mapM_pure_ok {α β : Type} {f : α → Except PyErr β} {g : α → β} {l : List α} (h : ∀ x ∈ l, f x = .ok (g x)) : l.mapM f = .ok (l.map g) := by
  induction l with
  | nil => rfl
  | cons a l ih =>
    rw [List.mapM_cons, h a List.mem_cons_self, ok_bind, ih fun x hx => h x (List.mem_cons_of_mem _ hx)]
    rfl

/-- The heat loss of the parts by kind. -/
theorem equip_getQ {region : ℤ} {h : NextSpace → ℝ} {p : HouseNoSpec} (hh : ∀ s : NextSpace, s.getH region = .ok (h s))
    (hk : ∀ g ∈ p.gps, Spec.kindOf g.type ≠ none) (u : PT → ℝ) (a b : ℝ) :
    (Spec.equip p u a b).getQ region = .ok (PT.all.map fun k => kindWeight h p k * u k).sum := by
  have e1 : (Spec.equip p u a b).gps.mapM (fun s => s.getQ region) = .ok (p.gps.map fun s => s.area * Spec.uOf u s.type * h s.nextSpace) := by
    rw [Spec.equip, List.mapM_map]
    exact mapM_pure_ok fun x _ => by simp [GP.getQ, GPSpec.getU, hh, ok_bind, pure, Except.pure]
  have e2 : (Spec.equip p u a b).ws.mapM (fun s => s.getQ region) = .ok (p.ws.map fun s => s.area * u .window * h s.nextSpace) := by
    rw [Spec.equip, List.mapM_map]
    exact mapM_pure_ok fun x _ => by simp [Win.getQ, hh, ok_bind, pure, Except.pure]
  have e3 : (Spec.equip p u a b).ds.mapM (fun s => s.getQ region) = .ok (p.ds.map fun s => s.area * u .door * h s.nextSpace) := by
    rw [Spec.equip, List.mapM_map]
    exact mapM_pure_ok fun x _ => by simp [Door.getQ, hh, ok_bind, pure, Except.pure]
  have e4 : (Spec.equip p u a b).eps.mapM (fun s => s.getQ region) = .ok (p.eps.map fun s => s.length * u .earthfloorPerimeter * h s.nextSpace) := by
    rw [Spec.equip, List.mapM_map]
    exact mapM_pure_ok fun x _ => by simp [Efp.getQ, hh, ok_bind, pure, Except.pure]
  have pull : ∀ {α : Type} (l : List α) (f g : α → ℝ) (c : ℝ), (l.map fun s => f s * c * g s).sum = (l.map fun s => f s * g s).sum * c := by
    intro α l f g c
    rw [← List.sum_map_mul_right]
    exact congrArg List.sum (List.map_congr_left fun x _ => by ring)
  have key : (p.gps.map fun s => s.area * Spec.uOf u s.type * h s.nextSpace).sum =
      kindWeight h p .roof * u .roof + kindWeight h p .ceiling * u .ceiling + kindWeight h p .wall * u .wall +
      kindWeight h p .floor * u .floor + kindWeight h p .boundaryCeiling * u .boundaryCeiling +
      kindWeight h p .boundaryWall * u .boundaryWall + kindWeight h p .boundaryFloor * u .boundaryFloor := by
    simp only [kindWeight]
    generalize p.gps = l at hk
    induction l with
    | nil => simp
    | cons g l ih =>
      have ih := ih fun x hx => hk x (List.mem_cons_of_mem _ hx)
      have hg := hk g List.mem_cons_self
      rw [List.map_cons, List.sum_cons, ih]
      cases ht : g.type <;> simp [ht, Spec.kindOf] at hg <;> simp [ht, Spec.uOf, Spec.kindOf] <;> ring
  rw [Envelope.getQ, e1, ok_bind, e2, ok_bind, e3, ok_bind, e4, ok_bind]
  simp only [pure, Except.pure, List.sum_append, pull, key, PT.all, List.map_cons, List.map_nil, List.sum_cons, List.sum_nil]
  congr 1
  simp only [kindWeight]
  ring

/-- The direction factor, zero where it is not defined. -/
noncomputable def nv (region : ℤ) (season : String) (sp : NextSpace) (d : Direction) : ℝ :=
  match partNu sp d region season with
  | .ok x => x
  | .error _ => 0

theorem nv_of {region : ℤ} {season : String} {sp : NextSpace} {d : Direction} {x : ℝ} (h : partNu sp d region season = .ok x) :
    partNu sp d region season = .ok (nv region season sp d) := by
  rw [nv, h]

/-- The shading factor, zero where it is not defined. -/
noncomputable def fv (region : ℤ) (season : String) (w : WinNoSpec) : ℝ :=
  match w.getF region season with
  | .ok x => x
  | .error _ => 0

theorem fv_of {region : ℤ} {season : String} {w : WinNoSpec} {x : ℝ} (h : w.getF region season = .ok x) : w.getF region season = .ok (fv region season w) := by
  rw [fv, h]

theorem ptGet_kind {u : PT → ℝ} {t : GPType} (h : Spec.kindOf t ≠ none) : ptGet u t.value = .ok (Spec.uOf u t) := by
  cases t <;> simp [Spec.kindOf] at h <;> simp [ptGet, PT.all, PT.name, GPType.value, Spec.uOf, Spec.kindOf, List.find?]

theorem getUPsi_kind {u : PT → ℝ} {t : GPType} (h : Spec.kindOf t ≠ none) : getUPsi u t.value = .ok (Spec.uOf u t) := by
  cases t <;> simp [Spec.kindOf] at h <;> simp [getUPsi, ptGet, PT.all, PT.name, GPType.value, Spec.uOf, Spec.kindOf, List.find?]

/-- The direction factors of all parts and the shading factors of all windows are defined in a season. -/
structure SunDefined (region : ℤ) (p : HouseNoSpec) (season : String) : Prop where
  gps : ∀ g ∈ p.gps, partNu g.nextSpace g.direction region season = .ok (nv region season g.nextSpace g.direction)
  ds : ∀ g ∈ p.ds, partNu g.nextSpace g.direction region season = .ok (nv region season g.nextSpace g.direction)
  ws : ∀ g ∈ p.ws, partNu g.nextSpace g.direction region season = .ok (nv region season g.nextSpace g.direction)
  wf : ∀ g ∈ p.ws, g.getF region season = .ok (fv region season g)

/-- The sun on the opaque parts. -/
noncomputable def opaqueSun (region : ℤ) (p : HouseNoSpec) (u : PT → ℝ) (season : String) : ℝ :=
  (p.gps.map fun s => s.area * 0.034 * Spec.uOf u s.type * nv region season s.nextSpace s.direction).sum +
    (p.ds.map fun s => s.area * 0.034 * u .door * nv region season s.nextSpace s.direction).sum

/-- The sun on the windows. -/
noncomputable def windowSun (region : ℤ) (p : HouseNoSpec) (season : String) : ℝ :=
  (p.ws.map fun s => s.area * fv region season s * nv region season s.nextSpace s.direction).sum

theorem mOpq_ok {region : ℤ} {p : HouseNoSpec} {u : PT → ℝ} {season : String} (hs : SunDefined region p season)
    (hk : ∀ g ∈ p.gps, Spec.kindOf g.type ≠ none) :
    mOpq region u p.gps p.ds season = .ok ((p.gps.map fun s => s.area * 0.034 * Spec.uOf u s.type * nv region season s.nextSpace s.direction).sum,
      (p.ds.map fun s => s.area * 0.034 * u .door * nv region season s.nextSpace s.direction).sum) := by
  rw [mOpq, mapM_pure_ok (g := fun s => s.area * 0.034 * Spec.uOf u s.type * nv region season s.nextSpace s.direction) fun g hg => by
      rw [ptGet_kind (hk g hg), ok_bind, hs.gps g hg]; rfl, ok_bind,
    mapM_pure_ok (g := fun s => s.area * 0.034 * u .door * nv region season s.nextSpace s.direction) fun g hg => by
      rw [hs.ds g hg]; rfl, ok_bind]
  rfl

theorem sumAFNu_ok {region : ℤ} {p : HouseNoSpec} {season : String} (hs : SunDefined region p season) :
    sumAFNu region p.ws season = .ok (windowSun region p season) := by
  rw [sumAFNu, mapM_pure_ok (g := fun s => s.area * fv region season s * nv region season s.nextSpace s.direction) fun g hg => by
      rw [hs.wf g hg, ok_bind, hs.ws g hg]; rfl, ok_bind]
  rfl

theorem equip_getM {region : ℤ} {p : HouseNoSpec} {u : PT → ℝ} {season : String} {a b x : ℝ} (hs : SunDefined region p season)
    (hg : ∀ g ∈ p.gps, g.nextSpace = .outdoor → g.sunshade = .notInput) (hd : ∀ g ∈ p.ds, g.nextSpace = .outdoor → g.sunshade = .notInput)
    (hx : season = "heating" ∧ x = a ∨ season = "cooling" ∧ x = b) :
    (Spec.equip p u a b).getM region season = .ok (opaqueSun region p u season + x * windowSun region p season) := by
  have e1 : (Spec.equip p u a b).gps.mapM (fun s => s.getM region season) =
      .ok (p.gps.map fun s => s.area * 0.034 * Spec.uOf u s.type * nv region season s.nextSpace s.direction) := by
    rw [Spec.equip, List.mapM_map]
    refine mapM_pure_ok fun g hg' => ?_
    by_cases ho : g.nextSpace = .outdoor
    · have := hs.gps g hg'
      rw [ho] at this
      simp [GP.getM, GPSpec.getEta, GPSpec.getU, ho, this, hg g hg' ho, OpaqueShade.getFSh, ok_bind, pure, Except.pure]
      exact .inl (by ring)
    · simp [GP.getM, ho, nv, partNu]
  have e2 : (Spec.equip p u a b).ds.mapM (fun s => s.getM region season) =
      .ok (p.ds.map fun s => s.area * 0.034 * u .door * nv region season s.nextSpace s.direction) := by
    rw [Spec.equip, List.mapM_map]
    refine mapM_pure_ok fun g hg' => ?_
    by_cases ho : g.nextSpace = .outdoor
    · have := hs.ds g hg'
      rw [ho] at this
      simp [Door.getM, ho, this, hd g hg' ho, OpaqueShade.getFSh, ok_bind, pure, Except.pure]
      exact .inl (by ring)
    · simp [Door.getM, ho, nv, partNu]
  have e3 : (Spec.equip p u a b).ws.mapM (fun s => s.getM region season) =
      .ok (p.ws.map fun s => x * (s.area * fv region season s * nv region season s.nextSpace s.direction)) := by
    rw [Spec.equip, List.mapM_map]
    refine mapM_pure_ok fun g hg' => ?_
    have h1 := hs.ws g hg'
    have h2 := hs.wf g hg'
    rw [WinNoSpec.getF] at h2
    rcases hx with ⟨rfl, rfl⟩ | ⟨rfl, rfl⟩ <;>
    · simp [Win.getM, WindowSpec.getEtaD, h1, h2, ok_bind, pure, Except.pure]
      ring
  rw [Envelope.getM, e1, ok_bind, e3, ok_bind, e2, ok_bind]
  simp only [pure, Except.pure, List.sum_append, opaqueSun, windowSun, List.sum_map_mul_left]
  congr 1
  ring

/-- The area of the envelope. -/
noncomputable def areaOf (p : HouseNoSpec) : ℝ :=
  (p.gps.map (·.area)).sum + (p.ws.map (·.area)).sum + (p.ds.map (·.area)).sum + (p.ecs.map (·.area)).sum

theorem equip_area {p : HouseNoSpec} {u : PT → ℝ} {a b : ℝ} : (Spec.equip p u a b).area = areaOf p := by
  simp [Envelope.area, Spec.equip, areaOf, Function.comp_def]
  ring

theorem equip_check {region : ℤ} {h : NextSpace → ℝ} {p : HouseNoSpec} (hh : ∀ s : NextSpace, s.getH region = .ok (h s))
    (hk : ∀ g ∈ p.gps, Spec.kindOf g.type ≠ none) (h8 : region ≠ 8) (h1 : SunDefined region p "heating") (h2 : SunDefined region p "cooling")
    (hg : ∀ g ∈ p.gps, g.nextSpace = .outdoor → g.sunshade = .notInput) (hd : ∀ g ∈ p.ds, g.nextSpace = .outdoor → g.sunshade = .notInput)
    (ha : areaOf p ≠ 0) (u : PT → ℝ) (a b : ℝ) :
    (Spec.equip p u a b).check region = .ok ⟨(PT.all.map fun k => kindWeight h p k * u k).sum / areaOf p,
      some ((opaqueSun region p u "heating" + a * windowSun region p "heating") / areaOf p * 100),
      (opaqueSun region p u "cooling" + b * windowSun region p "cooling") / areaOf p * 100⟩ := by
  rw [Envelope.check, equip_area, equip_getQ hh hk, ok_bind, pyDiv_ne ha, ok_bind, equip_getM (x := a) h1 hg hd (.inl ⟨rfl, rfl⟩),
    equip_getM (x := b) h2 hg hd (.inr ⟨rfl, rfl⟩)]
  simp [h8, ok_bind, pyDiv_ne ha, pure, Except.pure]

theorem bind_first {α β : Type} {a : Except PyErr α} {f : α → Except PyErr β} {y : β} (h : a >>= f = .ok y) : ∃ x, a = .ok x := by
  obtain ⟨x, hx, -⟩ := bind_ok_iff.1 h
  exact ⟨x, hx⟩

/-- If the parts were specified, all factors needed are defined. -/
theorem sunDefined_of {region : ℤ} {p : HouseNoSpec} {u : PT → ℝ} {season : String} {r : ℝ × ℝ} {x : ℝ}
    (h1 : mOpq region u p.gps p.ds season = .ok r) (h2 : sumAFNu region p.ws season = .ok x) : SunDefined region p season := by
  simp only [mOpq, sumAFNu, bind_ok_iff] at h1 h2
  obtain ⟨g, hg, d, hd, -⟩ := h1
  obtain ⟨w, hw, -⟩ := h2
  refine ⟨fun s hs => ?_, fun s hs => ?_, fun s hs => ?_, fun s hs => ?_⟩
  · obtain ⟨y, hy⟩ := ok_of_mapM_ok hg s hs
    simp only [bind_ok_iff] at hy
    obtain ⟨_, -, _, h, -⟩ := hy
    exact nv_of h
  · obtain ⟨y, hy⟩ := ok_of_mapM_ok hd s hs
    simp only [bind_ok_iff] at hy
    obtain ⟨_, h, -⟩ := hy
    exact nv_of h
  · obtain ⟨y, hy⟩ := ok_of_mapM_ok hw s hs
    simp only [bind_ok_iff] at hy
    obtain ⟨_, -, _, h, -⟩ := hy
    exact nv_of h
  · obtain ⟨y, hy⟩ := ok_of_mapM_ok hw s hs
    simp only [bind_ok_iff] at hy
    obtain ⟨_, h, -⟩ := hy
    exact fv_of h

/-- The standard losses by kind. -/
theorem getQStd_ok {region : ℤ} {h : NextSpace → ℝ} {std : PT → ℝ} (p : HouseNoSpec) (hh : ∀ s : NextSpace, s.getH region = .ok (h s))
    (hstd : ∀ k, uPsiStd region k = .ok (std k)) : getQStd region p.gps p.ws p.ds p.eps = .ok fun k => kindWeight h p k * std k := by
  have pull : ∀ {α : Type} (l : List α) (f g : α → ℝ) (c : ℝ), (l.map fun s => f s * c * g s).sum = (l.map fun s => f s * g s).sum * c := by
    intro α l f g c
    rw [← List.sum_map_mul_right]
    exact congrArg List.sum (List.map_congr_left fun x _ => by ring)
  have e1 : ∀ k t, qStdGp region k t p.gps = .ok (((p.gps.filter fun g => g.type = t).map fun g => g.area * h g.nextSpace).sum * std k) := by
    intro k t
    rw [qStdGp, mapM_pure_ok (g := fun s => s.area * std k * h s.nextSpace) fun s _ => by
      rw [hstd, ok_bind, hh]; rfl, ok_bind, ← pull]
    rfl
  have e2 : ∀ k (l : List (ℝ × NextSpace)), qStdOf region k l = .ok ((l.map fun s => s.1 * h s.2).sum * std k) := by
    intro k l
    rw [qStdOf, mapM_pure_ok (g := fun s => s.1 * std k * h s.2) fun s _ => by rw [hstd, ok_bind, hh]; rfl, ok_bind, ← pull]
    rfl
  refine ptDict_ok fun k => ?_
  cases k <;> simp only [e1, e2, kindWeight, List.map_map, Function.comp_def]

theorem addSpec_ok {p : HouseNoSpec} {u : PT → ℝ} {a b : ℝ} (hk : ∀ g ∈ p.gps, Spec.kindOf g.type ≠ none) :
    addSpecGps p.gps u = .ok (Spec.equip p u a b).gps ∧ addSpecWs p.ws u b a = .ok (Spec.equip p u a b).ws ∧
      addSpecDs p.ds u = .ok (Spec.equip p u a b).ds ∧ addSpecEps p.eps u = .ok (Spec.equip p u a b).eps ∧
      addSpecEcs p.ecs = (Spec.equip p u a b).ecs := by
  have k1 : getUPsi u "window" = .ok (u .window) := by simp [getUPsi, ptGet, PT.all, PT.name, List.find?]
  have k2 : getUPsi u "door" = .ok (u .door) := by simp [getUPsi, ptGet, PT.all, PT.name, List.find?]
  have k3 : getUPsi u "earthfloor_perimeter" = .ok (u .earthfloorPerimeter) := by simp [getUPsi, ptGet, PT.all, PT.name, List.find?]
  refine ⟨mapM_pure_ok fun g hg => ?_, mapM_pure_ok fun g hg => ?_, mapM_pure_ok fun g hg => ?_, mapM_pure_ok fun g hg => ?_, rfl⟩
  · rw [getUPsi_kind (hk g hg)]; rfl
  · rw [k1]; rfl
  · rw [k2]; rfl
  · rw [k3]; rfl

theorem kindWeight_nonneg {region : ℤ} {h : NextSpace → ℝ} {p : HouseNoSpec} (hp : Spec.Distributable region p)
    (hh : ∀ s : NextSpace, s.getH region = .ok (h s)) (k : PT) : 0 ≤ kindWeight h p k := by
  cases k <;> first | exact hp.gps h hh _ | exact hp.ws h hh | exact hp.ds h hh | exact hp.eps h hh

/-- No transmittance in the range is nearer to the required one than the clipped one. -/
theorem clip_nearest {t x : ℝ} (h0 : 0 ≤ x) (h1 : x ≤ 0.88) : |clipEta t - t| ≤ |x - t| := by
  unfold clipEta
  rcases le_total t 0 with h | h
  · rw [max_eq_right h, min_eq_left (by norm_num)]
    rw [abs_of_nonneg (by linarith), abs_of_nonneg (by linarith)]; linarith
  · rw [max_eq_left h]
    rcases le_total t 0.88 with h' | h'
    · rw [min_eq_left h', sub_self, abs_zero]; exact abs_nonneg _
    · rw [min_eq_right h', abs_of_nonpos (by linarith), abs_of_nonpos (by linarith)]; linarith

theorem clip_range (t : ℝ) : 0 ≤ clipEta t ∧ clipEta t ≤ 0.88 :=
  ⟨le_min (le_max_right _ _) (by norm_num), min_le_right _ _⟩

/-- In terms of the index. -/
theorem index_nearest {m o s a x : ℝ} (hs : s ≠ 0) (ha : 0 < a) (h0 : 0 ≤ x) (h1 : x ≤ 0.88) :
    |(o + clipEta ((m / 100 * a - o) / s) * s) / a * 100 - m| ≤ |(o + x * s) / a * 100 - m| := by
  have key : ∀ y, (o + y * s) / a * 100 - m = (s / a * 100) * (y - (m / 100 * a - o) / s) := by
    intro y
    field_simp
    ring
  rw [key, key, abs_mul (s / a * 100), abs_mul (s / a * 100)]
  exact mul_le_mul_of_nonneg_left (clip_nearest h0 h1) (abs_nonneg _)

/-- **C59, parts.** If the indices are distributed over a list of parts (in a region with both seasons), then the
result is that list with U values by kind and two transmittances for the windows; the checker evaluates it; its U_A
is the required one or, if that is too large, the one the same list has with the largest U values; no other
transmittance up to 0.88 gives an index for the sun nearer to the required one. -/
theorem C59_parts_partial {region : ℤ} (hr : 1 ≤ region ∧ region ≤ 7) {p : HouseNoSpec} {uA etaAH etaAC : ℝ} {e : Envelope} (hp : Spec.Distributable region p)
    (hu : 0 ≤ uA) (h : specifyParts region uA etaAH etaAC p = .ok e) :
    ∃ u etaH etaC r rmax vH, e = Spec.equip p u etaH etaC ∧ e.check region = .ok r ∧ r.etaAH = some vH ∧
      (Spec.equip p uPsiMax etaH etaC).check region = .ok rmax ∧ r.uA = min uA rmax.uA ∧ (∀ k, 0 ≤ u k ∧ u k ≤ uPsiMax k) ∧
      (0 ≤ etaH ∧ etaH ≤ 0.88 ∧ 0 ≤ etaC ∧ etaC ≤ 0.88) ∧
      ∀ x y, 0 ≤ x → x ≤ 0.88 → 0 ≤ y → y ≤ 0.88 → ∃ r' vH', (Spec.equip p u x y).check region = .ok r' ∧ r'.etaAH = some vH' ∧
        |vH - etaAH| ≤ |vH' - etaAH| ∧ |r.etaAC - etaAC| ≤ |r'.etaAC - etaAC| := by
  have hr8 : 1 ≤ region ∧ region ≤ 8 := ⟨hr.1, by omega⟩
  obtain ⟨hH, hh, -⟩ := getH_defined hr8
  obtain ⟨fMax, hfM, hfM'⟩ := C58_maxima hr8
  choose std hstd hstd0 hmax hf0 using hfM'
  have hW := kindWeight_nonneg hp hh
  have ha : 0 < areaOf p := hp.area
  have hA : aEvpTotal p.gps p.ws p.ds p.ecs = areaOf p := by simp [aEvpTotal, areaOf]; ring
  have hq : ∀ k ∈ PT.all, 0 ≤ kindWeight hH p k * std k := fun k _ => mul_nonneg (hW k) (hstd0 k).le
  obtain ⟨f, g, hf, -, hlook, hsc⟩ := C58_scales PT.all (fun k => kindWeight hH p k * std k) fMax (areaOf p * uA) hq (fun k _ => (hf0 k).le)
    (mul_nonneg ha.le hu)
  have hall : ∀ k, k ∈ PT.all := by intro k; cases k <;> simp [PT.all]
  have hval : uPsiValue region f = .ok fun k => std k * g k := ptDict_ok fun k => by rw [hstd, ok_bind, hlook k (hall k)]
  simp only [specifyParts, calcPartsSpec, getQStd_ok p hh hstd, hfM, ok_bind, getFUPsi, hA, hf, hval, getMOpq, getEtaDEach, bind_ok_iff] at h
  obtain ⟨ps, ⟨m, ⟨mh, hmh, mc, hmc, hm⟩, ee, ⟨sh, hsh, sc, hsc', tH, htH, tC, htC, hee⟩, hps⟩, gs, hgs, ws, hws, ds, hds, eps, heps, h⟩ := h
  have d1 := sunDefined_of hmh hsh
  have d2 := sunDefined_of hmc hsc'
  rw [sumAFNu_ok d1] at hsh
  rw [sumAFNu_ok d2] at hsc'
  rw [mOpq_ok d1 hp.kinds] at hmh
  rw [mOpq_ok d2 hp.kinds] at hmc
  cases hsh; cases hsc'; cases hmh; cases hmc; cases hm; cases hee; cases hps
  obtain ⟨a1, a2, a3, a4, a5⟩ := addSpec_ok (p := p) (u := fun k => std k * g k) (a := clipEta tH) (b := clipEta tC) hp.kinds
  cases a1.symm.trans hgs
  cases a2.symm.trans hws
  cases a3.symm.trans hds
  cases a4.symm.trans heps
  cases h
  rw [a5]
  have hne : ∀ {z s t : ℝ}, pyDiv z s = .ok t → s ≠ 0 ∧ t = z / s := by
    intro z s t h
    unfold pyDiv at h
    split at h
    · cases h
    · rename_i h0; cases h; exact ⟨h0, rfl⟩
  obtain ⟨s1, rfl⟩ := hne htH
  obtain ⟨s2, rfl⟩ := hne htC
  have hc := equip_check hh hp.kinds (by omega) d1 d2 hp.gpShade hp.doorShade ha.ne'
  refine ⟨_, _, _, _, _, _, rfl, hc _ _ _, rfl, hc _ _ _, ?_, ?_, ⟨(clip_range _).1, (clip_range _).2, (clip_range _).1, (clip_range _).2⟩, ?_⟩
  · have ht := hsc.total
    have t1 : (PT.all.map fun k => kindWeight hH p k * (std k * g k)) = PT.all.map fun k => kindWeight hH p k * std k * g k :=
      List.map_congr_left fun k _ => by ring
    have t2 : (PT.all.map fun k => kindWeight hH p k * uPsiMax k) = PT.all.map fun k => kindWeight hH p k * std k * fMax k :=
      List.map_congr_left fun k _ => by rw [← hmax k]; ring
    simp only
    rw [t1, t2, ht, ← min_div_div_right ha.le, mul_div_cancel_left₀ _ ha.ne']
  · intro k
    refine ⟨mul_nonneg (hstd0 k).le (hsc.nonneg k (hall k)), ?_⟩
    rw [← hmax k, mul_comm]
    exact mul_le_mul_of_nonneg_right (hsc.le_max k (hall k)) (hstd0 k).le
  · intro x y hx hx' hy hy'
    refine ⟨_, _, hc _ x y, rfl, ?_, ?_⟩
    · exact index_nearest s1 ha hx hx'
    · exact index_nearest s2 ha hy hy'

/-- The distribution succeeds when all factors are defined and the sun reaches the windows. -/
theorem specify_ok {region : ℤ} (hr : 1 ≤ region ∧ region ≤ 7) {p : HouseNoSpec} {uA etaAH etaAC : ℝ} (hp : Spec.Distributable region p) (hu : 0 ≤ uA)
    (d1 : SunDefined region p "heating") (d2 : SunDefined region p "cooling") (w1 : windowSun region p "heating" ≠ 0)
    (w2 : windowSun region p "cooling" ≠ 0) : ∃ e, specifyParts region uA etaAH etaAC p = .ok e := by
  have hr8 : 1 ≤ region ∧ region ≤ 8 := ⟨hr.1, by omega⟩
  obtain ⟨hH, hh, -⟩ := getH_defined hr8
  obtain ⟨fMax, hfM, hfM'⟩ := C58_maxima hr8
  choose std hstd hstd0 hmax hf0 using hfM'
  have hW := kindWeight_nonneg hp hh
  have ha : 0 < areaOf p := hp.area
  have hA : aEvpTotal p.gps p.ws p.ds p.ecs = areaOf p := by simp [aEvpTotal, areaOf]; ring
  have hq : ∀ k ∈ PT.all, 0 ≤ kindWeight hH p k * std k := fun k _ => mul_nonneg (hW k) (hstd0 k).le
  obtain ⟨f, g, hf, -, hlook, hsc⟩ := C58_scales PT.all (fun k => kindWeight hH p k * std k) fMax (areaOf p * uA) hq (fun k _ => (hf0 k).le)
    (mul_nonneg ha.le hu)
  have hall : ∀ k, k ∈ PT.all := by intro k; cases k <;> simp [PT.all]
  have hval : uPsiValue region f = .ok fun k => std k * g k := ptDict_ok fun k => by rw [hstd, ok_bind, hlook k (hall k)]
  simp only [specifyParts, calcPartsSpec, getQStd_ok p hh hstd, hfM, ok_bind, getFUPsi, hA, hf, hval, getMOpq, getEtaDEach, mOpq_ok d1 hp.kinds,
    mOpq_ok d2 hp.kinds, sumAFNu_ok d1, sumAFNu_ok d2, pyDiv_ne w1, pyDiv_ne w2, pure, Except.pure]
  obtain ⟨a1, a2, a3, a4, a5⟩ := addSpec_ok (p := p) (u := fun k => std k * g k)
    (a := clipEta ((etaAH / 100 * areaOf p - ((p.gps.map fun s => s.area * 0.034 * Spec.uOf (fun k => std k * g k) s.type *
      nv region "heating" s.nextSpace s.direction).sum + (p.ds.map fun s => s.area * 0.034 * (std .door * g .door) *
      nv region "heating" s.nextSpace s.direction).sum)) / windowSun region p "heating"))
    (b := clipEta ((etaAC / 100 * areaOf p - ((p.gps.map fun s => s.area * 0.034 * Spec.uOf (fun k => std k * g k) s.type *
      nv region "cooling" s.nextSpace s.direction).sum + (p.ds.map fun s => s.area * 0.034 * (std .door * g .door) *
      nv region "cooling" s.nextSpace s.direction).sum)) / windowSun region p "cooling")) hp.kinds
  rw [a1, ok_bind, a2, ok_bind, a3, ok_bind, a4, ok_bind]
  exact ⟨_, rfl⟩

/-- The direction factors of the standard house. -/
theorem nu_pos {region : ℤ} (hr : 1 ≤ region ∧ region ≤ 7) {season : String} (hs : season = "heating" ∨ season = "cooling") {d : Direction}
    (hd : d = .top ∨ d = .sw ∨ d = .nw ∨ d = .ne ∨ d = .se) : ∃ x, partNu .outdoor d region season = .ok x ∧ 0 < x := by
  obtain ⟨h1, h2⟩ := hr
  rcases hs with rfl | rfl <;> rcases hd with rfl | rfl | rfl | rfl | rfl <;> interval_cases region <;>
    simp [partNu, nuNum, Direction.getNu, nuTable, nuHeating, nuCooling, region8, ok_bind] <;> norm_num

/-- The shading factors of the standard house. -/
theorem f_pos {region : ℤ} (hr : 1 ≤ region ∧ region ≤ 7) {season : String} (hs : season = "heating" ∨ season = "cooling") {d : Direction}
    (hd : d = .sw ∨ d = .nw ∨ d = .ne ∨ d = .se) : ∃ x, (TransientShade.simple 0.3 1 0).getF region season d = .ok x ∧ 0 < x := by
  have hv : Spec.Vertical d := by rcases hd with rfl | rfl | rfl | rfl <;> trivial
  obtain ⟨x, hx⟩ := C65_defined (depth := 0.3) (dH := 1) (dE := 0) (region := region) (season := season) (d := d) (by norm_num) (.inl hv)
    (hs.imp (fun h => ⟨h, by omega⟩) id)
  exact ⟨x, hx, ((C65_range (by norm_num) (by norm_num) (by norm_num) hx).2.2 hv).1⟩

/-- The house the indices of a detached house are distributed over. -/
noncomputable def indexShape (T f0 f1 : ℝ) : HouseShape := detachedShape "floor" 0.5 0 (detachedBath "floor" true) T 0.1 f0 f1

theorem indexShape_values {T f0 f1 : ℝ} : (indexShape T f0 f1).roof = T / 1.77 ∧ (indexShape T f0 f1).fTotal = T / 1.77 - 5.7967 ∧
    (indexShape T f0 f1).windowTotal = 0.1 * (2 * (T / 1.77) + 11.6 * (Real.sqrt (T / 1.77) * f0) + 10.8 * (Real.sqrt (T * 0.77 / 1.77) * f1)) - 3.51 ∧
    (indexShape T f0 f1).wall.sum = 0.9 * (11.6 * (Real.sqrt (T / 1.77) * f0) + 10.8 * (Real.sqrt (T * 0.77 / 1.77) * f1)) - 0.2 * (T / 1.77) ∧
    (indexShape T f0 f1).baseOutside.d90 = 1.2376 ∧ (indexShape T f0 f1).baseOutside.d180 = 1.1557 ∧ (indexShape T f0 f1).baseInside = 2.3933 ∧
    (indexShape T f0 f1).lBaseOutside.d90 = 3.64 ∧ (indexShape T f0 f1).lBaseOutside.d180 = 3.185 ∧ (indexShape T f0 f1).lBaseInside = 6.825 ∧
    (indexShape T f0 f1).door = ⟨0, 1.89, 1.62, 0⟩ ∧
    (indexShape T f0 f1).window = (⟨0.6862, 0.0721, 0.1097, 0.1320⟩ : Four).scale (indexShape T f0 f1).windowTotal ∧
    (indexShape T f0 f1).efTotal = 5.7967 := by
  have e : (1 + 0.77 : ℝ) = 1.77 := by norm_num
  refine ⟨?_, ?_, ?_, ?_, ?_, ?_, ?_, ?_, ?_, ?_, rfl, rfl, ?_⟩
  all_goals
    simp [indexShape, detachedShape, houseShape, detachedConsts, detachedEntrance, detachedBath, efOther, lBaseOther, Four.add3, Four.scale, Four.sum,
      srfTotal, e]
  all_goals ring

theorem getH_outdoor {region : ℤ} (hr : 1 ≤ region ∧ region ≤ 8) {h : NextSpace → ℝ} (hh : ∀ s : NextSpace, s.getH region = .ok (h s)) :
    h .outdoor = 1 ∧ h .openUnderfloor = 0.7 := by
  have h1 := hh .outdoor
  have h2 := hh .openUnderfloor
  rw [NextSpace.getH] at h1 h2
  simp only [region8, hr, and_self, dif_pos, ok_bind, Except.ok.injEq] at h1 h2
  exact ⟨h1.symm, h2.symm⟩

theorem index_windows_pos {T f0 f1 : ℝ} (hT : 20 ≤ T) (h0 : 1 ≤ f0) (h1 : 1 ≤ f1) : 0 < (indexShape T f0 f1).windowTotal := by
  rw [(indexShape_values (T := T) (f0 := f0) (f1 := f1)).2.2.1]
  have a0 : 11 ≤ T / 1.77 := by rw [le_div_iff₀ (by norm_num)]; linarith
  have s0 : 3 ≤ Real.sqrt (T / 1.77) := Real.le_sqrt_of_sq_le (by linarith)
  have p0 : 3 ≤ Real.sqrt (T / 1.77) * f0 := by nlinarith
  have p1 : 0 ≤ Real.sqrt (T * 0.77 / 1.77) * f1 := mul_nonneg (Real.sqrt_nonneg _) (by linarith)
  linarith

theorem index_walls_nonneg {T f0 f1 : ℝ} (hT : 20 ≤ T) (hT' : T ≤ 4000) (h0 : 1 ≤ f0) (h1 : 1 ≤ f1) : 0 ≤ (indexShape T f0 f1).wall.sum := by
  rw [(indexShape_values (T := T) (f0 := f0) (f1 := f1)).2.2.2.1]
  have a0 : 0 ≤ T / 1.77 := by positivity
  have a0' : T / 1.77 ≤ 50 ^ 2 := by rw [div_le_iff₀ (by norm_num)]; norm_num; linarith
  have s0 : Real.sqrt (T / 1.77) ≤ 50 := Real.sqrt_le_iff.2 ⟨by norm_num, a0'⟩
  have hs := Real.mul_self_sqrt a0
  have hn := Real.sqrt_nonneg (T / 1.77)
  have p0 : Real.sqrt (T / 1.77) ≤ Real.sqrt (T / 1.77) * f0 := le_mul_of_one_le_right hn h0
  have p1 : 0 ≤ Real.sqrt (T * 0.77 / 1.77) * f1 := mul_nonneg (Real.sqrt_nonneg _) (by linarith)
  nlinarith

theorem index_distributable {region : ℤ} (hr : 1 ≤ region ∧ region ≤ 7) {T f0 f1 : ℝ} (hT : 20 ≤ T) (hT' : T ≤ 4000) (h0 : 1 ≤ f0) (h1 : 1 ≤ f1) :
    Spec.Distributable region (detachedParts "floor" (indexShape T f0 f1)) := by
  obtain ⟨v1, v2, -, -, v5, v6, v7, v8, v9, v10, v11, v12, v13⟩ := indexShape_values (T := T) (f0 := f0) (f1 := f1)
  have hw := index_windows_pos hT h0 h1
  have hwall := index_walls_nonneg hT hT' h0 h1
  have a0 : 11 ≤ T / 1.77 := by rw [le_div_iff₀ (by norm_num)]; linarith
  rw [Four.sum] at hwall
  constructor
  · simp [detachedParts, inner, outer, Spec.kindOf]
  · simp [detachedParts, inner, outer]
  · simp [detachedParts]
  · simp [detachedParts, inner, outer, eavesWindow, v1, v2, v5, v6, v7, v11, v12, v13, Four.scale]
    linarith
  · intro h hh t
    obtain ⟨e1, e2⟩ := getH_outdoor ⟨hr.1, by omega⟩ hh
    cases t <;> simp [detachedParts, inner, outer, e1, e2, v1, v2, v5, v6, v7] <;> linarith
  · intro h hh
    obtain ⟨e1, e2⟩ := getH_outdoor ⟨hr.1, by omega⟩ hh
    simp [detachedParts, eavesWindow, e1, v12, Four.scale]
    linarith
  · intro h hh
    obtain ⟨e1, e2⟩ := getH_outdoor ⟨hr.1, by omega⟩ hh
    simp [detachedParts, e1, v11]
    norm_num
  · intro h hh
    obtain ⟨e1, e2⟩ := getH_outdoor ⟨hr.1, by omega⟩ hh
    simp [detachedParts, perimeter, e1, e2, v8, v9, v10]
    norm_num

theorem index_sun {region : ℤ} (hr : 1 ≤ region ∧ region ≤ 7) {season : String} (hs : season = "heating" ∨ season = "cooling") {T f0 f1 : ℝ}
    (hT : 20 ≤ T) (h0 : 1 ≤ f0) (h1 : 1 ≤ f1) : SunDefined region (detachedParts "floor" (indexShape T f0 f1)) season ∧
      windowSun region (detachedParts "floor" (indexShape T f0 f1)) season ≠ 0 := by
  have hw := index_windows_pos hT h0 h1
  have nu : ∀ d : Direction, d = .top ∨ d = .sw ∨ d = .nw ∨ d = .ne ∨ d = .se →
      partNu .outdoor d region season = .ok (nv region season .outdoor d) ∧ 0 < nv region season .outdoor d := by
    intro d hd
    obtain ⟨x, hx, hx0⟩ := nu_pos hr hs hd
    have := nv_of hx
    refine ⟨this, ?_⟩
    rw [hx] at this
    rw [← Except.ok.inj this]
    exact hx0
  have hf : ∀ (n : String) (d : Direction) (a : ℝ), d = .sw ∨ d = .nw ∨ d = .ne ∨ d = .se →
      (eavesWindow n .outdoor d a).getF region season = .ok (fv region season (eavesWindow n .outdoor d a)) ∧
        0 < fv region season (eavesWindow n .outdoor d a) := by
    intro n d a hd
    obtain ⟨x, hx, hx0⟩ := f_pos hr hs hd
    have h' : (eavesWindow n .outdoor d a).getF region season = .ok x := hx
    have := fv_of h'
    refine ⟨this, ?_⟩
    rw [h'] at this
    rw [← Except.ok.inj this]
    exact hx0
  have no : ∀ (sp : NextSpace) (d : Direction), sp ≠ .outdoor → partNu sp d region season = .ok (nv region season sp d) := by
    intro sp d h
    exact nv_of (x := 0) (by rw [partNu, if_neg h])
  obtain ⟨-, -, -, -, -, -, -, -, -, -, -, v12, -⟩ := indexShape_values (T := T) (f0 := f0) (f1 := f1)
  refine ⟨⟨?_, ?_, ?_, ?_⟩, ?_⟩
  · intro g hg
    simp only [detachedParts, if_true, List.cons_append, List.nil_append, List.mem_cons, List.not_mem_nil, or_false] at hg
    rcases hg with rfl | rfl | rfl | rfl | rfl | rfl | rfl | rfl | rfl <;>
      first | exact (nu _ (by simp [outer])).1 | exact no _ _ (by simp [inner])
  · intro g hg
    simp only [detachedParts, List.mem_cons, List.not_mem_nil, or_false] at hg
    rcases hg with rfl | rfl <;> exact (nu _ (by simp)).1
  · intro g hg
    simp only [detachedParts, List.mem_cons, List.not_mem_nil, or_false] at hg
    rcases hg with rfl | rfl | rfl | rfl <;> exact (nu _ (by simp [eavesWindow])).1
  · intro g hg
    simp only [detachedParts, List.mem_cons, List.not_mem_nil, or_false] at hg
    rcases hg with rfl | rfl | rfl | rfl <;> exact (hf _ _ _ (by simp)).1
  · refine ne_of_gt ?_
    simp only [windowSun, detachedParts, List.map_cons, List.map_nil, List.sum_cons, List.sum_nil, v12, Four.scale]
    have q : ∀ (n : String) (d : Direction) (c : ℝ), 0 < c → d = .sw ∨ d = .nw ∨ d = .ne ∨ d = .se →
        0 < (eavesWindow n .outdoor d (c * (indexShape T f0 f1).windowTotal)).area *
          fv region season (eavesWindow n .outdoor d (c * (indexShape T f0 f1).windowTotal)) *
          nv region season (eavesWindow n .outdoor d (c * (indexShape T f0 f1).windowTotal)).nextSpace
            (eavesWindow n .outdoor d (c * (indexShape T f0 f1).windowTotal)).direction := by
      intro n d c hc hd
      exact mul_pos (mul_pos (mul_pos hc hw) (hf n d _ hd).2) (nu d (.inr hd)).2
    have q1 := q "window_sw" .sw 0.6862 (by norm_num) (by simp)
    have q2 := q "window_nw" .nw 0.0721 (by norm_num) (by simp)
    have q3 := q "window_ne" .ne 0.1097 (by norm_num) (by simp)
    have q4 := q "window_se" .se 0.1320 (by norm_num) (by simp)
    linarith

theorem indicesDict_reads {e : Envelope} (hg : ∀ p ∈ e.gps, GPReadable p) (hw : ∀ p ∈ e.ws, TransientReadable p.sunshade)
    (hd : ∀ p ∈ e.ds, OpaqueSimple p.sunshade) : Envelope.make (indicesDict e) = .ok e := by
  have rg : (e.gps.map GP.asDict).mapM GP.make = .ok e.gps := mapM_roundtrip _ _ _ fun x hx => gp_roundtrip (hg x hx)
  have rw' : (e.ws.map Win.asDict).mapM Win.make = .ok e.ws := mapM_roundtrip _ _ _ fun x hx => win_roundtrip (hw x hx)
  have rd : (e.ds.map Door.asDict).mapM Door.make = .ok e.ds := mapM_roundtrip _ _ _ fun x hx => door_roundtrip (hd x hx)
  have rp : (e.eps.map Efp.asDict).mapM Efp.make = .ok e.eps := mapM_roundtrip _ _ _ fun x _ => C63_earthfloor_perimeter x
  have rc : (e.ecs.map Efc.asDict).mapM Efc.make = .ok e.ecs := mapM_roundtrip _ _ _ fun x _ => C63_earthfloor_center x
  simp [indicesDict, Envelope.make, PyVal.getList, PyVal.get, List.lookup, PyVal.asList, ok_bind, rg, rw', rd, rp, rc, pure, Except.pure]

theorem convertIndices_eq {region : ℤ} {d : PyVal} {ht : String} {T a uA etaAH etaAC : ℝ} (h : Spec.IndexInput d ht T a uA etaAH etaAC) :
    convertIndices region d = (do
      let ins ← insTypes ht
      let shape ← calcArea ht T 0.1 ins.1 ins.2 (some a)
      let parts ← noSpec shape
      let e ← specifyParts region uA etaAH etaAC parts
      return indicesDict e) := by
  obtain ⟨h1, h2, h3, h4, h5, h6⟩ := h
  simp only [bind_ok_iff] at h1 h2 h3 h4 h5 h6
  obtain ⟨c, hc, h1⟩ := h1
  obtain ⟨c', hc', h2⟩ := h2
  cases hc.symm.trans hc'
  obtain ⟨e, he, h3⟩ := h3
  obtain ⟨e', he', i, hi, h4⟩ := h4
  cases he.symm.trans he'
  obtain ⟨e', he', i', hi', h5⟩ := h5
  cases he.symm.trans he'
  cases hi.symm.trans hi'
  obtain ⟨e', he', i', hi', h6⟩ := h6
  cases he.symm.trans he'
  cases hi.symm.trans hi'
  simp only [convertIndices, hc, ok_bind, h1, h2, he, h3, hi, h4, h5, h6]

/-- The shape chosen for a detached house. -/
theorem index_shape {T a : ℝ} (hT : 0 < T) : ∃ f0 f1, 1 ≤ f0 ∧ 1 ≤ f1 ∧
    calcArea "detached" T 0.1 (some "floor") (some "base") (some a) = .ok (indexShape T f0 f1) ∧
    noSpec (indexShape T f0 f1) = .ok (detachedParts "floor" (indexShape T f0 f1)) := by
  obtain ⟨f0, f1, h0, h1, hs, -⟩ := calc_detached (r := 0.1) (aEnv := some a) (hb := 0.5) (ho := 0) (bath := some "base")
    (b := detachedBath "floor" true) (.inl rfl)
    (by simp [houseConsts, bathHeight, byFloor, byHouse, ok_bind, detachedConsts]) le_rfl
    (by simp [getBath, onHouse, onFloor, onBath, ok_bind, detachedBath, pure, Except.pure]) hT
  refine ⟨f0, f1, h0, h1, hs, noSpec_floor rfl rfl ?_⟩
  simp [indexShape, detachedShape, houseShape, detachedConsts, detachedEntrance, detachedBath, lBaseOther, Four.add3, Four.scale]

/-- **C59, detached houses.** Every detached house of 20 to 4000 m2 of floor, whatever envelope area and indices (U_A not
negative) are given, is converted in the regions 1 to 7. The result consists of the parts of the standard house; the checker evaluates
it; its U_A is the given one or, if that is too large, the one the same parts have with the largest U values; and the
indices for the sun are the nearest that windows with a transmittance up to 0.88 can give. -/
theorem C59_detached_partial {region : ℤ} (hr : 1 ≤ region ∧ region ≤ 7) {d : PyVal} {T a uA etaAH etaAC : ℝ}
    (hd : Spec.IndexInput d "detached" T a uA etaAH etaAC) (hT : 20 ≤ T) (hT' : T ≤ 4000) (hu : 0 ≤ uA) :
    ∃ env s p u etaH etaC r rmax vH, convertIndices region d = .ok env ∧
      calcArea "detached" T 0.1 (some "floor") (some "base") (some a) = .ok s ∧ noSpec s = .ok p ∧
      Envelope.make env = .ok (Spec.equip p u etaH etaC) ∧ checkUaEtaA region env = .ok r ∧ r.etaAH = some vH ∧
      (Spec.equip p uPsiMax etaH etaC).check region = .ok rmax ∧ r.uA = min uA rmax.uA ∧ (∀ k, 0 ≤ u k ∧ u k ≤ uPsiMax k) ∧
      ∀ x y, 0 ≤ x → x ≤ 0.88 → 0 ≤ y → y ≤ 0.88 → ∃ r' vH', (Spec.equip p u x y).check region = .ok r' ∧ r'.etaAH = some vH' ∧
        |vH - etaAH| ≤ |vH' - etaAH| ∧ |r.etaAC - etaAC| ≤ |r'.etaAC - etaAC| := by
  obtain ⟨f0, f1, h0, h1, hs, hn⟩ := index_shape (T := T) (a := a) (by linarith)
  have hp := index_distributable hr hT hT' h0 h1
  obtain ⟨d1, w1⟩ := index_sun hr (season := "heating") (.inl rfl) hT h0 h1
  obtain ⟨d2, w2⟩ := index_sun hr (season := "cooling") (.inr rfl) hT h0 h1
  obtain ⟨e, he⟩ := specify_ok (etaAH := etaAH) (etaAC := etaAC) hr hp hu d1 d2 w1 w2
  obtain ⟨u, etaH, etaC, r, rmax, vH, rfl, hc, hv, hm, hua, hk, -, hnear⟩ := C59_parts_partial hr hp hu he
  have hread : Envelope.make (indicesDict (Spec.equip (detachedParts "floor" (indexShape T f0 f1)) u etaH etaC)) =
      .ok (Spec.equip (detachedParts "floor" (indexShape T f0 f1)) u etaH etaC) := by
    apply indicesDict_reads
    · intro g hg
      simp only [Spec.equip, List.mem_map] at hg
      obtain ⟨g, hg, rfl⟩ := hg
      refine ⟨rfl, ?_⟩
      simp only [detachedParts, if_true, List.cons_append, List.nil_append, List.mem_cons, List.not_mem_nil, or_false] at hg
      rcases hg with rfl | rfl | rfl | rfl | rfl | rfl | rfl | rfl | rfl <;> trivial
    · intro g hg
      simp only [Spec.equip, List.mem_map] at hg
      obtain ⟨g, hg, rfl⟩ := hg
      simp only [detachedParts, List.mem_cons, List.not_mem_nil, or_false] at hg
      rcases hg with rfl | rfl | rfl | rfl <;> trivial
    · intro g hg
      simp only [Spec.equip, List.mem_map] at hg
      obtain ⟨g, hg, rfl⟩ := hg
      simp only [detachedParts, List.mem_cons, List.not_mem_nil, or_false] at hg
      rcases hg with rfl | rfl <;> trivial
  refine ⟨_, _, _, u, etaH, etaC, r, rmax, vH, ?_, hs, hn, hread, ?_, hv, hm, hua, hk, hnear⟩
  · rw [convertIndices_eq hd]
    simp only [insTypes, byHouse, if_true, ok_bind, hs, hn, he]
    rfl
  · rw [checkUaEtaA, hread, ok_bind, hc]

/-- **C59, violated for attached houses.** No attached house is converted: the kinds of its ceiling and floor have no U value. -/
theorem C59_attached_violated {region : ℤ} {d : PyVal} {T a uA etaAH etaAC : ℝ} (hd : Spec.IndexInput d "attached" T a uA etaAH etaAC)
    (hT : 0 < T) : ∀ env, convertIndices region d ≠ .ok env := by
  intro env h
  obtain ⟨f, -, hs, -⟩ := calc_attached (r := 0.1) (aEnv := some a) (fl := none) (bath := none) (.inl rfl) (.inl rfl) hT
  have hn : noSpec (attachedShape none T 0.1 f) = .ok (attachedParts (attachedShape none T 0.1 f)) := by
    refine noSpec_attached rfl ?_
    simp [attachedShape, houseShape, attachedConsts, attachedWet, efOther, lBaseOther, Four.add3, Four.scale]
  rw [convertIndices_eq hd] at h
  have e : "attached" ≠ "detached" := by decide
  simp only [insTypes, byHouse, if_true, if_neg e, ok_bind, hs, hn, specifyParts, calcPartsSpec, getMOpq, bind_ok_iff] at h
  obtain ⟨_, ⟨_, ⟨_, -, _, -, _, -, u, -, _, ⟨_, h, -⟩, -⟩, -⟩, -⟩ := h
  simp only [mOpq, bind_ok_iff] at h
  obtain ⟨_, h, -⟩ := h
  obtain ⟨y, hy⟩ := ok_of_mapM_ok h _ List.mem_cons_self
  simp [inner, ptGet, GPType.value, PT.all, PT.name, List.find?, bind_ok_iff] at hy

/-- **C59, violated in region 8.** No detached house is converted: the index for the heating season is computed in all
regions and has no direction factors there. -/
theorem C59_region8_violated {d : PyVal} {T a uA etaAH etaAC : ℝ} (hd : Spec.IndexInput d "detached" T a uA etaAH etaAC)
    (hT : 0 < T) : ∀ env, convertIndices 8 d ≠ .ok env := by
  intro env h
  obtain ⟨f0, f1, -, -, hs, hn⟩ := index_shape (T := T) (a := a) hT
  rw [convertIndices_eq hd] at h
  simp only [insTypes, byHouse, if_true, ok_bind, hs, hn, specifyParts, calcPartsSpec, getMOpq, bind_ok_iff] at h
  obtain ⟨_, ⟨_, ⟨_, -, _, -, _, -, u, -, _, ⟨_, h, -⟩, -⟩, -⟩, -⟩ := h
  simp only [mOpq, bind_ok_iff] at h
  obtain ⟨_, h, -⟩ := h
  obtain ⟨y, hy⟩ := ok_of_mapM_ok h (outer "roof" .ceiling .top (indexShape T f0 f1).roof) (by simp [detachedParts])
  simp [outer, ptGet, GPType.value, PT.all, PT.name, List.find?, bind_ok_iff, partNu, nuNum, Direction.getNu] at hy

/-- **C59.** The result is marked as a house given in detail without the use of its rooms, and has no heat bridges. -/
theorem C59_form {region : ℤ} {d env : PyVal} (h : convertIndices region d = .ok env) :
    env.getStr "input_method" = .ok "detail_without_room_usage" ∧ env.getList "heat_bridges" = .ok [] := by
  simp only [convertIndices, bind_ok_iff] at h
  obtain ⟨_, -, _, -, _, -, _, -, _, -, _, -, _, -, _, -, _, -, _, -, _, -, _, -, _, -, h⟩ := h
  cases h
  simp [indicesDict, PyVal.getStr, PyVal.getList, PyVal.get, List.lookup, PyVal.asStr, PyVal.asList, ok_bind]

/-- The input of `convert_indices_to_lv2_info.py` 208-225. -/
noncomputable def indexExample : PyVal :=
  .dict [("common", .dict [("region", .num 6), ("house_type", .str "detached"), ("main_occupant_room_floor_area", .num 30),
      ("other_occupant_room_floor_area", .num 30), ("total_floor_area", .num 90)]),
    ("envelope", .dict [("input_method", .str "index"), ("total_area", .num 266.0962919879752),
      ("indices", .dict [("u_a", .num 0.87), ("eta_a_h", .num 2.8), ("eta_a_c", .num 1.4)])])]

/-- It meets the hypotheses of C59. -/
theorem C59_example : Spec.IndexInput indexExample "detached" 90 266.0962919879752 0.87 2.8 1.4 := by
  constructor <;>
    simp [indexExample, PyVal.get, PyVal.getStr, PyVal.getNum, PyVal.asStr, PyVal.asNum, List.lookup, ok_bind]

end HLC
