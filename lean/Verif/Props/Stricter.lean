import Verif.Spec.Stricter
import Verif.Props.Indices

/-!
# C136: a stricter requirement never gives a worse part
-/

namespace HLC

open HLC.Conv

/-- All factors are at least the level reached. -/
theorem remainingF_ge {α : Type} {qStd fMax : α → ℝ} {q base : ℝ} {l : List α} {r : List (α × ℝ)} (hq : ∀ p ∈ l, 0 ≤ qStd p)
    (hb : ∀ p ∈ l, base ≤ fMax p) (hq0 : 0 ≤ q) (h : remainingF qStd fMax q base l = .ok r) : ∀ x ∈ r, x.1 ∈ l ∧ base ≤ x.2 ∧ x.2 ≤ fMax x.1 := by
  obtain ⟨r', v, h1, h2, h3, h4, -⟩ := remainingF_spec qStd fMax _ l q base rfl hq hb hq0
  cases h1.symm.trans h
  intro x hx
  have hm := (h3 x.1).1 (List.mem_map_of_mem hx)
  rw [h4 x hx]
  exact ⟨hm, le_min h2 (hb _ hm), min_le_right _ _⟩

theorem remainingF_mono {α : Type} (qStd fMax : α → ℝ) (n : ℕ) : ∀ (l : List α) (q q' base : ℝ), l.length = n →
    (∀ p ∈ l, 0 ≤ qStd p) → (∀ p ∈ l, base ≤ fMax p) → 0 ≤ q → q ≤ q' →
    ∀ r r', remainingF qStd fMax q base l = .ok r → remainingF qStd fMax q' base l = .ok r' →
      ∀ x ∈ r, ∀ y ∈ r', x.1 = y.1 → x.2 ≤ y.2 := by
  classical
  induction n using Nat.strong_induction_on with
  | _ n ih =>
    intro l q q' base hl hq hb hq0 hqq r r' hr hr' x hx y hy hxy
    cases l with
    | nil =>
      rw [remainingF] at hr
      cases hr
      simp at hx
    | cons p ps =>
      have hmle : ∀ x ∈ p :: ps, minOver fMax p ps ≤ fMax x := fun x hx =>
        minOf_le (fMax p) (ps.map fMax) _ (by rw [← List.map_cons]; exact List.mem_map_of_mem hx)
      have hbm : base ≤ minOver fMax p ps := by
        have h := minOf_mem (fMax p) (ps.map fMax)
        rw [← List.map_cons, List.mem_map] at h
        obtain ⟨x, hx, e⟩ := h
        rw [minOver, ← e]; exact hb x hx
      rw [remainingF] at hr hr'
      set m := minOver fMax p ps with hm
      set s := ((p :: ps).map qStd).sum with hs
      have hs0 : 0 ≤ s := List.sum_nonneg fun z hz => by
        obtain ⟨w, hw, rfl⟩ := List.mem_map.1 hz
        exact hq w hw
      have hq' : ∀ x ∈ (p :: ps).filter fun x => decide (fMax x ≠ m), 0 ≤ qStd x := fun x hx => hq x (List.mem_of_mem_filter hx)
      have hb' : ∀ x ∈ (p :: ps).filter fun x => decide (fMax x ≠ m), m ≤ fMax x := fun x hx => hmle x (List.mem_of_mem_filter hx)
      by_cases hc : s * (m - base) > q
      · have hs1 : 0 < s := by
          rcases hs0.lt_or_eq with h | h
          · exact h
          · rw [← h] at hc; linarith
        simp only [hc, if_true, pyDiv, hs1.ne', if_false] at hr
        cases hr
        obtain ⟨z, hz, rfl⟩ := List.mem_map.1 hx
        have hv : base + q / s ≤ m := by
          have : q / s ≤ m - base := by rw [div_le_iff₀ hs1]; linarith [mul_comm s (m - base)]
          linarith
        by_cases hc' : s * (m - base) > q'
        · simp only [hc', if_true, pyDiv, hs1.ne', if_false] at hr'
          cases hr'
          obtain ⟨w, hw, rfl⟩ := List.mem_map.1 hy
          simp only
          have : q / s ≤ q' / s := div_le_div_of_nonneg_right hqq hs1.le
          linarith
        · simp only [hc', if_false, bind_ok_iff] at hr'
          obtain ⟨d, hd, hr'⟩ := hr'
          cases hr'
          refine hv.trans ?_
          rcases List.mem_append.1 hy with hy | hy
          · obtain ⟨w, hw, rfl⟩ := List.mem_map.1 hy
            exact le_rfl
          · exact (remainingF_ge hq' hb' (by linarith) hd y hy).2.1
      · have hc' : ¬ s * (m - base) > q' := by push Not at hc ⊢; linarith
        simp only [hc, hc', if_false, bind_ok_iff] at hr hr'
        obtain ⟨d, hd, hr⟩ := hr
        obtain ⟨d', hd', hr'⟩ := hr'
        cases hr
        cases hr'
        push Not at hc
        rcases List.mem_append.1 hx with hx | hx
        · obtain ⟨w, hw, rfl⟩ := List.mem_map.1 hx
          rcases List.mem_append.1 hy with hy | hy
          · obtain ⟨z, hz, rfl⟩ := List.mem_map.1 hy
            exact le_rfl
          · exact (remainingF_ge hq' hb' (by linarith) hd' y hy).2.1
        · rcases List.mem_append.1 hy with hy | hy
          · obtain ⟨z, hz, rfl⟩ := List.mem_map.1 hy
            have hx' := (remainingF_ge hq' hb' (by linarith) hd x hx).1
            have h1 : fMax z = m := by simpa using (List.mem_filter.1 hz).2
            have h2 : fMax x.1 ≠ m := by simpa using (List.mem_filter.1 hx').2
            exact absurd (by rw [hxy]; exact h1) h2
          · have hlt := remaining_shorter fMax p ps
            rw [hl] at hlt
            exact ih _ hlt _ _ _ m rfl hq' hb' (by linarith) (by linarith) d d' hd hd' x hx y hy hxy

/-- **C136, the distribution.** Whatever the parts are, a smaller required loss gives no part a larger factor. -/
theorem C136_factors {α : Type} [DecidableEq α] {parts : List α} {qStd fMax : α → ℝ} {q q' : ℝ} {r r' : List (α × ℝ)} (hq : ∀ p ∈ parts, 0 ≤ qStd p)
    (hf : ∀ p ∈ parts, 0 ≤ fMax p) (hq0 : 0 ≤ q) (hqq : q ≤ q') (hr : remainingF qStd fMax q 0 parts = .ok r)
    (hr' : remainingF qStd fMax q' 0 parts = .ok r') : ∀ p ∈ parts, ∃ f f', r.lookup p = some f ∧ r'.lookup p = some f' ∧ f ≤ f' := by
  intro p hp
  obtain ⟨r1, g, h1, h2, h3, -⟩ := C58_scales parts qStd fMax q hq hf hq0
  obtain ⟨r2, g', h1', h2', h3', -⟩ := C58_scales parts qStd fMax q' hq hf (hq0.trans hqq)
  cases h1.symm.trans hr
  cases h1'.symm.trans hr'
  refine ⟨_, _, h3 p hp, h3' p hp, ?_⟩
  have key : ∀ {l : List (α × ℝ)} {x : ℝ}, l.lookup p = some x → (p, x) ∈ l := by
    intro l x h
    induction l with
    | nil => simp at h
    | cons a l ih =>
      rw [List.lookup_cons] at h
      split at h
      · rename_i he
        have : p = a.1 := by simpa using he
        cases h
        rw [this]
        exact List.mem_cons_self
      · exact List.mem_cons_of_mem _ (ih h)
  exact remainingF_mono qStd fMax _ parts q q' 0 rfl hq hf hq0 hqq _ _ hr hr' _ (key (h3 p hp)) _ (key (h3' p hp)) rfl

/-- What the distribution of the indices over a list of parts gives. -/
theorem specify_values {region : ℤ} {p : HouseNoSpec} {uA etaAH etaAC : ℝ} {e : Envelope} {hH : NextSpace → ℝ} {std fMax : PT → ℝ}
    (hp : Spec.Distributable region p) (hu : 0 ≤ uA) (hh : ∀ s : NextSpace, s.getH region = .ok (hH s)) (hfM : fUPsiMax region = .ok fMax)
    (hstd : ∀ k, uPsiStd region k = .ok (std k)) (hstd0 : ∀ k, 0 < std k) (hf0 : ∀ k, 0 < fMax k)
    (h : specifyParts region uA etaAH etaAC p = .ok e) :
    ∃ (f : List (PT × ℝ)) (g : PT → ℝ), remainingF (fun k => kindWeight hH p k * std k) fMax (areaOf p * uA) 0 PT.all = .ok f ∧ (∀ k, f.lookup k = some (g k)) ∧
      SunDefined region p "heating" ∧ SunDefined region p "cooling" ∧ windowSun region p "heating" ≠ 0 ∧ windowSun region p "cooling" ≠ 0 ∧
      e = Spec.equip p (fun k => std k * g k)
        (clipEta ((etaAH / 100 * areaOf p - opaqueSun region p (fun k => std k * g k) "heating") / windowSun region p "heating"))
        (clipEta ((etaAC / 100 * areaOf p - opaqueSun region p (fun k => std k * g k) "cooling") / windowSun region p "cooling")) := by
  have hW := kindWeight_nonneg hp hh
  have ha : 0 < areaOf p := hp.area
  have hA : aEvpTotal p.gps p.ws p.ds p.ecs = areaOf p := by simp [aEvpTotal, areaOf]; ring
  have hq : ∀ k ∈ PT.all, 0 ≤ kindWeight hH p k * std k := fun k _ => mul_nonneg (hW k) (hstd0 k).le
  obtain ⟨f, g, hf, -, hlook, hsc⟩ := C58_scales PT.all (fun k => kindWeight hH p k * std k) fMax (areaOf p * uA) hq (fun k _ => (hf0 k).le)
    (mul_nonneg ha.le hu)
  have hall : ∀ k, k ∈ PT.all := by intro k; cases k <;> simp [PT.all]
  have hval : uPsiValue region f = .ok fun k => std k * g k := ptDict_ok fun k => by rw [hstd, ok_bind, hlook k (hall k)]
  simp only [specifyParts, calcPartsSpec, getQStd_ok p hh hstd, hfM, ok_bind, getFUPsi, hA, hf, hval, getMOpq, getEtaDEach, bind_ok_iff] at h
  obtain ⟨ps, ⟨m, ⟨mh, hmh, mc, hmc, hm⟩, ee, ⟨sh, hsh, sc, hsc', tH, htH, tC, htC, hee⟩, hps⟩, gs, hgs, ws, hws, ds, hds, eps, heps, h⟩ := h
  have d1 := sunDefined_of hmh hsh
  have d2 := sunDefined_of hmc hsc'
  rw [sumAFNu_ok d1] at hsh
  rw [sumAFNu_ok d2] at hsc'
  rw [mOpq_ok d1 hp.kinds] at hmh
  rw [mOpq_ok d2 hp.kinds] at hmc
  cases hsh; cases hsc'; cases hmh; cases hmc; cases hm; cases hee; cases hps
  obtain ⟨a1, a2, a3, a4, a5⟩ := addSpec_ok (p := p) (u := fun k => std k * g k) (a := clipEta tH) (b := clipEta tC) hp.kinds
  cases a1.symm.trans hgs
  cases a2.symm.trans hws
  cases a3.symm.trans hds
  cases a4.symm.trans heps
  cases h
  rw [a5]
  have hne : ∀ {z s t : ℝ}, pyDiv z s = .ok t → s ≠ 0 ∧ t = z / s := by
    intro z s t h
    unfold pyDiv at h
    split at h
    · cases h
    · rename_i h0; cases h; exact ⟨h0, rfl⟩
  obtain ⟨s1, rfl⟩ := hne htH
  obtain ⟨s2, rfl⟩ := hne htC
  exact ⟨f, g, hf, fun k => hlook k (hall k), d1, d2, s1, s2, rfl⟩

/-- Parts with smaller U values by kind. -/
theorem equip_noWorse {p : HouseNoSpec} {u u' : PT → ℝ} {a b a' b' : ℝ} (h : ∀ k, u k ≤ u' k) : Spec.NoWorse (Spec.equip p u a b) (Spec.equip p u' a' b') := by
  constructor
  · simp only [Spec.equip, List.forall₂_map_left_iff, List.forall₂_map_right_iff, List.forall₂_same]
    intro g _
    refine ⟨trivial, _, _, rfl, rfl, ?_⟩
    cases g.type <;> simp [Spec.uOf, Spec.kindOf, h]
  · simp only [Spec.equip, List.forall₂_map_left_iff, List.forall₂_map_right_iff, List.forall₂_same]
    exact fun g _ => ⟨trivial, h _⟩
  · simp only [Spec.equip, List.forall₂_map_left_iff, List.forall₂_map_right_iff, List.forall₂_same]
    exact fun g _ => ⟨trivial, h _⟩
  · simp only [Spec.equip, List.forall₂_map_left_iff, List.forall₂_map_right_iff, List.forall₂_same]
    exact fun g _ => ⟨trivial, h _⟩
  · rfl

theorem equip_noDarker {p : HouseNoSpec} {u u' : PT → ℝ} {a b a' b' : ℝ} :
    (a' ≤ a → Spec.NoDarker "heating" (Spec.equip p u a b) (Spec.equip p u' a' b')) ∧
      (b' ≤ b → Spec.NoDarker "cooling" (Spec.equip p u a b) (Spec.equip p u' a' b')) := by
  constructor <;>
  · intro h
    simp only [Spec.NoDarker, Spec.equip, List.forall₂_map_left_iff, List.forall₂_map_right_iff, List.forall₂_same]
    exact fun g _ => ⟨_, _, by simp [WindowSpec.getEtaD], by simp [WindowSpec.getEtaD], h⟩

theorem opaqueSun_mono {region : ℤ} {p : HouseNoSpec} {u u' : PT → ℝ} {season : String} (h : ∀ k, u k ≤ u' k)
    (hg : ∀ g ∈ p.gps, 0 ≤ g.area ∧ 0 ≤ nv region season g.nextSpace g.direction)
    (hd : ∀ g ∈ p.ds, 0 ≤ g.area ∧ 0 ≤ nv region season g.nextSpace g.direction) : opaqueSun region p u season ≤ opaqueSun region p u' season := by
  have hk : ∀ t, Spec.uOf u t ≤ Spec.uOf u' t := by
    intro t
    cases t <;> simp [Spec.uOf, Spec.kindOf, h]
  refine add_le_add (List.sum_le_sum fun g hg' => ?_) (List.sum_le_sum fun g hd' => ?_)
  · exact mul_le_mul_of_nonneg_right (mul_le_mul_of_nonneg_left (hk _) (mul_nonneg (hg g hg').1 (by norm_num))) (hg g hg').2
  · exact mul_le_mul_of_nonneg_right (mul_le_mul_of_nonneg_left (h _) (mul_nonneg (hd g hd').1 (by norm_num))) (hd g hd').2

theorem clipEta_mono {x y : ℝ} (h : x ≤ y) : clipEta x ≤ clipEta y := min_le_min_right _ (max_le_max_right _ h)

/-- The direction factors are not negative. -/
theorem nv_nonneg {region : ℤ} (hr : 1 ≤ region ∧ region ≤ 8) {season : String} {sp : NextSpace} {d : Direction} : 0 ≤ nv region season sp d := by
  unfold nv
  split
  · rename_i x hx
    unfold partNu at hx
    split_ifs at hx
    · obtain ⟨h1, h2⟩ := hr
      simp only [nuNum, bind_ok_iff, Direction.getNu] at hx
      obtain ⟨o, ho, hx⟩ := hx
      split_ifs at ho
      simp only [bind_ok_iff, nuTable] at ho
      obtain ⟨t, ht, row, hrow, ho⟩ := ho
      split_ifs at ht <;> cases ht <;> cases d <;> simp only [nuHeating, nuCooling, reduceCtorEq] at hrow <;> cases hrow <;>
        interval_cases region <;> simp [region8] at ho <;> subst ho <;> simp at hx <;> subst hx <;> norm_num
    · cases hx; exact le_rfl
  · exact le_rfl

theorem windowSun_pos {region : ℤ} (hr : 1 ≤ region ∧ region ≤ 8) {p : HouseNoSpec} {season : String}
    (hw : ∀ w ∈ p.ws, 0 ≤ w.area ∧ ∀ x, w.getF region season = .ok x → 0 ≤ x) (h0 : windowSun region p season ≠ 0) : 0 < windowSun region p season := by
  refine lt_of_le_of_ne (List.sum_nonneg fun y hy => ?_) h0.symm
  obtain ⟨w, hw', rfl⟩ := List.mem_map.1 hy
  refine mul_nonneg (mul_nonneg (hw w hw').1 ?_) (nv_nonneg hr)
  unfold fv
  split
  · rename_i x hx; exact (hw w hw').2 x hx
  · exact le_rfl

/-- **C136, parts.** If two requirements are distributed over the same parts, and the first asks for an average U value that is no
larger, then no part gets a larger U value. If it also asks for at least as much sun in a season, and no area and no shading factor
is negative, then no window lets less of the sun in. -/
theorem C136_parts {region : ℤ} (hr : 1 ≤ region ∧ region ≤ 7) {p : HouseNoSpec} {uA uA' etaAH etaAH' etaAC etaAC' : ℝ} {e e' : Envelope}
    (hp : Spec.Distributable region p) (hu : 0 ≤ uA) (hu' : uA ≤ uA') (h : specifyParts region uA etaAH etaAC p = .ok e)
    (h' : specifyParts region uA' etaAH' etaAC' p = .ok e') :
    Spec.NoWorse e e' ∧
      ((∀ g ∈ p.gps, 0 ≤ g.area) → (∀ g ∈ p.ds, 0 ≤ g.area) → (∀ w ∈ p.ws, 0 ≤ w.area) →
        ((∀ w ∈ p.ws, ∀ x, w.getF region "heating" = .ok x → 0 ≤ x) → etaAH' ≤ etaAH → Spec.NoDarker "heating" e e') ∧
        ((∀ w ∈ p.ws, ∀ x, w.getF region "cooling" = .ok x → 0 ≤ x) → etaAC' ≤ etaAC → Spec.NoDarker "cooling" e e')) := by
  have hr8 : 1 ≤ region ∧ region ≤ 8 := ⟨hr.1, by omega⟩
  obtain ⟨hH, hh, -⟩ := getH_defined hr8
  obtain ⟨fMax, hfM, hfM'⟩ := C58_maxima hr8
  choose std hstd hstd0 hmax hf0 using hfM'
  have ha : 0 < areaOf p := hp.area
  have hW := kindWeight_nonneg hp hh
  obtain ⟨f, g, hf, hl, d1, d2, w1, w2, rfl⟩ := specify_values hp hu hh hfM hstd hstd0 hf0 h
  obtain ⟨f', g', hf', hl', -, -, -, -, rfl⟩ := specify_values hp (hu.trans hu') hh hfM hstd hstd0 hf0 h'
  have hg : ∀ k, std k * g k ≤ std k * g' k := by
    intro k
    obtain ⟨x, x', e1, e2, hx⟩ := C136_factors (fun k _ => mul_nonneg (hW k) (hstd0 k).le) (fun k _ => (hf0 k).le) (mul_nonneg ha.le hu)
      (mul_le_mul_of_nonneg_left hu' ha.le) hf hf' k (by cases k <;> simp [PT.all])
    rw [hl] at e1
    rw [hl'] at e2
    cases e1
    cases e2
    exact mul_le_mul_of_nonneg_left hx (hstd0 k).le
  refine ⟨equip_noWorse hg, fun hgp hds hws => ⟨fun hwf he => equip_noDarker.1 (clipEta_mono ?_), fun hwf he => equip_noDarker.2 (clipEta_mono ?_)⟩⟩
  · have := opaqueSun_mono (region := region) (p := p) (season := "heating") hg (fun x hx => ⟨hgp x hx, nv_nonneg hr8⟩) (fun x hx => ⟨hds x hx, nv_nonneg hr8⟩)
    refine div_le_div_of_nonneg_right ?_ (windowSun_pos hr8 (fun w hw => ⟨hws w hw, hwf w hw⟩) w1).le
    have : etaAH' / 100 * areaOf p ≤ etaAH / 100 * areaOf p := mul_le_mul_of_nonneg_right (by linarith) ha.le
    linarith
  · have := opaqueSun_mono (region := region) (p := p) (season := "cooling") hg (fun x hx => ⟨hgp x hx, nv_nonneg hr8⟩) (fun x hx => ⟨hds x hx, nv_nonneg hr8⟩)
    refine div_le_div_of_nonneg_right ?_ (windowSun_pos hr8 (fun w hw => ⟨hws w hw, hwf w hw⟩) w2).le
    have : etaAC' / 100 * areaOf p ≤ etaAC / 100 * areaOf p := mul_le_mul_of_nonneg_right (by linarith) ha.le
    linarith

/-- The converted standard house is read back. -/
theorem index_reads {T f0 f1 : ℝ} {u : PT → ℝ} {etaH etaC : ℝ} :
    Envelope.make (indicesDict (Spec.equip (detachedParts "floor" (indexShape T f0 f1)) u etaH etaC)) =
      .ok (Spec.equip (detachedParts "floor" (indexShape T f0 f1)) u etaH etaC) := by
  apply indicesDict_reads
  · intro g hg
    simp only [Spec.equip, List.mem_map] at hg
    obtain ⟨g, hg, rfl⟩ := hg
    refine ⟨rfl, ?_⟩
    simp only [detachedParts, if_true, List.cons_append, List.nil_append, List.mem_cons, List.not_mem_nil, or_false] at hg
    rcases hg with rfl | rfl | rfl | rfl | rfl | rfl | rfl | rfl | rfl <;> trivial
  · intro g hg
    simp only [Spec.equip, List.mem_map] at hg
    obtain ⟨g, hg, rfl⟩ := hg
    simp only [detachedParts, List.mem_cons, List.not_mem_nil, or_false] at hg
    rcases hg with rfl | rfl | rfl | rfl <;> trivial
  · intro g hg
    simp only [Spec.equip, List.mem_map] at hg
    obtain ⟨g, hg, rfl⟩ := hg
    simp only [detachedParts, List.mem_cons, List.not_mem_nil, or_false] at hg
    rcases hg with rfl | rfl <;> trivial

/-- **C136, detached houses.** Two descriptions of a detached house of 20 to 4000 m2 of floor that differ in the required indices only
are both converted in the regions 1 to 7. If the first asks for an average U value that is no larger, no part of its house has a
larger U value than the same part of the other; if it also asks for at least as much sun in a season, and the standard house of that
size and envelope area has no walls of negative area, no window lets less sun in. -/
theorem C136_detached_partial {region : ℤ} (hr : 1 ≤ region ∧ region ≤ 7) {d d' : PyVal} {T a uA uA' etaAH etaAH' etaAC etaAC' : ℝ}
    (hd : Spec.IndexInput d "detached" T a uA etaAH etaAC) (hd' : Spec.IndexInput d' "detached" T a uA' etaAH' etaAC') (hT : 20 ≤ T) (hT' : T ≤ 4000)
    (hu : 0 ≤ uA) (hu' : uA ≤ uA') :
    ∃ env env' e e', convertIndices region d = .ok env ∧ convertIndices region d' = .ok env' ∧ Envelope.make env = .ok e ∧ Envelope.make env' = .ok e' ∧
      Spec.NoWorse e e' ∧ ((∀ g ∈ e.gps, 0 ≤ g.area) →
        (etaAH' ≤ etaAH → Spec.NoDarker "heating" e e') ∧ (etaAC' ≤ etaAC → Spec.NoDarker "cooling" e e')) := by
  obtain ⟨f0, f1, h0, h1, hs, hn⟩ := index_shape (T := T) (a := a) (by linarith)
  have hp := index_distributable hr hT hT' h0 h1
  obtain ⟨d1, w1⟩ := index_sun hr (season := "heating") (.inl rfl) hT h0 h1
  obtain ⟨d2, w2⟩ := index_sun hr (season := "cooling") (.inr rfl) hT h0 h1
  obtain ⟨e, he⟩ := specify_ok (etaAH := etaAH) (etaAC := etaAC) hr hp hu d1 d2 w1 w2
  obtain ⟨e', he'⟩ := specify_ok (etaAH := etaAH') (etaAC := etaAC') hr hp (hu.trans hu') d1 d2 w1 w2
  obtain ⟨u, etaH, etaC, r, rmax, vH, rfl, -⟩ := C59_parts_partial hr hp hu he
  obtain ⟨u', etaH', etaC', r', rmax', vH', rfl, -⟩ := C59_parts_partial hr hp (hu.trans hu') he'
  obtain ⟨k1, k2⟩ := C136_parts hr hp hu hu' he he'
  refine ⟨_, _, _, _, ?_, ?_, index_reads, index_reads, k1, fun hg => ?_⟩
  · rw [convertIndices_eq hd]
    simp only [insTypes, byHouse, if_true, ok_bind, hs, hn, he]
    rfl
  · rw [convertIndices_eq hd']
    simp only [insTypes, byHouse, if_true, ok_bind, hs, hn, he']
    rfl
  · obtain ⟨-, -, -, -, -, -, -, -, -, -, v11, v12, -⟩ := indexShape_values (T := T) (f0 := f0) (f1 := f1)
    have hw := index_windows_pos hT h0 h1
    have hf : ∀ season, ∀ w ∈ (detachedParts "floor" (indexShape T f0 f1)).ws, ∀ x, w.getF region season = .ok x → 0 ≤ x := by
      intro season w hw x hx
      simp only [detachedParts, List.mem_cons, List.not_mem_nil, or_false] at hw
      rcases hw with rfl | rfl | rfl | rfl <;>
        exact ((C65_range (by norm_num) (by norm_num) (by norm_num) (show (TransientShade.simple 0.3 1 0).getF region season _ = .ok x from hx)).2.2 trivial).1.le
    have m1 : ∀ g ∈ (detachedParts "floor" (indexShape T f0 f1)).gps, 0 ≤ g.area := fun g hg' =>
      hg _ (List.mem_map_of_mem (f := fun s : GPNoSpec => ({ s with spec := .other s.type (Spec.uOf u s.type) "light" } : GP)) hg')
    have m2 : ∀ g ∈ (detachedParts "floor" (indexShape T f0 f1)).ds, 0 ≤ g.area := by
      intro g hg'
      simp only [detachedParts, v11, List.mem_cons, List.not_mem_nil, or_false] at hg'
      rcases hg' with rfl | rfl <;> norm_num
    have m3 : ∀ g ∈ (detachedParts "floor" (indexShape T f0 f1)).ws, 0 ≤ g.area := by
      intro g hg'
      simp only [detachedParts, v12, Four.scale, List.mem_cons, List.not_mem_nil, or_false] at hg'
      rcases hg' with rfl | rfl | rfl | rfl <;> simp only [eavesWindow] <;> linarith
    obtain ⟨k3, k4⟩ := k2 m1 m2 m3
    exact ⟨k3 (hf _), k4 (hf _)⟩

/-- A house for the last condition: 90 m2 of floor on the smallest envelope. -/
theorem C136_example_walls : ∃ s, calcArea "detached" 90 0.1 (some "floor") (some "base") (some 0) = .ok s ∧
    0 < s.wall.d0 ∧ 0 < s.wall.d90 ∧ 0 < s.wall.d180 ∧ 0 < s.wall.d270 := by
  obtain ⟨f0, f1, h0, h1, hs, ht⟩ := calc_detached (T := 90) (r := 0.1) (aEnv := some 0) (hb := 0.5) (ho := 0) (bath := some "base")
    (b := detachedBath "floor" true) (.inl rfl)
    (by simp [houseConsts, bathHeight, byFloor, byHouse, ok_bind, detachedConsts]) le_rfl
    (by simp [getBath, onHouse, onFloor, onBath, ok_bind, detachedBath, pure, Except.pure]) (by norm_num)
  have hf : f1 = 1 ∧ f0 = 1.08 / 1.04 := by
    rcases ht 0 rfl _ rfl with h | ⟨h, h', -⟩
    · exfalso
      have p0 : 0 ≤ Real.sqrt (90 / (1 + 0.77)) * f0 := mul_nonneg (Real.sqrt_nonneg _) (by linarith)
      have p1 : 0 ≤ Real.sqrt (90 * 0.77 / (1 + 0.77)) * f1 := mul_nonneg (Real.sqrt_nonneg _) (by linarith)
      have e : (((detachedEntrance "floor").outside.sum + (detachedEntrance "floor").inside) * 0.18 +
          ((detachedBath "floor" true).outside.sum + (detachedBath "floor" true).inside) * 0.5 -
          ((detachedEntrance "floor").outside.sum + (detachedEntrance "floor").inside +
            ((detachedBath "floor" true).outside.sum + (detachedBath "floor" true).inside)) * 0 : ℝ) = 4.7866 := by
        simp [detachedEntrance, detachedBath, Four.sum]
        norm_num
      have e' : (0 : ℝ) < 90 / (1 + 0.77) := by norm_num
      linarith
    · exact ⟨h, h'⟩
  obtain ⟨rfl, rfl⟩ := hf
  have a0 : Real.sqrt (90 / (1 + 0.77)) ≤ 7.2 := Real.sqrt_le_iff.2 ⟨by norm_num, by norm_num⟩
  have a0' : 7 ≤ Real.sqrt (90 / (1 + 0.77)) := Real.le_sqrt_of_sq_le (by norm_num)
  have a1 : Real.sqrt (90 * 0.77 / (1 + 0.77)) ≤ 6.4 := Real.sqrt_le_iff.2 ⟨by norm_num, by norm_num⟩
  have a1' : 6 ≤ Real.sqrt (90 * 0.77 / (1 + 0.77)) := Real.le_sqrt_of_sq_le (by norm_num)
  refine ⟨_, hs, ?_⟩
  have sd : ∀ P A c : ℝ, 0 ≤ c → (P / 2) ^ 2 - 4 * A ≤ c ^ 2 → 0 ≤ sideDif P A ∧ sideDif P A ≤ c / 2 := by
    intro P A c hc h
    refine ⟨div_nonneg (Real.sqrt_nonneg _) (by norm_num), ?_⟩
    refine div_le_div_of_nonneg_right (Real.sqrt_le_iff.2 ⟨hc, max_le h (sq_nonneg _)⟩) (by norm_num)
  have q0 := Real.sq_sqrt (show (0:ℝ) ≤ 90 / (1 + 0.77) by norm_num)
  have q1 := Real.sq_sqrt (show (0:ℝ) ≤ 90 * 0.77 / (1 + 0.77) by norm_num)
  obtain ⟨s0, s0'⟩ := sd (4 * Real.sqrt (90 / (1 + 0.77)) * (1.08 / 1.04)) (90 / (1 + 0.77)) 4 (by norm_num) (by
    rw [show (4 * Real.sqrt (90 / (1 + 0.77)) * (1.08 / 1.04) / 2) ^ 2 = Real.sqrt (90 / (1 + 0.77)) ^ 2 * (2 * (1.08 / 1.04)) ^ 2 by ring, q0]
    norm_num)
  obtain ⟨s1, s1'⟩ := sd (4 * Real.sqrt (90 * 0.77 / (1 + 0.77)) * 1) (90 * 0.77 / (1 + 0.77)) 0 le_rfl (by
    rw [show (4 * Real.sqrt (90 * 0.77 / (1 + 0.77)) * 1 / 2) ^ 2 = Real.sqrt (90 * 0.77 / (1 + 0.77)) ^ 2 * 4 by ring, q1]
    norm_num)
  obtain ⟨-, -, v3, -, -, -, -, -, -, -, v11, v12, -⟩ := indexShape_values (T := 90) (f0 := 1.08 / 1.04) (f1 := 1)
  have e : (1 + 0.77 : ℝ) = 1.77 := by norm_num
  have w : (indexShape 90 (1.08 / 1.04) 1).windowTotal ≤ 25 ∧ 0 ≤ (indexShape 90 (1.08 / 1.04) 1).windowTotal := by
    rw [v3, ← e]
    constructor
    · norm_num at a0 a1 ⊢; linarith
    · norm_num at a0' a1' ⊢; linarith
  have hw : ∀ s : HouseShape, s = indexShape 90 (1.08 / 1.04) 1 →
      s.wall.d0 = (4 * Real.sqrt (90 / (1 + 0.77)) * (1.08 / 1.04) / 4 + sideDif (4 * Real.sqrt (90 / (1 + 0.77)) * (1.08 / 1.04)) (90 / (1 + 0.77))) * 2.9 +
        (4 * Real.sqrt (90 * 0.77 / (1 + 0.77)) * 1 / 4 + sideDif (4 * Real.sqrt (90 * 0.77 / (1 + 0.77)) * 1) (90 * 0.77 / (1 + 0.77))) * 2.7 -
        0.6862 * s.windowTotal - 0 ∧
      s.wall.d90 = (4 * Real.sqrt (90 / (1 + 0.77)) * (1.08 / 1.04) / 4 - sideDif (4 * Real.sqrt (90 / (1 + 0.77)) * (1.08 / 1.04)) (90 / (1 + 0.77))) * 2.9 +
        (4 * Real.sqrt (90 * 0.77 / (1 + 0.77)) * 1 / 4 - sideDif (4 * Real.sqrt (90 * 0.77 / (1 + 0.77)) * 1) (90 * 0.77 / (1 + 0.77))) * 2.7 -
        0.0721 * s.windowTotal - 1.89 ∧
      s.wall.d180 = (4 * Real.sqrt (90 / (1 + 0.77)) * (1.08 / 1.04) / 4 + sideDif (4 * Real.sqrt (90 / (1 + 0.77)) * (1.08 / 1.04)) (90 / (1 + 0.77))) * 2.9 +
        (4 * Real.sqrt (90 * 0.77 / (1 + 0.77)) * 1 / 4 + sideDif (4 * Real.sqrt (90 * 0.77 / (1 + 0.77)) * 1) (90 * 0.77 / (1 + 0.77))) * 2.7 -
        0.1097 * s.windowTotal - 1.62 ∧
      s.wall.d270 = (4 * Real.sqrt (90 / (1 + 0.77)) * (1.08 / 1.04) / 4 - sideDif (4 * Real.sqrt (90 / (1 + 0.77)) * (1.08 / 1.04)) (90 / (1 + 0.77))) * 2.9 +
        (4 * Real.sqrt (90 * 0.77 / (1 + 0.77)) * 1 / 4 - sideDif (4 * Real.sqrt (90 * 0.77 / (1 + 0.77)) * 1) (90 * 0.77 / (1 + 0.77))) * 2.7 -
        0.1320 * s.windowTotal - 0 := by
    rintro s rfl
    simp only [indexShape, detachedShape, houseShape, detachedConsts, srfTotal, Four.scale, List.zipWith_cons_cons, List.zipWith_nil_left,
      List.sum_cons, List.sum_nil, add_zero]
    refine ⟨?_, ?_, ?_, ?_⟩ <;> first | rfl | trivial
  obtain ⟨w0, w1, w2, w3⟩ := hw _ rfl
  obtain ⟨u0, u1⟩ := w
  change 0 < (indexShape 90 (1.08 / 1.04) 1).wall.d0 ∧ 0 < (indexShape 90 (1.08 / 1.04) 1).wall.d90 ∧
    0 < (indexShape 90 (1.08 / 1.04) 1).wall.d180 ∧ 0 < (indexShape 90 (1.08 / 1.04) 1).wall.d270
  rw [w0, w1, w2, w3]
  refine ⟨?_, ?_, ?_, ?_⟩ <;> linarith

/-- A description of a detached house by its indices. -/
noncomputable def indexInput (T a uA etaAH etaAC : ℝ) : PyVal :=
  .dict [("common", .dict [("region", .num 6), ("house_type", .str "detached"), ("total_floor_area", .num T)]),
    ("envelope", .dict [("input_method", .str "index"), ("total_area", .num a),
      ("indices", .dict [("u_a", .num uA), ("eta_a_h", .num etaAH), ("eta_a_c", .num etaAC)])])]

/-- The descriptions the theorem speaks about exist for all numbers, so for a house of 90 m2 that is to have 0.6 instead of 0.87. -/
theorem C136_example (T a uA etaAH etaAC : ℝ) : Spec.IndexInput (indexInput T a uA etaAH etaAC) "detached" T a uA etaAH etaAC := by
  constructor <;>
    simp [indexInput, PyVal.get, PyVal.getStr, PyVal.getNum, PyVal.asStr, PyVal.asNum, List.lookup, ok_bind]

/-- The parts of `C58_example` with a smaller requirement: the second part gets less, the first stays at its maximum. -/
theorem C136_example_factors : remainingF (fun b : Bool => if b then (10:ℝ) else 20) (fun b => if b then (1:ℝ) else 3) 40 0 [true, false] =
    .ok [(true, 1), (false, 3 / 2)] := by
  rw [remainingF]
  norm_num [minOver, minOf]
  rw [remainingF]
  norm_num [minOver, minOf, pyDiv]

end HLC
