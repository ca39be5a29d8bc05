import Verif.Spec.Dimmed
import Verif.Props.Window
import Verif.Props.WindowInput
import Verif.Props.Pipeline
import Verif.Props.Warmer
import Verif.Props.ShippedHouse
import Verif.Props.Whole

/-!
# C132: shading never lets in more sun
-/

namespace HLC.Init

open HLC.Spec HLC

/-! ## One window -/

/-- A deeper overhang shades no less of the window. -/
theorem shadeDirect_mono {w z z' dh de h a : ℝ} (hz : 0 ≤ z) (hzz : z ≤ z') (hh : 0 < dh) (he : 0 ≤ de) (h2 : h ≤ Real.pi / 2) :
    shadeDirect w z dh de h a ≤ shadeDirect w z' dh de h a := by
  unfold shadeDirect
  by_cases hp : 0 < h
  · simp only [hp, if_true, if_neg (not_le.2 hp)]
    have ht : 0 ≤ Real.tan h := Real.tan_nonneg_of_nonneg_of_le_pi_div_two hp.le h2
    rcases le_total 0 (Real.cos (a - w)) with hc | hc
    · have : 0 ≤ Real.tan h / Real.cos (a - w) := div_nonneg ht hc
      exact min_le_min_right _ (max_le_max_right _ (div_le_div_of_nonneg_right (by nlinarith) hh.le))
    · have hn : Real.tan h / Real.cos (a - w) ≤ 0 := div_nonpos_of_nonneg_of_nonpos ht hc
      have e : ∀ x, 0 ≤ x → max ((x * (Real.tan h / Real.cos (a - w)) - de) / dh) 0 = 0 := by
        intro x hx
        apply max_eq_right
        apply div_nonpos_of_nonpos_of_nonneg _ hh.le
        nlinarith [mul_nonpos_of_nonneg_of_nonpos hx hn]
      rw [e z hz, e z' (hz.trans hzz)]
  · simp [hp]

/-- Radiation through a window with a deeper overhang and darker glass. -/
theorem transmitted_le {alpha beta area eta eta' q : ℝ} {p p' : Shading} {g : String} {s : Step}
    (hp : p' = p ∨ ∃ w z z' dh de, p = .simple w z dh de ∧ p' = .simple w z' dh de ∧ z ≤ z') (hv : ∀ w z dh de, p = .simple w z dh de → 0 ≤ z ∧ 0 < dh ∧ 0 ≤ de)
    (he : 0 ≤ eta') (hee : eta' ≤ eta) (ha : 0 ≤ area) (hs : SensibleSun s) (H : transmitted alpha beta area p g eta s = .ok q) :
    ∃ q', transmitted alpha beta area p' g eta' s = .ok q' ∧ q' ≤ q := by
  have hvp : p.Valid := by
    cases p with
    | simple w z dh de => obtain ⟨a1, a2, a3⟩ := hv w z dh de rfl; exact ⟨a1, a2, a3⟩
    | detail w =>
      unfold transmitted at H
      simp [Shading.direct, bind, Except.bind] at H
    | none => trivial
  obtain ⟨fd, fs, e1, e2, d0, d1, s0, s1⟩ := Shading.values hvp s.hSun s.aSun
  have hq : ∃ fd' fs', p'.direct s.hSun s.aSun = .ok fd' ∧ p'.sky = .ok fs' ∧ fd ≤ fd' ∧ fs ≤ fs' ∧ fd' ≤ 1 ∧ fs' ≤ 1 := by
    rcases hp with rfl | ⟨w, z, z', dh, de, rfl, rfl, hz⟩
    · exact ⟨fd, fs, e1, e2, le_rfl, le_rfl, d1, s1⟩
    · obtain ⟨a1, a2, a3⟩ := hv w z dh de rfl
      obtain ⟨-, b2, -, -, b5, -, -⟩ := C47_fractions w z' z' dh de s.hSun s.aSun a2 a3 (a1.trans hz) le_rfl
      obtain ⟨-, -, -, -, -, -, b7⟩ := C47_fractions w z z' dh de s.hSun s.aSun a2 a3 a1 hz
      have k1 : fd = shadeDirect w z dh de s.hSun s.aSun := (Except.ok.inj e1).symm
      have k2 : fs = shadeSky z dh de := by
        simp only [Shading.sky, if_neg a2.ne'] at e2
        exact (Except.ok.inj e2).symm
      refine ⟨_, _, rfl, if_neg a2.ne', ?_, ?_, b2, by linarith⟩
      · rw [k1]; exact shadeDirect_mono a1 hz a2 a3 hs.height
      · rw [k2]; exact b7
  obtain ⟨fd', fs', e1', e2', l1, l2, l3, l4⟩ := hq
  unfold transmitted at H ⊢
  simp only [e1, e2, bind, Except.bind] at H
  simp only [e1', e2', bind, Except.bind]
  obtain ⟨-, -, -, i0, i1, i2, -, -⟩ := C45_irradiance s alpha beta hs.direct hs.sky hs.height
  have hc := (C45_incidence s.hSun s.aSun alpha beta).2.1
  obtain ⟨t0, t1, -, -, t2, t3⟩ := C48_range_partial _ hc
  have hg : g = "single" ∨ g = "multiple" := by
    by_contra hn
    push Not at hn
    simp [tauD, hn.1, hn.2] at H
  have hT : ∃ tau cd, tauD (incidence s.hSun s.aSun alpha beta) g = .ok tau ∧ cD g = .ok cd ∧ 0 ≤ tau ∧ 0 ≤ cd := by
    rcases hg with rfl | rfl
    · exact ⟨_, _, rfl, rfl, t0, by norm_num⟩
    · exact ⟨_, _, rfl, rfl, t2, by norm_num⟩
  obtain ⟨tau, cd, e3, e4, u0, c0⟩ := hT
  simp only [e3, e4] at H ⊢
  refine ⟨_, rfl, ?_⟩
  rw [← Except.ok.inj H]
  apply mul_le_mul_of_nonneg_right _ ha
  have m1 : eta' * (1 - fd') ≤ eta * (1 - fd) := mul_le_mul hee (by linarith) (by linarith) (he.trans hee)
  have m2 : eta' * (1 - fs') ≤ eta * (1 - fs) := mul_le_mul hee (by linarith) (by linarith) (he.trans hee)
  have m3 : eta' * (1 - 0) ≤ eta * (1 - 0) := by linarith
  have n1 := mul_le_mul_of_nonneg_right (mul_le_mul_of_nonneg_right m1 u0) i0
  have n2 := mul_le_mul_of_nonneg_right (mul_le_mul_of_nonneg_right m2 c0) i1
  have n3 := mul_le_mul_of_nonneg_right (mul_le_mul_of_nonneg_right m3 c0) i2
  linarith

/-- How the overhang is read. -/
theorem shading_dimmed {b : BoundaryDict} {sh : Option ShadingDict} {et : Option ℝ} {p : Shading} (S : SensiblePart b)
    (ho : sh = b.shading ∨ ∃ s z z', b.shading = some s ∧ s.depth = some z ∧ 0 ≤ z ∧ z ≤ z' ∧ sh = some { s with depth := some z' })
    (H : Shading.create b = .ok p) :
    ∃ p', Shading.create { b with shading := sh, eta := et } = .ok p' ∧
      (p' = p ∨ ∃ w z z' dh de, p = .simple w z dh de ∧ p' = .simple w z' dh de ∧ z ≤ z') ∧
      ∀ w z dh de, p = .simple w z dh de → 0 ≤ z ∧ 0 < dh ∧ 0 ≤ de := by
  simp only [Shading.create, bind_ok_iff] at H
  obtain ⟨ssp, hssp, sun, hsun, H⟩ := H
  have hk : ∀ {α : Type} {o : Option α} {x : α}, key o = .ok x → o = some x := by
    intro α o x h
    cases o with
    | none => cases h
    | some y => rw [Except.ok.inj h]
  have hb := hk hssp
  split_ifs at H with h1
  · simp only [bind_ok_iff] at H
    obtain ⟨m, hm, dir, hdir, ab, hab, H⟩ := H
    split_ifs at H with h2 h3
    · simp only [bind_ok_iff] at H
      obtain ⟨z, hz, dh, hdh, de, hde, H⟩ := H
      have hv : ∀ w' z' dh' de', p = .simple w' z' dh' de' → 0 ≤ z' ∧ 0 < dh' ∧ 0 ≤ de' := by
        intro w' z' dh' de' hp
        rw [← Except.ok.inj H] at hp
        injection hp with q1 q2 q3 q4
        subst q2 q3 q4
        exact ⟨S.depth _ _ hb (hk hz), S.height _ _ hb (hk hdh), S.above _ _ hb (hk hde)⟩
      rcases ho with rfl | ⟨s, z0, z', e1, e2, e3, e4, rfl⟩
      · refine ⟨p, ?_, .inl rfl, hv⟩
        simp only [Shading.create, hssp, bind, Except.bind]
        rw [show shadingSunStruck { b with shading := b.shading, eta := et } = shadingSunStruck b from rfl, hsun]
        simp only [h1, if_true, hm, hdir, hab, h2, hz, hdh, hde]
        exact H
      · rw [hb, Option.some.injEq] at e1
        subst e1
        have : z0 = z := Option.some.inj (e2.symm.trans (hk hz))
        subst this
        refine ⟨.simple ab.1 z' dh de, ?_, .inr ⟨ab.1, z0, z', dh, de, (Except.ok.inj H).symm, rfl, e4⟩, hv⟩
        simp only [Shading.create, bind, Except.bind]
        rw [show shadingSunStruck { b with shading := some { ssp with depth := some z' }, eta := et } = shadingSunStruck b from rfl, hsun]
        simp only [key, h1, if_true]
        simp only [hk hm, hk hdir, hab, h2, hk hdh, hk hde, if_true]
    · simp only [bind_ok_iff] at H
      obtain ⟨x, hx, H⟩ := H
      refine ⟨p, ?_, .inl rfl, ?_⟩
      · rcases ho with rfl | ⟨s, z0, z', e1, e2, e3, e4, rfl⟩
        · simp only [Shading.create, hssp, bind, Except.bind]
          rw [show shadingSunStruck { b with shading := b.shading, eta := et } = shadingSunStruck b from rfl, hsun]
          simp only [h1, if_true, hm, hdir, hab, h3, hx]
          exact H
        · rw [hb, Option.some.injEq] at e1
          subst e1
          simp only [Shading.create, bind, Except.bind]
          rw [show shadingSunStruck { b with shading := some { ssp with depth := some z' }, eta := et } = shadingSunStruck b from rfl, hsun]
          simp only [key, h1, if_true]
          simp only [hk hm, hk hdir, hab, h3, hk hx, if_true]
          exact H
      · intro w z dh de hp
        rw [← Except.ok.inj H] at hp
        cases hp
  · refine ⟨p, ?_, .inl rfl, ?_⟩
    · rcases ho with rfl | ⟨s, z0, z', e1, e2, e3, e4, rfl⟩
      · simp only [Shading.create, hssp, bind, Except.bind]
        rw [show shadingSunStruck { b with shading := b.shading, eta := et } = shadingSunStruck b from rfl, hsun]
        simp only [h1]
        exact H
      · rw [hb, Option.some.injEq] at e1
        subst e1
        simp only [Shading.create, bind, Except.bind]
        rw [show shadingSunStruck { b with shading := some { ssp with depth := some z' }, eta := et } = shadingSunStruck b from rfl, hsun]
        simp only [key, h1]
        exact H
    · intro w z dh de hp
      rw [← Except.ok.inj H] at hp
      cases hp

theorem mapM_le {α : Type} {f f' : α → Except PyErr ℝ} {l : List α} {r : List ℝ} (h : l.mapM f = .ok r)
    (hf : ∀ a ∈ l, ∀ x, f a = .ok x → ∃ x', f' a = .ok x' ∧ x' ≤ x) : ∃ r', l.mapM f' = .ok r' ∧ List.Forall₂ (· ≤ ·) r' r := by
  rw [mapM_ok_iff] at h
  induction h with
  | nil => exact ⟨[], rfl, .nil⟩
  | cons h1 h2 ih =>
    rename_i a x l r
    obtain ⟨x', e1, e2⟩ := hf a List.mem_cons_self x h1
    obtain ⟨r', e3, e4⟩ := ih fun a ha => hf a (List.mem_cons_of_mem _ ha)
    exact ⟨x' :: r', mapM_ok_iff.2 (.cons e1 (mapM_ok_iff.1 e3)), .cons e2 e4⟩

/-- A shaded part: nothing but the transmitted radiation changes, and that does not increase. -/
theorem part_dimmed {w : List Step} {b b' : BoundaryDict} {x : Bs} (D : DimmedPart b b') (S : SensiblePart b) (hw : ∀ s ∈ w, SensibleSun s)
    (H : getBoundarySimple w b = .ok x) :
    ∃ q, getBoundarySimple w b' = .ok { x with qTrsSol := q } ∧ List.Forall₂ (· ≤ ·) q x.qTrsSol := by
  obtain ⟨hsame, hg, ho⟩ := D
  rw [hsame]
  generalize b'.shading = sh at hg ho
  generalize b'.eta = et at hg ho
  simp only [getBoundarySimple, bind_ok_iff] at H
  obtain ⟨t, ht, sun, hsun, htd, h1, next, h2, rear, h3, dir, h4, hI, h5, p, hp, oet, h6, ts, h7, tr, h8, q, hq, e⟩ := H
  obtain ⟨p', hp', hpp, hv⟩ := shading_dimmed (et := et) S ho hp
  have key' : ∃ tr' q', Transmission.create { b with shading := sh, eta := et } p' = .ok tr' ∧ tr'.series w = .ok q' ∧ List.Forall₂ (· ≤ ·) q' q := by
    unfold Transmission.create at h8 ⊢
    simp only at h8 ⊢
    split_ifs at h8 ⊢ with hw1
    · simp only [bind_ok_iff] at h8
      obtain ⟨sn, hsn, h8⟩ := h8
      cases sn with
      | false =>
        refine ⟨.none, q, ?_, ?_, ?_⟩
        · simp only [hsn, bind, Except.bind]
        · rw [← Except.ok.inj h8] at hq; exact hq
        · exact List.forall₂_same.2 fun _ _ => le_rfl
      | true =>
        simp only [bind_ok_iff] at h8
        obtain ⟨d1, hd1, g1, hg1, e1, he1, h8⟩ := h8
        have hb : b.eta = some e1 := by
          cases hbe : b.eta with
          | none => rw [hbe] at he1; cases he1
          | some y => rw [hbe] at he1; rw [Except.ok.inj he1]
        obtain ⟨e', r1, r2, r3⟩ : ∃ e', et = some e' ∧ 0 ≤ e' ∧ e' ≤ e1 := by
          rcases hg with hg | ⟨a, a', k1, k2, k3, k4⟩
          · exact ⟨e1, hg.trans hb, S.glass _ hb, le_rfl⟩
          · rw [hb, Option.some.injEq] at k1
            subst k1
            exact ⟨a', k2, k3, k4⟩
        subst r1
        rw [← Except.ok.inj h8] at hq
        simp only [Transmission.series, bind_ok_iff] at hq
        obtain ⟨ab, hab, hq⟩ := hq
        obtain ⟨q', l1, l2⟩ := mapM_le (f' := transmitted ab.1 ab.2 b.area p' g1 e') hq fun s hs y hy =>
          transmitted_le hpp hv r2 r3 S.area (hw s hs) hy
        refine ⟨.struck d1 b.area p' g1 e', q', ?_, ?_, l2⟩
        · simp only [hsn, hd1, hg1, bind, Except.bind]
          rfl
        · simp only [Transmission.series, hab, bind, Except.bind]
          exact l1
    · refine ⟨.none, q, rfl, ?_, List.forall₂_same.2 fun _ _ => le_rfl⟩
      rw [← Except.ok.inj h8] at hq; exact hq
  obtain ⟨tr', q', k1, k2, k3⟩ := key'
  have hx : x.qTrsSol = q := by rw [← Except.ok.inj e]
  refine ⟨q', ?_, by rw [hx]; exact k3⟩
  simp only [getBoundarySimple, bind_ok_iff]
  refine ⟨t, ht, sun, hsun, htd, h1, next, h2, rear, h3, dir, h4, hI, h5, p', hp', oet, h6, ts, h7, tr', k1, q', k2, ?_⟩
  rw [← Except.ok.inj e]

/-! ## The house -/

/-- The same part with no more transmitted radiation. -/
def Less (x' x : Bs) : Prop := ∃ q, x' = { x with qTrsSol := q } ∧ List.Forall₂ (· ≤ ·) q x.qTrsSol

theorem less_areaWhere {l' l : List Bs} (h : List.Forall₂ Less l' l) (i : ℤ) (g : Bs → Bool) (hg : ∀ x q, g { x with qTrsSol := q } = g x) :
    areaWhere l' i g = areaWhere l i g := by
  unfold areaWhere
  induction h with
  | nil => rfl
  | cons h1 h2 ih =>
    obtain ⟨q, rfl, -⟩ := h1
    simp only [List.filter_cons, hg]
    split
    · rw [List.map_cons, List.map_cons, List.sum_cons, List.sum_cons, ih]
    · exact ih

theorem less_boundaryJson {l' l : List Bs} (h : List.Forall₂ Less l' l) (rnd : ℕ → ℝ → ℝ) (rooms : List RoomDict) {x' x : Bs} (hx : Less x' x)
    (s : SpecJson) : boundaryJson rnd rooms l' x' s = boundaryJson rnd rooms l x s := by
  obtain ⟨q, rfl, -⟩ := hx
  have a1 := less_areaWhere h x.room (fun c => c.isFloor) fun _ _ => rfl
  have a2 := less_areaWhere h x.room (fun c => !c.isFloor) fun _ _ => rfl
  have b1 : viewFactor l' { x with qTrsSol := q } = viewFactor l x := by simp only [viewFactor, a1, a2]
  have b2 : ∀ rad, heatingShare l' rad { x with qTrsSol := q } = heatingShare l rad x := by intro rad; simp only [heatingShare, a1]
  unfold boundaryJson
  rw [b1, b2]
  rfl

theorem less_makeBoundaries {l' l : List Bs} (h : List.Forall₂ Less l' l) {rnd : ℕ → ℝ → ℝ} {rooms : List RoomDict} {bs bs' : List BoundaryDict}
    (hb : List.Forall₂ DimmedPart bs bs') {out : List BoundaryJson} (H : makeBoundaries rnd rooms bs l = .ok out) :
    makeBoundaries rnd rooms bs' l' = .ok out := by
  simp only [makeBoundaries, bind_ok_iff] at H ⊢
  obtain ⟨u, hu, specs, hsp, e⟩ := H
  refine ⟨u, ?_, specs, ?_, ?_⟩
  · have : ∀ i : ℕ, (∃ b ∈ l', b.room = (i : ℤ)) ↔ ∃ b ∈ l, b.room = (i : ℤ) := by
      intro i
      clear hu hsp e
      induction h with
      | nil => rfl
      | cons h1 h2 ih =>
        obtain ⟨q, rfl, -⟩ := h1
        simp only [List.mem_cons, exists_eq_or_imp]
        exact or_congr Iff.rfl ih
    rw [← hu]
    unfold checkParts
    simp only [this]
  · rw [mapM_ok_iff] at hsp ⊢
    clear hu e
    induction h generalizing bs bs' specs with
    | nil =>
      cases hb with
      | nil => exact hsp
      | cons g1 g2 => exact hsp
    | cons h1 h2 ih =>
      cases hb with
      | nil => exact hsp
      | cons g1 g2 =>
        cases hsp with
        | cons s1 s2 =>
          refine .cons ?_ (ih g2 _ s2)
          obtain ⟨q, rfl, -⟩ := h1
          have := g1.same
          rw [this]
          exact s1
  · rw [← Except.ok.inj e]
    congr 1
    have : ∀ {k' k : List Bs} (_ : List.Forall₂ Less k' k) (sp : List SpecJson),
        (k'.zip sp).map (fun p => boundaryJson rnd rooms l' p.1 p.2) = (k.zip sp).map fun p => boundaryJson rnd rooms l p.1 p.2 := by
      intro k' k hk
      induction hk with
      | nil => intro sp; rfl
      | cons h1 h2 ih =>
        intro sp
        cases sp with
        | nil => rfl
        | cons s sp =>
          simp only [List.zip_cons_cons, List.map_cons, ih sp, less_boundaryJson h rnd rooms h1 s]
    exact this h specs

theorem zip_add_le {a a' b b' : List ℝ} (h1 : List.Forall₂ (· ≤ ·) a' a) (h2 : List.Forall₂ (· ≤ ·) b' b) :
    List.Forall₂ (· ≤ ·) (List.zipWith (· + ·) a' b') (List.zipWith (· + ·) a b) := by
  induction h1 generalizing b b' with
  | nil => exact .nil
  | cons g1 g2 ih =>
    cases h2 with
    | nil => exact .nil
    | cons k1 k2 => exact .cons (add_le_add g1 k1) (ih k2)

theorem foldl_add_le {ls ls' : List (List ℝ)} (h : List.Forall₂ (List.Forall₂ (· ≤ ·)) ls' ls) {a a' : List ℝ} (ha : List.Forall₂ (· ≤ ·) a' a) :
    List.Forall₂ (· ≤ ·) (ls'.foldl (List.zipWith (· + ·)) a') (ls.foldl (List.zipWith (· + ·)) a) := by
  induction h generalizing a a' with
  | nil => exact ha
  | cons h1 h2 ih => exact ih (zip_add_le ha h1)

theorem sumSeries_le {ls ls' : List (List ℝ)} (h : List.Forall₂ (List.Forall₂ (· ≤ ·)) ls' ls) {r : List ℝ} (H : sumSeries ls = .ok r) :
    ∃ r', sumSeries ls' = .ok r' ∧ List.Forall₂ (· ≤ ·) r' r := by
  cases h with
  | nil => cases H
  | cons h1 h2 =>
    rename_i l' l ls' ls
    simp only [sumSeries] at H ⊢
    split_ifs at H with hl
    have hl' : ∀ m ∈ ls', m.length = l'.length := by
      clear H
      induction h2 with
      | nil => simp
      | cons g1 g2 ih =>
        rw [List.forall_mem_cons] at hl ⊢
        exact ⟨(g1.length_eq.trans hl.1).trans h1.length_eq.symm, ih hl.2⟩
    rw [if_pos hl']
    exact ⟨_, rfl, by rw [← Except.ok.inj H]; exact foldl_add_le h2 h1⟩

theorem less_solar {l' l : List Bs} (h : List.Forall₂ Less l' l) {n : ℕ} {q : List (List ℝ)} (H : roomSolar l n = .ok q) :
    ∃ q', roomSolar l' n = .ok q' ∧ List.Forall₂ (List.Forall₂ (· ≤ ·)) q' q := by
  have hf : ∀ i : ℤ, List.Forall₂ (List.Forall₂ (· ≤ ·)) ((l'.filter fun b => b.room = i).map Bs.qTrsSol) ((l.filter fun b => b.room = i).map Bs.qTrsSol) := by
    intro i
    clear H
    induction h with
    | nil => exact .nil
    | cons h1 h2 ih =>
      obtain ⟨q, rfl, hq⟩ := h1
      simp only [List.filter_cons]
      split
      · exact .cons hq ih
      · exact ih
  unfold roomSolar at H ⊢
  rw [mapM_ok_iff] at H
  generalize List.range n = ns at H
  induction H with
  | nil => exact ⟨[], rfl, .nil⟩
  | cons h1 h2 ih =>
    obtain ⟨r', e1, e2⟩ := sumSeries_le (hf _) h1
    obtain ⟨q', e3, e4⟩ := ih
    exact ⟨r' :: q', mapM_ok_iff.2 (.cons e1 (mapM_ok_iff.1 e3)), .cons e2 e4⟩

/-- **C132 (sun).** Take a house the initializer accepts, and enter deeper overhangs or less transparent glass for any of its windows. The house is
still accepted, all files but that of the sun in the rooms are the same, and no room gets more sun in any quarter hour. -/
theorem C132_sun {rnd : ℕ → ℝ → ℝ} {w : List Step} {f : ScheduleFile} {d d' : Input} {o : Output} (H : makeHouse rnd w f d = .ok o)
    (D : Dimmed d d') (S : ∀ b ∈ d.boundaries, SensiblePart b) (hw : ∀ s ∈ w, SensibleSun s) :
    ∃ q, makeHouse rnd w f d' = .ok { o with qTrsSol := q } ∧ List.Forall₂ (List.Forall₂ (· ≤ ·)) q o.qTrsSol := by
  obtain ⟨bss, h1, h2, h3, h4, h5, h6, h7⟩ := makeHouse_inv H
  have hb : ∃ bss', d'.boundaries.mapM (getBoundarySimple w) = .ok bss' ∧ List.Forall₂ Less bss' bss := by
    have h1' := mapM_ok_iff.1 h1
    have D' := D.parts
    clear h1 h2 h6 h7
    generalize d'.boundaries = l' at D'
    generalize d.boundaries = l at D' h1' S
    induction D' generalizing bss with
    | nil => cases h1'; exact ⟨[], rfl, .nil⟩
    | cons g1 g2 ih =>
      cases h1' with
      | cons k1 k2 =>
        rw [List.forall_mem_cons] at S
        obtain ⟨q, e1, e2⟩ := part_dimmed g1 S.1 hw k1
        obtain ⟨bss', e3, e4⟩ := ih _ k2 S.2
        exact ⟨_ :: bss', mapM_ok_iff.2 (.cons e1 (mapM_ok_iff.1 e3)), .cons ⟨q, rfl, e2⟩ e4⟩
  obtain ⟨bss', e1, e2⟩ := hb
  obtain ⟨q, e3, e4⟩ := less_solar e2 h2
  refine ⟨q, ?_, e4⟩
  unfold makeHouse
  simp only [bind_ok_iff]
  refine ⟨bss', e1, q, by rw [D.rooms]; exact e3, o.schedules, by rw [D.rooms]; exact h3, o.building, by rw [D.building]; exact h4, o.spaces,
    by rw [D.rooms]; exact h5, o.boundaries, by rw [D.rooms]; exact less_makeBoundaries e2 D.parts h6, ?_⟩
  have : bss'.map Bs.thetaOSol = o.thetaOSol := by
    rw [h7]
    clear e1 e3 h1 h2 h6 h7
    induction e2 with
    | nil => rfl
    | cons g1 g2 ih =>
      obtain ⟨q, rfl, -⟩ := g1
      rw [List.map_cons, List.map_cons, ih]
  rw [this]

theorem at_le {q p : List (List ℝ)} (h : List.Forall₂ (List.Forall₂ (· ≤ ·)) q p) (n m : ℕ) :
    (q[n]?.bind fun l => l[m]?).getD 0 ≤ (p[n]?.bind fun l => l[m]?).getD 0 := by
  induction h generalizing n with
  | nil => simp
  | cons h1 h2 ih =>
    cases n with
    | succ n => simpa using ih n
    | zero =>
      simp only [List.getElem?_cons_zero, Option.bind_some]
      clear ih h2
      induction h1 generalizing m with
      | nil => simp
      | cons k1 k2 ih2 =>
        cases m with
        | zero => simpa using k1
        | succ m => simpa using ih2 m

/-- The records read from the files. -/
theorem dimmed_records {o : Output} {q : List (List ℝ)} (h : List.Forall₂ (List.Forall₂ (· ≤ ·)) q o.qTrsSol) (temp hum : Fin 35040 → ℝ)
    (t : Fin 35040) : Warmer (readRecord temp hum { o with qTrsSol := q } t) (readRecord temp hum o t) where
  air := le_rfl
  parts := fun _ => le_rfl
  gains := fun _ => le_rfl
  sun := by
    intro i
    exact at_le h i.1 t.1
  ventilation := rfl
  people := rfl

section
variable {rnd : ℕ → ℝ → ℝ} {w : List Step} {f : ScheduleFile} {d d' : Input} {o : Output} {q : List (List ℝ)}
  {h : House (Fin o.spaces.length) (Fin o.boundaries.length)} {solve : List ℝ → ℝ} {hourly dMain dRunUp dRunUpBuild : ℤ}
  {r r' : CalcResult (Fin o.spaces.length) o.boundaries.length 35040}

/-- **C132 (partial).** In a tight house of parts that store no heat, off the ground and without air exchange between rooms, not too crowded and
free-running up to row `k`, deeper overhangs and less transparent glass never make any temperature of row `k` higher. -/
theorem C132_temperatures_partial (H : makeHouse rnd w f d = .ok o) (D : Dimmed d d') (S : ∀ b ∈ d.boundaries, SensiblePart b)
    (hw : ∀ s ∈ w, SensibleSun s) (H' : makeHouse rnd w f d' = .ok { o with qTrsSol := q }) (hr : readHouse o = .ok h) (temp hum : Fin 35040 → ℝ)
    (hwf : WellFormed h (getHr solve h.area h.room) (3600 / (hourly : ℝ))) (hst : Storageless h) (hng : ∀ j, h.isGround j = false)
    (hv : ∀ i l, h.vInt i l = 0) (hC : h.cValue = 0) (hru : 0 ≤ dRunUpBuild * hourly * 24)
    (hloc : ∀ k i, 0 ≤ (readRecord temp hum o k).vLocal i) (hp : ∀ k, RoomForPeople h (3600 / (hourly : ℝ)) (readRecord temp hum o k))
    (H1 : program solve h (readRecord temp hum o) hourly dMain dRunUp dRunUpBuild = .ok r)
    (H2 : program solve h (readRecord temp hum { o with qTrsSol := q }) hourly dMain dRunUp dRunUpBuild = .ok r')
    (k : ℕ) (hd : NoDemand (fun n => (readRecord temp hum o n).acDemand) (-(dRunUpBuild * hourly * 24)) k)
    (hk : k < r.nMain.toNat) (hk' : k < r'.nMain.toNat) :
    readHouse { o with qTrsSol := q } = .ok h ∧ RowBelow (r'.log ⟨k, hk'⟩) (r.log ⟨k, hk⟩) := by
  refine ⟨hr, ?_⟩
  obtain ⟨q', e1, e2⟩ := C132_sun H D S hw
  have e : q' = q := by
    have := Except.ok.inj (e1.symm.trans H')
    exact congrArg Output.qTrsSol this
  subst e
  exact C109_program_partial (A := readRecord temp hum { o with qTrsSol := q' }) hwf hst hng hv hC hru hloc (fun t => dimmed_records e2 temp hum t) hp H2 H1 k hd hd hk' hk

end

/-! ## An overhang above a window without one -/

/-- A further part. -/
theorem add_part {rnd : ℕ → ℝ → ℝ} {w : List Step} {f : ScheduleFile} {d : Input} {o : Output} (H : makeHouse rnd w f d = .ok o) {b : BoundaryDict} {x : Bs}
    {spec : SpecJson} (hx : getBoundarySimple w b = .ok x) (hs : boundarySpec b x.bType = .ok spec)
    (hl : ∀ c ∈ d.boundaries, ∀ y, getBoundarySimple w c = .ok y → y.qTrsSol.length = x.qTrsSol.length) :
    ∃ o' bss, makeHouse rnd w f { d with boundaries := d.boundaries ++ [b] } = .ok o' ∧ d.boundaries.mapM (getBoundarySimple w) = .ok bss ∧
      (d.boundaries ++ [b]).mapM (getBoundarySimple w) = .ok (bss ++ [x]) := by
  obtain ⟨bss, h1, h2, h3, h4, h5, h6, h7⟩ := makeHouse_inv H
  have e1 : (d.boundaries ++ [b]).mapM (getBoundarySimple w) = .ok (bss ++ [x]) := by
    rw [mapM_ok_iff] at h1 ⊢
    exact List.rel_append h1 (.cons hx .nil)
  have hlen : ∀ y ∈ bss, y.qTrsSol.length = x.qTrsSol.length := by
    intro y hy
    obtain ⟨j, hj, rfl⟩ := List.mem_iff_getElem.1 hy
    have := mapM_length h1
    exact hl _ (List.getElem_mem _) _ (mapM_getElem h1 (i := j) (this ▸ hj))
  obtain ⟨q, hq⟩ : ∃ q, roomSolar (bss ++ [x]) d.rooms.length = .ok q := by
    unfold roomSolar at h2 ⊢
    refine mapM_ok_of fun i hi => ?_
    obtain ⟨y, hy⟩ := ok_of_mapM_ok h2 i hi
    have hn : ∀ l : List (List ℝ), l ≠ [] → (∀ m ∈ l, m.length = x.qTrsSol.length) → ∃ r, sumSeries l = .ok r := by
      intro l hl1 hl2
      cases l with
      | nil => exact absurd rfl hl1
      | cons m l =>
        rw [List.forall_mem_cons] at hl2
        simp only [sumSeries]
        rw [if_pos fun k hk => (hl2.2 k hk).trans hl2.1.symm]
        exact ⟨_, rfl⟩
    apply hn
    · intro h0
      rw [List.filter_append, List.map_append, List.append_eq_nil_iff] at h0
      rw [h0.1] at hy
      cases hy
    · intro m hm
      obtain ⟨y', hy', rfl⟩ := List.mem_map.1 hm
      have := (List.mem_filter.1 hy').1
      rw [List.mem_append, List.mem_singleton] at this
      rcases this with h | rfl
      · exact hlen _ h
      · rfl
  have hbl := mapM_length h1
  simp only [makeBoundaries, bind_ok_iff] at h6
  obtain ⟨u, hu, sp, hsp, -⟩ := h6
  obtain ⟨bj, hbj⟩ : ∃ bj, makeBoundaries rnd d.rooms (d.boundaries ++ [b]) (bss ++ [x]) = .ok bj := by
    simp only [makeBoundaries, bind_ok_iff]
    refine ⟨_, (), ?_, sp ++ [spec], ?_, rfl⟩
    · unfold checkParts at hu ⊢
      split_ifs at hu with hall
      rw [if_pos]
      intro i hi
      obtain ⟨y, hy, e⟩ := hall i hi
      exact ⟨y, List.mem_append_left _ hy, e⟩
    · rw [List.zip_append hbl.symm]
      rw [mapM_ok_iff] at hsp ⊢
      exact List.rel_append hsp (.cons hs .nil)
  refine ⟨{ o with qTrsSol := q, boundaries := bj, thetaOSol := (bss ++ [x]).map Bs.thetaOSol }, bss, ?_, h1, e1⟩
  unfold makeHouse
  simp only [bind_ok_iff]
  exact ⟨bss ++ [x], e1, q, hq, o.schedules, h3, o.building, h4, o.spaces, h5, bj, hbj, rfl⟩

/-- A south window of single glass for room 0 of the twin rooms. -/
noncomputable def exPane (sh : ShadingDict) : BoundaryDict := { exWindow with id := 4, glazing := some "single", shading := some sh }

/-- The twin rooms with this window. -/
noncomputable def exSunny (sh : ShadingDict) : Input := { exTwins with boundaries := exTwins.boundaries ++ [exPane sh] }

/-- No overhang. -/
def exBare : ShadingDict := ⟨false, none, none, none, none, none⟩

/-- An overhang of the given depth, 0.3 m above the window. -/
noncomputable def exOverhang (z : ℝ) : ShadingDict := ⟨true, some "simple", some z, some 1.2, some 0.3, none⟩

/-- A sunny moment: the sun stands in the south, at 37 degrees. -/
noncomputable def exNoon : Step := ⟨10, 500, 100, 50, Real.arcsin 0.6, 0⟩

theorem exNoon_sensible : SensibleSun exNoon where
  direct := by norm_num [exNoon]
  sky := by norm_num [exNoon]
  height := Real.arcsin_le_pi_div_two _

theorem exNoon_cos : Real.cos exNoon.hSun = 0.8 := by
  rw [exNoon, Real.cos_arcsin, show (1 - (0.6 : ℝ) ^ 2) = 0.8 ^ 2 by norm_num, Real.sqrt_sq (by norm_num)]

/-- The sun on the south window at that moment. -/
theorem exNoon_south : Real.cos (incidence exNoon.hSun exNoon.aSun (Weather.radians 0) (Weather.radians 90)) = 0.8 ∧
    (irradiance exNoon (Weather.radians 0) (Weather.radians 90)).direct = 400 ∧ (irradiance exNoon (Weather.radians 0) (Weather.radians 90)).sky = 50 := by
  have hr : Weather.radians 0 = 0 := by simp [Weather.radians]
  have hr2 : Weather.radians 90 = Real.pi / 2 := by unfold Weather.radians; ring
  have hd : dot (normal 0 (Real.pi / 2)) (ofAngles exNoon.hSun exNoon.aSun) = 0.8 := by
    have := exNoon_cos
    simp only [dot, normal, ofAngles, this]
    simp [exNoon]
  rw [hr, hr2]
  obtain ⟨e1, e2, -⟩ := C45_irradiance exNoon 0 (Real.pi / 2) exNoon_sensible.direct exNoon_sensible.sky exNoon_sensible.height
  refine ⟨?_, ?_, ?_⟩
  · rw [(C45_incidence _ _ _ _).1, hd]; norm_num
  · rw [e1, hd]; norm_num [exNoon]
  · rw [e2]; norm_num [exNoon]

/-- The overhang of 0.3 m casts no shadow on the window at that moment. -/
theorem exNoon_clear : shadeDirect (Weather.radians 0) 0.3 1.2 0.3 exNoon.hSun exNoon.aSun = 0 := by
  have hr : Weather.radians 0 = 0 := by simp [Weather.radians]
  have ht : Real.tan exNoon.hSun = 0.75 := by
    rw [Real.tan_eq_sin_div_cos, exNoon_cos, exNoon, Real.sin_arcsin (by norm_num) (by norm_num)]; norm_num
  have hp : 0 < exNoon.hSun := Real.arcsin_pos.2 (by norm_num)
  unfold shadeDirect
  simp only [hp, if_true, if_neg (not_le.2 hp), ht, hr]
  simp only [exNoon, sub_self, Real.cos_zero]
  norm_num

theorem exPane_part (w : List Step) (sh : ShadingDict) (p : Shading) (hp : Shading.create (exPane sh) = .ok p) (hv : p.Valid) :
    ∃ x : Bs, getBoundarySimple w (exPane sh) = .ok x ∧ x.room = 0 ∧ x.bType = .transparentPart ∧
      w.mapM (transmitted (Weather.radians 0) (Weather.radians 90) 2 p "single" 0.5) = .ok x.qTrsSol := by
  obtain ⟨q, hq⟩ : ∃ q, w.mapM (transmitted (Weather.radians 0) (Weather.radians 90) 2 p "single" 0.5) = .ok q := by
    refine mapM_ok_of fun s _ => ?_
    obtain ⟨fd, fs, e1, e2, -⟩ := Shading.values hv s.hSun s.aSun
    unfold transmitted
    simp only [e1, e2, show tauD (incidence s.hSun s.aSun (Weather.radians 0) (Weather.radians 90)) "single"
        = .ok (tauSingle (incidence s.hSun s.aSun (Weather.radians 0) (Weather.radians 90))) from rfl,
        show cD "single" = .ok 0.900 from rfl, bind, Except.bind]
    exact ⟨_, rfl⟩
  have h11 : ¬ (0.11 : ℝ) = 0 := by norm_num
  have key' : ∃ x : Bs, getBoundarySimple w (exPane sh) = .ok x ∧ x.room = 0 ∧ x.bType = .transparentPart ∧ x.qTrsSol = q := by
    simp only [getBoundarySimple, hp, bind, Except.bind]
    simp [BType.ofString, readSun, readHtd, readNextRoom, readRear, readDirection, readHi,
      EqvTemp.create, EqvTemp.series, Transmission.create, Transmission.series, exPane, exWindow, isExternal, key, angles, bind,
      Except.bind, hq, h11]
  obtain ⟨x, h1, h2, h3, h4⟩ := key'
  exact ⟨x, h1, h2, h3, by rw [h4]; exact hq⟩

/-- The sunny houses are accepted, and the sun in room 0 is that of the window. -/
theorem exSunny_accepted (rnd : ℕ → ℝ → ℝ) (w : List Step) (hw : w.length = 35040) (sh : ShadingDict) (p : Shading)
    (hp : Shading.create (exPane sh) = .ok p) (hv : p.Valid) :
    ∃ o l, makeHouse rnd w shippedSchedule (exSunny sh) = .ok o ∧ w.mapM (transmitted (Weather.radians 0) (Weather.radians 90) 2 p "single" 0.5) = .ok l ∧
      ∀ t < 35040, sunIn o 0 t = at' l t := by
  obtain ⟨x, h1, h2, h3, h4⟩ := exPane_part w sh p hp hv
  obtain ⟨o0, H0⟩ := exTwins_shipped rnd w
  have hx : x.qTrsSol.length = 35040 := (mapM_length h4).trans hw
  have hs : boundarySpec (exPane sh) x.bType = .ok (.uValue "external_transparent_part" 2.3 0.11) := by
    rw [h3]; simp [boundarySpec, exPane, exWindow, key, bind, Except.bind, BType.value]
  have hl : ∀ c ∈ exTwins.boundaries, ∀ y, getBoundarySimple w c = .ok y → y.qTrsSol.length = 35040 ∧ ∀ z ∈ y.qTrsSol, z = 0 := by
    intro c hc y hy
    refine C47_no_gain hy (.inl ?_)
    simp only [exTwins, List.mem_cons, List.not_mem_nil, or_false] at hc
    rcases hc with rfl | rfl | rfl | rfl <;> decide
  obtain ⟨o, bss, H, hb, hb'⟩ := add_part H0 h1 hs (fun c hc y hy => (hl c hc y hy).1.trans hx.symm)
  refine ⟨o, x.qTrsSol, H, h4, fun t ht => ?_⟩
  obtain ⟨-, -, -, bss', g1, g2, -⟩ := C74_records rnd w shippedSchedule (exSunny sh) o H (fun _ => 0) (fun _ => 0) ⟨t, ht⟩
  have : bss' = bss ++ [x] := Except.ok.inj (g1.symm.trans hb')
  subst this
  obtain ⟨bss2, -, -, -, -, hsp, -⟩ := makeHouse_inv H
  have hn : o.spaces.length = 2 := (makeSpaces_get hsp).1
  have g3 := g2 ⟨0, by omega⟩
  have e : sunIn o 0 t = (readRecord (fun _ => 0) (fun _ => 0) o ⟨t, ht⟩).qTrsSol ⟨0, by omega⟩ := rfl
  rw [e, g3, List.filter_append, List.map_append, List.sum_append]
  have z : ((bss.filter fun b => decide (b.room = ((0 : ℕ) : ℤ))).map fun b => at' b.qTrsSol t).sum = 0 := by
    apply List.sum_eq_zero
    intro v hv
    obtain ⟨y, hy, rfl⟩ := List.mem_map.1 hv
    have hy := (List.mem_filter.1 hy).1
    obtain ⟨j, hj, rfl⟩ := List.mem_iff_getElem.1 hy
    have hlb := mapM_length hb
    have := hl _ (List.getElem_mem _) _ (mapM_getElem hb (i := j) (hlb ▸ hj))
    unfold at'
    rw [List.getElem?_eq_getElem (by rw [this.1]; exact ht)]
    exact this.2 _ (List.getElem_mem _)
  refine (congrArg (· + _) z).trans ?_
  simp [h2]

theorem exBare_create : Shading.create (exPane exBare) = .ok .none := by
  simp [Shading.create, exPane, exWindow, exBare, key, shadingSunStruck, isExternal, bind, Except.bind]

theorem exOverhang_create (z : ℝ) : Shading.create (exPane (exOverhang z)) = .ok (.simple (Weather.radians 0) z 1.2 0.3) := by
  simp [Shading.create, exPane, exWindow, exOverhang, key, shadingSunStruck, isExternal, angles, bind, Except.bind]

theorem row_of {l : List ℝ} {g : Step → Except PyErr ℝ} {x : ℝ} (h : (List.replicate 35040 exNoon).mapM g = .ok l) (hx : g exNoon = .ok x) {t : ℕ}
    (ht : t < 35040) : at' l t = x := by
  have hl := mapM_length h
  rw [List.length_replicate] at hl
  have := mapM_getElem h (i := t) (by rw [List.length_replicate]; exact ht)
  rw [List.getElem_replicate, hx] at this
  unfold at'
  rw [List.getElem?_eq_getElem (by omega)]
  exact (Except.ok.inj this).symm

/-- **C132 (violation).** An overhang can let in more sun than no overhang: a window that is entered without shading gets no direct sun at all. With
an overhang of 0.3 m above it, which casts no shadow at that moment, room 0 gets more sun in every quarter hour. -/
theorem C132_violated (rnd : ℕ → ℝ → ℝ) : ∃ o o', makeHouse rnd (List.replicate 35040 exNoon) shippedSchedule (exSunny exBare) = .ok o ∧
    makeHouse rnd (List.replicate 35040 exNoon) shippedSchedule (exSunny (exOverhang 0.3)) = .ok o' ∧ ∀ t < 35040, sunIn o 0 t < sunIn o' 0 t := by
  obtain ⟨o, l, H, hl, hs⟩ := exSunny_accepted rnd (List.replicate 35040 exNoon) List.length_replicate exBare _ exBare_create trivial
  obtain ⟨o', l', H', hl', hs'⟩ := exSunny_accepted rnd (List.replicate 35040 exNoon) List.length_replicate (exOverhang 0.3) _ (exOverhang_create 0.3)
    ⟨by norm_num, by norm_num, by norm_num⟩
  refine ⟨o, o', H, H', fun t ht => ?_⟩
  obtain ⟨q, hq, e⟩ := C47_violated.1 (Weather.radians 0) (Weather.radians 90) 2 0.5 exNoon
  rw [hs t ht, hs' t ht, row_of hl hq ht, row_of hl' (C47_formula _ _ _ _ _ _ _ (by norm_num) _) ht, e]
  obtain ⟨c, k1, k2⟩ := exNoon_south
  obtain ⟨-, -, -, -, f1, -, -⟩ := C47_fractions 0 0.3 0.3 1.2 0.3 0 0 (by norm_num) (by norm_num) (by norm_num) le_rfl
  rw [exNoon_clear, k1, k2]
  have ht : 0.9 ≤ tauSingle (incidence exNoon.hSun exNoon.aSun (Weather.radians 0) (Weather.radians 90)) := by
    unfold tauSingle
    simp only [c]
    norm_num
  nlinarith

/-- **C132, example.** The overhang above the window of the sunny house can be made deeper; every quarter hour then has strictly less sun. -/
theorem C132_example (rnd : ℕ → ℝ → ℝ) : Dimmed (exSunny (exOverhang 0.3)) (exSunny (exOverhang 0.9)) ∧
    (∀ b ∈ (exSunny (exOverhang 0.3)).boundaries, SensiblePart b) ∧
    ∃ o o', makeHouse rnd (List.replicate 35040 exNoon) shippedSchedule (exSunny (exOverhang 0.3)) = .ok o ∧
      makeHouse rnd (List.replicate 35040 exNoon) shippedSchedule (exSunny (exOverhang 0.9)) = .ok o' ∧ ∀ t < 35040, sunIn o' 0 t < sunIn o 0 t := by
  refine ⟨⟨rfl, rfl, ?_⟩, ?_, ?_⟩
  · refine List.rel_append (List.forall₂_same.2 fun b _ => ⟨rfl, .inl rfl, .inl rfl⟩) (.cons ⟨rfl, .inl rfl, .inr ?_⟩ .nil)
    exact ⟨exOverhang 0.3, 0.3, 0.9, rfl, rfl, by norm_num, by norm_num, rfl⟩
  · intro b hb
    simp only [exSunny, exTwins, List.mem_append, List.mem_cons, List.not_mem_nil, or_false] at hb
    rcases hb with (rfl | rfl | rfl | rfl) | rfl
    iterate 4
      refine ⟨by norm_num, fun e he => by simp at he, fun s z hs hz => ?_, fun s z hs hz => ?_, fun s z hs hz => ?_⟩ <;>
        (obtain rfl := Option.some.inj hs; simp at hz)
    refine ⟨by norm_num [exPane, exWindow], fun e he => ?_, fun s z hs hz => ?_, fun s z hs hz => ?_, fun s z hs hz => ?_⟩
    · obtain rfl := Option.some.inj he; norm_num
    all_goals
      obtain rfl := Option.some.inj hs
      obtain rfl := Option.some.inj hz
      norm_num
  · obtain ⟨o, l, H, hl, hs⟩ := exSunny_accepted rnd (List.replicate 35040 exNoon) List.length_replicate (exOverhang 0.3) _ (exOverhang_create 0.3)
      ⟨by norm_num, by norm_num, by norm_num⟩
    obtain ⟨o', l', H', hl', hs'⟩ := exSunny_accepted rnd (List.replicate 35040 exNoon) List.length_replicate (exOverhang 0.9) _ (exOverhang_create 0.9)
      ⟨by norm_num, by norm_num, by norm_num⟩
    refine ⟨o, o', H, H', fun t ht => ?_⟩
    rw [hs t ht, hs' t ht, row_of hl (C47_formula _ _ _ _ _ _ _ (by norm_num) _) ht, row_of hl' (C47_formula _ _ _ _ _ _ _ (by norm_num) _) ht]
    obtain ⟨c, k1, k2⟩ := exNoon_south
    obtain ⟨-, -, -, -, -, -, f7⟩ := C47_fractions 0 0.3 0.9 1.2 0.3 0 0 (by norm_num) (by norm_num) (by norm_num) (by norm_num)
    have hr : Weather.radians 0 = 0 := by simp [Weather.radians]
    have htan : Real.tan exNoon.hSun = 0.75 := by
      rw [Real.tan_eq_sin_div_cos, exNoon_cos, exNoon, Real.sin_arcsin (by norm_num) (by norm_num)]; norm_num
    have hp : 0 < exNoon.hSun := Real.arcsin_pos.2 (by norm_num)
    have hd : shadeDirect (Weather.radians 0) 0.9 1.2 0.3 exNoon.hSun exNoon.aSun = 0.3125 := by
      unfold shadeDirect
      simp only [hp, if_true, if_neg (not_le.2 hp), htan, hr]
      simp only [exNoon, sub_self, Real.cos_zero]
      norm_num
    rw [exNoon_clear, hd, k1, k2]
    have ht : 0.9 ≤ tauSingle (incidence exNoon.hSun exNoon.aSun (Weather.radians 0) (Weather.radians 90)) := by
      unfold tauSingle
      simp only [c]
      norm_num
    nlinarith

/-! ## A house that meets the hypotheses on temperatures -/

/-- What is read for a house whose parts are all given by their U values and touch the outdoor air, without air between rooms. -/
theorem glass_house (rnd : ℕ → ℝ → ℝ) (hr : IsRounding rnd) (w : List Step) (f : ScheduleFile) (d : Input) (hd : CompleteInput d) (hp : PhysicalInput d 900)
    (hU : ∀ b ∈ d.boundaries, GivenByU b ∧ b.tempDifCoef = some 1) (hair : ∀ r ∈ d.rooms, r.nextVent = []) (o : Output) (H : makeHouse rnd w f d = .ok o) :
    ∃ h, readHouse o = .ok h ∧ Storageless h ∧ (∀ j, h.isGround j = false) ∧ (∀ i l, h.vInt i l = 0) ∧ h.cValue = d.building.cValue ∧
      (∀ i, ∃ r ∈ d.rooms, h.vRoom i = r.volume) ∧ (∀ j, 0 < h.area j) ∧ ∀ solve, SolvesRooms solve h.area h.room → WellFormed h (getHr solve h.area h.room) 900 := by
  obtain ⟨h, e, hls, hlb, hroom, hpart, b1, b2, b3, hshare⟩ := C72_read_back_partial rnd hr w f d hd o H
  have hR : ∀ i : Fin o.spaces.length, ∃ r ∈ d.rooms, SameRoom h i r := fun i =>
    have hi : i.1 < d.rooms.length := hls ▸ i.2
    ⟨d.rooms[i.1], List.getElem_mem hi, hroom i _ (List.getElem?_eq_getElem hi)⟩
  have hB : ∀ j : Fin o.boundaries.length, ∃ b ∈ d.boundaries, SamePart h j b := fun j =>
    have hj : j.1 < d.boundaries.length := hlb ▸ j.2
    ⟨d.boundaries[j.1], List.getElem_mem hj, hpart j _ (List.getElem?_eq_getElem hj)⟩
  refine ⟨h, e, ⟨?_, ?_, ?_, ?_⟩, ?_, ?_, b2, ?_, ?_, ?_⟩
  · intro j k
    obtain ⟨b, hb, hs⟩ := hB j
    obtain ⟨u, -, -, -, -, z⟩ := hs.steady (hU b hb).1
    exact z k
  · intro j k
    obtain ⟨b, hb, hs⟩ := hB j
    obtain ⟨u, -, -, -, z, -⟩ := hs.steady (hU b hb).1
    exact z k
  · intro j
    obtain ⟨b, hb, hs⟩ := hB j
    obtain ⟨u, -, z, -⟩ := hs.steady (hU b hb).1
    exact z
  · intro j
    obtain ⟨b, hb, hs⟩ := hB j
    obtain ⟨c, hc, k1, k2, -⟩ := hs.outdoor (by rcases (hU b hb).1 with h | h <;> rw [h] <;> decide)
    rw [(hU b hb).2] at hc
    cases hc
    rw [k1, k2 rfl]
    norm_num
  · intro j
    obtain ⟨b, hb, hs⟩ := hB j
    refine Bool.eq_false_iff.2 fun hc => ?_
    have := hs.ground.1 hc
    rcases (hU b hb).1 with h | h <;> rw [h] at this <;> exact absurd this (by decide)
  · intro i l
    obtain ⟨r, hm, hs⟩ := hR i
    rw [hs.inflow l, hair r hm]
    simp [flowFrom]
  · intro i
    obtain ⟨r, hm, hs⟩ := hR i
    exact ⟨r, hm, hs.volume⟩
  · intro j
    obtain ⟨b, hb, hs⟩ := hB j
    rw [hs.area]
    exact hd.area b hb
  · intro solve hsol
    exact C75_wellformed rnd hr w f d hd 900 hp o H h e (fun j b hb hn => (hn (hU b (List.mem_of_getElem? hb)).1).elim) solve hsol

/-- One tight room with the window. -/
noncomputable def exShade (sh : ShadingDict) : Input where
  building := ⟨2, 0, "balanced"⟩
  rooms := (exInput false exUnit).rooms
  boundaries := (exInput false exUnit).boundaries ++ [{ exPane sh with id := 2 }]

theorem exShade_members {sh : ShadingDict} {b : BoundaryDict} (hb : b ∈ (exShade sh).boundaries) :
    b ∈ (exInput false exUnit).boundaries ∨ b = { exPane sh with id := 2 } := by
  rw [exShade, List.mem_append, List.mem_singleton] at hb
  exact hb

theorem exShade_complete (sh : ShadingDict) : CompleteInput (exShade sh) where
  rooms := (exInput_complete false).rooms
  cooling := (exInput_complete false).cooling
  partRoom := by
    intro b hb
    rcases exShade_members hb with h | rfl
    · exact (exInput_complete false).partRoom b h
    · exact ⟨le_rfl, by norm_num [exPane, exWindow, exShade, exInput]⟩
  partId := by
    intro j hj
    have : j < 3 := hj
    interval_cases j <;> rfl
  rear := by
    intro b hb r hr
    rcases exShade_members hb with h | rfl
    · simp only [exInput, List.mem_cons, List.not_mem_nil, or_false] at h
      rcases h with rfl | rfl <;> simp at hr
    · simp [exPane, exWindow] at hr
  area := by
    intro b hb
    rcases exShade_members hb with h | rfl
    · exact (exInput_complete false).area b h
    · norm_num [exPane, exWindow]
  tempDif := by
    intro b hb
    rcases exShade_members hb with h | rfl
    · exact (exInput_complete false).tempDif b h
    · intro c hc
      simp only [exPane, exWindow, Option.some.injEq] at hc
      subst hc
      norm_num
  uValue := by
    intro b hb
    rcases exShade_members hb with h | rfl
    · exact (exInput_complete false).uValue b h
    · intro c hc
      simp only [exPane, exWindow, Option.some.injEq] at hc
      subst hc
      norm_num [exPane, exWindow]
  floor := by
    intro i hi
    obtain ⟨b, h1, h2⟩ := (exInput_complete false).floor i hi
    exact ⟨b, List.mem_append_left _ h1, h2⟩
  notOnlyFloor := by
    intro i hi
    obtain ⟨b, h1, h2⟩ := (exInput_complete false).notOnlyFloor i hi
    exact ⟨b, List.mem_append_left _ h1, h2⟩

theorem exShade_physical (sh : ShadingDict) : PhysicalInput (exShade sh) 900 :=
  { exInput_physical false with
    hC := by
      intro b hb
      rcases exShade_members hb with h | rfl
      · exact (exInput_physical false).hC b h
      · norm_num [exPane, exWindow] }

theorem exShade_parts (sh : ShadingDict) : ∀ b ∈ (exShade sh).boundaries, GivenByU b ∧ b.tempDifCoef = some 1 := by
  intro b hb
  rcases exShade_members hb with h | rfl
  · simp only [exInput, List.mem_cons, List.not_mem_nil, or_false] at h
    rcases h with rfl | rfl <;> exact ⟨.inr rfl, rfl⟩
  · exact ⟨.inl rfl, rfl⟩

theorem exShade_accepted (rnd : ℕ → ℝ → ℝ) (w : List Step) (hw : w.length = 35040) (z : ℝ) (hz : 0 ≤ z) :
    ∃ o, makeHouse rnd w exSchedule (exShade (exOverhang z)) = .ok o := by
  obtain ⟨x, h1, h2, h3, h4⟩ := exPane_part w (exOverhang z) _ (exOverhang_create z) ⟨hz, by norm_num, by norm_num⟩
  obtain ⟨o0, H0⟩ := exInput_accepted rnd w false exUnit exUnit_known
  have hx : x.qTrsSol.length = 35040 := (mapM_length h4).trans hw
  have h1' : getBoundarySimple w { exPane (exOverhang z) with id := 2 } = .ok { x with id := 2 } := by
    simp only [getBoundarySimple, bind_ok_iff] at h1 ⊢
    obtain ⟨t, ht, sun, hsun, htd, g1, next, g2, rear, g3, dir, g4, hI, g5, p, hp, oet, g6, ts, g7, tr, g8, q, hq, e⟩ := h1
    refine ⟨t, ht, sun, hsun, htd, g1, next, g2, rear, g3, dir, g4, hI, g5, p, hp, oet, g6, ts, g7, tr, g8, q, hq, ?_⟩
    rw [← Except.ok.inj e]
  obtain ⟨o, bss, H, -, -⟩ := add_part H0 (spec := .uValue "external_transparent_part" 2.3 0.11) h1' (by
      show boundarySpec _ x.bType = _
      rw [h3]; simp [boundarySpec, exPane, exWindow, key, bind, Except.bind, BType.value]) (by
      intro c hc y hy
      show _ = x.qTrsSol.length
      rw [hx]
      refine (C47_no_gain hy (.inl ?_)).1
      simp only [exInput, List.mem_cons, List.not_mem_nil, or_false] at hc
      rcases hc with rfl | rfl <;> decide)
  obtain ⟨bs, k1, k2, k3, k4, k5, k6, k7⟩ := makeHouse_inv H
  refine ⟨{ o with building := ⟨"balance_residential", 2, 0, "balanced"⟩ }, ?_⟩
  unfold makeHouse
  simp only [bind_ok_iff]
  refine ⟨bs, k1, _, k2, _, k3, ⟨"balance_residential", 2, 0, "balanced"⟩, ?_, _, k5, _, k6, ?_⟩
  · simp [makeBuilding, exShade]
  · rw [← k7]

theorem exShade_dimmed : Dimmed (exShade (exOverhang 0.3)) (exShade (exOverhang 0.9)) := by
  refine ⟨rfl, rfl, ?_⟩
  refine List.rel_append (List.forall₂_same.2 fun b _ => ⟨rfl, .inl rfl, .inl rfl⟩) (.cons ⟨rfl, .inl rfl, .inr ?_⟩ .nil)
  exact ⟨exOverhang 0.3, 0.3, 0.9, rfl, rfl, by norm_num, by norm_num, rfl⟩

theorem exShade_sensible : ∀ b ∈ (exShade (exOverhang 0.3)).boundaries, SensiblePart b := by
  intro b hb
  rcases exShade_members hb with h | rfl
  · simp only [exInput, List.mem_cons, List.not_mem_nil, or_false] at h
    rcases h with rfl | rfl
    all_goals
      refine ⟨by norm_num, fun e he => by simp at he, fun s z hs hz => ?_, fun s z hs hz => ?_, fun s z hs hz => ?_⟩ <;>
        (obtain rfl := Option.some.inj hs; simp at hz)
  · refine ⟨by norm_num [exPane, exWindow], fun e he => ?_, fun s z hs hz => ?_, fun s z hs hz => ?_, fun s z hs hz => ?_⟩
    · obtain rfl := Option.some.inj he; norm_num
    all_goals
      obtain rfl := Option.some.inj hs
      obtain rfl := Option.some.inj hz
      norm_num

/-- **C132, example.** The hypotheses of `C132_temperatures_partial` are met for a whole year in every row by a tight room with people, cooking and a window
whose overhang is made deeper. -/
theorem C132_year (rnd : ℕ → ℝ → ℝ) (hr : IsRounding rnd) (temp hum : Fin 35040 → ℝ) :
    ∃ o q h solve, ∃ r r' : CalcResult (Fin o.spaces.length) o.boundaries.length 35040,
      makeHouse rnd (List.replicate 35040 exNoon) exSchedule (exShade (exOverhang 0.3)) = .ok o ∧
      makeHouse rnd (List.replicate 35040 exNoon) exSchedule (exShade (exOverhang 0.9)) = .ok { o with qTrsSol := q } ∧ readHouse o = .ok h ∧
      program solve h (readRecord temp hum o) 4 365 365 365 = .ok r ∧
      program solve h (readRecord temp hum { o with qTrsSol := q }) 4 365 365 365 = .ok r' ∧ r.nMain = 35040 ∧ r'.nMain = 35040 ∧
      ∀ (k : ℕ) (hk : k < r.nMain.toNat) (hk' : k < r'.nMain.toNat), RowBelow (r'.log ⟨k, hk'⟩) (r.log ⟨k, hk⟩) := by
  have hw : ∀ s ∈ List.replicate 35040 exNoon, SensibleSun s := fun s hs => by
    rw [List.eq_of_mem_replicate hs]; exact exNoon_sensible
  obtain ⟨o, H⟩ := exShade_accepted rnd (List.replicate 35040 exNoon) List.length_replicate 0.3 (by norm_num)
  obtain ⟨q, H', -⟩ := C132_sun H exShade_dimmed exShade_sensible hw
  obtain ⟨h, e, g1, g2, g3, g4, g5, g6, g7⟩ := glass_house rnd hr _ _ _ (exShade_complete _) (exShade_physical _) (exShade_parts _)
    (by intro r hm; simp only [exShade, exInput, List.mem_cons, List.not_mem_nil, or_false] at hm; subst hm; rfl) o H
  obtain ⟨solve, hsolve⟩ := exists_solver
  have hsr : SolvesRooms solve h.area h.room := solvesRooms_of hsolve h.room g6
  have hroom : ∀ r ∈ (exShade (exOverhang 0.3)).rooms, ∃ t, HasRoom exSchedule r.name t ∧ ∀ k day q, 0 ≤ t.localVent k day q :=
    fun r _ => ⟨exTables, exSchedule_room _, fun _ _ _ => le_rfl⟩
  have hheat : ∀ z, ∀ r ∈ (exShade (exOverhang z)).rooms, r.heating.kind ≠ "radiative" := by
    intro z r hm
    simp only [exShade, exInput, List.mem_cons, List.not_mem_nil, or_false] at hm
    subst hm
    decide
  have hphi : ∀ (z : ℝ) (o : Output) (h : House (Fin o.spaces.length) (Fin o.boundaries.length)), ∀ j b, (exShade (exOverhang z)).boundaries[j.1]? = some b → ¬ GivenByU b →
      0 ≤ h.phiA0 j ∧ 0 ≤ h.phiT0 j ∧ h.phiT0 j ≤ 1 := fun z o h j b hb hn => (hn (exShade_parts _ b (List.mem_of_getElem? hb)).1).elim
  obtain ⟨h1, e1, c1⟩ := C76_chain_completes_partial rnd hr _ exSchedule exSchedule_days _ (exShade_complete _) (exShade_physical _) hroom (hheat _) o H
    (fun h _ => hphi _ o h)
  obtain ⟨h2, e2, c2⟩ := C76_chain_completes_partial rnd hr _ exSchedule exSchedule_days (exShade (exOverhang 0.9)) (exShade_complete _) (exShade_physical _) hroom (hheat 0.9) _ H'
    (fun h _ => hphi 0.9 _ h)
  obtain rfl : h1 = h := Except.ok.inj (e1.symm.trans e)
  have e2' : readHouse o = .ok h2 := e2
  obtain rfl : h2 = h1 := Except.ok.inj (e2'.symm.trans e)
  obtain ⟨r, R⟩ := c1 temp hum solve hsr 365 365 365 (by norm_num) le_rfl (by norm_num) le_rfl le_rfl
  obtain ⟨r', R'⟩ := c2 temp hum solve hsr 365 365 365 (by norm_num) le_rfl (by norm_num) le_rfl le_rfl
  have hsch : ∀ (k : Fin 35040) i, (readRecord temp hum o k).nHum i = 1 ∧ (readRecord temp hum o k).acDemand i = 0 ∧ (readRecord temp hum o k).vLocal i = 0 := by
    intro n i
    have hi : i.1 < (exShade (exOverhang 0.3)).rooms.length := by
      obtain ⟨_, _, _, _, _, hsp, -⟩ := makeHouse_inv H
      exact lt_of_lt_of_eq i.2 (makeSpaces_get hsp).1
    obtain ⟨-, -, hs, -⟩ := C74_records rnd _ exSchedule _ o H temp hum n
    obtain ⟨c, hc, a1, -, -, a4, a5⟩ := hs i _ (List.getElem?_eq_getElem hi)
    obtain ⟨dd, q, rfl⟩ := quarter_surj n
    have hn : residents ((exShade (exOverhang 0.3)).rooms.map RoomDict.floorArea).sum = 1 := by
      norm_num [exShade, exInput, residents]
    rw [hn] at hc
    obtain ⟨c', hc', hv⟩ := C71_compiled_partial exSchedule exSchedule_days _ exTables (exSchedule_room _) 1 1 le_rfl (by norm_num) (by norm_num) (by norm_num) _
    obtain rfl : c' = c := Except.ok.inj (hc'.symm.trans hc)
    obtain ⟨v1, v2, v3, -, -⟩ := hv dd q
    refine ⟨?_, ?_, ?_⟩
    · rw [a1, v1]; simp [between, exTables]
    · rw [a5, v2]; simp [between, exTables]
    · rw [a4, v3]; simp [between, exTables]
  refine ⟨o, q, h2, solve, r, r', H, H', e, R, R', ?_, ?_, fun k hk hk' => ?_⟩
  · obtain ⟨_, _, _, _, T⟩ := coreCalc_ok R; rw [T.nMain_eq]; norm_num
  · obtain ⟨_, _, _, _, T⟩ := coreCalc_ok R'; rw [T.nMain_eq]; norm_num
  · have e4 : (3600 / ((4 : ℤ) : ℝ)) = 900 := by norm_num
    refine (C132_temperatures_partial H exShade_dimmed exShade_sensible hw H' e temp hum (by rw [e4]; exact g7 solve hsr) g1 g2 g3 (by rw [g4]; rfl) (by norm_num)
      (fun k i => (hsch k i).2.2.ge) ?_ R R' k ?_ hk hk').2
    · intro k i
      obtain ⟨r0, hm, hv⟩ := g5 i
      simp only [exShade, exInput, List.mem_cons, List.not_mem_nil, or_false] at hm
      rw [(hsch k i).1, hv, hm, e4]
      norm_num [airCap]
    · intro n _ _ k _ i
      exact (hsch k i).2.1.le

end HLC.Init
