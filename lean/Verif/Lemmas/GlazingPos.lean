import Verif.Lemmas.Glazing
import Mathlib.Tactic.NormNum
import Mathlib.Tactic.IntervalCases

/-!
# Lemmas: emissivities, gases and films of glazing are positive
-/

namespace HLC.Glass

open Spec Finset

/-- On every piece of the table the corrected emissivity is a quadratic function. -/
theorem lowE_pieces {e : ℝ} (h : GoodSurface (.lowE e)) : ∃ v, (Surf.lowE e).eps = .ok v ∧
    ((0.03 ≤ e ∧ e < 0.05 ∧ v = e * (1.28 - 2 * e)) ∨ (0.05 ≤ e ∧ e < 0.1 ∧ v = e * (1.22 - 0.8 * e))
      ∨ (0.1 ≤ e ∧ e < 0.2 ∧ v = e * (1.18 - 0.4 * e)) ∨ (0.2 ≤ e ∧ e < 0.3 ∧ v = e * (1.18 - 0.4 * e))
      ∨ (0.3 ≤ e ∧ e < 0.4 ∧ v = e * (1.15 - 0.3 * e)) ∨ (0.4 ≤ e ∧ e < 0.5 ∧ v = e * (1.15 - 0.3 * e))
      ∨ (0.5 ≤ e ∧ e < 0.6 ∧ v = e * (1.1 - 0.2 * e)) ∨ (0.6 ≤ e ∧ e < 0.7 ∧ v = e * (1.1 - 0.2 * e))
      ∨ (0.7 ≤ e ∧ e < 0.8 ∧ v = e * (1.03 - 0.1 * e)) ∨ (0.8 ≤ e ∧ e < 0.89 ∧ v = e * (0.95 - (e - 0.8) / 9))) := by
  obtain ⟨h1, h2⟩ := h
  rw [Surf.eps, if_neg (not_lt.2 h1)]
  by_cases c1 : e < 0.05
  · rw [if_pos c1]; exact ⟨_, rfl, .inl ⟨h1, c1, by ring⟩⟩
  rw [if_neg c1]
  by_cases c2 : e < 0.1
  · rw [if_pos c2]; exact ⟨_, rfl, .inr (.inl ⟨not_lt.1 c1, c2, by ring⟩)⟩
  rw [if_neg c2]
  by_cases c3 : e < 0.2
  · rw [if_pos c3]; exact ⟨_, rfl, .inr (.inr (.inl ⟨not_lt.1 c2, c3, by ring⟩))⟩
  rw [if_neg c3]
  by_cases c4 : e < 0.3
  · rw [if_pos c4]; exact ⟨_, rfl, .inr (.inr (.inr (.inl ⟨not_lt.1 c3, c4, by ring⟩)))⟩
  rw [if_neg c4]
  by_cases c5 : e < 0.4
  · rw [if_pos c5]; exact ⟨_, rfl, .inr (.inr (.inr (.inr (.inl ⟨not_lt.1 c4, c5, by ring⟩))))⟩
  rw [if_neg c5]
  by_cases c6 : e < 0.5
  · rw [if_pos c6]; exact ⟨_, rfl, .inr (.inr (.inr (.inr (.inr (.inl ⟨not_lt.1 c5, c6, by ring⟩)))))⟩
  rw [if_neg c6]
  by_cases c7 : e < 0.6
  · rw [if_pos c7]; exact ⟨_, rfl, .inr (.inr (.inr (.inr (.inr (.inr (.inl ⟨not_lt.1 c6, c7, by ring⟩))))))⟩
  rw [if_neg c7]
  by_cases c8 : e < 0.7
  · rw [if_pos c8]; exact ⟨_, rfl, .inr (.inr (.inr (.inr (.inr (.inr (.inr (.inl ⟨not_lt.1 c7, c8, by ring⟩)))))))⟩
  rw [if_neg c8]
  by_cases c9 : e < 0.8
  · rw [if_pos c9]; exact ⟨_, rfl, .inr (.inr (.inr (.inr (.inr (.inr (.inr (.inr (.inl ⟨not_lt.1 c8, c9, by ring⟩))))))))⟩
  rw [if_neg c9, if_pos h2]
  exact ⟨_, rfl, .inr (.inr (.inr (.inr (.inr (.inr (.inr (.inr (.inr ⟨not_lt.1 c9, h2, by ring⟩))))))))⟩

theorem eps_good {s : Surf} (h : GoodSurface s) : ∃ v, s.eps = .ok v ∧ 0 < v ∧ v ≤ 0.837 := by
  cases s with
  | plain => exact ⟨_, rfl, by norm_num, le_rfl⟩
  | lowE e =>
    obtain ⟨v, hv, hc⟩ := lowE_pieces h
    refine ⟨v, hv, ?_, ?_⟩
    · rcases hc with ⟨h1, h2, rfl⟩ | ⟨h1, h2, rfl⟩ | ⟨h1, h2, rfl⟩ | ⟨h1, h2, rfl⟩ | ⟨h1, h2, rfl⟩ | ⟨h1, h2, rfl⟩ | ⟨h1, h2, rfl⟩ |
        ⟨h1, h2, rfl⟩ | ⟨h1, h2, rfl⟩ | ⟨h1, h2, rfl⟩ <;> exact mul_pos (by linarith) (by linarith)
    · rcases hc with ⟨h1, h2, rfl⟩ | ⟨h1, h2, rfl⟩ | ⟨h1, h2, rfl⟩ | ⟨h1, h2, rfl⟩ | ⟨h1, h2, rfl⟩ | ⟨h1, h2, rfl⟩ | ⟨h1, h2, rfl⟩ |
        ⟨h1, h2, rfl⟩ | ⟨h1, h2, rfl⟩ | ⟨h1, h2, rfl⟩ <;> nlinarith

theorem interp_eq (t v1 v2 v3 v4 : ℝ) : interp t v1 v2 v3 v4 =
    if t < 0 then v2 + (v2 - v1) / 10 * t else if t < 10 then v2 + (v3 - v2) / 10 * t else v3 + (v4 - v3) / 10 * (t - 10) := by
  unfold interp
  split_ifs <;> ring

theorem gasLambda_pos {t : ℝ} (ht : -100 ≤ t) (a : Gas) : 0 < gasLambda t a := by
  cases a <;> rw [gasLambda, interp_eq] <;> refine mul_pos ?_ (by positivity) <;> split_ifs <;> linarith

theorem mix_pos {m : Mix} (h1 : 0 ≤ m.air) (h2 : 0 ≤ m.argon) (h3 : 0 ≤ m.sf6) (h4 : 0 ≤ m.krypton)
    (h : m.air + m.argon + m.sf6 + m.krypton = 100) {f : Gas → ℝ} (hf : ∀ a, 0 < f a) : 0 < m.of f := by
  have e : m.of f = (f .air * m.air + f .argon * m.argon + f .sf6 * m.sf6 + f .krypton * m.krypton) / 100 := by unfold Mix.of; ring
  rw [e]
  apply div_pos _ (by norm_num)
  have p1 := mul_nonneg (hf .air).le h1
  have p2 := mul_nonneg (hf .argon).le h2
  have p3 := mul_nonneg (hf .sf6).le h3
  have p4 := mul_nonneg (hf .krypton).le h4
  by_contra hc
  have q1 : f .air * m.air = 0 := by linarith
  have q2 : f .argon * m.argon = 0 := by linarith
  have q3 : f .sf6 * m.sf6 = 0 := by linarith
  have q4 : f .krypton * m.krypton = 0 := by linarith
  have r1 := (mul_eq_zero.1 q1).resolve_left (hf _).ne'
  have r2 := (mul_eq_zero.1 q2).resolve_left (hf _).ne'
  have r3 := (mul_eq_zero.1 q3).resolve_left (hf _).ne'
  have r4 := (mul_eq_zero.1 q4).resolve_left (hf _).ne'
  rw [r1, r2, r3, r4] at h
  norm_num at h

theorem sigma_pos : 0 < glassSigma := by norm_num [glassSigma]

theorem gapHR_pos {tm a b : ℝ} (ht : 0 < tm) (ha : 0 < a) (ha1 : a ≤ 0.837) (hb : 0 < b) : 0 < gapHR tm a b := by
  unfold gapHR
  have h1 : 1 ≤ 1 / a := by rw [le_div_iff₀ ha]; linarith
  have h2 : 0 < 1 / b := by positivity
  exact mul_pos (div_pos (by have := sigma_pos; linarith) (by linarith)) (by positivity)

variable {g : Glazing}

theorem hG_pos (hg : WellMade g) (i : Fin g.n) {dT tm : ℝ} (ht : -100 ≤ tm - 273.15) : 0 < (g.als i).hG dT tm := by
  unfold AirLayer.hG
  simp only []
  exact div_pos (mul_pos (lt_max_of_lt_left one_pos)
    (mix_pos (hg.air i) (hg.argon i) (hg.sf6 i) (hg.krypton i) (hg.total i) (gasLambda_pos ht))) (hg.width i)

theorem hS_pos (hg : WellMade g) (i : Fin g.n) {tm dT tm' a b : ℝ} (h1 : 0 < tm) (h2 : -100 ≤ tm' - 273.15) (ha : 0 < a) (ha1 : a ≤ 0.837)
    (hb : 0 < b) : 0 < (g.als i).hS tm dT tm' a b :=
  add_pos (gapHR_pos h1 ha ha1 hb) (hG_pos hg i h2)

theorem pane_pos (hg : WellMade g) (i : Fin (g.n + 1)) : 0 < (g.gls i).r := by
  unfold GlassLayer.r
  have h1 := hg.sheets i
  have h2 := hg.thick i
  revert h1 h2
  generalize (g.gls i).units = us
  intro h1 h2
  apply List.sum_pos
  · intro x hx
    obtain ⟨u, hu, rfl⟩ := List.mem_map.1 hx
    exact div_pos (h2 u hu).1 (h2 u hu).2
  · simpa using h1

/-- The conditions under which the resistances are positive: fixed temperatures of the gaps, or no surface below -100 degC. -/
def Mild (k : GlazingCase) (th : ℕ → ℝ) (n : ℕ) : Prop :=
  k.fixed = true ∨ (-100 ≤ k.thetaE ∧ -100 ≤ k.thetaI ∧ ∀ m < 2 * (n + 1), -100 ≤ th m)

theorem cubes_pos {a b : ℝ} (ha : 0 < a) (hb : 0 < b) : 0 < a ^ 3 + a ^ 2 * b + a * b ^ 2 + b ^ 3 := by positivity

theorem hE_pos (hg : WellMade g) {method season : String} {ts tr v : ℝ} (h : g.hE method season ts tr = .ok v)
    (ht : method ≠ "JIS_A2103" ∨ (-100 ≤ ts ∧ -100 ≤ tr)) : 0 < v := by
  obtain ⟨e, he, he0, -⟩ := eps_good (hg.front 0)
  unfold Glazing.hE at h
  rw [he] at h
  simp only [bind, Except.bind] at h
  have hs := sigma_pos
  split_ifs at h with h1 h2 h3
  · cases h
    obtain ⟨t1, t2⟩ := ht.resolve_left (not_not.2 h1)
    have := mul_pos (mul_pos he0 hs) (cubes_pos (a := ts + 273.15) (b := tr + 273.15) (by linarith) (by linarith))
    linarith
  · cases h
    obtain ⟨t1, t2⟩ := ht.resolve_left (not_not.2 h1)
    have := mul_pos (mul_pos he0 hs) (cubes_pos (a := ts + 273.15) (b := tr + 273.15) (by linarith) (by linarith))
    linarith
  · cases h
    linarith

theorem hI_pos (hg : WellMade g) {method season : String} {ts tr v : ℝ} (h : g.hI method season ts tr = .ok v)
    (ht : method ≠ "JIS_A2103" ∨ (-100 ≤ ts ∧ -100 ≤ tr)) : 0 < v := by
  obtain ⟨e, he, he0, -⟩ := eps_good (hg.front 0)
  obtain ⟨e', he', he0', -⟩ := eps_good (hg.back (Fin.last g.n))
  unfold Glazing.hI at h
  rw [he, he'] at h
  simp only [bind, Except.bind] at h
  have hs := sigma_pos
  split_ifs at h with h1 h2 h3
  · cases h
    obtain ⟨t1, t2⟩ := ht.resolve_left (not_not.2 h1)
    have := mul_pos (mul_pos he0 hs) (cubes_pos (a := ts + 273.15) (b := tr + 273.15) (by linarith) (by linarith))
    linarith
  · cases h
    obtain ⟨t1, t2⟩ := ht.resolve_left (not_not.2 h1)
    have := mul_pos (mul_pos he0 hs) (cubes_pos (a := ts + 273.15) (b := tr + 273.15) (by linarith) (by linarith))
    linarith
  · cases h
    linarith

theorem gap_ok (hg : WellMade g) (k : GlazingCase) (th : ℕ → ℝ) (i : Fin g.n) : ∃ v, g.gap k th i = .ok v ∧ (Mild k th g.n → 0 < v) := by
  obtain ⟨e, he, he0, he1⟩ := eps_good (hg.back i.castSucc)
  obtain ⟨e', he', he0', -⟩ := eps_good (hg.front i.succ)
  unfold Glazing.gap
  rw [he, he']
  simp only [bind, Except.bind]
  split_ifs with hf
  · exact ⟨_, rfl, fun _ => hS_pos hg i (by norm_num) (by norm_num) he0 he1 he0'⟩
  · refine ⟨_, rfl, fun hm => ?_⟩
    obtain ⟨-, -, hm⟩ := hm.resolve_left hf
    have h1 := hm (2 * i + 1) (by omega)
    have h2 := hm (2 * (i + 1)) (by omega)
    exact hS_pos hg i (by linarith) (by linarith) he0 he1 he0'

/-- The conductances of the gaps. -/
noncomputable def gapOf (g : Glazing) (k : GlazingCase) (th : ℕ → ℝ) (i : Fin g.n) : ℝ :=
  match g.gap k th i with
  | .ok v => v
  | .error _ => 0

theorem gapOf_ok (hg : WellMade g) (k : GlazingCase) (th : ℕ → ℝ) (i : Fin g.n) : g.gap k th i = .ok (gapOf g k th i) := by
  obtain ⟨v, hv, -⟩ := gap_ok hg k th i
  rw [gapOf, hv]

theorem gapOf_pos (hg : WellMade g) {k : GlazingCase} {th : ℕ → ℝ} (hm : Mild k th g.n) (i : Fin g.n) : 0 < gapOf g k th i := by
  obtain ⟨v, hv, h⟩ := gap_ok hg k th i
  rw [gapOf, hv]
  exact h hm

theorem gaps_eq (hg : WellMade g) (k : GlazingCase) (th : ℕ → ℝ) :
    (List.finRange g.n).mapM (g.gap k th) = .ok (List.ofFn (gapOf g k th)) := by
  rw [mapM_ok_iff, List.forall₂_iff_get]
  refine ⟨by simp, fun i h1 h2 => ?_⟩
  simp only [List.get_eq_getElem, List.getElem_finRange, List.getElem_ofFn]
  exact gapOf_ok hg k th _

theorem outerFilm_pos (hg : WellMade g) {k : GlazingCase} {th : ℕ → ℝ} (hm : Mild k th g.n) {v : ℝ} (h : g.outerFilm k th = .ok v) : 0 < v := by
  unfold Glazing.outerFilm at h
  split_ifs at h with hf
  · exact hE_pos hg h (.inl (by decide))
  · obtain ⟨h1, h2, h3⟩ := hm.resolve_left hf
    exact hE_pos hg h (.inr ⟨h3 0 (by omega), h1⟩)

theorem innerFilm_pos (hg : WellMade g) {k : GlazingCase} {th : ℕ → ℝ} (hm : Mild k th g.n) {v : ℝ} (h : g.innerFilm k th = .ok v) : 0 < v := by
  unfold Glazing.innerFilm at h
  split_ifs at h with hf
  · exact hI_pos hg h (.inl (by decide))
  · obtain ⟨h1, h2, h3⟩ := hm.resolve_left hf
    exact hI_pos hg h (.inr ⟨h3 _ (by omega), h2⟩)

/-- The resistances from outdoors to indoors. -/
noncomputable def resist (g : Glazing) (he hi : ℝ) (gaps : Fin g.n → ℝ) (m : ℕ) : ℝ :=
  if m = 0 then 1 / he
  else if m = 2 * (g.n + 1) then 1 / hi
  else if m % 2 = 1 then (if h : m / 2 < g.n + 1 then (g.gls ⟨m / 2, h⟩).r else 0)
  else if h : m / 2 - 1 < g.n then 1 / gaps ⟨m / 2 - 1, h⟩ else 0

theorem getR_iff (hg : WellMade g) {k : GlazingCase} {th r : ℕ → ℝ} : g.getR k th = .ok r ↔
    ∃ he hi, g.outerFilm k th = .ok he ∧ g.innerFilm k th = .ok hi ∧ r = resist g he hi (gapOf g k th) := by
  have e : ∀ he hi : ℝ, (fun m : ℕ => if m = 0 then 1 / he else if m = 2 * (g.n + 1) then 1 / hi
      else if m % 2 = 1 then (if h : m / 2 < g.n + 1 then (g.gls ⟨m / 2, h⟩).r else 0)
      else 1 / (List.ofFn (gapOf g k th)).getD (m / 2 - 1) 0) = resist g he hi (gapOf g k th) := by
    intro he hi
    funext m
    unfold resist
    split_ifs with h1 h2 h3 h4 h5
    · rfl
    · rfl
    · rfl
    · rfl
    · simp [List.getD, h5]
    · simp [List.getD, h5]
  have e1 : g.getR k th = (do
      let he ← g.outerFilm k th
      let gaps ← (List.finRange g.n).mapM (g.gap k th)
      let hi ← g.innerFilm k th
      .ok fun m =>
        if m = 0 then 1 / he
        else if m = 2 * (g.n + 1) then 1 / hi
        else if m % 2 = 1 then (if h : m / 2 < g.n + 1 then (g.gls ⟨m / 2, h⟩).r else 0)
        else 1 / gaps.getD (m / 2 - 1) 0) := rfl
  rw [e1, gaps_eq hg]
  constructor
  · intro h
    simp only [bind_ok_iff] at h
    obtain ⟨he, h1, gaps, h2, hi, h3, h4⟩ := h
    cases h2
    cases h4
    exact ⟨he, hi, h1, h3, e he hi⟩
  · rintro ⟨he, hi, h1, h2, rfl⟩
    rw [h1, h2]
    simp only [bind, Except.bind]
    rw [e]

theorem resist_pos (hg : WellMade g) {he hi : ℝ} {gaps : Fin g.n → ℝ} (h1 : 0 < he) (h2 : 0 < hi) (h3 : ∀ i, 0 < gaps i) {m : ℕ}
    (hm : m ≤ 2 * (g.n + 1)) : 0 < resist g he hi gaps m := by
  unfold resist
  split_ifs with c1 c2 c3 c4 c5
  · exact one_div_pos.2 h1
  · exact one_div_pos.2 h2
  · exact pane_pos hg _
  · omega
  · exact one_div_pos.2 (h3 _)
  · omega

theorem getR_pos (hg : WellMade g) {k : GlazingCase} {th r : ℕ → ℝ} (hm : Mild k th g.n) (h : g.getR k th = .ok r) :
    ∀ m ≤ 2 * (g.n + 1), 0 < r m := by
  obtain ⟨he, hi, h1, h2, rfl⟩ := (getR_iff hg).1 h
  exact fun m => resist_pos hg (outerFilm_pos hg hm h1) (innerFilm_pos hg hm h2) (gapOf_pos hg hm)

theorem getR_fixed (hg : WellMade g) {k : GlazingCase} (hk : k.fixed = true) :
    ∃ r, ∀ th, g.getR k th = .ok r := by
  obtain ⟨e, he, -, -⟩ := eps_good (hg.front 0)
  obtain ⟨e', he', -, -⟩ := eps_good (hg.back (Fin.last g.n))
  refine ⟨resist g (4.9 * e + 16.3) (5.4 * e' + 4.1) (gapOf g k fun _ => 0), fun th => (getR_iff hg).2 ⟨4.9 * e + 16.3, 5.4 * e' + 4.1, ?_, ?_, ?_⟩⟩
  · unfold Glazing.outerFilm Glazing.hE
    rw [if_pos hk, he]
    rfl
  · unfold Glazing.innerFilm Glazing.hI
    rw [if_pos hk, he', if_neg (by decide)]
    rfl
  · have : gapOf g k (fun _ => 0) = gapOf g k th := by
      funext i
      unfold gapOf Glazing.gap
      simp only [hk, if_true]
    rw [this]

end HLC.Glass
