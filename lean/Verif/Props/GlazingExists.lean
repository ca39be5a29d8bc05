import Verif.Props.GlazingU
import Verif.Props.GlazingFilms
import Mathlib.Analysis.SpecialFunctions.Pow.Continuity
import Verif.Lemmas.Miranda

/-!
# C103: the heat balance with gaps and films at their own temperatures has a solution
-/

namespace HLC.Glass

open Spec Finset

theorem interp_minmax (t v1 v2 v3 v4 : ℝ) :
    interp t v1 v2 v3 v4 = v2 + (v2 - v1) / 10 * min t 0 + (v3 - v2) / 10 * max (min t 10) 0 + (v4 - v3) / 10 * max (t - 10) 0 := by
  rw [interp_eq]
  split_ifs with h1 h2
  · rw [min_eq_left h1.le, min_eq_left (by linarith), max_eq_right h1.le, max_eq_right (by linarith)]
    ring
  · rw [min_eq_right (not_lt.1 h1), min_eq_left h2.le, max_eq_left (not_lt.1 h1), max_eq_right (by linarith)]
    ring
  · rw [min_eq_right (not_lt.1 h1), min_eq_right (not_lt.1 h2), max_eq_left (by norm_num), max_eq_left (by linarith [not_lt.1 h2])]
    ring

theorem interp_continuous (v1 v2 v3 v4 : ℝ) : Continuous fun t => interp t v1 v2 v3 v4 := by
  simp only [interp_minmax]
  fun_prop

theorem gasRho_continuous (a : Gas) : Continuous fun t => gasRho t a := by
  cases a <;> exact interp_continuous _ _ _ _

theorem gasMu_continuous (a : Gas) : Continuous fun t => gasMu t a := by
  cases a <;> exact (interp_continuous _ _ _ _).mul continuous_const

theorem gasLambda_continuous (a : Gas) : Continuous fun t => gasLambda t a := by
  cases a <;> exact (interp_continuous _ _ _ _).mul continuous_const

theorem mix_continuous (m : Mix) {f : ℝ → Gas → ℝ} (hf : ∀ a, Continuous fun t => f t a) : Continuous fun t => m.of (f t) := by
  unfold Mix.of
  have h1 := hf .air
  have h2 := hf .argon
  have h3 := hf .sf6
  have h4 := hf .krypton
  fun_prop

theorem gasMu_pos {t : ℝ} (ht : -100 ≤ t) (a : Gas) : 0 < gasMu t a := by
  cases a <;> rw [gasMu, interp_eq] <;> refine mul_pos ?_ (by positivity) <;> split_ifs <;> linarith

theorem gasLambda_mono {t0 t : ℝ} (ht : t0 ≤ t) (a : Gas) : gasLambda t0 a ≤ gasLambda t a := by
  cases a <;> rw [gasLambda, gasLambda, interp_eq, interp_eq] <;> refine mul_le_mul_of_nonneg_right ?_ (by positivity) <;>
    split_ifs <;> linarith

variable {g : Glazing}

theorem hSOf_continuousOn (hg : WellMade g) (i : Fin g.n) {X : Type*} [TopologicalSpace X] {S : Set X} {f b : X → ℝ} (hf : ContinuousOn f S) (hb : ContinuousOn b S)
    (hf0 : ∀ y ∈ S, -100 ≤ f y) (hb0 : ∀ y ∈ S, -100 ≤ b y) (ef eb : ℝ) : ContinuousOn (fun y => (g.als i).hSOf (f y) (b y) ef eb) S := by
  unfold AirLayer.hSOf AirLayer.hS gapHR AirLayer.hG AirLayer.gr gasPr
  simp only [add_sub_cancel_right]
  have ht : ContinuousOn (fun y => (f y + b y) / 2) S := (hf.add hb).div_const 2
  have hrho := (mix_continuous (g.als i).mix gasRho_continuous).comp_continuousOn ht
  have hmu := (mix_continuous (g.als i).mix gasMu_continuous).comp_continuousOn ht
  have hlam := (mix_continuous (g.als i).mix gasLambda_continuous).comp_continuousOn ht
  have h100 : ∀ y ∈ S, -100 ≤ (f y + b y) / 2 := fun y hy => by linarith [hf0 y hy, hb0 y hy]
  have hmu0 : ∀ y ∈ S, (g.als i).mix.of (gasMu ((f y + b y) / 2)) ≠ 0 := fun y hy =>
    (mix_pos (hg.air i) (hg.argon i) (hg.sf6 i) (hg.krypton i) (hg.total i) (gasMu_pos (h100 y hy))).ne'
  have hlam0 : ∀ y ∈ S, (g.als i).mix.of (gasLambda ((f y + b y) / 2)) ≠ 0 := fun y hy =>
    (mix_pos (hg.air i) (hg.argon i) (hg.sf6 i) (hg.krypton i) (hg.total i) (gasLambda_pos (h100 y hy))).ne'
  have ht0 : ∀ y ∈ S, (f y + b y) / 2 + 273.15 ≠ 0 := fun y hy => by linarith [h100 y hy]
  have hn : 0 ≤ (g.als i).n := by
    unfold AirLayer.n
    split <;> norm_num
  have hd : ContinuousOn (fun y => |(|f y - b y|)|) S := (hf.sub hb).abs.abs
  have hT : ContinuousOn (fun y => (f y + b y) / 2 + 273.15) S := ht.add continuousOn_const
  refine ContinuousOn.add (continuousOn_const.mul (hT.pow 3)) ?_
  refine ContinuousOn.div_const (ContinuousOn.mul (ContinuousOn.sup continuousOn_const (continuousOn_const.mul ?_)) hlam) _
  refine ContinuousOn.rpow_const ?_ fun _ _ => .inr hn
  refine ContinuousOn.mul (ContinuousOn.div (ContinuousOn.div ((continuousOn_const.mul hd).mul (hrho.pow 2)) hT ht0) (hmu.pow 2)
    fun y hy => pow_ne_zero 2 (hmu0 y hy)) ?_
  exact (hmu.mul continuousOn_const).div hlam hlam0

theorem chainTemp_continuous (N : ℕ) {X : Type*} [TopologicalSpace X] {S : Set X} {r : X → ℕ → ℝ} (hr : ∀ m, ContinuousOn (fun y => r y m) S)
    (hR : ∀ y ∈ S, ∑ k ∈ range (N + 1), r y k ≠ 0) (q : ℕ → ℝ) (te ti : ℝ) (k : ℕ) : ContinuousOn (fun y => chainTemp N (r y) q te ti k) S := by
  unfold chainTemp
  refine continuousOn_const.sub (continuousOn_finsetSum _ fun m _ => (hr m).mul (ContinuousOn.add (ContinuousOn.div ?_ ?_ hR) continuousOn_const))
  · exact continuousOn_const.sub (continuousOn_finsetSum _ fun m _ => (hr m).mul continuousOn_const)
  · exact continuousOn_finsetSum _ fun m _ => hr m

/-- Conditions under which the films can be calculated: the method that depends on the season knows summer and winter. -/
def SeasonKnown (k : GlazingCase) : Prop := k.method = "JIS_A2103" → k.season = "summer" ∨ k.season = "winter"

/-- The radiative part of a film is not negative. -/
theorem film_radiation {eps t u : ℝ} (he : 0 < eps) (ht : -100 ≤ t) (hu : -100 ≤ u) :
    0 ≤ eps * glassSigma * ((t + 273.15) ^ 3 + (t + 273.15) ^ 2 * (u + 273.15) + (t + 273.15) * (u + 273.15) ^ 2 + (u + 273.15) ^ 3) := by
  have h1 : 0 ≤ t + 273.15 := by linarith
  have h2 : 0 ≤ u + 273.15 := by linarith
  unfold glassSigma
  positivity

theorem outerFilm_fun (hg : WellMade g) {k : GlazingCase} (hs : SeasonKnown k) (h1 : -100 ≤ k.thetaE) :
    ∃ h : ℝ → ℝ, Continuous h ∧ (∀ t, -100 ≤ t → 1 ≤ h t) ∧ ∀ th : ℕ → ℝ, g.outerFilm k th = .ok (h (th 0)) := by
  obtain ⟨e, he, he0, -⟩ := eps_good (hg.front 0)
  unfold Glazing.outerFilm Glazing.hE
  rw [he]
  simp only [bind, Except.bind]
  by_cases hk : k.fixed = true
  · refine ⟨fun _ => 4.9 * e + 16.3, continuous_const, fun _ _ => by linarith, fun _ => ?_⟩
    rw [if_pos hk, if_neg (by decide)]
  by_cases hm : k.method = "JIS_A2103"
  · rcases hs hm with h | h
    · refine ⟨fun t => e * glassSigma * ((t + 273.15) ^ 3 + (t + 273.15) ^ 2 * (k.thetaE + 273.15) + (t + 273.15) * (k.thetaE + 273.15) ^ 2
        + (k.thetaE + 273.15) ^ 3) + 8, by fun_prop, fun t ht => by linarith [film_radiation he0 ht h1], fun th => ?_⟩
      rw [if_neg hk, if_pos hm, if_pos h]
    · refine ⟨fun t => e * glassSigma * ((t + 273.15) ^ 3 + (t + 273.15) ^ 2 * (k.thetaE + 273.15) + (t + 273.15) * (k.thetaE + 273.15) ^ 2
        + (k.thetaE + 273.15) ^ 3) + 20, by fun_prop, fun t ht => by linarith [film_radiation he0 ht h1], fun th => ?_⟩
      rw [if_neg hk, if_pos hm, if_neg (by rw [h]; decide), if_pos h]
  · refine ⟨fun _ => 4.9 * e + 16.3, continuous_const, fun _ _ => by linarith, fun _ => ?_⟩
    rw [if_neg hk, if_neg hm]

theorem innerFilm_fun (hg : WellMade g) {k : GlazingCase} (hs : SeasonKnown k) (h1 : -100 ≤ k.thetaI) :
    ∃ h : ℝ → ℝ, Continuous h ∧ (∀ t, -100 ≤ t → 1 ≤ h t) ∧ ∀ th : ℕ → ℝ, g.innerFilm k th = .ok (h (th (2 * g.n + 1))) := by
  obtain ⟨e, he, he0, -⟩ := eps_good (hg.front 0)
  obtain ⟨ei, hei, hei0, -⟩ := eps_good (hg.back (Fin.last g.n))
  unfold Glazing.innerFilm Glazing.hI
  rw [he, hei]
  simp only [bind, Except.bind]
  by_cases hk : k.fixed = true
  · refine ⟨fun _ => 5.4 * ei + 4.1, continuous_const, fun _ _ => by linarith, fun _ => ?_⟩
    rw [if_pos hk, if_neg (by decide)]
  by_cases hm : k.method = "JIS_A2103"
  · rcases hs hm with h | h
    · refine ⟨fun t => e * glassSigma * ((t + 273.15) ^ 3 + (t + 273.15) ^ 2 * (k.thetaI + 273.15) + (t + 273.15) * (k.thetaI + 273.15) ^ 2
        + (k.thetaI + 273.15) ^ 3) + 2.5, by fun_prop, fun t ht => by linarith [film_radiation he0 ht h1], fun th => ?_⟩
      rw [if_neg hk, if_pos hm, if_pos h]
    · refine ⟨fun t => e * glassSigma * ((t + 273.15) ^ 3 + (t + 273.15) ^ 2 * (k.thetaI + 273.15) + (t + 273.15) * (k.thetaI + 273.15) ^ 2
        + (k.thetaI + 273.15) ^ 3) + 3.6, by fun_prop, fun t ht => by linarith [film_radiation he0 ht h1], fun th => ?_⟩
      rw [if_neg hk, if_pos hm, if_neg (by rw [h]; decide), if_pos h]
  · refine ⟨fun _ => 5.4 * ei + 4.1, continuous_const, fun _ _ => by linarith, fun _ => ?_⟩
    rw [if_neg hk, if_neg hm]

theorem hSOf_ge (hg : WellMade g) (i : Fin g.n) {t0 f b ef eb : ℝ} (h0 : -100 ≤ t0) (hf : t0 ≤ f) (hb : t0 ≤ b) (hef : 0 < ef) (hef1 : ef ≤ 0.837) (heb : 0 < eb) :
    (g.als i).mix.of (gasLambda t0) / (g.als i).s ≤ (g.als i).hSOf f b ef eb := by
  unfold AirLayer.hSOf AirLayer.hS
  have q1 := gapHR_pos (tm := (f + b) / 2 + 273.15) (by linarith) hef hef1 heb
  refine le_trans ?_ (le_add_of_nonneg_left q1.le)
  unfold AirLayer.hG
  simp only [add_sub_cancel_right]
  rw [div_le_div_iff_of_pos_right (hg.width i)]
  have q2 : (g.als i).mix.of (gasLambda t0) ≤ (g.als i).mix.of (gasLambda ((f + b) / 2)) := by
    unfold Mix.of
    have m1 := fun a => gasLambda_mono (t0 := t0) (t := (f + b) / 2) (by linarith) a
    have n1 := mul_le_mul_of_nonneg_right (m1 .air) (hg.air i)
    have n2 := mul_le_mul_of_nonneg_right (m1 .argon) (hg.argon i)
    have n3 := mul_le_mul_of_nonneg_right (m1 .sf6) (hg.sf6 i)
    have n4 := mul_le_mul_of_nonneg_right (m1 .krypton) (hg.krypton i)
    linarith
  have q3 : 0 < (g.als i).mix.of (gasLambda t0) :=
    mix_pos (hg.air i) (hg.argon i) (hg.sf6 i) (hg.krypton i) (hg.total i) (gasLambda_pos h0)
  exact q2.trans (le_mul_of_one_le_left (q3.le.trans q2) (le_max_left _ _))

/-- **C103.** Also with gaps and films at their own temperatures the heat balance of glazing with any number of panes has a solution, for all
radiation that is not negative and all temperatures from -100 degC on. -/
theorem C103_exists (hg : WellMade g) {k : GlazingCase} (hs : SeasonKnown k) (h1 : -100 ≤ k.thetaE) (h2 : -100 ≤ k.thetaI)
    {ia : Fin (g.n + 1) → ℝ} (hia : ∀ j, 0 ≤ ia j) : ∃ th, g.heatFlow k ia th = .ok 0 ∧ ∀ m, min k.thetaE k.thetaI ≤ th m := by
  have hq : ∀ m < 2 * (g.n + 1), 0 ≤ halves ia m := fun m _ => halves_nonneg hia m
  by_cases hk : k.fixed = true
  · obtain ⟨th, hth, -⟩ := C103_unique (ia := ia) hg hk
    exact ⟨th, hth, fun m => (C103_range hg (.inl hk) hth hia m).1⟩
  obtain ⟨fe, hec, he1, hof⟩ := outerFilm_fun hg hs h1
  obtain ⟨fi, hic, hi1, hif⟩ := innerFilm_fun hg hs h2
  choose eb heb heb0 heb1 using fun i : Fin g.n => eps_good (hg.back i.castSucc)
  choose ef hef hef0 _ using fun i : Fin g.n => eps_good (hg.front i.succ)
  set t0 := min k.thetaE k.thetaI with ht0
  have ht100 : -100 ≤ t0 := le_min h1 h2
  -- The unknowns: the resistances of the film outdoors (`none`), of the film indoors (`some none`) and of the gaps.
  set r : (Option (Option (Fin g.n)) → ℝ) → ℕ → ℝ := fun y => resist g (1 / y none) (1 / y (some none)) (fun i => 1 / y (some (some i))) with hrdef
  have hrpos : ∀ y, (∀ o, 0 < y o) → ∀ m ≤ 2 * (g.n + 1), 0 < r y m := fun y hy m hm =>
    resist_pos hg (one_div_pos.2 (hy _)) (one_div_pos.2 (hy _)) (fun _ => one_div_pos.2 (hy _)) hm
  have hrcont : ∀ m, Continuous fun y => r y m := by
    intro m
    simp only [hrdef, resist, one_div_one_div]
    split_ifs <;> fun_prop
  have hR0 : ∀ y ∈ {y : Option (Option (Fin g.n)) → ℝ | ∀ o, 0 ≤ y o}, ∑ m ∈ range (2 * (g.n + 1) + 1), r y m ≠ 0 := by
    intro y hy
    rw [hrdef, resist_sum]
    simp only [one_div_one_div]
    have p3 : 0 < ∑ i, (g.gls i).r := sum_pos (fun i _ => pane_pos hg i) univ_nonempty
    have p4 : 0 ≤ ∑ i : Fin g.n, y (some (some i)) := sum_nonneg fun i _ => hy _
    have := hy none
    have := hy (some none)
    linarith
  set T : ℕ → (Option (Option (Fin g.n)) → ℝ) → ℝ := fun j y => chainTemp (2 * (g.n + 1)) (r y) (halves ia) k.thetaE k.thetaI j with hT
  have hTc : ∀ j, ContinuousOn (T j) {y | ∀ o, 0 ≤ y o} := fun j => chainTemp_continuous _ (fun m => (hrcont m).continuousOn) hR0 _ _ _ j
  have hTpos : ∀ j : Fin (2 * (g.n + 1)), ∀ y, (∀ o, 0 < y o) → t0 ≤ T (j + 1) y := fun j y hy =>
    balance_min (hrpos y hy) (balance_exists (hrpos y hy)) hq j
  have hTmin : ∀ j : ℕ, j < 2 * (g.n + 1) → ∀ y ∈ {y : Option (Option (Fin g.n)) → ℝ | ∀ o, 0 ≤ y o}, t0 ≤ T (j + 1) y := by
    intro j hj y hy
    have hcl : closure (Set.univ.pi fun _ : Option (Option (Fin g.n)) => Set.Ioi (0 : ℝ)) = {y | ∀ o, 0 ≤ y o} := by
      rw [closure_pi_set]
      ext y
      simp only [closure_Ioi, Set.mem_univ_pi, Set.mem_Ici, Set.mem_ofPred_eq]
    have hc := hTc (j + 1)
    rw [← hcl] at hc hy
    exact le_on_closure (f := fun _ => t0) (g := T (j + 1)) (s := Set.univ.pi fun _ => Set.Ioi 0) (fun y hy => hTpos ⟨j, hj⟩ y fun o => hy o (Set.mem_univ o)) continuousOn_const hc hy
  -- The conductances that belong to the temperatures that these resistances cause.
  set h : Option (Option (Fin g.n)) → (Option (Option (Fin g.n)) → ℝ) → ℝ := fun o y =>
    match o with
    | none => fe (T 1 y)
    | some none => fi (T (2 * g.n + 2) y)
    | some (some i) => (g.als i).hSOf (T (2 * i + 2) y) (T (2 * i + 3) y) (eb i) (ef i) with hh
  set L : Option (Option (Fin g.n)) → ℝ := fun o =>
    match o with
    | none => 1
    | some none => 1
    | some (some i) => (g.als i).mix.of (gasLambda t0) / (g.als i).s with hL
  have hL0 : ∀ o, 0 < L o := by
    rintro (_ | _ | i)
    · exact one_pos
    · exact one_pos
    · exact div_pos (mix_pos (hg.air i) (hg.argon i) (hg.sf6 i) (hg.krypton i) (hg.total i) (gasLambda_pos ht100)) (hg.width i)
  have hhc : ∀ o, ContinuousOn (h o) {y | ∀ o, 0 ≤ y o} := by
    rintro (_ | _ | i)
    · exact hec.comp_continuousOn (hTc _)
    · exact hic.comp_continuousOn (hTc _)
    · have := i.isLt
      exact hSOf_continuousOn hg i (hTc _) (hTc _) (fun y hy => ht100.trans (hTmin (2 * i + 1) (by omega) y hy))
        (fun y hy => ht100.trans (hTmin (2 * i + 2) (by omega) y hy)) _ _
  have hhL : ∀ o, ∀ y ∈ {y : Option (Option (Fin g.n)) → ℝ | ∀ o, 0 ≤ y o}, L o ≤ h o y := by
    rintro (_ | _ | i) y hy
    · exact he1 _ (ht100.trans (hTmin 0 (by omega) y hy))
    · exact hi1 _ (ht100.trans (hTmin (2 * g.n + 1) (by omega) y hy))
    · have := i.isLt
      exact hSOf_ge hg i ht100 (hTmin (2 * i + 1) (by omega) y hy) (hTmin (2 * i + 2) (by omega) y hy) (heb0 i) (heb1 i) (hef0 i)
  have hsub : Set.Icc (0 : Option (Option (Fin g.n)) → ℝ) (fun o => 1 / L o) ⊆ {y | ∀ o, 0 ≤ y o} := fun y hy o => hy.1 o
  obtain ⟨y, hy, hyz⟩ := Miranda.exists_zero (fun o => 1 / L o) (fun o => one_div_pos.2 (hL0 o)) (fun o y => y o * h o y - 1)
    (fun o => (((continuous_apply o).continuousOn.mul ((hhc o).mono hsub)).sub continuousOn_const))
    (fun o y _ e => by rw [e]; norm_num)
    (fun o y hy e => by
      have := mul_le_mul_of_nonneg_left (hhL o y (hsub hy)) (one_div_pos.2 (hL0 o)).le
      rw [one_div_mul_cancel (hL0 o).ne'] at this
      rw [e]
      linarith)
  have hyh : ∀ o, y o * h o y = 1 := fun o => by linarith [hyz o]
  have hy0 : ∀ o, 0 < y o := by
    intro o
    refine lt_of_le_of_ne (hy.1 o) fun e => ?_
    have := hyh o
    rw [← e] at this
    simp at this
  have hinv : ∀ o, 1 / y o = h o y := fun o => by rw [div_eq_iff (hy0 o).ne', mul_comm, hyh o]
  have hr := hrpos y hy0
  set th : Fin (2 * (g.n + 1)) → ℝ := fun j => T (j + 1) y with hth
  have hseq : ∀ j < 2 * (g.n + 1), seq th j = T (j + 1) y := by
    intro j hj
    unfold seq
    rw [dif_pos hj]
  have hgap : gapOf g k (seq th) = fun i => 1 / y (some (some i)) := by
    funext i
    have := i.isLt
    unfold gapOf Glazing.gap
    rw [heb, hef]
    simp only [bind, Except.bind]
    rw [if_neg hk]
    simp only []
    rw [hseq _ (by omega), hseq _ (by omega), hinv]
    rfl
  have hgetR : g.getR k (seq th) = .ok (r y) := by
    refine (getR_iff hg).2 ⟨1 / y none, 1 / y (some none), ?_, ?_, by rw [hgap]⟩
    · rw [hof, hseq _ (by omega), hinv]
    · rw [hif, hseq _ (by omega), hinv]
  exact ⟨th, (heatFlow_iff hgetR).2 (balance_exists hr), fun m => balance_min hr (balance_exists hr) hq m⟩

open Classical in
/-- A root finder that finds what there is to find. -/
noncomputable def perfect : (N : ℕ) → Root N := fun _ f x =>
  if h : ∃ y, f y = .ok 0 ∧ ∀ m, -100 ≤ y m then .ok h.choose else .ok x

theorem perfect_spec {N : ℕ} {f : (Fin N → ℝ) → Except PyErr (Fin N → ℝ)} (h : ∃ y, f y = .ok 0 ∧ ∀ m, -100 ≤ y m) (x : Fin N → ℝ) :
    ∃ y, perfect N f x = .ok y ∧ f y = .ok 0 ∧ ∀ m, -100 ≤ y m := by
  refine ⟨h.choose, ?_, h.choose_spec⟩
  unfold perfect
  rw [dif_pos h]

theorem tempAndR_perfect (hg : WellMade g) {k : GlazingCase} (hs : SeasonKnown k) (h1 : -100 ≤ k.thetaE) (h2 : -100 ≤ k.thetaI)
    {ia : Fin (g.n + 1) → ℝ} (hia : ∀ j, 0 ≤ ia j) :
    ∃ th reg qin, g.tempAndR perfect k ia = .ok (th, reg, qin) ∧ g.heatFlow k ia th = .ok 0 ∧ ∀ m, -100 ≤ th m := by
  obtain ⟨th0, f1, f2⟩ := C103_exists hg hs h1 h2 hia
  obtain ⟨th, e1, e2, e3⟩ := perfect_spec ⟨th0, f1, fun m => (le_min h1 h2).trans (f2 m)⟩ (fun _ => (k.thetaE + k.thetaI) / 2)
  have e4 := e2
  simp only [Glazing.heatFlow, bind_ok_iff] at e4
  obtain ⟨reg, hr, -⟩ := e4
  refine ⟨th, reg, g.rQin ia reg, ?_, e2, e3⟩
  unfold Glazing.tempAndR
  rw [e1]
  simp only [bind, Except.bind]
  rw [hr]

/-- The hypotheses of `C104_shgc` are met by every window with a root finder that finds roots. -/
theorem C104_windows (hg : WellMade g) {p : Fin (g.n + 1) → Pane} (hp : ∀ j, Physical (p j)) :
    ∃ w, windowCalc g perfect p = .ok w ∧ (∀ m, -100 ≤ w.theta m) ∧
      g.heatFlow windowCase (fun j => w.abs.getD j 0 * 300) w.theta = .ok 0 := by
  obtain ⟨tot, abs, h1, h2, -⟩ := C102_light hp
  obtain ⟨-, -, h3, -⟩ := C102_accounted hp h1 h2
  have hia : ∀ j : Fin (g.n + 1), 0 ≤ (List.ofFn abs).getD j 0 * 300 := by
    intro j
    have : (List.ofFn abs).getD j 0 = abs j := by
      rw [List.getD_eq_getElem?_getD, List.getElem?_eq_getElem (by rw [List.length_ofFn]; exact j.2), List.getElem_ofFn]
      rfl
    rw [this]
    exact mul_nonneg (h3 _ (List.mem_ofFn.2 ⟨j, rfl⟩)) (by norm_num)
  obtain ⟨th, reg, qin, e1, e2, e3⟩ := tempAndR_perfect hg (k := windowCase) (fun h => absurd h (by decide)) (by norm_num [windowCase]) (by norm_num [windowCase]) hia
  obtain ⟨th', reg', qin', f1, -, -⟩ := tempAndR_perfect hg (k := .default) (ia := fun _ => 0) (fun h => absurd h (by decide)) (by norm_num [GlazingCase.default])
    (by norm_num [GlazingCase.default]) fun _ => le_rfl
  refine ⟨⟨List.ofFn abs, tot.tauF, tot.rhoF, th, qin, 1 / ∑ m ∈ range (2 * (g.n + 1) + 1), reg' m, qin / 300 + tot.tauF⟩, ?_, ?_, e2⟩
  · unfold windowCalc Glazing.u
    rw [h1, h2, f1]
    simp only [bind, Except.bind]
    rw [e1]
  · intro m
    exact e3 m

/-- **C103, the stack.** A stack of panes is accepted just if it has one pane more than gaps, and then consists of the given panes and gaps in
the given order; otherwise a `ValueError` is raised. -/
theorem C103_stack (gls : List GlassLayer) (als : List AirLayer) :
    (gls.length ≠ als.length + 1 → mkGlazing gls als = .error .valueError) ∧
    (gls.length = als.length + 1 → ∃ g, mkGlazing gls als = .ok g ∧ List.ofFn g.gls = gls ∧ List.ofFn g.als = als) := by
  constructor
  · intro h
    rw [mkGlazing, dif_neg h]
  · intro h
    refine ⟨_, by rw [mkGlazing, dif_pos h], ?_, List.ofFn_get _⟩
    apply List.ext_getElem
    · simp [h]
    · intro i h1 h2
      rw [List.getElem_ofFn]
      rfl

/-- Both cases of `C103_stack` occur: a single pane without gaps, and two panes without a gap. -/
example (x : GlassLayer) : (∃ g, mkGlazing [x] [] = .ok g ∧ List.ofFn g.gls = [x]) ∧ mkGlazing [x, x] [] = .error .valueError := by
  obtain ⟨g, h1, h2, -⟩ := (C103_stack [x] []).2 rfl
  exact ⟨⟨g, h1, h2⟩, (C103_stack [x, x] []).1 (by simp)⟩

/-- **C104, the figures reported.** The window calculation reports the transmittance, the reflectance and the absorbed shares of the stack of panes
as calculated for light, its U value as calculated for heat, and as solar heat gain coefficient the transmittance and the share of 300 W/m2 that is
absorbed and handed on to the room. -/
theorem C104_report {root : (N : ℕ) → Root N} {p : Fin (g.n + 1) → Pane} {w : WindowResult g.n} (h : windowCalc g root p = .ok w) :
    (∃ tot, getTotal (List.ofFn p) = .ok tot ∧ w.tau = tot.tauF ∧ w.rho = tot.rhoF) ∧ getAbs (List.ofFn p) = .ok w.abs ∧
    g.u root = .ok w.u ∧ (∃ r, g.tempAndR root windowCase (fun j => w.abs.getD j 0 * 300) = .ok (w.theta, r, w.rQin)) ∧
    300 * w.shgc = 300 * w.tau + w.rQin := by
  simp only [windowCalc, bind_ok_iff] at h
  obtain ⟨spec, h1, abs, h2, ⟨th, reg, qin⟩, h3, u, h4, h5⟩ := h
  cases h5
  refine ⟨⟨spec, h1, rfl, rfl⟩, h2, h4, ⟨reg, h3⟩, ?_⟩
  simp only []
  ring

/-- The double window of `window.py` 52-79. -/
noncomputable def exDouble : Glazing where
  n := 1
  gls := fun _ => ⟨[(0.003, 1)], .plain, .plain⟩
  als := fun _ => ⟨⟨100, 0, 0, 0⟩, .vertical, 0.006⟩

theorem exDouble_wellMade : WellMade exDouble := by
  refine ⟨fun _ => by simp [exDouble], fun _ => ?_, fun _ => trivial, fun _ => trivial, fun _ => ?_, fun _ => ?_, fun _ => ?_, fun _ => ?_, fun _ => ?_, fun _ => ?_⟩
  · intro u hu
    simp only [exDouble, List.mem_singleton] at hu
    subst hu
    norm_num
  all_goals simp only [exDouble]
  all_goals norm_num

theorem exDouble_panes : ∀ _j : Fin 2, Physical ⟨0.859, 0.859, 0.077, 0.077⟩ :=
  fun _ => ⟨by norm_num, by norm_num, by norm_num, by norm_num, by norm_num, by norm_num, by norm_num, by norm_num⟩

/-- `C104_report` applies to the window of `window.py`. -/
example : ∃ w, windowCalc exDouble perfect (fun _ => ⟨0.859, 0.859, 0.077, 0.077⟩) = .ok w ∧ exDouble.u perfect = .ok w.u := by
  obtain ⟨w, h1, -⟩ := C104_windows exDouble_wellMade exDouble_panes
  exact ⟨w, h1, (C104_report h1).2.2.1⟩

/-- The window of `window.py` meets the hypotheses, so its coefficient is between its transmittance and one. -/
example : ∃ w, windowCalc exDouble perfect (fun _ => ⟨0.859, 0.859, 0.077, 0.077⟩) = .ok w ∧ 0 ≤ w.tau ∧ w.tau ≤ w.shgc ∧ w.shgc ≤ 1 := by
  obtain ⟨w, h1, h2, h3⟩ := C104_windows exDouble_wellMade exDouble_panes
  obtain ⟨a, b, -, c, -⟩ := C104_shgc exDouble_wellMade exDouble_panes h1 h2 h3
  exact ⟨w, h1, a, b, c⟩

/-- A triple window with krypton and two coatings. -/
noncomputable def exTriple : Glazing where
  n := 2
  gls := fun i => ⟨[(0.003, 1)], if i = 0 then .plain else .lowE 0.1, .plain⟩
  als := fun _ => ⟨⟨10, 0, 0, 90⟩, .vertical, 0.012⟩

theorem exTriple_wellMade : WellMade exTriple := by
  refine ⟨fun _ => by simp [exTriple], fun _ => ?_, fun i => ?_, fun _ => trivial, fun _ => ?_, fun _ => ?_, fun _ => ?_, fun _ => ?_, fun _ => ?_, fun _ => ?_⟩
  · intro u hu
    simp only [exTriple, List.mem_singleton] at hu
    subst hu
    norm_num
  · simp only [exTriple]
    split_ifs
    · trivial
    · exact ⟨by norm_num, by norm_num⟩
  all_goals simp only [exTriple]
  all_goals norm_num

/-- A concrete case of `C103_exists`: the triple window in sun, with the films of the method that depends on the surface temperatures. -/
example : ∃ th, exTriple.heatFlow ⟨-20, 20, "JIS_A2103", "winter", false⟩ (fun _ => 40) th = .ok 0 ∧ ∀ m, -20 ≤ th m := by
  obtain ⟨th, h1, h2⟩ := C103_exists exTriple_wellMade (k := ⟨-20, 20, "JIS_A2103", "winter", false⟩) (ia := fun _ => 40) (fun _ => .inr rfl) (by norm_num)
    (by norm_num) (fun _ => by norm_num)
  exact ⟨th, h1, fun m => le_trans (by norm_num) (h2 m)⟩

/-- A concrete case of `C103_laws`: the same window at the temperatures of the window calculation. -/
example : ∃ th reg qin, exDouble.tempAndR perfect windowCase (fun _ => 50) = .ok (th, reg, qin) ∧
    heatThrough reg 0 20 th 1 * (0.003 / 1 + 0) = th 0 - th 1 := by
  obtain ⟨th, reg, qin, h, -, -⟩ := tempAndR_perfect exDouble_wellMade (k := windowCase) (ia := fun _ => 50) (fun h => absurd h (by decide))
    (by norm_num [windowCase]) (by norm_num [windowCase]) (fun _ => by norm_num)
  obtain ⟨_, _, -, -, -, -, hp, -⟩ := C103_laws exDouble_wellMade rfl h
  refine ⟨th, reg, qin, h, Eq.trans ?_ (hp 0)⟩
  simp only [exDouble, List.map_cons, List.map_nil, List.sum_cons, List.sum_nil]
  rfl

end HLC.Glass
