import Verif.Model.UPsi
import Verif.Spec.Envelope
import Verif.Lemmas.Except
import Mathlib.Algebra.Order.BigOperators.Group.List
import Mathlib.Algebra.BigOperators.Ring.List
import Mathlib.Tactic.NormNum
import Mathlib.Tactic.Ring

/-!
# Distributing the heat loss over the parts (C58)
-/

namespace HLC

open Conv

theorem sum_filter_split {α : Type} (l : List α) (P : α → Prop) [DecidablePred P] (g : α → ℝ) (h : ∀ x ∈ l, ¬ P x → g x = 0) :
    ((l.filter fun x => decide (P x)).map g).sum = (l.map g).sum := by
  induction l with
  | nil => simp
  | cons a l ih =>
    have ih' := ih fun x hx => h x (List.mem_cons_of_mem _ hx)
    by_cases hp : P a
    · simp [hp, ih']
    · simp [hp, ih', h a List.mem_cons_self hp]

theorem sum_map_sub' {α : Type} (l : List α) (q : α → ℝ) (f : α → ℝ) (b : ℝ) :
    (l.map fun p => q p * (f p - b)).sum = (l.map fun p => q p * f p).sum - (l.map q).sum * b := by
  induction l with
  | nil => simp
  | cons a l ih => simp only [List.map_cons, List.sum_cons, ih]; ring

theorem lookup_map_pair {α : Type} [DecidableEq α] (l : List α) (g : α → ℝ) {p : α} (hp : p ∈ l) : (l.map fun x => (x, g x)).lookup p = some (g p) := by
  induction l with
  | nil => simp at hp
  | cons a l ih =>
    by_cases h : p = a
    · subst h; simp
    · simp only [List.map_cons, List.lookup_cons]
      rw [show (p == a) = false by simpa using h]
      exact ih ((List.mem_cons.1 hp).resolve_left h)

theorem lookup_of_all {α : Type} [DecidableEq α] (l : List (α × ℝ)) (g : α → ℝ) (h : ∀ x ∈ l, x.2 = g x.1) {p : α} (hp : p ∈ l.map Prod.fst) :
    l.lookup p = some (g p) := by
  have : l = (l.map Prod.fst).map fun x => (x, g x) := by
    rw [List.map_map]
    conv_lhs => rw [← List.map_id l]
    exact List.map_congr_left fun x hx => by simp [← h x hx]
  rw [this]
  exact lookup_map_pair _ g hp

theorem remainingF_spec {α : Type} (qStd fMax : α → ℝ) (n : ℕ) : ∀ (l : List α) (q base : ℝ), l.length = n →
    (∀ p ∈ l, 0 ≤ qStd p) → (∀ p ∈ l, base ≤ fMax p) → 0 ≤ q →
    ∃ r v, remainingF qStd fMax q base l = .ok r ∧ base ≤ v ∧ (∀ p, p ∈ r.map Prod.fst ↔ p ∈ l) ∧ (∀ x ∈ r, x.2 = min v (fMax x.1)) ∧
      (l.map fun p => qStd p * (min v (fMax p) - base)).sum = min q (l.map fun p => qStd p * (fMax p - base)).sum := by
  classical
  induction n using Nat.strong_induction_on with
  | _ n ih =>
    intro l q base hl hq hb hq0
    cases l with
    | nil =>
      refine ⟨[], base, by rw [remainingF], le_rfl, by simp, by simp, ?_⟩
      simp [hq0]
    | cons p ps =>
      have hmle : ∀ x ∈ p :: ps, minOver fMax p ps ≤ fMax x := fun x hx =>
        minOf_le (fMax p) (ps.map fMax) _ (by rw [← List.map_cons]; exact List.mem_map_of_mem hx)
      have hbm : base ≤ minOver fMax p ps := by
        have h := minOf_mem (fMax p) (ps.map fMax)
        rw [← List.map_cons, List.mem_map] at h
        obtain ⟨x, hx, e⟩ := h
        rw [minOver, ← e]; exact hb x hx
      rw [remainingF]
      set m := minOver fMax p ps with hm
      set s := ((p :: ps).map qStd).sum with hs
      by_cases hc : s * (m - base) > q
      · have hs0 : 0 < s := by
          rcases lt_or_ge 0 s with h | h
          · exact h
          · have : s * (m - base) ≤ 0 := mul_nonpos_of_nonpos_of_nonneg h (by linarith)
            linarith
        simp only [hc, if_true, pyDiv, hs0.ne', if_false]
        have hv : base + q / s < m := by
          have : q / s < m - base := by rw [div_lt_iff₀ hs0]; linarith [mul_comm s (m - base)]
          linarith
        have hv0 : 0 ≤ q / s := div_nonneg hq0 hs0.le
        refine ⟨_, base + q / s, rfl, by linarith, ?_, ?_, ?_⟩
        · intro x; simp only [List.map_map]; rw [show (Prod.fst ∘ fun x : α => (x, base + q / s)) = id from rfl, List.map_id]
        · intro x hx
          obtain ⟨y, hy, rfl⟩ := List.mem_map.1 hx
          exact (min_eq_left (hv.le.trans (hmle y hy))).symm
        · have e1 : ((p :: ps).map fun x => qStd x * (min (base + q / s) (fMax x) - base)) = (p :: ps).map fun x => qStd x * (q / s) :=
            List.map_congr_left fun x hx => by rw [min_eq_left (hv.le.trans (hmle x hx))]; ring
          rw [e1, List.sum_map_mul_right, ← hs, mul_div_cancel₀ _ hs0.ne', eq_comm]
          refine min_eq_left (hc.le.trans ?_)
          rw [hs, ← List.sum_map_mul_right]
          exact List.sum_le_sum fun x hx => mul_le_mul_of_nonneg_left (by linarith [hmle x hx]) (hq x hx)
      · simp only [hc, if_false]
        have hlt := remaining_shorter fMax p ps
        rw [hl] at hlt
        obtain ⟨r, v, h1, h2, h3, h4, h5⟩ := ih _ hlt _ (q - s * (m - base)) m rfl
          (fun x hx => hq x (List.mem_of_mem_filter hx)) (fun x hx => hmle x (List.mem_of_mem_filter hx)) (by linarith)
        rw [← hm] at h1 h5 h3
        rw [h1]
        refine ⟨_, v, rfl, by linarith, ?_, ?_, ?_⟩
        · intro x
          rw [List.map_append, List.mem_append, h3, List.map_map, show (Prod.fst ∘ fun x : α => (x, m)) = id from rfl, List.map_id,
            List.mem_filter, List.mem_filter]
          by_cases hx : fMax x = m <;> simp [hx]
        · intro x hx
          rcases List.mem_append.1 hx with hx | hx
          · obtain ⟨y, hy, rfl⟩ := List.mem_map.1 hx
            have : fMax y = m := by simpa using (List.mem_filter.1 hy).2
            rw [this, min_eq_right h2]
          · exact h4 x hx
        · rw [sum_filter_split (p :: ps) (fun x => fMax x ≠ m) (fun x => qStd x * (min v (fMax x) - m)) (fun x _ hx => by
              have : fMax x = m := not_not.1 hx
              rw [this, min_eq_right h2]; ring),
            sum_filter_split (p :: ps) (fun x => fMax x ≠ m) (fun x => qStd x * (fMax x - m)) (fun x _ hx => by
              have : fMax x = m := not_not.1 hx
              rw [this]; ring)] at h5
          rw [sum_map_sub'] at h5 ⊢
          rw [sum_map_sub'] at h5 ⊢
          rw [← hs] at h5 ⊢
          rcases le_total (q - s * (m - base)) ((List.map (fun p => qStd p * fMax p) (p :: ps)).sum - s * m) with h | h
          · rw [min_eq_left h] at h5
            rw [min_eq_left (by linarith [mul_sub s m base])]
            linarith [mul_sub s m base]
          · rw [min_eq_right h] at h5
            rw [min_eq_right (by linarith [mul_sub s m base])]
            linarith [mul_sub s m base]

/-- C58: for any list of parts with non-negative standard losses and maxima, and any non-negative required loss, the
computation returns one factor per part, and these factors scale the losses to the required one. -/
theorem C58_scales {α : Type} [DecidableEq α] (parts : List α) (qStd fMax : α → ℝ) (q : ℝ) (hq : ∀ p ∈ parts, 0 ≤ qStd p)
    (hf : ∀ p ∈ parts, 0 ≤ fMax p) (hq0 : 0 ≤ q) :
    ∃ r f, remainingF qStd fMax q 0 parts = .ok r ∧ (∀ p, p ∈ r.map Prod.fst ↔ p ∈ parts) ∧ (∀ p ∈ parts, r.lookup p = some (f p)) ∧
      Spec.ScalesTo parts qStd fMax f q := by
  obtain ⟨r, v, h1, h2, h3, h4, h5⟩ := remainingF_spec qStd fMax _ parts q 0 rfl hq hf hq0
  refine ⟨r, fun p => min v (fMax p), h1, h3, fun p hp => lookup_of_all r (fun p => min v (fMax p)) h4 ((h3 p).2 hp), ?_⟩
  constructor
  · exact fun p hp => le_min h2 (hf p hp)
  · exact fun p _ => min_le_right _ _
  · intro p _ r _ h
    have : min v (fMax p) = v := by
      rcases min_choice v (fMax p) with h' | h'
      · exact h'
      · rw [h'] at h; exact absurd h (lt_irrefl _)
    rw [this]; exact min_le_left _ _
  · simpa using h5

/-- C58: two families of factors that scale to the same required loss agree on every part that has a positive standard
loss, so the description leaves nothing open. -/
theorem C58_unique {α : Type} (parts : List α) (qStd fMax f g : α → ℝ) (q : ℝ) (hq : ∀ p ∈ parts, 0 ≤ qStd p)
    (hf : Spec.ScalesTo parts qStd fMax f q) (hg : Spec.ScalesTo parts qStd fMax g q) : ∀ p ∈ parts, 0 < qStd p → f p = g p := by
  have key : ∀ f g : α → ℝ, Spec.ScalesTo parts qStd fMax f q → Spec.ScalesTo parts qStd fMax g q → ∀ p ∈ parts, 0 < qStd p → ¬ f p < g p := by
    intro f g hf hg p hp hp0 hlt
    have hfp : f p < fMax p := hlt.trans_le (hg.le_max p hp)
    have hle : ∀ r ∈ parts, f r ≤ g r := by
      intro r hr
      by_contra h
      have h := not_le.1 h
      have h1 : f r ≤ f p := hf.common p hp r hr hfp
      have h2 : g p ≤ g r := hg.common r hr p hp (h.trans_le (hf.le_max r hr))
      linarith
    have h1 : (parts.map fun p => qStd p * f p).sum < (parts.map fun p => qStd p * g p).sum :=
      List.sum_lt_sum _ _ (fun r hr => mul_le_mul_of_nonneg_left (hle r hr) (hq r hr)) ⟨p, hp, mul_lt_mul_of_pos_left hlt hp0⟩
    rw [hf.total, hg.total] at h1
    exact lt_irrefl _ h1
  intro p hp hp0
  exact le_antisymm (not_lt.1 (key g f hg hf p hp hp0)) (not_lt.1 (key f g hf hg p hp hp0))

theorem uPsiStdRow_pos (p : PT) (i : Fin 8) : 0 < uPsiStdRow p i := by
  cases p <;> fin_cases i <;> simp [uPsiStdRow] <;> norm_num

theorem uPsiMax_pos (p : PT) : 0 < uPsiMax p := by
  cases p <;> simp only [uPsiMax] <;> norm_num

theorem ptDict_ok {f : PT → Except PyErr ℝ} {g : PT → ℝ} (h : ∀ p, f p = .ok (g p)) : ptDict f = .ok g := by
  simp only [ptDict, h]
  change Except.ok _ = Except.ok _
  congr 1
  funext p
  cases p <;> rfl

theorem ptDict_ok_iff {f : PT → Except PyErr ℝ} {g : PT → ℝ} : ptDict f = .ok g ↔ ∀ p, f p = .ok (g p) := by
  refine ⟨fun h p => ?_, ptDict_ok⟩
  simp only [ptDict, bind_ok_iff] at h
  obtain ⟨_, h1, _, h2, _, h3, _, h4, _, h5, _, h6, _, h7, _, h8, _, h9, _, h10, e⟩ := h
  cases e
  cases p <;> assumption

/-- C58: in each of the eight regions the maxima used are those of the tables, `U_max / U_std`. -/
theorem C58_maxima {region : ℤ} (h : 1 ≤ region ∧ region ≤ 8) :
    ∃ fMax, fUPsiMax region = .ok fMax ∧ ∀ p, ∃ s, uPsiStd region p = .ok s ∧ 0 < s ∧ fMax p * s = uPsiMax p ∧ 0 < fMax p := by
  have hs : ∀ p, uPsiStd region p = .ok (uPsiStdRow p ⟨(region - 1).toNat, by omega⟩) := fun p => by
    rw [uPsiStd, region8, dif_pos h]
  refine ⟨fun p => uPsiMax p / uPsiStdRow p ⟨(region - 1).toNat, by omega⟩, ptDict_ok fun p => ?_, fun p => ⟨_, hs p, uPsiStdRow_pos _ _, ?_, ?_⟩⟩
  · rw [hs]
    exact if_neg (uPsiStdRow_pos _ _).ne'
  · exact div_mul_cancel₀ _ (uPsiStdRow_pos _ _).ne'
  · exact div_pos (uPsiMax_pos _) (uPsiStdRow_pos _ _)

/-- C58, a concrete case: two parts with losses 10 and 20 and maxima 1 and 3; the required loss 50 saturates the first
part and gives the second the factor 2. -/
theorem C58_example : remainingF (fun b : Bool => if b then (10:ℝ) else 20) (fun b => if b then (1:ℝ) else 3) 50 0 [true, false] =
    .ok [(true, 1), (false, 2)] := by
  rw [remainingF]
  norm_num [minOver, minOf]
  rw [remainingF]
  norm_num [minOver, minOf, pyDiv]

end HLC
