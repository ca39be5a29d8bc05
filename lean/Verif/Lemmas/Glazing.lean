import Verif.Spec.Glazing
import Verif.Lemmas.Except
import Mathlib.Algebra.BigOperators.Intervals
import Mathlib.Algebra.BigOperators.Field
import Mathlib.Tactic.LinearCombination
import Mathlib.Tactic.Positivity
import Mathlib.Tactic.Ring

/-!
# Lemmas about the heat network of glazing
-/

namespace HLC.Glass

open Spec Finset

section Chain

variable {N : ℕ} {r q : ℕ → ℝ} {te ti : ℝ} {th : Fin N → ℝ}

theorem wayIn_last : wayIn te ti th (N + 1) = ti := by simp [wayIn]

theorem wayIn_zero : wayIn te ti th 0 = te := by simp [wayIn]

theorem heatThrough_eq (H : HeatBalance r q te ti th) {k : ℕ} (hk : k ≤ N) :
    heatThrough r te ti th k = heatThrough r te ti th 0 + ∑ m ∈ range k, q m := by
  induction k with
  | zero => simp
  | succ k ih =>
    rw [sum_range_succ, ← H k (by omega), ih (by omega)]
    ring

theorem wayIn_eq (hr : ∀ k ≤ N, 0 < r k) {k : ℕ} (hk : k ≤ N + 1) :
    te - wayIn te ti th k = ∑ m ∈ range k, r m * heatThrough r te ti th m := by
  induction k with
  | zero => simp [wayIn_zero]
  | succ k ih =>
    rw [sum_range_succ, ← ih (by omega), heatThrough, mul_div_cancel₀ _ (hr k (by omega)).ne']
    ring

/-- Exchange of the order of summation. -/
theorem sum_exchange (r q : ℕ → ℝ) (K : ℕ) :
    ∑ k ∈ range (K + 1), r k * ∑ m ∈ range k, q m + ∑ m ∈ range K, q m * ∑ k ∈ range (m + 1), r k
      = (∑ m ∈ range K, q m) * ∑ k ∈ range (K + 1), r k := by
  induction K with
  | zero => simp
  | succ K ih =>
    rw [sum_range_succ (fun k => r k * ∑ m ∈ range k, q m), sum_range_succ (fun m => q m * ∑ k ∈ range (m + 1), r k) K,
      sum_range_succ r (K + 1), sum_range_succ q K]
    linear_combination ih

theorem outflow (hr : ∀ k ≤ N, 0 < r k) (H : HeatBalance r q te ti th) :
    heatThrough r te ti th 0 * ∑ k ∈ range (N + 1), r k = te - ti - ∑ k ∈ range (N + 1), r k * ∑ m ∈ range k, q m := by
  have h := wayIn_eq (te := te) (ti := ti) (th := th) hr le_rfl
  rw [wayIn_last] at h
  rw [h, ← sum_sub_distrib, mul_sum]
  refine sum_congr rfl fun k hk => ?_
  rw [heatThrough_eq (k := k) H (by have := mem_range.1 hk; omega)]
  ring

theorem res_sum_pos (hr : ∀ k ≤ N, 0 < r k) : 0 < ∑ k ∈ range (N + 1), r k :=
  sum_pos (fun k hk => hr k (by simpa [Nat.lt_succ_iff] using hk)) ⟨0, by simp⟩

theorem inflow (hr : ∀ k ≤ N, 0 < r k) (H : HeatBalance r q te ti th) :
    heatThrough r te ti th N = (te - ti) / ∑ k ∈ range (N + 1), r k
      + (∑ m ∈ range N, q m * ∑ k ∈ range (m + 1), r k) / ∑ k ∈ range (N + 1), r k := by
  have hR := res_sum_pos hr
  rw [← add_div, eq_div_iff hR.ne', heatThrough_eq H le_rfl, add_mul, outflow hr H]
  linear_combination -sum_exchange r q N

theorem balance_unique (hr : ∀ k ≤ N, 0 < r k) {th' : Fin N → ℝ} (H : HeatBalance r q te ti th) (H' : HeatBalance r q te ti th') : th = th' := by
  have hR := res_sum_pos hr
  have h0 : heatThrough r te ti th 0 = heatThrough r te ti th' 0 :=
    mul_right_cancel₀ hR.ne' ((outflow hr H).trans (outflow hr H').symm)
  funext k
  have e : ∀ th : Fin N → ℝ, wayIn te ti th (k + 1) = th k := fun th => by simp [wayIn]
  have h1 := wayIn_eq (te := te) (ti := ti) (th := th) hr (show (k : ℕ) + 1 ≤ N + 1 by omega)
  have h2 := wayIn_eq (te := te) (ti := ti) (th := th') hr (show (k : ℕ) + 1 ≤ N + 1 by omega)
  have h3 : ∑ m ∈ range (k + 1), r m * heatThrough r te ti th m = ∑ m ∈ range (k + 1), r m * heatThrough r te ti th' m :=
    sum_congr rfl fun m hm => by
      have hm : m ≤ N := by have := mem_range.1 hm; omega
      rw [heatThrough_eq H hm, heatThrough_eq H' hm, h0]
  rw [e] at h1 h2
  linarith

/-- The temperatures in balance. -/
noncomputable def chainTemp (N : ℕ) (r q : ℕ → ℝ) (te ti : ℝ) (k : ℕ) : ℝ :=
  te - ∑ m ∈ range k, r m * ((te - ti - ∑ k ∈ range (N + 1), r k * ∑ m ∈ range k, q m) / (∑ k ∈ range (N + 1), r k) + ∑ j ∈ range m, q j)

theorem balance_exists (hr : ∀ k ≤ N, 0 < r k) : HeatBalance r q te ti (fun k : Fin N => chainTemp N r q te ti (k + 1)) := by
  have hR := res_sum_pos hr
  have e : ∀ k ≤ N + 1, wayIn te ti (fun k : Fin N => chainTemp N r q te ti (k + 1)) k = chainTemp N r q te ti k := by
    intro k hk
    unfold wayIn
    split_ifs with h0 h1
    · simp [h0, chainTemp]
    · simp only []
      rw [Nat.sub_add_cancel (by omega)]
    · obtain rfl : k = N + 1 := by omega
      unfold chainTemp
      simp only [mul_add, sum_add_distrib, ← sum_mul]
      rw [mul_div_cancel₀ _ hR.ne']
      ring
  have e2 : ∀ k ≤ N, heatThrough r te ti (fun k : Fin N => chainTemp N r q te ti (k + 1)) k
      = (te - ti - ∑ k ∈ range (N + 1), r k * ∑ m ∈ range k, q m) / (∑ k ∈ range (N + 1), r k) + ∑ j ∈ range k, q j := by
    intro k hk
    unfold heatThrough
    rw [e k (by omega), e (k + 1) (by omega), div_eq_iff (hr k hk).ne']
    conv_lhs => unfold chainTemp
    rw [sum_range_succ _ k]
    ring
  intro k hk
  rw [e2 k (by omega), e2 (k + 1) (by omega), sum_range_succ q k]
  ring

/-- Without sun all surfaces are between the temperatures on the two sides; with sun no surface is colder than both. -/
theorem balance_min (hr : ∀ k ≤ N, 0 < r k) (H : HeatBalance r q te ti th) (hq : ∀ k < N, 0 ≤ q k) (k : Fin N) : min te ti ≤ th k := by
  have hmono : ∀ a b, a ≤ b → b ≤ N → heatThrough r te ti th a ≤ heatThrough r te ti th b := by
    intro a b hab hb
    induction b, hab using Nat.le_induction with
    | base => rfl
    | succ b hab ih => exact (ih (by omega)).trans (by rw [← H b (by omega)]; linarith [hq b (by omega)])
  have e : wayIn te ti th (k + 1) = th k := by simp [wayIn]
  rcases le_or_gt (heatThrough r te ti th k) 0 with h | h
  · have h1 := wayIn_eq (te := te) (ti := ti) (th := th) hr (show (k : ℕ) + 1 ≤ N + 1 by omega)
    have : ∑ m ∈ range (k + 1), r m * heatThrough r te ti th m ≤ 0 := by
      refine sum_nonpos fun m hm => ?_
      have hm : m ≤ k := by have := mem_range.1 hm; omega
      exact mul_nonpos_of_nonneg_of_nonpos (hr m (by omega)).le ((hmono m k hm (by omega)).trans h)
    rw [e] at h1
    exact (min_le_left _ _).trans (by linarith)
  · have h1 : ∀ b, (k : ℕ) + 1 ≤ b → b ≤ N + 1 → wayIn te ti th b ≤ th k := by
      intro b hb
      induction b, hb using Nat.le_induction with
      | base => intro _; rw [e]
      | succ b hb ih =>
        intro hb'
        refine le_trans ?_ (ih (by omega))
        have h2 : 0 < heatThrough r te ti th b := h.trans_le (hmono k b (by omega) (by omega))
        unfold heatThrough at h2
        have := (div_pos_iff_of_pos_right (hr b (by omega))).1 h2
        linarith
    have := h1 (N + 1) (by omega) le_rfl
    rw [wayIn_last] at this
    exact (min_le_right _ _).trans this

end Chain

section Network

theorem seq_fin {N : ℕ} (v : Fin N → ℝ) (i : Fin N) : seq v i = v i := by simp [seq]

theorem mulVec_eq {N : ℕ} (r : ℕ → ℝ) (th : Fin N → ℝ) (i : Fin N) :
    (flowMatrix N r).mulVec th i
      = (1 / r i + 1 / r (i + 1)) * th i - (if (i : ℕ) = 0 then 0 else seq th (i - 1) / r i) - seq th (i + 1) / r (i + 1) := by
  have hA : ∀ j, flowMatrix N r i j * th j = (if i = j then (1 / r i + 1 / r (i + 1)) * th i else 0)
      - (if (i : ℕ) = j + 1 then th j / r i else 0) - (if (j : ℕ) = i + 1 then th j / r (i + 1) else 0) := by
    intro j
    unfold flowMatrix
    by_cases h1 : i = j
    · subst h1
      rw [if_pos rfl, if_pos rfl, if_neg (by omega), if_neg (by omega)]
      ring
    · rw [if_neg h1, if_neg h1]
      by_cases h2 : (i : ℕ) = j + 1
      · rw [if_pos h2, if_pos h2, if_neg (by omega), h2]
        ring
      · rw [if_neg h2, if_neg h2]
        split_ifs <;> ring
  unfold Matrix.mulVec dotProduct
  simp only [hA, sum_sub_distrib]
  congr 1
  · congr 1
    · simp
    · split_ifs with h0
      · exact sum_eq_zero fun j _ => if_neg (by omega)
      · rw [sum_eq_single ⟨i - 1, by omega⟩]
        · rw [if_pos (by simp only []; omega), seq, dif_pos (by omega)]
        · intro j _ hj
          refine if_neg fun h => hj (Fin.ext ?_)
          simp only []
          omega
        · simp
  · by_cases h : (i : ℕ) + 1 < N
    · rw [sum_eq_single ⟨i + 1, h⟩]
      · rw [if_pos rfl, seq, dif_pos h]
      · intro j _ hj
        exact if_neg fun h => hj (Fin.ext h)
      · simp
    · rw [seq, dif_neg h, zero_div]
      exact sum_eq_zero fun j _ => if_neg (by omega)

theorem balance_iff {N : ℕ} (hN : 2 ≤ N) (r q : ℕ → ℝ) (te ti : ℝ) (th : Fin N → ℝ) :
    (∀ i, flowVector N r q te ti i - (flowMatrix N r).mulVec th i = 0) ↔ HeatBalance r q te ti th := by
  have key : ∀ i : Fin N, flowVector N r q te ti i - (flowMatrix N r).mulVec th i
      = heatThrough r te ti th i + q i - heatThrough r te ti th (i + 1) := by
    intro i
    rw [mulVec_eq]
    unfold flowVector heatThrough
    have e1 : wayIn te ti th (i + 1) = th i := by simp [wayIn]
    rw [e1]
    by_cases h0 : (i : ℕ) = 0
    · have e0 : wayIn te ti th i = te := by rw [h0, wayIn_zero]
      have e2 : wayIn te ti th (i + 1 + 1) = seq th (i + 1) := by
        unfold wayIn seq
        rw [if_neg (by omega), dif_pos (by omega), dif_pos (by omega)]
        rfl
      rw [e0, e2, if_pos h0, if_pos h0]
      ring
    · have e0 : wayIn te ti th i = seq th (i - 1) := by
        unfold wayIn seq
        rw [if_neg h0, dif_pos (by omega), dif_pos (by omega)]
      rw [e0, if_neg h0, if_neg h0]
      by_cases hl : (i : ℕ) = N - 1
      · have e2 : wayIn te ti th (i + 1 + 1) = ti := by
          unfold wayIn
          rw [if_neg (by omega), dif_neg (by omega)]
        have e3 : seq th (i + 1) = 0 := by unfold seq; rw [dif_neg (by omega)]
        rw [e2, e3, if_pos hl]
        ring
      · have e2 : wayIn te ti th (i + 1 + 1) = seq th (i + 1) := by
          unfold wayIn seq
          rw [if_neg (by omega), dif_pos (by omega), dif_pos (by omega)]
          rfl
        rw [e2, if_neg hl]
        ring
  constructor
  · intro h k hk
    have := h ⟨k, hk⟩
    rw [key] at this
    linarith
  · intro h i
    rw [key]
    linarith [h i i.2]

theorem halves_spec {n : ℕ} (ia : Fin (n + 1) → ℝ) : OnSurfaces ia (halves ia) := by
  intro j
  have h1 : 2 * (j : ℕ) / 2 = j := by omega
  have h2 : (2 * (j : ℕ) + 1) / 2 = j := by omega
  constructor
  · unfold halves
    rw [dif_pos (by omega)]
    simp only [h1]
  · unfold halves
    rw [dif_pos (by omega)]
    simp only [h2]

theorem sum_pairs (f : ℕ → ℝ) (K : ℕ) : ∑ m ∈ range (2 * K), f m = ∑ j ∈ range K, (f (2 * j) + f (2 * j + 1)) := by
  induction K with
  | zero => simp
  | succ K ih => rw [show 2 * (K + 1) = 2 * K + 1 + 1 by ring, sum_range_succ, sum_range_succ, ih, sum_range_succ]; ring

theorem onSurfaces_sum {n : ℕ} {ia : Fin (n + 1) → ℝ} {q : ℕ → ℝ} (h : OnSurfaces ia q) (w : ℕ → ℝ) :
    ∑ m ∈ range (2 * (n + 1)), q m * w m = ∑ j : Fin (n + 1), ia j * ((w (2 * j) + w (2 * j + 1)) / 2) := by
  rw [sum_pairs, ← Fin.sum_univ_eq_sum_range (fun j => q (2 * j) * w (2 * j) + q (2 * j + 1) * w (2 * j + 1))]
  refine Finset.sum_congr rfl fun j _ => ?_
  rw [(h j).1, (h j).2]
  ring

theorem rQin_eq (g : Glazing) (ia : Fin (g.n + 1) → ℝ) (reg : ℕ → ℝ) {q : ℕ → ℝ} (h : OnSurfaces ia q) :
    (∑ m ∈ range (2 * (g.n + 1)), q m * ∑ k ∈ range (m + 1), reg k) / ∑ k ∈ range (2 * (g.n + 1) + 1), reg k = g.rQin ia reg := by
  rw [onSurfaces_sum h, sum_div]
  unfold Glazing.rQin
  refine Finset.sum_congr rfl fun j _ => ?_
  rw [sum_range_succ _ (2 * (j : ℕ) + 1)]
  ring

end Network

end HLC.Glass
