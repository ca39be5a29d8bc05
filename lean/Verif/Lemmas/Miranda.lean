import Mathlib.Data.ZMod.Basic
import Mathlib.GroupTheory.Perm.Fin
import Mathlib.Algebra.BigOperators.Fin
import Mathlib.Algebra.CharP.Two
import Mathlib.Topology.Instances.Real.Lemmas
import Mathlib.Topology.Sequences
import Mathlib.Analysis.SpecificLimits.Basic
import Mathlib.Tactic.FieldSimp
import Mathlib.Tactic.Linarith
import Mathlib.Tactic.LinearCombination

/-!
# The theorem of Poincaré and Miranda

A continuous map from a box to `ℝⁿ` whose `i`-th component is not positive on the lower and not negative on the upper face in direction `i`
has a zero. Proof: on a grid, count modulo two the paths along the edges of a cell on which the `i`-th label changes in step `i`.
-/

namespace HLC.Miranda

open Finset

variable {n K : ℕ}

/-- The corner of cell `x` after `j` steps in the directions `π 0`, `π 1`, … -/
def corner (x : Fin n → Fin K) (p : Equiv.Perm (Fin n)) (j : ℕ) : Fin n → ℕ := fun c => x c + if (p.symm c : ℕ) < j then 1 else 0

/-- The number, modulo two, of the paths on which the label `i` changes in step `i`. -/
def count (K : ℕ) (a : Fin n → (Fin n → ℕ) → ZMod 2) : ZMod 2 :=
  ∑ p : Equiv.Perm (Fin n), ∑ x : Fin n → Fin K, ∏ i : Fin n, (a i (corner x p (i + 1)) + a i (corner x p i))

theorem corner_zero (x : Fin n → Fin K) (p : Equiv.Perm (Fin n)) : corner x p 0 = fun c => (x c : ℕ) := by
  funext c; simp [corner]

theorem corner_swap (x : Fin (n + 1) → Fin K) (p : Equiv.Perm (Fin (n + 1))) (m : Fin n) {j : ℕ} (hj : j ≠ m + 1) :
    corner x (p * Equiv.swap m.castSucc m.succ) j = corner x p j := by
  funext c
  have h : (p * Equiv.swap m.castSucc m.succ).symm c = Equiv.swap m.castSucc m.succ (p.symm c) := by
    rw [Equiv.symm_apply_eq]; simp
  unfold corner
  rw [h]
  congr 1
  have : (((Equiv.swap m.castSucc m.succ) (p.symm c) : Fin (n + 1)) : ℕ) < j ↔ ((p.symm c : Fin (n + 1)) : ℕ) < j := by
    rcases eq_or_ne (p.symm c) m.castSucc with e | e
    · rw [e, Equiv.swap_apply_left]; simp only [Fin.val_succ, Fin.val_castSucc]; omega
    · rcases eq_or_ne (p.symm c) m.succ with e' | e'
      · rw [e', Equiv.swap_apply_right]; simp only [Fin.val_succ, Fin.val_castSucc]; omega
      · rw [Equiv.swap_apply_of_ne_of_ne e e']
  simp only [this]

theorem sum_swap {f : Equiv.Perm (Fin (n + 1)) → ZMod 2} (m : Fin n) (h : ∀ p, f (p * Equiv.swap m.castSucc m.succ) = f p) :
    ∑ p, f p = 0 := by
  refine Finset.sum_involution (fun p _ => p * Equiv.swap m.castSucc m.succ) ?_ ?_ ?_ ?_
  · intro p _; rw [h]; exact CharTwo.add_self_eq_zero _
  · intro p _ _ e
    have := congrArg (fun q => p⁻¹ * q) e
    simp only [inv_mul_cancel_left, inv_mul_cancel] at this
    rw [Equiv.swap_eq_one_iff] at this
    exact absurd this (Fin.castSucc_lt_succ).ne
  · intro p _; exact mem_univ _
  · intro p _; rw [mul_assoc, Equiv.swap_mul_self, mul_one]

/-- Of the vertices `0 … n + 1` of a path the hybrid products compare first those up to `m`, then those from `m + 1`. -/
theorem sum_shift (a : Fin n → (Fin (n + 1) → ℕ) → ZMod 2) (x : Fin (n + 1) → Fin K) :
    ∑ p, ∏ i : Fin n, (a i (corner x p (i + 2)) + a i (corner x p (i + 1))) = ∑ p, ∏ i : Fin n, (a i (corner x p (i + 1)) + a i (corner x p i)) := by
  let H : ℕ → Equiv.Perm (Fin (n + 1)) → Fin n → ZMod 2 := fun m p i =>
    if (i : ℕ) < m then a i (corner x p (i + 1)) + a i (corner x p i) else a i (corner x p (i + 2)) + a i (corner x p (i + 1))
  have key : ∀ m ≤ n, ∑ p, ∏ i, H 0 p i = ∑ p, ∏ i, H m p i := by
    intro m
    induction m with
    | zero => intro _; rfl
    | succ m ih =>
      intro hm
      rw [ih (by omega)]
      have hm' : m < n := hm
      refine CharTwo.add_eq_zero.mp ?_
      rw [← Finset.sum_add_distrib]
      let k : Fin n := ⟨m, hm'⟩
      have hsplit : ∀ p, ∏ i, H m p i + ∏ i, H (m + 1) p i =
          (a k (corner x p (m + 2)) + a k (corner x p m)) * ∏ i ∈ univ.erase k, H m p i := by
        intro p
        rw [← Finset.mul_prod_erase univ (H m p) (mem_univ k), ← Finset.mul_prod_erase univ (H (m + 1) p) (mem_univ k)]
        have e : ∏ i ∈ univ.erase k, H (m + 1) p i = ∏ i ∈ univ.erase k, H m p i := by
          refine Finset.prod_congr rfl fun i hi => ?_
          have hne : (i : ℕ) ≠ m := fun h => (Finset.ne_of_mem_erase hi) (Fin.ext h)
          simp only [H]
          by_cases hlt : (i : ℕ) < m
          · rw [if_pos hlt, if_pos (by omega)]
          · rw [if_neg hlt, if_neg (by omega)]
        rw [e, ← add_mul]
        congr 1
        simp only [H, k, lt_irrefl, if_false, Nat.lt_succ_self, if_true]
        have := CharTwo.add_self_eq_zero (a k (corner x p (m + 1)))
        linear_combination this
      rw [Finset.sum_congr rfl fun p _ => hsplit p]
      refine sum_swap k fun p => ?_
      have c : ∀ {j : ℕ}, j ≠ m + 1 → corner x (p * Equiv.swap k.castSucc k.succ) j = corner x p j := fun hj => corner_swap x p k hj
      rw [c (by omega), c (by omega)]
      congr 1
      refine Finset.prod_congr rfl fun i hi => ?_
      have hne : (i : ℕ) ≠ m := fun h => (Finset.ne_of_mem_erase hi) (Fin.ext h)
      simp only [H]
      by_cases hlt : (i : ℕ) < m
      · rw [if_pos hlt, if_pos hlt, c (by omega), c (by omega)]
      · rw [if_neg hlt, if_neg hlt, c (by omega), c (by omega)]
  have := key n le_rfl
  simpa [H] using this

/-- The corner of a face orthogonal to the direction `π 0`, after `j` steps in the directions `π 1`, `π 2`, … -/
def side (y : Fin (n + 1) → ℕ) (p : Equiv.Perm (Fin (n + 1))) (j : ℕ) : Fin (n + 1) → ℕ :=
  fun c => y c + if 0 < (p.symm c : ℕ) ∧ (p.symm c : ℕ) ≤ j then 1 else 0

/-- The summand that a face contributes. -/
def face (a : Fin (n + 1) → (Fin (n + 1) → ℕ) → ZMod 2) (y : Fin (n + 1) → ℕ) (p : Equiv.Perm (Fin (n + 1))) : ZMod 2 :=
  a 0 y * ∏ i : Fin n, (a i.succ (side y p (i + 1)) + a i.succ (side y p i))

theorem side_up (x : Fin (n + 1) → Fin K) (p : Equiv.Perm (Fin (n + 1))) (j : ℕ) : side (corner x p 1) p j = corner x p (j + 1) := by
  funext c
  simp only [side, corner]
  by_cases h : (p.symm c : ℕ) = 0
  · simp [h]
  · by_cases h' : (p.symm c : ℕ) ≤ j
    · simp [h, h', Nat.pos_of_ne_zero h, Nat.lt_succ_of_le h']
    · have : ¬ (p.symm c : ℕ) < j + 1 := by omega
      simp [h, h', this]

theorem side_rotate (x : Fin (n + 1) → Fin K) (p : Equiv.Perm (Fin (n + 1))) {j : ℕ} (hj : j ≤ n) :
    side (fun c => (x c : ℕ)) (p * (finRotate (n + 1))⁻¹) j = corner x p j := by
  funext c
  have h : (p * (finRotate (n + 1))⁻¹).symm c = finRotate (n + 1) (p.symm c) := by
    rw [Equiv.symm_apply_eq]; simp
  simp only [side, corner, h]
  congr 1
  rcases eq_or_ne (p.symm c) (Fin.last n) with e | e
  · rw [e, finRotate_last]
    have : ¬ n < j := by omega
    simp [this]
  · rw [coe_finRotate_of_ne_last e]
    have : (0 < (p.symm c : ℕ) + 1 ∧ (p.symm c : ℕ) + 1 ≤ j) ↔ (p.symm c : ℕ) < j := by omega
    simp only [this]

theorem count_faces (a : Fin (n + 1) → (Fin (n + 1) → ℕ) → ZMod 2) :
    count K a = ∑ p, ∑ x : Fin (n + 1) → Fin K, (face a (corner x p 1) p + face a (fun c => (x c : ℕ)) p) := by
  unfold count
  rw [Finset.sum_comm, Finset.sum_comm (s := univ (α := Equiv.Perm (Fin (n + 1))))]
  refine Finset.sum_congr rfl fun x _ => ?_
  have h1 : ∀ p, ∏ i : Fin (n + 1), (a i (corner x p (i + 1)) + a i (corner x p i)) = face a (corner x p 1) p
      + a 0 (fun c => (x c : ℕ)) * ∏ i : Fin n, (a i.succ (corner x p (i + 2)) + a i.succ (corner x p (i + 1))) := by
    intro p
    rw [Fin.prod_univ_succ]
    simp only [face, side_up, Fin.val_zero, corner_zero, Fin.val_succ, zero_add, add_assoc, one_add_one_eq_two]
    ring
  have h2 : ∑ p, face a (fun c => (x c : ℕ)) p = ∑ p, a 0 (fun c => (x c : ℕ)) * ∏ i : Fin n, (a i.succ (corner x p (i + 1)) + a i.succ (corner x p i)) := by
    rw [← Equiv.sum_comp (Equiv.mulRight (finRotate (n + 1))⁻¹)]
    refine Finset.sum_congr rfl fun p _ => ?_
    simp only [face, Equiv.coe_mulRight]
    congr 1
    refine Finset.prod_congr rfl fun i _ => ?_
    rw [side_rotate x p (by omega), side_rotate x p (by omega)]
  rw [Finset.sum_congr rfl fun p _ => h1 p, Finset.sum_add_distrib, Finset.sum_add_distrib, h2]
  congr 1
  rw [← Finset.mul_sum, ← Finset.mul_sum, sum_shift (fun i => a i.succ) x]

theorem telescope (g : ℕ → ZMod 2) (K : ℕ) : ∑ t : Fin K, (g (t + 1) + g t) = g K + g 0 := by
  induction K with
  | zero => simp [CharTwo.add_self_eq_zero]
  | succ K ih =>
    rw [Fin.sum_univ_castSucc]
    simp only [Fin.val_castSucc, Fin.val_last, ih]
    have := CharTwo.add_self_eq_zero (g K)
    linear_combination this

/-- The point with coordinate `t` in direction `d` and the other coordinates `x`. -/
def put (d : Fin (n + 1)) (t : ℕ) (x : Fin n → Fin K) : Fin (n + 1) → ℕ := d.insertNth t (fun c => (x c : ℕ))

theorem sum_line (a : Fin (n + 1) → (Fin (n + 1) → ℕ) → ZMod 2) (p : Equiv.Perm (Fin (n + 1))) :
    ∑ x : Fin (n + 1) → Fin K, (face a (corner x p 1) p + face a (fun c => (x c : ℕ)) p)
      = ∑ x : Fin n → Fin K, (face a (put (p 0) K x) p + face a (put (p 0) 0 x) p) := by
  rw [← Equiv.sum_comp (Fin.insertNthEquiv (fun _ => Fin K) (p 0)), Fintype.sum_prod_type, Finset.sum_comm]
  refine Finset.sum_congr rfl fun x _ => ?_
  rw [← telescope (fun t => face a (put (p 0) t x) p) K]
  refine Finset.sum_congr rfl fun t _ => ?_
  have e1 : (fun c => ((Fin.insertNthEquiv (fun _ => Fin K) (p 0) (t, x) c : Fin K) : ℕ)) = put (p 0) t x := by
    funext c
    refine Fin.succAboveCases (p 0) ?_ (fun i => ?_) c
    · simp [put]
    · simp [put]
  have e2 : corner (Fin.insertNthEquiv (fun _ => Fin K) (p 0) (t, x)) p 1 = put (p 0) (t + 1) x := by
    funext c
    refine Fin.succAboveCases (p 0) ?_ (fun i => ?_) c
    · simp [corner, put]
    · have : (p.symm ((p 0).succAbove i) : ℕ) ≠ 0 := by
        intro h
        have h' : p.symm ((p 0).succAbove i) = 0 := Fin.ext h
        rw [Equiv.symm_apply_eq] at h'
        exact Fin.succAbove_ne _ _ h'
      simp [corner, put, this]
  rw [e1, e2]

/-- Along a face the coordinate in the direction orthogonal to it is constant. -/
theorem side_normal (y : Fin (n + 1) → ℕ) (p : Equiv.Perm (Fin (n + 1))) (j : ℕ) : side y p j (p 0) = y (p 0) := by
  simp [side]

theorem put_normal (d : Fin (n + 1)) (t : ℕ) (x : Fin n → Fin K) : put d t x d = t := by simp [put]

theorem put_le (d : Fin (n + 1)) {t : ℕ} (ht : t ≤ K) (p : Equiv.Perm (Fin (n + 1))) (hp : p 0 = d) (x : Fin n → Fin K) (j : ℕ) (c : Fin (n + 1)) :
    side (put d t x) p j c ≤ K := by
  refine Fin.succAboveCases d ?_ (fun i => ?_) c
  · subst hp; rw [side_normal, put_normal]; exact ht
  · have h : put d t x (d.succAbove i) = x i := by simp [put]
    simp only [side, h]
    have := (x i).isLt
    split <;> omega

/-- On a grid, if the label `i` is 0 on the lower and 1 on the upper face in direction `i`, the number of paths on which the label `i` changes in step `i` is odd. -/
theorem count_one : ∀ {n : ℕ} (a : Fin n → (Fin n → ℕ) → ZMod 2), (∀ i y, (∀ c, y c ≤ K) → y i = 0 → a i y = 0) →
    (∀ i y, (∀ c, y c ≤ K) → y i = K → a i y = 1) → count K a = 1
  | 0, a, _, _ => by simp [count]
  | n + 1, a, h0, h1 => by
    have zero_side : ∀ (p : Equiv.Perm (Fin (n + 1))) (t : ℕ) (x : Fin n → Fin K), t = 0 ∨ t = K → p 0 ≠ 0 → face a (put (p 0) t x) p = 0 := by
      intro p t x ht hp
      obtain ⟨i, hi⟩ := Fin.exists_succ_eq.mpr hp
      have htK : t ≤ K := by omega
      unfold face
      rw [Finset.prod_eq_zero (mem_univ i), mul_zero]
      have hc : ∀ j, a i.succ (side (put (p 0) t x) p j) = if t = 0 then 0 else 1 := by
        intro j
        have hn : side (put (p 0) t x) p j i.succ = t := by
          have := side_normal (put (p 0) t x) p j
          rw [put_normal] at this
          rw [hi]; exact this
        split
        · next h => exact h0 _ _ (put_le _ htK p rfl x j) (by omega)
        · next h => exact h1 _ _ (put_le _ htK p rfl x j) (by omega)
      rw [hc, hc]
      exact CharTwo.add_self_eq_zero _
    rw [count_faces, Finset.sum_congr rfl fun p _ => sum_line a p, ← Equiv.sum_comp Equiv.Perm.decomposeFin.symm, Fintype.sum_prod_type,
      Finset.sum_eq_single 0]
    · have step := count_one (n := n) (fun i z => a i.succ (Fin.cons K z))
        (fun i z hz e => h0 _ _ (fun c => by refine Fin.cases ?_ (fun c => ?_) c <;> simp [hz]) (by simpa using e))
        (fun i z hz e => h1 _ _ (fun c => by refine Fin.cases ?_ (fun c => ?_) c <;> simp [hz]) (by simpa using e))
      rw [← step]
      unfold count
      refine Finset.sum_congr rfl fun e _ => Finset.sum_congr rfl fun x _ => ?_
      have hp0 : Equiv.Perm.decomposeFin.symm ((0 : Fin (n + 1)), e) 0 = 0 := by simp
      have hinv : ∀ c : Fin n, (Equiv.Perm.decomposeFin.symm ((0 : Fin (n + 1)), e)).symm c.succ = (e.symm c).succ := by
        intro c
        rw [Equiv.symm_apply_eq]
        simp
      have hinv0 : (Equiv.Perm.decomposeFin.symm ((0 : Fin (n + 1)), e)).symm 0 = 0 := by
        rw [Equiv.symm_apply_eq, hp0]
      generalize Equiv.Perm.decomposeFin.symm ((0 : Fin (n + 1)), e) = p at hp0 hinv hinv0
      rw [hp0]
      have hz : face a (put 0 0 x) p = 0 := by
        unfold face
        rw [h0 0 (put 0 0 x) (fun c => by have := put_le 0 (Nat.zero_le K) p hp0 x 0 c; simp only [side] at this; omega) (put_normal _ _ _), zero_mul]
      have hk : a 0 (put 0 K x) = 1 :=
        h1 0 (put 0 K x) (fun c => by have := put_le 0 le_rfl p hp0 x 0 c; simp only [side] at this; omega) (put_normal _ _ _)
      rw [hz, add_zero]
      unfold face
      rw [hk, one_mul]
      have hs : ∀ j, side (put 0 K x) p j = Fin.cons K (corner x e j) := by
        intro j
        funext c
        refine Fin.cases ?_ (fun c => ?_) c
        · simp [side, hinv0, put]
        · simp only [side, hinv, put, corner, Fin.val_succ, Fin.cons_succ, Fin.insertNth_zero']
          simp only [Nat.succ_pos, true_and, Nat.succ_le_iff]
      refine Finset.prod_congr rfl fun i _ => ?_
      rw [hs, hs]
    · intro d _ hd
      refine Finset.sum_eq_zero fun e _ => Finset.sum_eq_zero fun x _ => ?_
      have hp0 : Equiv.Perm.decomposeFin.symm (d, e) 0 = d := by simp
      rw [zero_side _ K x (Or.inr rfl) (by rw [hp0]; exact hd), zero_side _ 0 x (Or.inl rfl) (by rw [hp0]; exact hd), add_zero]
    · intro h; exact absurd (mem_univ _) h

/-- Hence some cell has, for every label `i`, two corners that the label `i` tells apart. -/
theorem exists_cell (a : Fin n → (Fin n → ℕ) → ZMod 2) (h0 : ∀ i y, (∀ c, y c ≤ K) → y i = 0 → a i y = 0)
    (h1 : ∀ i y, (∀ c, y c ≤ K) → y i = K → a i y = 1) :
    ∃ x : Fin n → Fin K, ∀ i, ∃ y z : Fin n → ℕ, (∀ c, x c ≤ y c ∧ y c ≤ x c + 1) ∧ (∀ c, x c ≤ z c ∧ z c ≤ x c + 1) ∧ a i y = 0 ∧ a i z = 1 := by
  have h := count_one a h0 h1
  have hne : count K a ≠ 0 := by rw [h]; exact one_ne_zero
  obtain ⟨p, _, hp⟩ := Finset.exists_ne_zero_of_sum_ne_zero hne
  obtain ⟨x, _, hx⟩ := Finset.exists_ne_zero_of_sum_ne_zero hp
  refine ⟨x, fun i => ?_⟩
  have hi : a i (corner x p (i + 1)) + a i (corner x p i) ≠ 0 := fun e => hx (Finset.prod_eq_zero (mem_univ i) e)
  have hc : ∀ j c, (x c : ℕ) ≤ corner x p j c ∧ corner x p j c ≤ x c + 1 := by
    intro j c
    unfold corner
    split <;> omega
  have two : ∀ u v : ZMod 2, u + v ≠ 0 → (u = 0 ∧ v = 1) ∨ (u = 1 ∧ v = 0) := by decide
  rcases two _ _ hi with ⟨e, e'⟩ | ⟨e, e'⟩
  · exact ⟨_, _, hc _, hc _, e, e'⟩
  · exact ⟨_, _, hc _, hc _, e', e⟩

/-- The theorem of Poincaré and Miranda on the unit cube. -/
theorem zero_of_cube (f : Fin n → (Fin n → ℝ) → ℝ) (hc : ∀ i, ContinuousOn (f i) (Set.Icc 0 1)) (h0 : ∀ i, ∀ x ∈ Set.Icc (0 : Fin n → ℝ) 1, x i = 0 → f i x ≤ 0)
    (h1 : ∀ i, ∀ x ∈ Set.Icc (0 : Fin n → ℝ) 1, x i = 1 → 0 ≤ f i x) : ∃ x ∈ Set.Icc (0 : Fin n → ℝ) 1, ∀ i, f i x = 0 := by
  classical
  -- on the grid of mesh 1/K
  have grid : ∀ m : ℕ, ∃ w : Fin n → ℝ, w ∈ Set.Icc (0 : Fin n → ℝ) 1 ∧ ∀ i, ∃ y z : Fin n → ℝ, y ∈ Set.Icc (0 : Fin n → ℝ) 1 ∧ z ∈ Set.Icc (0 : Fin n → ℝ) 1
      ∧ (∀ c, |y c - w c| ≤ 1 / ((m : ℝ) + 1)) ∧ (∀ c, |z c - w c| ≤ 1 / ((m : ℝ) + 1)) ∧ f i y ≤ 0 ∧ 0 ≤ f i z := by
    intro m
    let K := m + 1
    have hK : (0 : ℝ) < K := by positivity
    let pt : (Fin n → ℕ) → Fin n → ℝ := fun y c => (y c : ℝ) / K
    have hpt : ∀ y, (∀ c, y c ≤ K) → pt y ∈ Set.Icc (0 : Fin n → ℝ) 1 := by
      intro y hy
      refine ⟨fun c => by simp only [pt, Pi.zero_apply]; positivity, fun c => ?_⟩
      simp only [pt, Pi.one_apply]
      rw [div_le_one hK]
      exact_mod_cast hy c
    let a : Fin n → (Fin n → ℕ) → ZMod 2 := fun i y => if y i = 0 then 0 else if y i = K then 1 else if 0 < f i (pt y) then 1 else 0
    obtain ⟨x, hx⟩ := exists_cell (K := K) a (fun i y _ e => by simp [a, e]) (fun i y _ e => by simp [a, e, K])
    have hxK : ∀ c, (x c : ℕ) + 1 ≤ K := fun c => (x c).isLt
    have near : ∀ y : Fin n → ℕ, (∀ c, x c ≤ y c ∧ y c ≤ x c + 1) → ∀ c, |pt y c - pt (fun c => (x c : ℕ)) c| ≤ 1 / ((m : ℝ) + 1) := by
      intro y hy c
      obtain ⟨l, u⟩ := hy c
      simp only [pt]
      rw [← sub_div, abs_div, abs_of_pos hK]
      have hKm : ((K : ℕ) : ℝ) = (m : ℝ) + 1 := by simp [K]
      rw [hKm]
      refine div_le_div_of_nonneg_right ?_ (by positivity)
      have l' : ((x c : ℕ) : ℝ) ≤ y c := by exact_mod_cast l
      have u' : (y c : ℝ) ≤ (x c : ℕ) + 1 := by exact_mod_cast u
      rw [abs_le]; constructor <;> linarith
    refine ⟨pt fun c => (x c : ℕ), hpt _ fun c => by have := hxK c; omega, fun i => ?_⟩
    obtain ⟨y, z, hy, hz, ey, ez⟩ := hx i
    have hyK : ∀ c, y c ≤ K := fun c => by have := hxK c; have := hy c; omega
    have hzK : ∀ c, z c ≤ K := fun c => by have := hxK c; have := hz c; omega
    refine ⟨pt y, pt z, hpt _ hyK, hpt _ hzK, near y hy, near z hz, ?_, ?_⟩
    · simp only [a] at ey
      by_cases e0 : y i = 0
      · exact h0 i _ (hpt _ hyK) (by simp [pt, e0])
      · rw [if_neg e0] at ey
        by_cases eK : y i = K
        · rw [if_pos eK] at ey; exact absurd ey one_ne_zero
        · rw [if_neg eK] at ey
          by_contra hpos
          rw [if_pos (not_le.mp hpos)] at ey; exact absurd ey one_ne_zero
    · simp only [a] at ez
      by_cases e0 : z i = 0
      · rw [if_pos e0] at ez; exact absurd ez.symm one_ne_zero
      · rw [if_neg e0] at ez
        by_cases eK : z i = K
        · exact h1 i _ (hpt _ hzK) (by simp only [pt, eK]; exact div_self hK.ne')
        · rw [if_neg eK] at ez
          by_cases hpos : 0 < f i (pt z)
          · exact hpos.le
          · rw [if_neg hpos] at ez; exact absurd ez.symm one_ne_zero
  choose w hw hyz using grid
  obtain ⟨v, hv, φ, hφ, hlim⟩ := (isCompact_Icc (a := (0 : Fin n → ℝ)) (b := 1)).tendsto_subseq hw
  refine ⟨v, hv, fun i => ?_⟩
  choose y z hy hz dy dz fy fz using fun m => hyz m i
  have small : Filter.Tendsto (fun m => 1 / ((φ m : ℝ) + 1)) Filter.atTop (nhds 0) :=
    (tendsto_one_div_add_atTop_nhds_zero_nat (𝕜 := ℝ)).comp hφ.tendsto_atTop
  have close : ∀ u : ℕ → Fin n → ℝ, (∀ m c, |u m c - w m c| ≤ 1 / ((m : ℝ) + 1)) → Filter.Tendsto (fun m => u (φ m)) Filter.atTop (nhds v) := by
    intro u hu
    rw [tendsto_pi_nhds] at hlim ⊢
    intro c
    have d : Filter.Tendsto (fun m => u (φ m) c - w (φ m) c) Filter.atTop (nhds 0) :=
      (tendsto_zero_iff_abs_tendsto_zero _).mpr (squeeze_zero (fun m => abs_nonneg _) (fun m => hu (φ m) c) small)
    have := d.add (hlim c)
    simpa using this
  have lim : ∀ u : ℕ → Fin n → ℝ, (∀ m, u m ∈ Set.Icc (0 : Fin n → ℝ) 1) → Filter.Tendsto (fun m => u (φ m)) Filter.atTop (nhds v) →
      Filter.Tendsto (fun m => f i (u (φ m))) Filter.atTop (nhds (f i v)) := by
    intro u hu ht
    exact ((hc i) v hv).tendsto.comp (tendsto_nhdsWithin_iff.mpr ⟨ht, Filter.Eventually.of_forall fun m => hu _⟩)
  refine le_antisymm ?_ ?_
  · exact le_of_tendsto (lim y hy (close y dy)) (Filter.Eventually.of_forall fun m => fy _)
  · exact ge_of_tendsto (lim z hz (close z dz)) (Filter.Eventually.of_forall fun m => fz _)

/-- The theorem of Poincaré and Miranda on a box with one corner at the origin. -/
theorem zero_of_box (b : Fin n → ℝ) (hb : ∀ i, 0 < b i) (f : Fin n → (Fin n → ℝ) → ℝ) (hc : ∀ i, ContinuousOn (f i) (Set.Icc 0 b))
    (h0 : ∀ i, ∀ x ∈ Set.Icc 0 b, x i = 0 → f i x ≤ 0) (h1 : ∀ i, ∀ x ∈ Set.Icc 0 b, x i = b i → 0 ≤ f i x) : ∃ x ∈ Set.Icc 0 b, ∀ i, f i x = 0 := by
  have maps : ∀ x ∈ Set.Icc (0 : Fin n → ℝ) 1, (fun c => b c * x c) ∈ Set.Icc 0 b := by
    intro x hx
    refine ⟨fun c => mul_nonneg (hb c).le (hx.1 c), fun c => ?_⟩
    have := mul_le_mul_of_nonneg_left (hx.2 c) (hb c).le
    simpa using this
  obtain ⟨x, hx, hz⟩ := zero_of_cube (fun i x => f i fun c => b c * x c)
    (fun i => (hc i).comp (Continuous.continuousOn (by fun_prop)) maps)
    (fun i x hx e => h0 i _ (maps x hx) (by simp [e])) (fun i x hx e => h1 i _ (maps x hx) (by simp [e]))
  exact ⟨_, maps x hx, hz⟩

/-- The same for coordinates numbered by any finite type. -/
theorem exists_zero {ι : Type*} [Fintype ι] (b : ι → ℝ) (hb : ∀ i, 0 < b i) (f : ι → (ι → ℝ) → ℝ) (hc : ∀ i, ContinuousOn (f i) (Set.Icc 0 b))
    (h0 : ∀ i, ∀ x ∈ Set.Icc 0 b, x i = 0 → f i x ≤ 0) (h1 : ∀ i, ∀ x ∈ Set.Icc 0 b, x i = b i → 0 ≤ f i x) : ∃ x ∈ Set.Icc 0 b, ∀ i, f i x = 0 := by
  let e := Fintype.equivFin ι
  have maps : ∀ x ∈ Set.Icc (0 : Fin (Fintype.card ι) → ℝ) (b ∘ e.symm), x ∘ e ∈ Set.Icc 0 b := by
    intro x hx
    refine ⟨fun c => hx.1 (e c), fun c => ?_⟩
    have := hx.2 (e c)
    simpa using this
  obtain ⟨x, hx, hz⟩ := zero_of_box (b ∘ e.symm) (fun i => hb _) (fun i x => f (e.symm i) (x ∘ e))
    (fun i => (hc _).comp (Continuous.continuousOn (by fun_prop)) maps)
    (fun i x hx h => h0 _ _ (maps x hx) (by simpa using h)) (fun i x hx h => h1 _ _ (maps x hx) (by simpa using h))
  exact ⟨_, maps x hx, fun i => by simpa using hz (e i)⟩

end HLC.Miranda
