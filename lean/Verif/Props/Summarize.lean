import Verif.Lemmas.Except
import Verif.Model.Summarize
import Verif.Spec.Summarize
import Mathlib.Tactic.Linarith
import Mathlib.Tactic.NormNum
import Mathlib.Tactic.Ring
import Mathlib.Algebra.BigOperators.Field

/-!
# Merging of building parts (C49)
-/

namespace HLC.Init
open HLC.Spec

theorem mergeable_iff (b1 b2 : Bs) : mergeable b1 b2 = true ↔ Alike 1e-5 b1 b2 := by
  unfold mergeable almostEqual
  constructor
  · intro h
    split_ifs at h with h1 h2 h3 h4 h5 h6 h7 h8 h9
    simp only [ne_eq, not_not, decide_eq_false_iff_not, not_and] at h1 h2 h3 h4 h5 h6 h7 h8 h9
    exact ⟨h1, h2, h3, h4, h5, h6, h7, h8, h9⟩
  · rintro ⟨h1, h2, h3, h4, h5, h6, h7, h8, h9⟩
    rw [if_neg (by simpa using h1), if_neg (by simpa using h2), if_neg (by simpa using h3), if_neg (by simpa using h4),
      if_neg (by simpa using h5), if_neg (by simpa using h6), if_neg (by simpa using h7), if_neg (by simpa using h8),
      if_neg (by simpa using h9)]

theorem _root_.HLC.Spec.Alike.symm {t : ℝ} {b1 b2 : Bs} (h : Alike t b1 b2) : Alike t b2 b1 where
  room := h.room.symm
  bType := h.bType.symm
  floor := h.floor.symm
  absorbed := h.absorbed.symm
  hI := by rw [abs_sub_comm]; exact h.hI
  sun := fun e => (h.sun (h.bType ▸ e)).symm
  hTd := fun e => by rw [abs_sub_comm]; exact h.hTd (h.bType ▸ e)
  direction := fun e s => by
    have e' : b1.bType.isExternal = true := h.bType ▸ e
    exact (h.direction e' ((h.sun e').trans s)).symm
  next := fun e => (h.next (h.bType.trans e)).symm

theorem _root_.HLC.Spec.Alike.trans {s t : ℝ} {b1 b2 b3 : Bs} (h : Alike s b1 b2) (h' : Alike t b2 b3) : Alike (s + t) b1 b3 where
  room := h.room.trans h'.room
  bType := h.bType.trans h'.bType
  floor := h.floor.trans h'.floor
  absorbed := h.absorbed.trans h'.absorbed
  hI := lt_of_le_of_lt (abs_sub_le _ b2.hI _) (add_lt_add h.hI h'.hI)
  sun := fun e => (h.sun e).trans (h'.sun (h.bType ▸ e))
  hTd := fun e => lt_of_le_of_lt (abs_sub_le _ b2.hTd _) (add_lt_add (h.hTd e) (h'.hTd (h.bType ▸ e)))
  direction := fun e s => (h.direction e s).trans (h'.direction (h.bType ▸ e) ((h.sun e).symm.trans s))
  next := fun e => (h.next e).trans (h'.next (h.bType ▸ e))

theorem _root_.HLC.Spec.Alike.refl {t : ℝ} (ht : 0 < t) (b : Bs) : Alike t b b :=
  ⟨rfl, rfl, rfl, rfl, by simpa using ht, fun _ => rfl, fun _ => by simpa using ht, fun _ _ => rfl, fun _ => rfl⟩

section
variable {n : ℕ}

theorem foldl_max (g : Fin n → ℤ) (L : List (Fin n)) (a : ℤ) :
    a ≤ L.foldl (fun m l => max m (g l)) a ∧ (∀ l ∈ L, g l ≤ L.foldl (fun m l => max m (g l)) a) ∧
    (L.foldl (fun m l => max m (g l)) a = a ∨ ∃ l ∈ L, L.foldl (fun m l => max m (g l)) a = g l) := by
  induction L generalizing a with
  | nil => exact ⟨le_rfl, by simp, Or.inl rfl⟩
  | cons x L ih =>
    obtain ⟨h1, h2, h3⟩ := ih (max a (g x))
    simp only [List.foldl_cons]
    refine ⟨le_trans (le_max_left _ _) h1, ?_, ?_⟩
    · intro l hl
      rcases List.mem_cons.1 hl with rfl | hl
      · exact le_trans (le_max_right _ _) h1
      · exact h2 l hl
    · rcases h3 with h3 | ⟨l, hl, h3⟩
      · rcases le_total a (g x) with h | h
        · exact Or.inr ⟨x, List.mem_cons_self, by rw [h3, max_eq_right h]⟩
        · exact Or.inl (by rw [h3, max_eq_left h])
      · exact Or.inr ⟨l, List.mem_cons_of_mem _ hl, h3⟩

theorem le_maxGroup (g : Fin n → ℤ) (l : Fin n) : g l ≤ maxGroup g := (foldl_max g _ _).2.1 l (List.mem_finRange l)

theorem neg_one_le_maxGroup (g : Fin n → ℤ) : -1 ≤ maxGroup g := (foldl_max g _ _).1

theorem maxGroup_attained (g : Fin n → ℤ) : maxGroup g = -1 ∨ ∃ l, maxGroup g = g l := by
  rcases (foldl_max g (List.finRange n) (-1)).2.2 with h | ⟨l, -, h⟩
  · exact Or.inl h
  · exact Or.inr ⟨l, h⟩

/-- What holds of the group numbers after any number of passes. -/
structure GroupInv (bss : Fin n → Bs) (g : Fin n → ℤ) : Prop where
  lower : ∀ l, -1 ≤ g l
  common : ∀ c, 0 ≤ c → (∃ l, g l = c) → ∃ r, ∀ l, g l = c → mergeable (bss r) (bss l) = true
  contiguous : ∀ l c, 0 ≤ c → c ≤ g l → ∃ l', g l' = c
  equal : ∀ l l', (∀ k, mergeable (bss k) (bss l) = mergeable (bss k) (bss l')) → g l = g l'

theorem groupStep_inv {bss : Fin n → Bs} {g : Fin n → ℤ} (h : GroupInv bss g) (k : Fin n) : GroupInv bss (groupStep bss g k) := by
  have hm := neg_one_le_maxGroup g
  have keep : ∀ l, 0 ≤ g l → groupStep bss g k l = g l := fun l hl => by
    unfold groupStep; rw [if_neg]; rintro ⟨a, -⟩; omega
  have cases' : ∀ l, (g l < 0 ∧ mergeable (bss k) (bss l) = true ∧ groupStep bss g k l = maxGroup g + 1) ∨ groupStep bss g k l = g l := by
    intro l
    by_cases c : g l < 0 ∧ mergeable (bss k) (bss l) = true
    · exact Or.inl ⟨c.1, c.2, if_pos c⟩
    · exact Or.inr (if_neg c)
  refine ⟨?_, ?_, ?_, ?_⟩
  · intro l
    rcases cases' l with ⟨-, -, e⟩ | e
    · rw [e]; omega
    · rw [e]; exact h.lower l
  · rintro c hc ⟨l0, hl0⟩
    by_cases hnew : c = maxGroup g + 1
    · refine ⟨k, fun l hl => ?_⟩
      rcases cases' l with ⟨-, a, -⟩ | e
      · exact a
      · have := le_maxGroup g l
        rw [e] at hl; omega
    · have old : ∀ l, groupStep bss g k l = c → g l = c := by
        intro l hl
        rcases cases' l with ⟨-, -, e⟩ | e
        · exact absurd (hl.symm.trans e) hnew
        · rw [← e, hl]
      obtain ⟨r, hr⟩ := h.common c hc ⟨l0, old l0 hl0⟩
      exact ⟨r, fun l hl => hr l (old l hl)⟩
  · intro l c hc hle
    rcases cases' l with ⟨-, -, e⟩ | e
    · by_cases hnew : c = maxGroup g + 1
      · exact ⟨l, by rw [e, hnew]⟩
      · have hle' : c ≤ maxGroup g := by rw [e] at hle; omega
        rcases maxGroup_attained g with hx | ⟨l1, hx⟩
        · omega
        · obtain ⟨l2, h2⟩ := h.contiguous l1 c hc (by omega)
          exact ⟨l2, by rw [keep l2 (by omega), h2]⟩
    · obtain ⟨l2, h2⟩ := h.contiguous l c hc (by omega)
      exact ⟨l2, by rw [keep l2 (by omega), h2]⟩
  · intro l l' hall
    have e := h.equal l l' hall
    unfold groupStep
    rw [e, hall k]

theorem groupFold_inv (bss : Fin n → Bs) (L : List (Fin n)) (g : Fin n → ℤ) (h : GroupInv bss g) :
    GroupInv bss (L.foldl (groupStep bss) g) ∧ (∀ k ∈ L, 0 ≤ L.foldl (groupStep bss) g k) ∧
    ∀ k, 0 ≤ g k → L.foldl (groupStep bss) g k = g k := by
  induction L generalizing g with
  | nil => exact ⟨h, by simp, fun _ _ => rfl⟩
  | cons x L ih =>
    obtain ⟨h1, h2, h3⟩ := ih _ (groupStep_inv h x)
    simp only [List.foldl_cons]
    have hkeep : ∀ k, 0 ≤ g k → groupStep bss g x k = g k := fun l hl => by
      unfold groupStep; rw [if_neg]; rintro ⟨a, -⟩; omega
    refine ⟨h1, ?_, ?_⟩
    · intro k hk
      rcases List.mem_cons.1 hk with rfl | hk
      · have : 0 ≤ groupStep bss g k k := by
          unfold groupStep
          by_cases c : g k < 0
          · rw [if_pos ⟨c, (mergeable_iff _ _).2 (Alike.refl (by norm_num) _)⟩]
            have := neg_one_le_maxGroup g; omega
          · rw [if_neg (fun a => c a.1)]; omega
        rw [h3 k this]; exact this
      · exact h2 k hk
    · intro k hk
      rw [h3 k (by rw [hkeep k hk]; exact hk), hkeep k hk]

theorem groupInv_init (bss : Fin n → Bs) : GroupInv bss fun _ => -1 where
  lower := fun _ => le_rfl
  common := fun c hc ⟨_, hl⟩ => by omega
  contiguous := fun _ c hc hl => by omega
  equal := fun _ _ _ => rfl

/-- **C49 (groups).** Every part gets exactly one group; the groups are numbered 0, 1, 2, … without gaps; two parts of one group agree in room,
type, floor, absorption, exposure to the sun, direction and next room, and their coefficients differ by less than 2e-5; two parts
that agree exactly are in one group. -/
theorem C49_groups_partial (bss : Fin n → Bs) :
    (∀ l, 0 ≤ groupIndices bss l) ∧
    (∀ l c, 0 ≤ c → c ≤ groupIndices bss l → ∃ l', groupIndices bss l' = c) ∧
    (∀ l l', groupIndices bss l = groupIndices bss l' → Alike 2e-5 (bss l) (bss l')) ∧
    (∀ l l', (∀ t > 0, Alike t (bss l) (bss l')) → groupIndices bss l = groupIndices bss l') := by
  obtain ⟨h1, h2, -⟩ := groupFold_inv bss (List.finRange n) _ (groupInv_init bss)
  refine ⟨fun l => h2 l (List.mem_finRange l), h1.contiguous, ?_, ?_⟩
  · intro l l' e
    obtain ⟨r, hr⟩ := h1.common _ (h2 l (List.mem_finRange l)) ⟨l, rfl⟩
    have a := (mergeable_iff _ _).1 (hr l rfl)
    have b := (mergeable_iff _ _).1 (hr l' e.symm)
    have := a.symm.trans b
    norm_num at this ⊢
    exact this
  · intro l l' hall
    apply h1.equal
    intro k
    rw [Bool.eq_iff_iff, mergeable_iff, mergeable_iff]
    have key : ∀ {l l'}, (∀ t > 0, Alike t (bss l) (bss l')) → Alike 1e-5 (bss k) (bss l) → Alike 1e-5 (bss k) (bss l') := by
      intro l l' hall h
      have h0 := hall 1 (by norm_num)
      have ehI : (bss l).hI = (bss l').hI := by
        by_contra c
        have := (hall |(bss l).hI - (bss l').hI| (abs_pos.2 (sub_ne_zero.2 c))).hI
        exact lt_irrefl _ this
      have ehTd : (bss l).bType.isExternal = true → (bss l).hTd = (bss l').hTd := by
        intro e
        by_contra c
        have := (hall |(bss l).hTd - (bss l').hTd| (abs_pos.2 (sub_ne_zero.2 c))).hTd e
        exact lt_irrefl _ this
      refine ⟨h.room.trans h0.room, h.bType.trans h0.bType, h.floor.trans h0.floor, h.absorbed.trans h0.absorbed, ehI ▸ h.hI,
        fun e => (h.sun e).trans (h0.sun (h.bType ▸ e)), fun e => ehTd (h.bType ▸ e) ▸ h.hTd e,
        fun e s => (h.direction e s).trans (h0.direction (h.bType ▸ e) ((h.sun e).symm.trans s)),
        fun e => (h.next e).trans (h0.next (h.bType ▸ e))⟩
    exact ⟨key hall, key fun t ht => (hall t ht).symm⟩

/-- The group numbers in use. -/
noncomputable def groups (bss : Fin n → Bs) : Finset ℤ := Finset.univ.image (groupIndices bss)

theorem sum_groups (bss : Fin n → Bs) (f : Fin n → ℝ) : ∑ c ∈ groups bss, ∑ l, (if groupIndices bss l = c then f l else 0) = ∑ l, f l := by
  rw [Finset.sum_comm]
  refine Finset.sum_congr rfl fun l _ => ?_
  rw [groups, Finset.sum_eq_single_of_mem (groupIndices bss l) (Finset.mem_image_of_mem _ (Finset.mem_univ l))]
  · rw [if_pos rfl]
  · intro c _ hc
    rw [if_neg (fun e => hc e.symm)]

/-- **C49 (totals).** Merging changes neither the total area, nor the total transmitted radiation, nor the area-weighted sum of the outdoor
temperatures. -/
theorem C49_totals (bss : Fin n → Bs) (t : ℕ) :
    ∑ c ∈ groups bss, groupArea bss c = ∑ l, (bss l).area ∧
    ∑ c ∈ groups bss, groupSolar bss c t = ∑ l, (bss l).qTrsSol.getD t 0 ∧
    ((∀ l, 0 < (bss l).area) →
      ∑ c ∈ groups bss, groupArea bss c * groupTemp bss c t = ∑ l, (bss l).area * (bss l).thetaOSol.getD t 0) := by
  refine ⟨sum_groups bss _, sum_groups bss _, fun ha => ?_⟩
  rw [← sum_groups bss]
  refine Finset.sum_congr rfl fun c hc => ?_
  obtain ⟨l0, -, hl0⟩ := Finset.mem_image.1 hc
  have hpos : 0 < groupArea bss c := by
    unfold groupArea
    refine lt_of_lt_of_le (?_ : 0 < if groupIndices bss l0 = c then (bss l0).area else 0)
      (Finset.single_le_sum (f := fun l => if groupIndices bss l = c then (bss l).area else 0)
        (fun l _ => by split_ifs; exacts [(ha l).le, le_rfl]) (Finset.mem_univ l0))
    rw [if_pos hl0]; exact ha l0
  unfold groupTemp
  rw [mul_div_cancel₀ _ hpos.ne']

end

/-- A part of an example list: an outer wall with surface coefficient `h`. -/
noncomputable def exPart (h : ℝ) : Bs where
  id := 0
  name := "wall"
  subName := ""
  room := 0
  bType := .generalPart
  area := 10
  hTd := 1
  nextRoomType := -1
  rear := none
  isFloor := false
  isSolarAbsorbed := false
  isSunStruck := some true
  direction := some "s"
  hI := h
  hC := 2.5
  thetaOSol := []
  qTrsSol := []

theorem exPart_mergeable (h h' : ℝ) : mergeable (exPart h) (exPart h') = true ↔ |h - h'| < 1e-5 := by
  rw [mergeable_iff]
  constructor
  · intro a; exact a.hI
  · intro a
    exact ⟨rfl, rfl, rfl, rfl, a, fun _ => rfl, fun _ => by simp [exPart]; norm_num, fun _ _ => rfl, fun _ => rfl⟩

/-- Three walls whose coefficients differ by 0.9e-5 from one to the next. -/
noncomputable def exParts : Fin 3 → Bs := ![exPart 9.000009, exPart 9, exPart 9.000018]

theorem exParts_groups : groupIndices exParts = fun _ => 0 := by
  have h00 : mergeable (exParts 0) (exParts 0) = true := (exPart_mergeable _ _).2 (by norm_num)
  have h01 : mergeable (exParts 0) (exParts 1) = true := (exPart_mergeable _ _).2 (by norm_num [abs_lt])
  have h02 : mergeable (exParts 0) (exParts 2) = true := (exPart_mergeable _ _).2 (by norm_num [abs_lt])
  have s0 : groupStep exParts (fun _ => -1) 0 = fun _ => 0 := by
    funext l
    have hm : maxGroup (fun _ : Fin 3 => (-1 : ℤ)) = -1 := by decide
    unfold groupStep
    rw [hm]
    fin_cases l <;> simp [h00, h01, h02]
  have s : ∀ k, groupStep exParts (fun _ => 0) k = fun _ => 0 := by
    intro k; funext l; unfold groupStep; simp
  unfold groupIndices
  rw [show List.finRange 3 = [0, 1, 2] by decide]
  simp only [List.foldl_cons, List.foldl_nil, s0, s]

/-- **C49 (violation).** Groups may contain parts that are not mergeable with each other: closeness is not transitive. -/
theorem C49_violated : ∃ (bss : Fin 3 → Bs) (l l' : Fin 3), groupIndices bss l = groupIndices bss l' ∧ mergeable (bss l) (bss l') = false := by
  refine ⟨exParts, 1, 2, by rw [exParts_groups], ?_⟩
  rw [Bool.eq_false_iff]
  intro h
  have := (exPart_mergeable _ _).1 h
  norm_num [abs_lt] at this

/-- **C49 (violation).** `integrate` returns for no list of parts but the empty one. Where the numbers of the parts behind are those of
parts in the list and all areas are positive, it is the missing attribute that stops it. -/
theorem C49_integrate_violated {n : ℕ} (bss : Fin n → Bs) :
    (0 < n → ∃ e, integrate bss = .error e) ∧ (n = 0 → integrate bss = .ok []) ∧
    (0 < n → (∀ l id, (bss l).rear = some id → 0 ≤ id ∧ id < n) → (∀ l, 0 < (bss l).area) → integrate bss = .error .attributeError) := by
  have hne : 0 < n → ∃ c cs, groupNumbers bss = c :: cs := by
    intro hn
    have h0 := (C49_groups_partial bss).1 ⟨0, hn⟩
    have h1 := le_maxGroup (groupIndices bss) ⟨0, hn⟩
    have h2 : (maxGroup (groupIndices bss) + 1).toNat ≠ 0 := by omega
    obtain ⟨m, hm⟩ := Nat.exists_eq_succ_of_ne_zero h2
    rw [groupNumbers, hm, List.range_succ_eq_map]
    exact ⟨_, _, rfl⟩
  refine ⟨fun hn => ?_, ?_, ?_⟩
  · obtain ⟨c, cs, hc⟩ := hne hn
    cases e : integrate bss with
    | error x => exact ⟨x, rfl⟩
    | ok r =>
      exfalso
      simp only [integrate, bind_ok_iff] at e
      obtain ⟨-, -, -, -, -, -, e⟩ := e
      rw [hc] at e
      cases e
  · rintro rfl
    rfl
  · intro hn hr ha
    obtain ⟨c, cs, hc⟩ := hne hn
    have hused : ∀ c ∈ groupNumbers bss, ∃ l, groupIndices bss l = c := by
      intro c hc
      simp only [groupNumbers, List.mem_map, List.mem_range] at hc
      obtain ⟨k, hk, rfl⟩ := hc
      rcases maxGroup_attained (groupIndices bss) with h | ⟨l, hl⟩
      · omega
      · exact (C49_groups_partial bss).2.1 l _ (by omega) (by omega)
    have hfirst : ∀ c ∈ groupNumbers bss, ∃ l, firstOf bss c = .ok l := by
      intro c hc
      obtain ⟨l, hl⟩ := hused c hc
      unfold firstOf
      cases e : (List.finRange n).find? fun l => decide (groupIndices bss l = c) with
      | some m => exact ⟨m, rfl⟩
      | none =>
        exfalso
        have := List.find?_eq_none.1 e l (List.mem_finRange l)
        simp [hl] at this
    have hrear : ∀ c ∈ groupNumbers bss, ∃ r, groupRear bss c = .ok r := by
      intro c hc
      obtain ⟨l, hl⟩ := hfirst c hc
      simp only [groupRear, hl]
      cases e : (bss l).rear with
      | none => exact ⟨none, by simp [bind, Except.bind, e, pure, Except.pure]⟩
      | some id =>
        have h := hr l id e
        exact ⟨some (groupIndices bss ⟨id.toNat, by omega⟩), by simp only [bind, Except.bind, e, groupOfId, dif_pos h, pure, Except.pure]⟩
    have hweights : ∀ c ∈ groupNumbers bss, ∃ r, groupWeights bss c = .ok r := by
      intro c hc
      obtain ⟨l, hl⟩ := hused c hc
      have hp : 0 < groupArea bss c := by
        unfold groupArea
        refine lt_of_lt_of_le (?_ : 0 < if groupIndices bss l = c then (bss l).area else 0)
          (Finset.single_le_sum (f := fun l => if groupIndices bss l = c then (bss l).area else 0)
            (fun l _ => by split_ifs; exacts [(ha l).le, le_rfl]) (Finset.mem_univ l))
        rw [if_pos hl]; exact ha l
      exact ⟨(), by rw [groupWeights, if_neg hp.ne']⟩
    obtain ⟨r1, e1⟩ := mapM_ok_of hfirst
    obtain ⟨r2, e2⟩ := mapM_ok_of hrear
    obtain ⟨r3, e3⟩ := mapM_ok_of hweights
    simp only [integrate, e1, e2, e3]
    rw [hc]
    rfl

/-- The example list meets the conditions of the last clause. -/
example : integrate exParts = .error .attributeError := by
  refine (C49_integrate_violated exParts).2.2 (by norm_num) (fun l id h => ?_) (fun l => ?_)
  · fin_cases l <;> simp [exParts, exPart] at h
  · fin_cases l <;> simp [exParts, exPart]

/-- The example list is one group of 30 m². -/
example : groupArea exParts 0 = 30 := by
  unfold groupArea
  rw [exParts_groups]
  simp [Fin.sum_univ_three, exParts, exPart]; norm_num

end HLC.Init
