import Verif.Lemmas.Run
import Verif.Lemmas.House
import Verif.Lemmas.ExampleHouse
import Verif.Props.Mode

/-!
# Whole runs (C24-C30, and C01, C21 for the whole program)
-/

namespace HLC

set_option linter.unusedSectionVars false

open Spec

section
variable {I J : Type} [Fintype I] [DecidableEq I] [Fintype J] [DecidableEq J] {N : ℕ}
variable {h : House I J} {hR : J → ℝ} {dt : ℝ} {data : Fin N → Record I J} {ss : PreCalc I J N} {n : ℤ} {k : Fin N}
  {c : Cond I J} {t : TickVars I J}

/-! ## C24 -/

theorem convolution_cons (r φ x : ℝ) (xs : List ℝ) :
    convolution r φ (x :: xs) = r ^ xs.length * (φ * x) + convolution r φ xs := by
  unfold convolution
  have e : ∀ (n : ℕ) (f : Fin (n + 1) → ℝ), ∑ k, f k = f 0 + ∑ k : Fin n, f k.succ := fun n f => Fin.sum_univ_succ f
  rw [show (∑ k : Fin (x :: xs).length, r ^ ((x :: xs).length - 1 - (k : ℕ)) * (φ * (x :: xs)[k]))
    = ∑ k : Fin (xs.length + 1), r ^ (xs.length + 1 - 1 - (k : ℕ)) * (φ * (x :: xs)[k]) from rfl, e]
  congr 1
  apply Finset.sum_congr rfl
  intro k _
  have : xs.length + 1 - 1 - ((k.succ : Fin (xs.length + 1)) : ℕ) = xs.length - 1 - (k : ℕ) := by simp; omega
  rw [this]
  rfl

theorem convolution_nil (r φ : ℝ) : convolution r φ [] = 0 := Fin.sum_univ_zero _

theorem length_starts (c : Cond I J) (ts : List (TickVars I J)) : (starts c ts).length = ts.length := by
  induction ts generalizing c with
  | nil => rfl
  | cons t ts ih => simp [starts, ih]

/-- **C24.** After any run the absorbed (transmitted) component of a wall is the convolution of the whole history of surface fluxes
(rear temperatures) with weight `phiA1` (`phiT1`) and common ratio `ratio`, plus the decayed initial value. The absorbed component
of a step sees the fluxes up to the previous step, the transmitted one the rear temperatures up to the same step. -/
theorem C24_convolution (Hp : makePreCalc h hR dt data = .ok ss) {ns : List ℤ} {ts : List (TickVars I J)} (H : Run ss dt c ns ts)
    (j : J) (m : Fin 12) :
    (after c ts).dshA j m = h.ratio j m ^ ts.length * c.dshA j m
      + convolution (h.ratio j m) (h.phiA1 j m) ((starts c ts).map fun s => s.qSrf j) ∧
    (after c ts).dshT j m = h.ratio j m ^ ts.length * c.dshT j m
      + convolution (h.ratio j m) (h.phiT1 j m) (ts.map fun t => t.thetaRear j) := by
  induction H with
  | nil c => constructor <;> simp [after, starts, convolution_nil]
  | cons h1 _ ih =>
    rename_i c n ns t ts _
    obtain ⟨ivs, k, -, hs, -, e⟩ := step_eqs Hp h1
    subst hs
    have e1 : t.next.dshA j m = h.phiA1 j m * c.qSrf j + h.ratio j m * c.dshA j m := by
      show t.dshA j m = _; rw [e.dshA]; rfl
    have e2 : t.next.dshT j m = t.thetaRear j * h.phiT1 j m + h.ratio j m * c.dshT j m := by
      show t.dshT j m = _; rw [e.dshT]; rfl
    obtain ⟨i1, i2⟩ := ih
    simp only [after, starts, List.map_cons, convolution_cons, List.length_cons, List.length_map, length_starts]
    rw [i1, i2, e1, e2]
    constructor <;> ring

/-- **C24**, the rear temperatures of the history: outdoor equivalent temperature of the same step and equivalent temperature of the
partner boundary at the beginning of the step. -/
theorem C24_rear_temperature (Hp : makePreCalc h hR dt data = .ok ss) (H : runTick n dt ss c = .ok t) (hk : pyIndex N n = .ok k)
    (j : J) : t.thetaRear j = rearTemp h (data k).thetaOSol c.thetaEi j := by
  obtain ⟨ivs, k', hi, hs, hk', e⟩ := step_eqs Hp H
  have : k' = k := Except.ok.inj (hk'.symm.trans hk)
  subst this
  subst hs
  rw [e.thetaRear]
  simp only [Tick.thetaRear, preCalcOf, House.thetaDstrb, rearTemp]
  rw [kEi_mulVec]
  cases h.kEi j <;> simp only [] <;> ring

/-- **C24 (hand-over between steps).** Of two consecutive steps the second one sees behind each boundary the outdoor equivalent temperature
of its own record and the partner's equivalent temperature of the first step, that is surface temperature plus flux over the surface
coefficient. -/
theorem C24_rear_from_previous_step {n' : ℤ} {k' : Fin N} {t' : TickVars I J} (Hp : makePreCalc h hR dt data = .ok ss)
    (H : runTick n dt ss c = .ok t) (H' : runTick n' dt ss t.next = .ok t') (hk' : pyIndex N n' = .ok k') (hh : ∀ j, h.hC j + hR j ≠ 0)
    (j : J) : t'.thetaRear j = rearTemp h (data k').thetaOSol (fun m => t.thetaS m + t.qSrf m / (h.hC m + hR m)) j := by
  rw [C24_rear_temperature Hp H' hk' j]
  obtain ⟨ivs, k1, hi, hs, hk1, e⟩ := step_eqs Hp H
  subst hs
  congr 1
  funext m
  have e2 : t.qSrf m = (t.thetaEi m - t.thetaS m) * (h.hC m + hR m) := by rw [e.qSrf]; rfl
  show t.thetaEi m = _
  rw [e2, mul_div_cancel_right₀ _ (hh m)]
  ring

/-! ## C28 -/

theorem pyIndex_neg {m : ℕ} (h0 : 0 < m) (h1 : m ≤ N) : pyIndex N (-(m : ℤ)) = .ok ⟨N - m, by omega⟩ := by
  unfold pyIndex
  rw [dif_neg (by omega), dif_pos ⟨by omega, by omega⟩]
  congr 1
  apply Fin.ext
  simp only []
  omega

theorem pyIndex_nonneg {m : ℕ} (h1 : m < N) : pyIndex N (m : ℤ) = .ok ⟨m, h1⟩ := by
  unfold pyIndex
  rw [dif_pos ⟨by omega, by omega⟩]
  rfl

theorem pyIndex_error (hn : n < -(N : ℤ) ∨ (N : ℤ) ≤ n) : pyIndex N n = .error .indexError := by
  unfold pyIndex
  rw [dif_neg (by omega), dif_neg (by omega)]

end

section
variable {I J : Type} [Fintype I] [DecidableEq I] [Fintype J] [DecidableEq J] {N N' : ℕ}
variable {h : House I J} {hR : J → ℝ} {dt : ℝ} {data : Fin N → Record I J} {ss : PreCalc I J N} {n : ℤ}
  {c : Cond I J} {data' : Fin N' → Record I J} {ss' : PreCalc I J N'} {n' : ℤ}

theorem tickAt_congr {k : Fin N} {k' : Fin N'} (hd : data k = data' k') (ivs : Matrix J J ℝ) :
    tickAt (preCalcOf h hR dt data ivs) dt k c = tickAt (preCalcOf h hR dt data' ivs) dt k' c := by
  have e : ∀ {M : ℕ} (d : Fin M → Record I J) (k : Fin M), tickAt (preCalcOf h hR dt d ivs) dt k c
      = tickAt (preCalcOf h hR dt (fun _ : Fin 1 => d k) ivs) dt 0 c := fun d k => rfl
  rw [e data k, e data' k', hd]

/-- **C28.** A step computes from the single record it reads: step `n` on one series and step `n'` on another give the same result
whenever the records read are equal, whatever else the series contain. -/
theorem C28_reads_one_record (Hp : makePreCalc h hR dt data = .ok ss) (Hp' : makePreCalc h hR dt data' = .ok ss') {k : Fin N}
    {k' : Fin N'} (hk : pyIndex N n = .ok k) (hk' : pyIndex N' n' = .ok k') (hd : data k = data' k') (c : Cond I J) :
    runTick n dt ss c = runTick n' dt ss' c := by
  obtain ⟨ivs, hi, hs⟩ := makePreCalc_ok Hp
  obtain ⟨ivs', hi', hs'⟩ := makePreCalc_ok Hp'
  have e : ivs = ivs' := Except.ok.inj (hi.symm.trans hi')
  subst e hs hs'
  unfold runTick
  simp only [bind, Except.bind, hk, hk']
  exact tickAt_congr hd ivs

/-- **C28.** Run-up step `-m` reads the record `m` before the end of the data, main step `m` record `m`, for the building and the
ground; a step outside the data is an IndexError. -/
theorem C28_records (ss : PreCalc I J N) (g : PreCalcGround N) (c : Cond I J) (gc : List GroundCell) (dt : ℝ) :
    (∀ m : ℕ, (h0 : 0 < m) → (hm : m ≤ N) →
      runTick (-(m : ℤ)) dt ss c = tickAt ss dt ⟨N - m, by omega⟩ c ∧
      runTick (-(m : ℤ)) dt ss c = runTick ((N - m : ℕ) : ℤ) dt ss c ∧
      groundTick g gc (-(m : ℤ)) = groundTick g gc ((N - m : ℕ) : ℤ)) ∧
    (∀ m : ℕ, (hm : m < N) → runTick (m : ℤ) dt ss c = tickAt ss dt ⟨m, hm⟩ c) ∧
    (∀ n : ℤ, n < -(N : ℤ) ∨ (N : ℤ) ≤ n → runTick n dt ss c = .error .indexError ∧ groundTick g gc n = .error .indexError) := by
  refine ⟨?_, ?_, ?_⟩
  · intro m h0 hm
    have e1 := pyIndex_neg h0 hm
    have e2 := pyIndex_nonneg (N := N) (m := N - m) (by omega)
    unfold runTick groundTick
    simp only [bind, Except.bind, e1, e2]
    exact ⟨trivial, trivial, trivial⟩
  · intro m hm
    have e2 := pyIndex_nonneg hm
    unfold runTick
    simp only [bind, Except.bind, e2]
  · intro n hn
    have e := pyIndex_error hn
    unfold runTick groundTick
    simp only [bind, Except.bind, e]
    exact ⟨trivial, trivial⟩

end

section
variable {I : Type} [Fintype I] [DecidableEq I] {m N : ℕ}

/-! ## C26 -/

theorem scatter_getElem? {α : Type} (L : List (Bool × α)) (vals : List α) (hl : (L.filter Prod.fst).length = vals.length) (i : ℕ)
    (hi : i < L.length) : (scatter L vals)[i]? =
      if L[i].1 then vals[((L.take i).filter Prod.fst).length]? else some L[i].2 := by
  induction L generalizing vals i with
  | nil => simp at hi
  | cons p L ih =>
    obtain ⟨b, a⟩ := p
    cases b with
    | true =>
      cases vals with
      | nil => simp at hl
      | cons v vs =>
        simp only [List.filter_cons_of_pos, List.length_cons, Nat.add_right_cancel_iff] at hl
        cases i with
        | zero => simp [scatter]
        | succ i =>
          simp only [List.length_cons, Nat.add_lt_add_iff_right] at hi
          simpa [scatter] using ih vs hl i hi
    | false =>
      have hl' : (L.filter Prod.fst).length = vals.length := by simpa using hl
      have es : scatter ((false, a) :: L) vals = a :: scatter L vals := by
        cases vals <;> rfl
      rw [es]
      cases i with
      | zero => simp
      | succ i =>
        simp only [List.length_cons, Nat.add_lt_add_iff_right] at hi
        simpa using ih vals hl' i hi

/-- Number of true entries of the mask before `j`. -/
def rank (mask : Fin m → Bool) (j : Fin m) : ℕ := (Finset.univ.filter fun l => l < j ∧ mask l = true).card

theorem filter_finRange_length (p : Fin m → Bool) : ((List.finRange m).filter p).length = (Finset.univ.filter fun l => p l = true).card := by
  rw [← List.toFinset_card_of_nodup ((List.nodup_finRange m).filter _)]
  congr 1
  ext l
  simp

theorem take_filter_length (mask : Fin m → Bool) (old : Fin m → α) (j : Fin m) :
    (((((List.finRange m).map fun l => (mask l, old l)).take j).filter Prod.fst)).length = rank mask j := by
  rw [← List.map_take, List.filter_map, List.length_map, rank, ← List.toFinset_card_of_nodup
    (((List.nodup_finRange m).sublist (List.take_sublist _ _)).filter _)]
  congr 1
  ext l
  simp only [List.mem_toFinset, List.mem_filter, Finset.mem_filter, Finset.mem_univ, true_and, Function.comp]
  have : l ∈ (List.finRange m).take j ↔ l < j := by
    rw [List.mem_iff_getElem]
    constructor
    · rintro ⟨i, hi, e⟩
      rw [List.length_take, List.length_finRange] at hi
      rw [List.getElem_take, List.getElem_finRange] at e
      rw [← e, Fin.lt_def]
      simp only [Fin.val_cast]
      omega
    · intro h
      refine ⟨l, ?_, ?_⟩
      · rw [List.length_take, List.length_finRange]; have := j.isLt; rw [Fin.lt_def] at h; omega
      · simp
  rw [this]

/-- Assigning as many rows as the mask has true entries: row `r` goes to the true entry with `r` true entries before it. -/
theorem maskAssign_exact {α : Type} (mask : Fin m → Bool) (old : Fin m → α) (vals : List α)
    (hl : vals.length = (Finset.univ.filter fun l => mask l = true).card) :
    ∃ new, maskAssign mask old vals = .ok new ∧ (∀ j, mask j = true → vals[rank mask j]? = some (new j)) ∧
      (∀ j, mask j = false → new j = old j) := by
  unfold maskAssign
  rw [filter_finRange_length]
  simp only [hl, if_true]
  have hlen : ((((List.finRange m).map fun l => (mask l, old l)).filter Prod.fst)).length = vals.length := by
    rw [List.filter_map, List.length_map, hl, ← filter_finRange_length]
    rfl
  have key : ∀ j : Fin m, (scatter ((List.finRange m).map fun l => (mask l, old l)) vals)[(j : ℕ)]?
      = if mask j then vals[rank mask j]? else some (old j) := by
    intro j
    rw [scatter_getElem? _ _ hlen j (by simp), take_filter_length]
    simp
  have hrank : ∀ j, mask j = true → rank mask j < vals.length := by
    intro j hj
    rw [hl, rank]
    apply Finset.card_lt_card
    rw [Finset.ssubset_iff_of_subset]
    · exact ⟨j, by simp [hj], by simp⟩
    · intro l hl; simp only [Finset.mem_filter, Finset.mem_univ, true_and] at hl ⊢; exact hl.2
  refine ⟨_, rfl, ?_, ?_⟩
  · intro j hj
    have := key j
    rw [hj] at this
    simp only [if_true] at this
    rw [List.getD_eq_getElem?_getD, this, List.getElem?_eq_getElem (hrank j hj)]
    rfl
  · intro j hj
    have := key j
    rw [hj] at this
    simp only [Bool.false_eq_true, if_false] at this
    rw [List.getD_eq_getElem?_getD, this]
    rfl

/-- **C26.** With one ground result per ground boundary, the hand-over succeeds; the ground boundary with `r` ground boundaries before
it receives the `r`-th result, all other boundaries keep their values and nothing else changes. -/
theorem C26_hand_over (isGround : Fin m → Bool) (c : Cond I (Fin m)) (gc : List GroundCell)
    (hl : gc.length = (Finset.univ.filter fun j => isGround j = true).card) :
    ∃ c', updateByGround isGround c gc = .ok c' ∧
      (∀ j, isGround j = true → gc[(Finset.univ.filter fun l => l < j ∧ isGround l = true).card]? = some ⟨c'.dshA j, c'.qSrf j⟩) ∧
      (∀ j, isGround j = false → c'.dshA j = c.dshA j ∧ c'.qSrf j = c.qSrf j) ∧
      c'.mode = c.mode ∧ c'.thetaR = c.thetaR ∧ c'.thetaMrt = c.thetaMrt ∧ c'.xR = c.xR ∧ c'.dshT = c.dshT ∧
      c'.thetaFrt = c.thetaFrt ∧ c'.xFrt = c.xFrt ∧ c'.thetaEi = c.thetaEi := by
  obtain ⟨a, ha, ha1, ha2⟩ := maskAssign_exact isGround c.dshA (gc.map GroundCell.dshA) (by rw [List.length_map, hl])
  obtain ⟨q, hq, hq1, hq2⟩ := maskAssign_exact isGround c.qSrf (gc.map GroundCell.qSrf) (by rw [List.length_map, hl])
  refine ⟨{ c with dshA := a, qSrf := q }, ?_, ?_, fun j hj => ⟨ha2 j hj, hq2 j hj⟩, rfl, rfl, rfl, rfl, rfl, rfl, rfl, rfl⟩
  · unfold updateByGround
    simp only [bind, Except.bind, ha, hq]
  · intro j hj
    have e1 := ha1 j hj
    have e2 := hq1 j hj
    rw [List.getElem?_map] at e1 e2
    show gc[rank isGround j]? = _
    cases hg : gc[rank isGround j]? with
    | none => rw [hg] at e1; cases e1
    | some g =>
      rw [hg] at e1 e2
      simp only [Option.map_some, Option.some.injEq] at e1 e2
      simp only [← e1, ← e2]

theorem maskAssign_error {α : Type} (mask : Fin m → Bool) (old : Fin m → α) (vals : List α)
    (hl : vals.length ≠ (Finset.univ.filter fun l => mask l = true).card) (h1 : vals.length ≠ 1) :
    maskAssign mask old vals = .error .valueError := by
  unfold maskAssign
  rw [filter_finRange_length]
  simp only []
  rw [if_neg hl]
  match vals, h1 with
  | [], _ => rfl
  | [_], h1 => exact absurd rfl h1
  | _ :: _ :: _, _ => rfl

/-- **C26.** A wrong number of ground results is a ValueError (a single result is broadcast by numpy to all ground boundaries). -/
theorem C26_wrong_number (isGround : Fin m → Bool) (c : Cond I (Fin m)) (gc : List GroundCell)
    (hl : gc.length ≠ (Finset.univ.filter fun j => isGround j = true).card) (h1 : gc.length ≠ 1) :
    updateByGround isGround c gc = .error .valueError := by
  unfold updateByGround
  rw [maskAssign_error _ _ _ (by simpa using hl) (by simpa using h1)]
  rfl

/-! ## C25 -/

theorem groundTick_ok {g : PreCalcGround N} {gc gc' : List GroundCell} {n : ℤ} (H : groundTick g gc n = .ok gc') :
    ∃ k, pyIndex N n = .ok k ∧ gc' = List.zipWith (fun w x => groundStep w (g.thetaO k) g.thetaOAve x) g.walls gc := by
  unfold groundTick at H
  simp only [bind, Except.bind] at H
  split at H
  · cases H
  rename_i k hk
  exact ⟨k, hk, (Except.ok.inj H).symm⟩

/-- **C25 (parameters).** The ground run-up works on exactly the ground boundaries of the house, in their order and with their own response
factors and coefficients, with the outdoor temperatures of the records and, behind the walls, the mean of all records. -/
theorem C25_parameters {I : Type} [Fintype I] [DecidableEq I] {m N : ℕ} {h : House I (Fin m)} {hR : Fin m → ℝ} {dt : ℝ}
    {data : Fin N → Record I (Fin m)} {ss : PreCalc I (Fin m) N} (Hp : makePreCalc h hR dt data = .ok ss) :
    (makePreCalcGround ss).walls = ((List.finRange m).filter h.isGround).map
      (fun j => { ratio := h.ratio j, phiA0 := h.phiA0 j, phiA1 := h.phiA1 j, hR := hR j, hC := h.hC j }) ∧
    (makePreCalcGround ss).nGrounds = (makePreCalcGround ss).walls.length ∧
    (∀ k, (makePreCalcGround ss).thetaO k = (data k).thetaO) ∧
    (makePreCalcGround ss).thetaOAve * N = ∑ k, (data k).thetaO := by
  unfold makePreCalc at Hp
  simp only [bind, Except.bind] at Hp
  split at Hp
  · cases Hp
  rw [← Except.ok.inj Hp]
  refine ⟨rfl, by simp [makePreCalcGround, maskSelect], fun k => rfl, ?_⟩
  by_cases hN : N = 0
  · subst hN; simp
  · show (∑ k, (data k).thetaO) / N * N = _
    rw [div_mul_cancel₀ _ (by exact_mod_cast hN)]

/-- **C25.** Every ground boundary `w` in every ground step: the surface temperature `θ` satisfies the wall equation with the annual
mean outdoor temperature behind the wall, the flux is the exchange with the outdoor air, and the components follow the recursion. -/
theorem C25_ground_wall {g : PreCalcGround N} {gc gc' : List GroundCell} {n : ℤ} {k : Fin N} (H : groundTick g gc n = .ok gc')
    (hk : pyIndex N n = .ok k) {p : ℕ} {w : GroundWall} {x x' : GroundCell} (hw : g.walls[p]? = some w) (hx : gc[p]? = some x)
    (hx' : gc'[p]? = some x') (hne : 1 + w.phiA0 * (w.hC + w.hR) ≠ 0) :
    (∀ m, x'.dshA m = w.phiA1 m * x.qSrf + w.ratio m * x.dshA m) ∧
    ∃! θ : ℝ, θ = w.phiA0 * x'.qSrf + (∑ m, x'.dshA m) + g.thetaOAve ∧ x'.qSrf = (w.hC + w.hR) * (g.thetaO k - θ) := by
  obtain ⟨k', hk', e⟩ := groundTick_ok H
  have : k' = k := Except.ok.inj (hk'.symm.trans hk)
  subst this
  rw [e, List.getElem?_zipWith, hw, hx] at hx'
  simp only [Option.some.injEq] at hx'
  subst hx'
  refine ⟨fun m => rfl, groundThetaS w (g.thetaO k') g.thetaOAve (groundDshA w x), ⟨?_, ?_⟩, ?_⟩
  · show groundThetaS w (g.thetaO k') g.thetaOAve (groundDshA w x) = w.phiA0 * ((w.hR + w.hC) * (g.thetaO k'
      - groundThetaS w (g.thetaO k') g.thetaOAve (groundDshA w x))) + (∑ m, groundDshA w x m) + g.thetaOAve
    have hne' : 1 + w.phiA0 * (w.hR + w.hC) ≠ 0 := by rw [add_comm w.hR]; exact hne
    have := div_mul_cancel₀ (w.phiA0 * (w.hR + w.hC) * g.thetaO k' + (∑ m, groundDshA w x m) + g.thetaOAve) hne'
    simp only [groundThetaS] at this ⊢
    linarith
  · simp only [groundStep]; ring
  · rintro θ ⟨h1, h2⟩
    rw [h2] at h1
    unfold groundThetaS
    rw [eq_div_iff (by rw [add_comm w.hR]; exact hne)]
    simp only [groundStep] at h1
    linarith

theorem groundTick_length {g : PreCalcGround N} {gc gc' : List GroundCell} {n : ℤ} (H : groundTick g gc n = .ok gc')
    (hl : gc.length = g.walls.length) : gc'.length = g.walls.length := by
  obtain ⟨k, -, e⟩ := groundTick_ok H
  rw [e, List.length_zipWith, hl, min_self]

theorem lastGround_length {g : PreCalcGround N} {gc : List GroundCell} {ns : List ℤ} {gs : List (List GroundCell)}
    (H : GroundRun g gc ns gs) (hl : gc.length = g.walls.length) : (lastGround gc gs).length = g.walls.length := by
  induction H with
  | nil gc => exact hl
  | cons h1 _ ih => exact ih (groundTick_length h1 hl)

/-- A ground state without heat flow. -/
def GroundAtRest (gc : List GroundCell) : Prop := ∀ x ∈ gc, x.qSrf = 0 ∧ ∀ m, x.dshA m = 0

/-- **C25.** With the outdoor temperature of every step equal to its annual mean, a ground at rest stays at rest for ever. -/
theorem C25_rest {g : PreCalcGround N} {gc : List GroundCell} {ns : List ℤ} {gs : List (List GroundCell)}
    (H : GroundRun g gc ns gs) (hc : ∀ k, g.thetaO k = g.thetaOAve) (hne : ∀ w ∈ g.walls, 1 + w.phiA0 * (w.hC + w.hR) ≠ 0)
    (h0 : GroundAtRest gc) : ∀ gc' ∈ gs, GroundAtRest gc' := by
  induction H with
  | nil gc => simp
  | cons h1 _ ih =>
    rename_i gc gc' n ns gs _
    obtain ⟨k, -, e⟩ := groundTick_ok h1
    have h1' : GroundAtRest gc' := by
      intro x' hx'
      rw [e] at hx'
      obtain ⟨p, hp, hx'⟩ := List.mem_iff_getElem.mp hx'
      rw [List.length_zipWith] at hp
      rw [List.getElem_zipWith] at hx'
      obtain ⟨q0, a0⟩ := h0 _ (List.getElem_mem (l := gc) (n := p) (by omega))
      have hw := hne _ (List.getElem_mem (l := g.walls) (n := p) (by omega))
      have hd : ∀ m, groundDshA g.walls[p] gc[p] m = 0 := fun m => by simp [groundDshA, q0, a0]
      subst hx'
      refine ⟨?_, hd⟩
      simp only [groundStep, groundThetaS, hd, hc, Finset.sum_const_zero, add_zero]
      have : (g.walls[p].phiA0 * (g.walls[p].hR + g.walls[p].hC) * g.thetaOAve + g.thetaOAve)
          / (1 + g.walls[p].phiA0 * (g.walls[p].hR + g.walls[p].hC)) = g.thetaOAve := by
        rw [div_eq_iff (by rw [add_comm g.walls[p].hR]; exact hw)]; ring
      rw [this]; ring
    intro x hx
    rcases List.mem_cons.mp hx with rfl | hx
    · exact h1'
    · exact ih h1' x hx

/-- The ground starts at rest. -/
theorem initialGround_rest (n : ℕ) : GroundAtRest (initialGround n) := by
  intro x hx
  rw [initialGround, List.mem_replicate] at hx
  rw [hx.2]
  exact ⟨rfl, fun _ => rfl⟩

/-! ## C27-C29, C01 and C21 for the whole program -/

variable {h : House I (Fin m)} {hR : Fin m → ℝ} {data : Fin N → Record I (Fin m)} {hourly dMain dRunUp dRunUpBuild : ℤ}
  {r : CalcResult I m N}

/-- **C27.** A completed calculation has executed ground steps, building run-up steps and main steps; put one after the other their
numbers are `-R, -R+1, …, M-1` where `R` and `M` are the run-up and main days times 24 times the steps per hour, and each part has its
days times 24 times the steps per hour. The state is passed from step to step, the building starting from the initial state updated
with the ground result. -/
theorem C27_steps (H : coreCalc h hR data hourly dMain dRunUp dRunUpBuild = .ok r) (h0 : 0 < hourly) (hB : 0 ≤ dRunUpBuild) :
    ∃ (ground building main : List ℤ) (gs : List (List GroundCell)) (c0 : Cond I (Fin m)) (up mn : List (TickVars I (Fin m))),
      ground ++ building ++ main = (List.range (dRunUp * 24 * hourly + dMain * 24 * hourly).toNat).map
        (fun k : ℕ => (k : ℤ) - dRunUp * 24 * hourly) ∧
      (ground.length : ℤ) = (dRunUp - dRunUpBuild) * 24 * hourly ∧ (building.length : ℤ) = dRunUpBuild * 24 * hourly ∧
      (main.length : ℤ) = dMain * 24 * hourly ∧
      GroundRun (makePreCalcGround r.ss) (initialGround (makePreCalcGround r.ss).nGrounds) ground gs ∧
      updateByGround r.ss.isGround (initialConditions I (Fin m))
        (lastGround (initialGround (makePreCalcGround r.ss).nGrounds) gs) = .ok c0 ∧
      Run r.ss (3600 / (hourly : ℝ)) c0 (building ++ main) (up ++ mn) ∧ up.length = building.length ∧
      r.final = after c0 (up ++ mn) := by
  obtain ⟨gs, c0, up, mn, T⟩ := coreCalc_ok H
  have hR1 := T.days
  have hm : 0 ≤ dMain * hourly * 24 := by have := T.nMain_nonneg; rwa [T.nMain_eq] at this
  have hb : 0 ≤ dRunUpBuild * hourly * 24 := by positivity
  have hr : dRunUpBuild * hourly * 24 ≤ dRunUp * hourly * 24 := by
    have := mul_le_mul_of_nonneg_right hR1 h0.le
    linarith
  have e1 : ∀ d : ℤ, d * hourly * 24 = d * 24 * hourly := fun d => by ring
  have e2 : (dRunUp - dRunUpBuild) * 24 * hourly = dRunUp * 24 * hourly - dRunUpBuild * 24 * hourly := by ring
  simp only [e1] at hm hb hr
  have hg := T.ground
  have hu := T.runUp
  have hn := T.main
  have hst := T.start
  rw [T.ground_last] at hst
  simp only [e1] at hg hu hn
  refine ⟨_, _, _, gs, c0, up, mn, ?_, ?_, ?_, ?_, hg, hst, hu.append hn, hu.length_eq, T.final⟩
  · rw [pyRange_append (by omega) (by omega), pyRange_append (by omega) (by omega)]
    unfold pyRange
    have : (dMain * 24 * hourly - -(dRunUp * 24 * hourly)).toNat = (dRunUp * 24 * hourly + dMain * 24 * hourly).toNat := by
      congr 1; ring
    rw [this]
    apply List.map_congr_left
    intro k _
    ring
  · rw [pyRange_length, e2]; omega
  · rw [pyRange_length]; omega
  · rw [pyRange_length]; omega

/-- **C27.** Fewer run-up days than building run-up days is a ValueError. -/
theorem C27_value_error (hd : dRunUp < dRunUpBuild) :
    coreCalc h hR data hourly dMain dRunUp dRunUpBuild = .error .valueError := by
  unfold coreCalc getNStep
  rw [if_pos hd]
  rfl

/-- **C28.** A run-up longer than the data is an IndexError. -/
theorem C28_run_up_too_long {ss : PreCalc I (Fin m) N} (Hp : makePreCalc h hR (3600 / (hourly : ℝ)) data = .ok ss) (h0 : 0 < hourly)
    (hM : 0 ≤ dMain) (hd : dRunUpBuild ≤ dRunUp) (hN : (N : ℤ) < dRunUp * hourly * 24) :
    coreCalc h hR data hourly dMain dRunUp dRunUpBuild = .error .indexError := by
  have hMn : ¬ (nStepMain hourly dMain < 0) := by unfold nStepMain; have : 0 ≤ dMain * hourly * 24 := by positivity
                                                  omega
  unfold coreCalc getNStep deltaT
  simp only [bind, Except.bind, not_lt.mpr hd, if_false, if_neg h0.ne', Hp, nStepRunUp, nStepRunUpBuild, newLogger, if_neg hMn]
  have herr := pyIndex_error (N := N) (n := -(dRunUp * hourly * 24)) (Or.inl (by omega))
  have hcons : ∀ a b : ℤ, a < b → pyRange a b = a :: pyRange (a + 1) b := by
    intro a b hab
    rw [← pyRange_append (show a ≤ a + 1 by omega) (show a + 1 ≤ b by omega)]
    have : pyRange a (a + 1) = [a] := by simp [pyRange]
    rw [this]; rfl
  rcases lt_or_eq_of_le hd with hlt | heq
  · have hlt' : dRunUpBuild * hourly * 24 < dRunUp * hourly * 24 := by
      have := mul_lt_mul_of_pos_right hlt h0
      linarith
    rw [hcons _ _ (by omega), List.foldlM_cons]
    simp only [groundTick, bind, Except.bind, herr]
  · subst heq
    have e0 : pyRange (-(dRunUpBuild * hourly * 24)) (-(dRunUpBuild * hourly * 24)) = [] := by simp [pyRange]
    rw [e0]
    simp only [List.foldlM_nil, pure, Except.pure]
    obtain ⟨c0, hc0, -⟩ := C26_hand_over ss.isGround (initialConditions I (Fin m)) (initialGround (makePreCalcGround ss).nGrounds)
      (by rw [← filter_finRange_length]; simp [initialGround, makePreCalcGround])
    simp only [hc0]
    rw [hcons _ _ (by omega), List.foldlM_cons]
    simp only [runTickLogged, runTick, bind, Except.bind, herr]

/-- **C29.** Run-up steps leave the logger untouched. -/
theorem C29_run_up_untouched {M : ℕ} {dt : ℝ} {ss : PreCalc I (Fin m) N} {n : ℤ} {c c' : Cond I (Fin m)}
    {log log' : Logger I (Fin m) M} (H : runTickLogged n dt ss c log true = .ok (c', log')) : log' = log :=
  (runTickLogged_ok H).choose_spec.2.2.1 rfl

theorem rowOf_ofTick (t : TickVars I (Fin m)) : RowOf t (LogRow.ofTick t) :=
  ⟨fun _ => rfl, rfl, rfl, rfl, rfl, rfl, rfl, rfl, rfl, rfl, rfl, rfl, rfl, rfl, fun _ => rfl, fun _ => rfl, rfl, rfl, rfl, rfl⟩

/-- **C29.** A main step writes its own column and no other. -/
theorem C29_main_step {M : ℕ} {dt : ℝ} {ss : PreCalc I (Fin m) N} {n : ℕ} {c c' : Cond I (Fin m)} {log log' : Logger I (Fin m) M}
    (H : runTickLogged n dt ss c log false = .ok (c', log')) : ∃ (t : TickVars I (Fin m)) (hn : n < M), runTick n dt ss c = .ok t ∧
      c' = t.next ∧ RowOf t (log' ⟨n, hn⟩) ∧ ∀ k, k ≠ ⟨n, hn⟩ → log' k = log k := by
  obtain ⟨t, h1, h2, -, h3⟩ := runTickLogged_ok H
  obtain ⟨k, hk, h4⟩ := h3 rfl
  have hn : n < M := by
    by_contra hc
    rw [pyIndex_error (Or.inr (by omega))] at hk
    cases hk
  rw [pyIndex_nonneg hn] at hk
  have ek := Except.ok.inj hk
  subst ek
  simp only at h4
  refine ⟨t, hn, h1, h2, ?_, ?_⟩
  · rw [h4, Function.update_self]; exact rowOf_ofTick t
  · intro k hk; rw [h4, Function.update_of_ne hk]

/-- **C29.** After the calculation the log has one column per main step, and column `n` holds the values computed by main step `n`,
where the main steps `0, 1, …` are executed one after the other from the state at the end of the run-up. -/
theorem C29_logged (H : coreCalc h hR data hourly dMain dRunUp dRunUpBuild = .ok r) :
    r.nMain = dMain * 24 * hourly ∧
    ∃ (c1 : Cond I (Fin m)) (mn : List (TickVars I (Fin m))) (hl : mn.length = r.nMain.toNat),
      Run r.ss (3600 / (hourly : ℝ)) c1 ((List.range r.nMain.toNat).map fun k : ℕ => (k : ℤ)) mn ∧
      ∀ k : Fin r.nMain.toNat, RowOf (mn[(k : ℕ)]'(by have := k.isLt; omega)) (r.log k) := by
  obtain ⟨gs, c0, up, mn, T⟩ := coreCalc_ok H
  refine ⟨by rw [T.nMain_eq]; ring, after c0 up, mn, T.mn_length, ?_, ?_⟩
  · have := T.main
    unfold pyRange at this
    rw [T.nMain_eq]
    simpa using this
  · intro k
    rw [T.logged k (by have := T.mn_length; have := k.isLt; omega)]
    exact rowOf_ofTick _

end

end HLC
