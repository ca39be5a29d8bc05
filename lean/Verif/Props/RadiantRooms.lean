import Verif.Props.Program

/-!
# C21 for several rooms with radiative systems
-/

namespace HLC

set_option linter.unusedSectionVars false

variable {I J : Type} [Fintype I] [DecidableEq I] [Fintype J] [DecidableEq J] {N : ℕ}

open Spec

variable {h : House I J} {hR : J → ℝ} {dt : ℝ} {data : Fin N → Record I J} {ss : PreCalc I J N} {n : ℤ} {k : Fin N}
  {c : Cond I J} {t : TickVars I J}

/-- Each room has one unknown: its temperature, its convective load or its radiant load. -/
def OneUnknown (nt c r : I → Bool) : Prop := ∀ i, (nt i = true ∧ c i = false ∧ r i = false) ∨
  (nt i = false ∧ c i = true ∧ r i = false) ∨ (nt i = false ∧ c i = false ∧ r i = true)

/-- The system of the load calculation is non-singular if no loads alone can keep the rooms in charge at zero. -/
theorem loadX1_det_of {A X M L K : Matrix I I ℝ} (hMX : M * X = 1) {nt c r : I → Bool} (hone : OneUnknown nt c r)
    (hker : ∀ θ u z y : I → ℝ, A.mulVec θ = z + L.mulVec y → M.mulVec θ = u - K.mulVec y → (∀ i, nt i = false → u i = 0) →
      (∀ i, c i = false → z i = 0) → (∀ i, r i = false → y i = 0) → θ = 0 ∧ y = 0) :
    (loadX1 (A * X) 1 (L + A * (X * K)) nt c r).det ≠ 0 := by
  intro hdet
  obtain ⟨v, hv, h0⟩ := Matrix.exists_mulVec_eq_zero_iff.mpr hdet
  apply hv
  set u : I → ℝ := fun i => ind (nt i) * v i with hu
  set z : I → ℝ := fun i => ind (c i) * v i with hz
  set y : I → ℝ := fun i => ind (r i) * v i with hy
  have e1 : (A * X).mulVec u = z + (L + A * (X * K)).mulVec y := by
    funext i
    have := congrFun h0 i
    simp only [loadX1, Matrix.mulVec, dotProduct, Matrix.of_apply, Pi.zero_apply, sub_mul, Finset.sum_sub_distrib,
      Matrix.one_apply, ite_mul, one_mul, zero_mul, Finset.sum_ite_eq, Finset.mem_univ, if_true] at this
    simp only [Matrix.mulVec, dotProduct, hu, hz, hy, Pi.add_apply]
    have a1 : ∑ x, (A * X) i x * (ind (nt x) * v x) = ∑ x, (A * X) i x * ind (nt x) * v x :=
      Finset.sum_congr rfl fun x _ => by ring
    have a2 : ∑ x, (L + A * (X * K)) i x * (ind (r x) * v x) = ∑ x, (L + A * (X * K)) i x * ind (r x) * v x :=
      Finset.sum_congr rfl fun x _ => by ring
    rw [a1, a2]
    linarith
  have e2 : A.mulVec (X.mulVec (u - K.mulVec y)) = z + L.mulVec y := by
    rw [Matrix.mulVec_sub, Matrix.mulVec_sub, Matrix.mulVec_mulVec, e1, Matrix.add_mulVec, ← Matrix.mulVec_mulVec,
      ← Matrix.mulVec_mulVec]
    abel
  have e3 : M.mulVec (X.mulVec (u - K.mulVec y)) = u - K.mulVec y := by rw [Matrix.mulVec_mulVec, hMX, Matrix.one_mulVec]
  obtain ⟨hθ, hy0⟩ := hker _ u z y e2 e3 (fun i hi => by simp [hu, hi]) (fun i hi => by simp [hz, hi]) (fun i hi => by simp [hy, hi])
  rw [hθ, hy0, Matrix.mulVec_zero, Matrix.mulVec_zero] at e2 e3
  funext i
  have h2 := congrFun e2 i
  have h3 := congrFun e3 i
  have h4 := congrFun hy0 i
  simp only [hu, hz, hy, Pi.zero_apply, Pi.add_apply, Pi.sub_apply] at h2 h3 h4
  rcases hone i with ⟨a, b, d⟩ | ⟨a, b, d⟩ | ⟨a, b, d⟩ <;> rw [a] at h3 <;> rw [b] at h2 <;> rw [d] at h4 <;>
    simp only [ind_true, ind_false, one_mul, zero_mul, Pi.zero_apply] at h2 h3 h4 ⊢ <;> linarith

theorem masks_first (a : LoadInput I) (nat : I → ℝ) : OneUnknown (a.nt nat) (a.c0 nat) (a.r0 nat) := by
  intro i
  have hex : ¬ (a.isCooling nat i = true ∧ a.isHeating nat i = true) := fun hh =>
    not_heated_of_cooled (isCooling_iff.mp hh.1) (isHeating_iff.mp hh.2)
  unfold LoadInput.nt LoadInput.c0 LoadInput.r0
  cases hc1 : a.isCooling nat i <;> cases hc2 : a.isHeating nat i <;> cases a.isRadCooling i <;>
    cases a.isRadHeating i <;> simp_all

theorem masks_second {a : LoadInput I} {nat : I → ℝ} {p1 : LoadTemp I} (hcap : CapsNonneg a)
    (hp1 : getLoadAndTemp a.brm 1 a.brl a.brc (a.nt nat) (a.thetaSet nat) (a.c0 nat) (fun _ => 0) (a.r0 nat) (fun _ => 0) = .ok p1) :
    OneUnknown (a.nt nat) (a.c1 nat p1.lr) (a.r1 nat p1.lr) := by
  intro i
  have hlr := (getLoadAndTemp_fixed hp1 i).2.2
  rcases masks_first a nat i with ⟨h1, h2, h3⟩ | ⟨h1, h2, h3⟩ | ⟨h1, h2, h3⟩
  · have := not_limited hcap (hlr h3)
    left
    unfold LoadInput.c1 LoadInput.r1
    rw [this.1, this.2]
    exact ⟨h1, h2, h3⟩
  · have := not_limited hcap (hlr h3)
    right; left
    unfold LoadInput.c1 LoadInput.r1
    rw [this.1, this.2]
    exact ⟨h1, h2, h3⟩
  · right
    unfold LoadInput.c1 LoadInput.r1
    rw [h1, h2, h3]
    cases a.underLr p1.lr i <;> cases a.overLr p1.lr i <;> simp

/-- Only rooms with a radiative system have their radiant load as the unknown, in either pass. -/
theorem radiant_unknown {a : LoadInput I} {nat : I → ℝ} {lr : I → ℝ} {i : I} (hi : a.r0 nat i = true ∨ a.r1 nat lr i = true) :
    (a.isRadHeating i = true ∨ a.isRadCooling i = true) ∧ (a.isHeating nat i = true ∨ a.isCooling nat i = true) := by
  have h0 : a.r0 nat i = true := by
    rcases hi with hi | hi
    · exact hi
    · revert hi
      unfold LoadInput.r1
      cases a.underLr lr i <;> cases a.overLr lr i <;> simp
  revert h0
  unfold LoadInput.r0
  cases a.isCooling nat i <;> cases a.isHeating nat i <;> cases a.isRadCooling i <;> cases a.isRadHeating i <;> simp

/-- Radiant heat given off in a room warms surfaces of this room only in the same step: what lies behind a part is outdoors, a
surface of the same room, or hidden behind a part that does not let a change through within a step. -/
def PanelsOwn (h : House I J) : Prop := ∀ j m w, h.kEi j = some (m, w) → h.phiT0 j = 0 ∨ w = 0 ∨ h.room m = h.room j

theorem roomMrt_restrict (h : House I J) (hR x : J → ℝ) (i l : I) :
    roomMrt h hR l (fun j => if h.room j = i then x j else 0) = if l = i then roomMrt h hR l x else 0 := by
  unfold roomMrt
  split_ifs with hl
  · congr 1
    refine Finset.sum_congr rfl fun j hj => ?_
    have : h.room j = l := by simpa [surfaces] using hj
    simp only [if_pos (this.trans hl)]
  · rw [Finset.sum_eq_zero, zero_div]
    intro j hj
    have : h.room j = l := by simpa [surfaces] using hj
    simp only [if_neg (fun e => hl (this.symm.trans e)), mul_zero]

/-- The panel of one room does not warm the surfaces of another. -/
theorem wsb_own (hown : PanelsOwn h) {ivs : Matrix J J ℝ} (hi : npInv (h.ax hR) = .ok ivs) {j : J} {i : I}
    (hji : h.room j ≠ i) : (ivs * h.flb hR) j i = 0 := by
  set e : I → ℝ := Pi.single i 1 with he
  set x := (ivs * h.flb hR).mulVec e with hx
  have hcol : ∀ j, (ivs * h.flb hR) j i = x j := fun j => by rw [hx, he, Matrix.mulVec_single_one]; rfl
  have hAx : (h.ax hR).mulVec x = (h.flb hR).mulVec e := by
    rw [hx, ← Matrix.mulVec_mulVec, mulVec_npInv hi]
  set x' : J → ℝ := fun j => if h.room j = i then x j else 0 with hx'
  have hAx' : (h.ax hR).mulVec x' = (h.flb hR).mulVec e := by
    funext a
    have h1 := congrFun hAx a
    rw [ax_mulVec] at h1 ⊢
    by_cases ha : h.room a = i
    · rw [← h1, roomMrt_restrict, if_pos ha]
      have hxa : x' a = x a := by rw [hx']; exact if_pos ha
      rw [hxa]
      congr 1
      rw [kEi_mulVec, kEi_mulVec]
      cases hk : h.kEi a with
      | none => rfl
      | some p =>
        obtain ⟨m, w⟩ := p
        rcases hown a m w hk with h0 | h0 | h0
        · rw [h0]; ring
        · simp only [h0]; ring
        · simp only [hx', roomMrt_restrict, if_pos (h0.trans ha)]
    · rw [roomMrt_restrict, if_neg ha, flb_mulVec]
      have hxa : x' a = 0 := by rw [hx']; exact if_neg ha
      have hea : e (h.room a) = 0 := by rw [he]; exact Pi.single_eq_of_ne ha 1
      rw [hxa, hea, kEi_mulVec, kEi_mulVec]
      cases hk : h.kEi a with
      | none => ring
      | some p =>
        obtain ⟨m, w⟩ := p
        rcases hown a m w hk with h0 | h0 | h0
        · rw [h0]; ring
        · simp only [h0]; ring
        · have hm : h.room m ≠ i := h0 ▸ ha
          have hem : e (h.room m) = 0 := by rw [he]; exact Pi.single_eq_of_ne hm 1
          simp only [hx', roomMrt_restrict, if_neg hm, hem]; ring
  have : x' = x := by
    have h1 := npInv_mulVec hi x
    have h2 := npInv_mulVec hi x'
    rw [hAx] at h1
    rw [hAx'] at h2
    exact h2.symm.trans h1
  rw [hcol, ← this, hx']
  exact if_neg hji

theorem brl_diag_pos (hw : WellFormed h hR dt) (hr : RadiantWellFormed h) {ivs : Matrix J J ℝ}
    (hi : npInv (h.ax hR) = .ok ivs) {i : I} (hb : RadiantReaches h i) : 0 < h.brl (ivs * h.flb hR) i i := by
  have e : h.brl (ivs * h.flb hR) i i = ∑ j ∈ surfaces h i, (ivs * h.flb hR) j i * h.hC j * h.area j + h.beta i := by
    simp only [House.brl, Matrix.add_apply, Matrix.diagonal_apply_eq]
    rw [Matrix.mul_apply, sum_p]
    rfl
  rw [e]
  have hterm : ∀ j, 0 ≤ (ivs * h.flb hR) j i * h.hC j * h.area j := fun j =>
    mul_nonneg (mul_nonneg (wsb_nonneg hw hr hi j _) (hw.hC_pos j).le) (hw.area_pos j).le
  rcases hb with hb | ⟨hb, j, hj, hf, hp⟩
  · have := Finset.sum_nonneg (s := surfaces h i) fun j _ => hterm j
    linarith
  · have hb0 := (hr.beta_mem i).1
    have hflb : 0 < h.flb hR j i := by
      have hroom : h.room j = i := by simpa [surfaces] using hj
      simp only [House.flb, Matrix.of_apply, House.hI]
      have n1 : 0 < h.flrBeta j i * h.phiA0 j / h.area j := by
        simp only [House.flrBeta, House.flrMat, Matrix.of_apply, House.p, if_pos hroom]
        have := hw.area_pos j
        have h1 : 0 < 1 - h.beta i := by linarith
        positivity
      have hfb : ∀ j i, 0 ≤ h.flrBeta j i := fun j i => by
        simp only [House.flrBeta, House.flrMat, Matrix.of_apply]
        exact mul_nonneg (mul_nonneg (p_nonneg h i j) (hr.flr_nonneg j)) (sub_nonneg.mpr (hr.beta_mem i).2)
      have n2 : 0 ≤ (h.kEiMat * h.flrBeta) j i * h.phiT0 j / (h.hC j + hR j) / h.area j :=
        div_nonneg (div_nonneg (mul_nonneg (mul_nonneg_entries (kEi_nonneg hw) hfb j i) (hw.phiT0_mem j).1)
          (add_pos (hw.hC_pos j) (hw.hR_pos j)).le) (hw.area_pos j).le
      linarith
    have hpos : 0 < (ivs * h.flb hR) j i := by
      rw [mul_apply_eq_mulVec]
      exact ivs_pos hw hi (fun j => flb_nonneg hw hr j i) hflb
    have : 0 < ∑ j ∈ surfaces h i, (ivs * h.flb hR) j i * h.hC j * h.area j :=
      Finset.sum_pos' (fun j _ => hterm j) ⟨j, hj, mul_pos (mul_pos hpos (hw.hC_pos j)) (hw.area_pos j)⟩
    linarith

theorem brl_nonneg (hw : WellFormed h hR dt) (hr : RadiantWellFormed h) {ivs : Matrix J J ℝ} (hi : npInv (h.ax hR) = .ok ivs) (i l : I) :
    0 ≤ h.brl (ivs * h.flb hR) i l := by
  simp only [House.brl, Matrix.add_apply, Matrix.diagonal_apply]
  refine add_nonneg (mul_nonneg_entries (fun a b => p_nonneg h a b) (fun j a => ?_) i l) ?_
  · exact mul_nonneg (mul_nonneg (wsb_nonneg hw hr hi j _) (hw.hC_pos j).le) (hw.area_pos j).le
  · split_ifs
    · exact (hr.beta_mem i).1
    · exact le_rfl

theorem kr_pos {ot : I → OtTarget} (hcoef : ∀ i, (ot i).hHumC = hHumC ∧ (ot i).hHumR = hHumR) (i : I) : 0 < Tick.kr ot i := by
  unfold Tick.kr; rw [(hcoef _).1, (hcoef _).2]
  have := hHumR_pos
  have h4 : (0 : ℝ) < hHumC := by unfold hHumC; norm_num
  positivity

theorem panelMrt_nonneg (hw : WellFormed h hR dt) (hr : RadiantWellFormed h) {ivs : Matrix J J ℝ} (hi : npInv (h.ax hR) = .ok ivs) (i l : I) :
    0 ≤ (h.fMrtHumMat * (ivs * h.flb hR)) i l := by
  refine mul_nonneg_entries (fun a b => ?_) (wsb_nonneg hw hr hi) _ _
  simp only [House.fMrtHumMat, Matrix.of_apply]
  exact mul_nonneg (p_nonneg h a b) (hw.fMrtHum_nonneg b)

/-- Panels that only reach their own room: no kernel. -/
theorem kernel_own {A M L K : Matrix I I ℝ} (hA : ∀ i, RowDom A i) (hM : ∀ i, RowDom M i) (hL0 : ∀ i l, i ≠ l → L i l = 0)
    (hK0 : ∀ i l, i ≠ l → K i l = 0) (hK : ∀ i, 0 ≤ K i i) {nt c r : I → Bool} (hone : OneUnknown nt c r)
    (hL : ∀ i, r i = true → 0 < L i i) (θ u z y : I → ℝ) (e1 : A.mulVec θ = z + L.mulVec y) (e2 : M.mulVec θ = u - K.mulVec y)
    (hu : ∀ i, nt i = false → u i = 0) (hz : ∀ i, c i = false → z i = 0) (hy : ∀ i, r i = false → y i = 0) : θ = 0 ∧ y = 0 := by
  have hLy : ∀ i, L.mulVec y i = L i i * y i := fun i => by
    simp only [Matrix.mulVec, dotProduct]
    exact Finset.sum_eq_single i (fun l _ hl => by rw [hL0 i l (Ne.symm hl), zero_mul]) (fun hc => absurd (Finset.mem_univ i) hc)
  have hKy : ∀ i, K.mulVec y i = K i i * y i := fun i => by
    simp only [Matrix.mulVec, dotProduct]
    exact Finset.sum_eq_single i (fun l _ hl => by rw [hK0 i l (Ne.symm hl), zero_mul]) (fun hc => absurd (Finset.mem_univ i) hc)
  have f1 : ∀ i, A.mulVec θ i = z i + L i i * y i := fun i => by rw [e1, Pi.add_apply, hLy]
  have f2 : ∀ i, M.mulVec θ i = u i - K i i * y i := fun i => by rw [e2, Pi.sub_apply, hKy]
  set B : Matrix I I ℝ := Matrix.of fun i l => if nt i then A i l else if r i then L i i * M i l + K i i * A i l else M i l with hB
  have hBrow : ∀ i, B.mulVec θ i = if nt i then A.mulVec θ i else if r i then L i i * M.mulVec θ i + K i i * A.mulVec θ i else M.mulVec θ i := by
    intro i
    simp only [hB, Matrix.mulVec, dotProduct, Matrix.of_apply]
    split_ifs
    · rfl
    · rw [Finset.mul_sum, Finset.mul_sum, ← Finset.sum_add_distrib]
      exact Finset.sum_congr rfl fun l _ => by ring
    · rfl
  have hBd : ∀ i, RowDom B i := by
    intro i
    unfold RowDom
    simp only [hB, Matrix.of_apply]
    rcases hone i with ⟨a, b, d⟩ | ⟨a, b, d⟩ | ⟨a, b, d⟩
    · simp only [a, if_true]; exact hA i
    · simp only [a, d, Bool.false_eq_true, if_false]; exact hM i
    · simp only [a, d, Bool.false_eq_true, if_false, if_true]
      have h1 := hL i d
      have h2 := hK i
      calc ∑ l ∈ Finset.univ.erase i, |L i i * M i l + K i i * A i l|
          ≤ ∑ l ∈ Finset.univ.erase i, (L i i * |M i l| + K i i * |A i l|) := Finset.sum_le_sum fun l _ => by
            refine (abs_add_le _ _).trans ?_
            rw [abs_mul, abs_mul, abs_of_pos h1, abs_of_nonneg h2]
        _ = L i i * ∑ l ∈ Finset.univ.erase i, |M i l| + K i i * ∑ l ∈ Finset.univ.erase i, |A i l| := by
            rw [Finset.sum_add_distrib, Finset.mul_sum, Finset.mul_sum]
        _ < L i i * M i i + K i i * A i i := by
            have a1 := mul_lt_mul_of_pos_left (hM i) h1
            have a2 := mul_le_mul_of_nonneg_left (le_of_lt (hA i)) h2
            linarith
  have hθ : θ = 0 := by
    by_contra hne
    refine det_ne_zero_of_rowDom hBd (Matrix.exists_mulVec_eq_zero_iff.mp ⟨θ, hne, ?_⟩)
    funext i
    rw [hBrow, f1, f2]
    rcases hone i with ⟨a, b, d⟩ | ⟨a, b, d⟩ | ⟨a, b, d⟩
    · simp only [a, if_true, hz i b, hy i d, Pi.zero_apply]; ring
    · simp only [a, d, Bool.false_eq_true, if_false, hu i a, hy i d, Pi.zero_apply]; ring
    · simp only [a, d, Bool.false_eq_true, if_false, if_true, hu i a, hz i b, Pi.zero_apply]; ring
  refine ⟨hθ, ?_⟩
  funext i
  have h1 := f1 i
  rw [hθ, Matrix.mulVec_zero, Pi.zero_apply] at h1
  rcases hone i with ⟨a, b, d⟩ | ⟨a, b, d⟩ | ⟨a, b, d⟩
  · exact hy i d
  · exact hy i d
  · rw [hz i b, zero_add, eq_comm, mul_eq_zero] at h1
    exact h1.resolve_left (hL i d).ne'

/-- One room in charge, with a radiative system, among rooms that float: no kernel. -/
theorem kernel_alone {A M L K : Matrix I I ℝ} (hA : ZDominant A) (hMnn : ∀ i l, 0 ≤ M i l) (hMpos : ∀ i, 0 < M i i) (hL : ∀ i l, 0 ≤ L i l)
    (hK : ∀ i l, 0 ≤ K i l) {i0 : I} (hL0 : 0 < L i0 i0) (θ u z y : I → ℝ) (e1 : A.mulVec θ = z + L.mulVec y) (e2 : M.mulVec θ = u - K.mulVec y)
    (hu : u i0 = 0) (hz : z = 0) (hy : ∀ i, i ≠ i0 → y i = 0) : θ = 0 ∧ y = 0 := by
  have hLy : ∀ (B : Matrix I I ℝ) i, B.mulVec y i = B i i0 * y i0 := fun B i => by
    simp only [Matrix.mulVec, dotProduct]
    exact Finset.sum_eq_single i0 (fun l _ hl => by rw [hy l hl, mul_zero]) (fun hc => absurd (Finset.mem_univ i0) hc)
  have f1 : ∀ i, A.mulVec θ i = L i i0 * y i0 := fun i => by rw [e1, hz, zero_add, hLy]
  have f2 : M.mulVec θ i0 = -(K i0 i0 * y i0) := by rw [e2, Pi.sub_apply, hu, hLy, zero_sub]
  -- it is enough to exclude a positive load
  have key : ∀ (θ : I → ℝ) (y0 : ℝ), 0 < y0 → (∀ i, A.mulVec θ i = L i i0 * y0) → M.mulVec θ i0 = -(K i0 i0 * y0) → False := by
    intro θ y0 h0 g1 g2
    have hθ : ∀ i, 0 ≤ θ i := hA.nonneg fun i _ => by rw [g1]; exact mul_nonneg (hL _ _) h0.le
    have hM0 : M i0 i0 * θ i0 ≤ M.mulVec θ i0 := by
      simp only [Matrix.mulVec, dotProduct]
      exact Finset.single_le_sum (fun l _ => mul_nonneg (hMnn i0 l) (hθ l)) (Finset.mem_univ i0)
    have hz0 : θ i0 = 0 := by
      have : M i0 i0 * θ i0 ≤ 0 := by
        have := mul_nonneg (hK i0 i0) h0.le
        linarith
      rcases (hθ i0).lt_or_eq with h1 | h1
      · have := mul_pos (hMpos i0) h1
        linarith
      · exact h1.symm
    have h1 := g1 i0
    simp only [Matrix.mulVec, dotProduct] at h1
    rw [← Finset.sum_erase_add _ _ (Finset.mem_univ i0), hz0, mul_zero, add_zero] at h1
    have h2 : ∑ l ∈ Finset.univ.erase i0, A i0 l * θ l ≤ 0 :=
      Finset.sum_nonpos fun l hl => mul_nonpos_of_nonpos_of_nonneg (hA.offDiag i0 l (Ne.symm (Finset.ne_of_mem_erase hl))) (hθ l)
    have := mul_pos hL0 h0
    linarith
  have hy0 : y i0 = 0 := by
    rcases lt_trichotomy (y i0) 0 with h1 | h1 | h1
    · exfalso
      refine key (-θ) (-(y i0)) (by linarith) (fun i => ?_) ?_
      · rw [Matrix.mulVec_neg, Pi.neg_apply, f1]; ring
      · rw [Matrix.mulVec_neg, Pi.neg_apply, f2]; ring
    · exact h1
    · exact (key θ (y i0) h1 f1 f2).elim
  have hyz : y = 0 := by
    funext i
    by_cases hi : i = i0
    · rw [hi]; exact hy0
    · exact hy i hi
  refine ⟨?_, hyz⟩
  by_contra hne
  exact hA.det_ne_zero (Matrix.exists_mulVec_eq_zero_iff.mp ⟨θ, hne, by rw [e1, hz, hyz, Matrix.mulVec_zero, zero_add]⟩)

/-- Existence of the load calculation from the absence of a kernel. -/
theorem calc_total_kernel {a : LoadInput I} {A X M L K : Matrix I I ℝ} (hbrm : a.brm = A * X) (hbrl : a.brl = L + A * (X * K)) (hMX : M * X = 1)
    (hA : A.det ≠ 0) (hcap : CapsNonneg a)
    (hker : ∀ nat c r, OneUnknown (a.nt nat) c r →
      (∀ i, r i = true → (a.isRadHeating i = true ∨ a.isRadCooling i = true) ∧ (a.isHeating nat i = true ∨ a.isCooling nat i = true)) →
      ∀ θ u z y : I → ℝ, A.mulVec θ = z + L.mulVec y → M.mulVec θ = u - K.mulVec y → (∀ i, a.nt nat i = false → u i = 0) →
      (∀ i, c i = false → z i = 0) → (∀ i, r i = false → y i = 0) → θ = 0 ∧ y = 0) : ∃ res, calcNextTempAndLoad a = .ok res := by
  apply calc_total
  · rw [hbrm, Matrix.det_mul]
    refine mul_ne_zero hA ?_
    have := congrArg Matrix.det hMX
    rw [Matrix.det_mul, Matrix.det_one] at this
    intro h0; rw [h0, mul_zero] at this; exact zero_ne_one this
  · intro nat
    rw [hbrm, hbrl]
    exact loadX1_det_of hMX (masks_first a nat) (hker nat _ _ (masks_first a nat) fun i hi => radiant_unknown (lr := fun _ => 0) (Or.inl hi))
  · intro nat p1 hp1
    have h2 := masks_second hcap hp1
    rw [hbrm, hbrl]
    exact loadX1_det_of hMX h2 (hker nat _ _ h2 fun i hi => radiant_unknown (Or.inr hi))

/-- **C21 (several rooms with radiative systems, partial).** On a well-formed house with any radiative systems in any of its rooms every
step completes, if the radiant heat of every such room reaches this room and, within the step, the surfaces of no other room. Without
the last condition it is false (`C21_violated`). -/
theorem C21_own_panels_partial [Nonempty I] (hw : WellFormed h hR dt) (hr : RadiantWellFormed h) (hown : PanelsOwn h)
    (hreach : ∀ i, h.isRadHeating i = true ∨ h.isRadCooling i = true → RadiantReaches h i) (hloc : ∀ k i, 0 ≤ (data k).vLocal i)
    (hm : ∀ i, c.mode i ≠ .heatingAndCooling) (hn : -(N : ℤ) ≤ n ∧ n < N) :
    ∃ ss t, makePreCalc h hR dt data = .ok ss ∧ runTick n dt ss c = .ok t := by
  have hk : ∃ k, pyIndex N n = .ok k := by
    unfold pyIndex
    by_cases h0 : 0 ≤ n
    · rw [dif_pos ⟨h0, hn.2⟩]; exact ⟨_, rfl⟩
    · rw [dif_neg (fun h1 => h0 h1.1), dif_pos ⟨by omega, by omega⟩]; exact ⟨_, rfl⟩
  obtain ⟨k, hk⟩ := hk
  apply tick_total hw hloc hm hk
  intro ivs ot vOut brc xot xc hi hcoef hv hxot _
  refine calc_total_kernel (A := Tick.brm (preCalcOf h hR dt data ivs) vOut) (X := xot) (L := h.brl (ivs * h.flb hR))
    (K := Matrix.of fun i l => Tick.kr ot i * (h.fMrtHumMat * (ivs * h.flb hR)) i l) rfl rfl (mul_npInv hxot)
    (det_ne_zero_of_rowDom fun i => brm_rowDom hw hi hv i) (fun i => ⟨hw.capH_nonneg i, hw.capC_nonneg i⟩) ?_
  intro nat c r hone hrad
  refine kernel_own (fun i => brm_rowDom hw hi hv i) (fun i => otMat_rowDom hw hi hcoef i) (fun i l hil => ?_) (fun i l hil => ?_)
    (fun i => ?_) hone fun i hri => brl_diag_pos hw hr hi (hreach i (hrad i hri).1)
  · simp only [House.brl, Matrix.add_apply, Matrix.diagonal_apply, if_neg hil, add_zero]
    rw [Matrix.mul_apply, sum_p]
    refine Finset.sum_eq_zero fun j hj => ?_
    have : h.room j = i := by simpa [surfaces] using hj
    simp only [Matrix.of_apply]
    rw [wsb_own hown hi (by rw [this]; exact hil), zero_mul, zero_mul]
  · simp only [Matrix.of_apply]
    rw [mul_apply_eq_mulVec, fMrtHum_mulVec, Finset.sum_eq_zero, mul_zero]
    intro j hj
    have : h.room j = i := by simpa [surfaces] using hj
    rw [wsb_own hown hi (by rw [this]; exact hil), mul_zero]
  · exact mul_nonneg (kr_pos hcoef i).le (panelMrt_nonneg hw hr hi i i)

theorem brm_zdominant (hw : WellFormed h hR dt) {ivs : Matrix J J ℝ} (hi : npInv (h.ax hR) = .ok ivs) (hint : ∀ i l, h.vInt i l = 0)
    {vOut : I → ℝ} (hv : ∀ i, 0 ≤ vOut i) : ZDominant (Tick.brm (preCalcOf h hR dt data ivs) vOut) := by
  have hoff : ∀ i l, i ≠ l → Tick.brm (preCalcOf h hR dt data ivs) vOut i l ≤ 0 := by
    intro i l hil
    rw [brm_apply, if_neg hil, hint, mul_zero, add_zero, zero_sub, neg_nonpos]
    exact Finset.sum_nonneg fun j _ => mul_nonneg (mul_nonneg (hw.area_pos j).le (hw.hC_pos j).le) (wsr_nonneg hw hi j l)
  refine ⟨hoff, fun i => ?_⟩
  have h1 : RowDom (Tick.brm (preCalcOf h hR dt data ivs) vOut) i := brm_rowDom hw hi hv i
  unfold RowDom at h1
  rw [← Finset.sum_erase_add _ _ (Finset.mem_univ i)]
  have : ∑ l ∈ Finset.univ.erase i, |Tick.brm (preCalcOf h hR dt data ivs) vOut i l|
      = -∑ l ∈ Finset.univ.erase i, Tick.brm (preCalcOf h hR dt data ivs) vOut i l := by
    rw [← Finset.sum_neg_distrib]
    exact Finset.sum_congr rfl fun l hl => abs_of_nonpos (hoff i l (Ne.symm (Finset.ne_of_mem_erase hl)))
  linarith

/-- **C21 (one room in charge, partial).** On a well-formed house without air flow between rooms every step completes, whatever the
partitions, if at most one room has a demand and a radiative system of this room reaches it. -/
theorem C21_one_in_charge_partial [Nonempty I] (hw : WellFormed h hR dt) (hr : RadiantWellFormed h) (hint : ∀ i l, h.vInt i l = 0) {i0 : I}
    (hreach : h.isRadHeating i0 = true ∨ h.isRadCooling i0 = true → RadiantReaches h i0) (hd : ∀ k i, i ≠ i0 → (data k).acDemand i ≤ 0)
    (hloc : ∀ k i, 0 ≤ (data k).vLocal i) (hm : ∀ i, c.mode i ≠ .heatingAndCooling) (hn : -(N : ℤ) ≤ n ∧ n < N) :
    ∃ ss t, makePreCalc h hR dt data = .ok ss ∧ runTick n dt ss c = .ok t := by
  have hk : ∃ k, pyIndex N n = .ok k := by
    unfold pyIndex
    by_cases h0 : 0 ≤ n
    · rw [dif_pos ⟨h0, hn.2⟩]; exact ⟨_, rfl⟩
    · rw [dif_neg (fun h1 => h0 h1.1), dif_pos ⟨by omega, by omega⟩]; exact ⟨_, rfl⟩
  obtain ⟨k, hk⟩ := hk
  apply tick_total hw hloc hm hk
  intro ivs ot vOut brc xot xc hi hcoef hv hxot hot
  have hmode : ∀ i, i ≠ i0 → (ot i).mode = .stopClose := by
    intro i hii
    have h1 := hot i
    unfold getOtTargetAndHHum at h1
    simp only [bind, Except.bind, getOperationMode, gt_iff_lt, if_neg (not_lt.mpr (hd k i hii))] at h1
    rw [← Except.ok.inj h1]
  refine calc_total_kernel (A := Tick.brm (preCalcOf h hR dt data ivs) vOut) (X := xot) (L := h.brl (ivs * h.flb hR))
    (K := Matrix.of fun i l => Tick.kr ot i * (h.fMrtHumMat * (ivs * h.flb hR)) i l) rfl rfl (mul_npInv hxot)
    (det_ne_zero_of_rowDom fun i => brm_rowDom hw hi hv i) (fun i => ⟨hw.capH_nonneg i, hw.capC_nonneg i⟩) ?_
  intro nat c r hone hrad θ u z y e1 e2 hu hz hy
  have hfree : ∀ i, i ≠ i0 → c i = false ∧ r i = false := by
    intro i hii
    have hn : (Tick.loadInput (preCalcOf h hR dt data ivs) k ot (Tick.brcOt brc (Tick.brm (preCalcOf h hR dt data ivs) vOut) xc)
        (Tick.brmOt (Tick.brm (preCalcOf h hR dt data ivs) vOut) xot) (Tick.brlOt (preCalcOf h hR dt data ivs)
        (Tick.brm (preCalcOf h hR dt data ivs) vOut) (Tick.xlr (preCalcOf h hR dt data ivs) ot xot))).nt nat i = true := by
      simp [LoadInput.nt, LoadInput.isHeating, LoadInput.isCooling, Tick.loadInput, hmode i hii]
    rcases hone i with ⟨_, b, d⟩ | ⟨a, _, _⟩ | ⟨a, _, _⟩
    · exact ⟨b, d⟩
    · rw [hn] at a; cases a
    · rw [hn] at a; cases a
  have hMrow : ∀ i, RowDom (Tick.otMat (preCalcOf h hR dt data ivs) ot) i := fun i => otMat_rowDom hw hi hcoef i
  cases hr0 : r i0 with
  | false =>
    have hy0 : y = 0 := by
      funext i
      by_cases hii : i = i0
      · rw [hii]; exact hy _ hr0
      · exact hy i (hfree i hii).2
    refine kernel_own (L := 0) (K := 0) (fun i => brm_rowDom (data := data) hw hi hv i) hMrow (fun _ _ _ => rfl) (fun _ _ _ => rfl) (fun _ => le_rfl) hone
      (fun i hri => ?_) θ u z y (by rw [e1, hy0]; simp) (by rw [e2, hy0]; simp) hu hz hy
    by_cases hii : i = i0
    · rw [hii, hr0] at hri; cases hri
    · rw [(hfree i hii).2] at hri; cases hri
  | true =>
    have hone0 := hone i0
    rw [hr0] at hone0
    have hc0 : c i0 = false := by
      rcases hone0 with ⟨_, _, d⟩ | ⟨_, _, d⟩ | ⟨_, b, _⟩
      · cases d
      · cases d
      · exact b
    have hu0 : u i0 = 0 := by
      rcases hone0 with ⟨_, _, d⟩ | ⟨_, _, d⟩ | ⟨a, _, _⟩
      · cases d
      · cases d
      · exact hu i0 a
    refine kernel_alone (i0 := i0) (brm_zdominant (data := data) hw hi hint hv) (fun i l => ?_) (fun i => (hMrow i).diag_pos) (brl_nonneg hw hr hi)
      (fun i l => mul_nonneg (kr_pos hcoef i).le (panelMrt_nonneg hw hr hi i l)) (brl_diag_pos hw hr hi (hreach (hrad i0 hr0).1)) θ u z y e1 e2
      hu0 ?_ fun i hii => hy i (hfree i hii).2
    · simp only [Tick.otMat, Matrix.add_apply, Matrix.of_apply, Matrix.diagonal_apply, preCalcOf]
      refine add_nonneg ?_ (mul_nonneg (kr_pos hcoef i).le (fwsr_nonneg hw hi i l))
      split_ifs
      · unfold Tick.kc
        rw [(hcoef i).1, (hcoef i).2]
        have h4 : (0 : ℝ) < hHumC := by unfold hHumC; norm_num
        exact div_nonneg h4.le (add_pos h4 hHumR_pos).le
      · exact le_rfl
    · funext i
      by_cases hii : i = i0
      · rw [hii]; exact hz _ hc0
      · exact hz i (hfree i hii).1

/-! ## The whole program -/

section Program

variable {m : ℕ} {h : House I (Fin m)} {hR : Fin m → ℝ} {data : Fin N → Record I (Fin m)} {hourly dMain dRunUp dRunUpBuild : ℤ}

theorem program_of_steps (hw : WellFormed h hR (3600 / (hourly : ℝ))) (h0 : 0 < hourly) (hM : 0 ≤ dMain)
    (hB : 0 ≤ dRunUpBuild) (hd : dRunUpBuild ≤ dRunUp) (hN : dRunUp * hourly * 24 ≤ N) (hN' : dMain * hourly * 24 ≤ N)
    (hstep : ∀ (n : ℤ) (c : Cond I (Fin m)), (∀ i, c.mode i ≠ .heatingAndCooling) → -(N : ℤ) ≤ n ∧ n < N →
      ∃ ss t, makePreCalc h hR (3600 / (hourly : ℝ)) data = .ok ss ∧ runTick n (3600 / (hourly : ℝ)) ss c = .ok t) :
    ∃ r, coreCalc h hR data hourly dMain dRunUp dRunUpBuild = .ok r := by
  obtain ⟨ss, Hp⟩ : ∃ ss, makePreCalc h hR (3600 / (hourly : ℝ)) data = .ok ss := by
    unfold makePreCalc
    rw [ax_inv hw]
    exact ⟨_, rfl⟩
  apply program_total Hp h0 hM hB hd hN hN'
  intro n a b c hc
  obtain ⟨ss', t, Hp', ht⟩ := hstep n c hc ⟨a, b⟩
  have : ss' = ss := Except.ok.inj (Hp'.symm.trans Hp)
  subst this
  exact ⟨t, ht⟩

/-- **C21** for the whole program, any number of rooms with radiative systems whose heat stays in the room within the step. -/
theorem C21_program_own_partial [Nonempty I] (hw : WellFormed h hR (3600 / (hourly : ℝ))) (hr : RadiantWellFormed h) (hown : PanelsOwn h)
    (hreach : ∀ i, h.isRadHeating i = true ∨ h.isRadCooling i = true → RadiantReaches h i) (hloc : ∀ k i, 0 ≤ (data k).vLocal i) (h0 : 0 < hourly)
    (hM : 0 ≤ dMain) (hB : 0 ≤ dRunUpBuild) (hd : dRunUpBuild ≤ dRunUp) (hN : dRunUp * hourly * 24 ≤ N) (hN' : dMain * hourly * 24 ≤ N) :
    ∃ r, coreCalc h hR data hourly dMain dRunUp dRunUpBuild = .ok r :=
  program_of_steps hw h0 hM hB hd hN hN' fun _ _ hc hn => C21_own_panels_partial hw hr hown hreach hloc hc hn

/-- **C21** for the whole program, one room with a demand, whatever its systems, among rooms without demand. -/
theorem C21_program_one_in_charge_partial [Nonempty I] (hw : WellFormed h hR (3600 / (hourly : ℝ))) (hr : RadiantWellFormed h)
    (hint : ∀ i l, h.vInt i l = 0) {i0 : I} (hreach : h.isRadHeating i0 = true ∨ h.isRadCooling i0 = true → RadiantReaches h i0)
    (hdem : ∀ k i, i ≠ i0 → (data k).acDemand i ≤ 0) (hloc : ∀ k i, 0 ≤ (data k).vLocal i) (h0 : 0 < hourly)
    (hM : 0 ≤ dMain) (hB : 0 ≤ dRunUpBuild) (hd : dRunUpBuild ≤ dRunUp) (hN : dRunUp * hourly * 24 ≤ N) (hN' : dMain * hourly * 24 ≤ N) :
    ∃ r, coreCalc h hR data hourly dMain dRunUp dRunUpBuild = .ok r :=
  program_of_steps hw h0 hM hB hd hN hN' fun _ _ hc hn => C21_one_in_charge_partial hw hr hint hreach hdem hloc hc hn

end Program

end HLC
