import Verif.Props.Glazing

/-!
# C105: heat transmission coefficient of glazing
-/

namespace HLC.Glass

open Spec Finset

variable {g : Glazing} {root : (N : ℕ) → Root N}

theorem resist_sum (he hi : ℝ) (gaps : Fin g.n → ℝ) :
    ∑ m ∈ range (2 * (g.n + 1) + 1), resist g he hi gaps m = 1 / he + ∑ i, (g.gls i).r + ∑ i, 1 / gaps i + 1 / hi := by
  rw [sum_range_succ, show resist g he hi gaps (2 * (g.n + 1)) = 1 / hi by simp [resist]]
  congr 1
  rw [sum_pairs, sum_add_distrib]
  have e1 : ∀ j : Fin (g.n + 1), resist g he hi gaps (2 * j + 1) = (g.gls j).r := by
    intro j
    unfold resist
    rw [if_neg (by omega), if_neg (by omega), if_pos (by omega), dif_pos (by omega)]
    congr 2
    apply Fin.ext
    simp only []
    omega
  have e2 : ∑ j ∈ range (g.n + 1), resist g he hi gaps (2 * j) = 1 / he + ∑ i, 1 / gaps i := by
    rw [sum_range_succ', add_comm, ← Fin.sum_univ_eq_sum_range (fun j => resist g he hi gaps (2 * (j + 1)))]
    congr 1
    refine Finset.sum_congr rfl fun j _ => ?_
    unfold resist
    rw [if_neg (by omega), if_neg (by omega), if_neg (by omega), dif_pos (by omega)]
    congr 2
    apply Fin.ext
    simp only []
    omega
  rw [e2, ← Fin.sum_univ_eq_sum_range (fun j => resist g he hi gaps (2 * j + 1)), Finset.sum_congr rfl fun j _ => e1 j]
  ring

/-- **C105.** The heat transmission coefficient is one over the sum of the film outdoors, all sheets, all gaps (at 10 degC and 15 K) and the
film indoors, whatever the root finder does, as long as it returns. It is positive and below the conductance of every part. -/
theorem C105_u (hg : WellMade g) {u : ℝ} (h : g.u root = .ok u) :
    ∃ (ee ei : ℝ) (eb ef gaps : Fin g.n → ℝ), (g.gls 0).sff.eps = .ok ee ∧ (g.gls (Fin.last g.n)).sfb.eps = .ok ei ∧
      (∀ i, (g.gls i.castSucc).sfb.eps = .ok (eb i)) ∧ (∀ i, (g.gls i.succ).sff.eps = .ok (ef i)) ∧
      (∀ i, gaps i = (g.als i).hS 283 15 283 (eb i) (ef i)) ∧
      u = 1 / (1 / (4.9 * ee + 16.3) + ∑ i, ((g.gls i).units.map fun s => s.1 / s.2).sum + ∑ i, 1 / gaps i + 1 / (5.4 * ei + 4.1)) ∧
      0 < u ∧ u < 4.9 * ee + 16.3 ∧ u < 5.4 * ei + 4.1 ∧ ∀ i, u < gaps i := by
  simp only [Glazing.u, bind_ok_iff] at h
  obtain ⟨⟨th, reg, qin⟩, h1, h2⟩ := h
  cases h2
  obtain ⟨h1, -⟩ := tempAndR_ok h1
  obtain ⟨he, hi, h2, h3, rfl⟩ := (getR_iff hg).1 h1
  obtain ⟨ee, e1, e2, -⟩ := eps_good (hg.front 0)
  obtain ⟨ei, f1, f2, -⟩ := eps_good (hg.back (Fin.last g.n))
  have hb : ∀ i : Fin g.n, ∃ v, (g.gls i.castSucc).sfb.eps = .ok v := fun i => let ⟨v, hv, _⟩ := eps_good (hg.back i.castSucc); ⟨v, hv⟩
  have hf : ∀ i : Fin g.n, ∃ v, (g.gls i.succ).sff.eps = .ok v := fun i => let ⟨v, hv, _⟩ := eps_good (hg.front i.succ); ⟨v, hv⟩
  choose eb hb using hb
  choose ef hf using hf
  have hm : Mild .default (seq th) g.n := .inl rfl
  have hgp := gapOf_pos hg hm
  have hge : ∀ i, gapOf g .default (seq th) i = (g.als i).hS 283 15 283 (eb i) (ef i) := by
    intro i
    unfold gapOf Glazing.gap
    rw [hb, hf]
    simp only [bind, Except.bind]
    rw [if_pos (show GlazingCase.default.fixed = true from rfl)]
  have hhe : he = 4.9 * ee + 16.3 := by
    unfold Glazing.outerFilm Glazing.hE at h2
    rw [if_pos (show GlazingCase.default.fixed = true from rfl), e1] at h2
    exact (Except.ok.inj h2).symm
  have hhi : hi = 5.4 * ei + 4.1 := by
    unfold Glazing.innerFilm Glazing.hI at h3
    rw [if_pos (show GlazingCase.default.fixed = true from rfl), if_neg (by decide), f1] at h3
    exact (Except.ok.inj h3).symm
  have hpp := fun i => pane_pos hg i
  simp only [resist_sum]
  refine ⟨ee, ei, eb, ef, gapOf g .default (seq th), e1, f1, hb, hf, hge, by rw [hhe, hhi]; rfl, ?_⟩
  have k1 : 0 < 1 / he := one_div_pos.2 (by rw [hhe]; linarith)
  have k2 : 0 < 1 / hi := one_div_pos.2 (by rw [hhi]; linarith)
  have k3 : 0 < ∑ i, (g.gls i).r := Finset.sum_pos (fun i _ => hpp i) ⟨0, mem_univ _⟩
  have k4 : 0 ≤ ∑ i, 1 / gapOf g .default (seq th) i := sum_nonneg fun i _ => (one_div_pos.2 (hgp i)).le
  refine ⟨by positivity, ?_, ?_, fun i => ?_⟩
  · rw [← hhe, one_div_lt (by positivity) (one_div_pos.1 k1)]
    linarith
  · rw [← hhi, one_div_lt (by positivity) (one_div_pos.1 k2)]
    linarith
  · rw [one_div_lt (by positivity) (hgp i)]
    have := single_le_sum (f := fun i => 1 / gapOf g .default (seq th) i) (fun i _ => (one_div_pos.2 (hgp i)).le) (mem_univ i)
    linarith

/-- **C105.** The coefficient times the temperature difference is the heat that the calculation with the same settings finds without sun, at any
temperatures. -/
theorem C105_heat (hg : WellMade g) {u : ℝ} (h : g.u root = .ok u) {k : GlazingCase} (hk : k.fixed = true) {root' : (N : ℕ) → Root N}
    {th : Fin (2 * (g.n + 1)) → ℝ} {reg : ℕ → ℝ} {qin : ℝ} (h' : g.tempAndR root' k (fun _ => 0) = .ok (th, reg, qin))
    (hc : g.heatFlow k (fun _ => 0) th = .ok 0) (m : ℕ) (hm : m ≤ 2 * (g.n + 1)) :
    heatThrough reg k.thetaE k.thetaI th m = u * (k.thetaE - k.thetaI) := by
  obtain ⟨h1, h2⟩ := tempAndR_ok h'
  obtain ⟨r, hr⟩ := getR_fixed hg hk
  have hm0 : Mild k (seq th) g.n := .inl hk
  have H := (heatFlow_iff h1).1 hc
  have hz : ∀ m, halves (fun _ : Fin (g.n + 1) => (0 : ℝ)) m = 0 := by intro m; unfold halves; split_ifs <;> simp
  have e := heatThrough_eq H hm
  have e' := heatThrough_eq H le_rfl
  simp only [hz, sum_const_zero, add_zero] at e e'
  obtain ⟨-, f1, -⟩ := C103_flow hg hm0 h' hc
  rw [e, ← e', f1, h2]
  have : g.rQin (fun _ => 0) reg = 0 := by simp [Glazing.rQin]
  rw [this]
  simp only [Glazing.u, bind_ok_iff] at h
  obtain ⟨⟨th2, reg2, qin2⟩, h5, h6⟩ := h
  cases h6
  obtain ⟨h5, -⟩ := tempAndR_ok h5
  have e3 : ∀ th, g.getR k th = g.getR .default th := by
    intro th
    unfold Glazing.getR Glazing.outerFilm Glazing.innerFilm
    have : g.gap k th = g.gap .default th := by
      funext i
      unfold Glazing.gap
      simp only [hk, GlazingCase.default, if_true]
    rw [this]
    simp only [hk, GlazingCase.default, if_true]
  rw [← e3] at h5
  have : reg2 = reg := by
    rw [hr] at h1 h5
    exact (Except.ok.inj h5).symm.trans (Except.ok.inj h1)
  rw [this]
  ring

theorem u_lt {n : ℕ} {gls gls' : Fin (n + 1) → GlassLayer} {als : Fin n → AirLayer} (hg : WellMade ⟨n, gls, als⟩) (hw : WellMade ⟨n, gls', als⟩)
    (hsf : ∀ j, (gls' j).sff = (gls j).sff) (hsb : ∀ j, (gls' j).sfb = (gls j).sfb) (hr : ∑ j, (gls j).r < ∑ j, (gls' j).r) {u u' : ℝ}
    (h : Glazing.u ⟨n, gls, als⟩ root = .ok u) (h' : Glazing.u ⟨n, gls', als⟩ root = .ok u') : u' < u := by
  obtain ⟨ee, ei, eb, ef, gaps, a1, a2, a3, a4, a5, a6, a7, a8, a9, a10⟩ := C105_u hg h
  obtain ⟨ee', ei', eb', ef', gaps', b1, b2, b3, b4, b5, b6, b7, b8, b9, b10⟩ := C105_u hw h'
  simp only [] at a1 a2 a3 a4 a5 a6 b1 b2 b3 b4 b5 b6
  have c1 : ee' = ee := by rw [hsf] at b1; exact Except.ok.inj (b1.symm.trans a1)
  have c2 : ei' = ei := by rw [hsb] at b2; exact Except.ok.inj (b2.symm.trans a2)
  have c3 : gaps' = gaps := by
    funext j
    have d1 : eb' j = eb j := by have := b3 j; rw [hsb] at this; exact Except.ok.inj (this.symm.trans (a3 j))
    have d2 : ef' j = ef j := by have := b4 j; rw [hsf] at this; exact Except.ok.inj (this.symm.trans (a4 j))
    rw [a5, b5, d1, d2]
  have c4 : ∑ j, ((gls j).units.map fun s => s.1 / s.2).sum < ∑ j, ((gls' j).units.map fun s => s.1 / s.2).sum := hr
  rw [a6, b6, c1, c2, c3]
  rw [a6] at a7
  exact one_div_lt_one_div_of_lt (one_div_pos.1 a7) (by linarith)

/-- **C105.** Thicker or less conducting sheets in any pane lower the coefficient. -/
theorem C105_thicker (hg : WellMade g) (i : Fin (g.n + 1)) (us : List (ℝ × ℝ)) (hus : us ≠ []) (hup : ∀ s ∈ us, 0 < s.1 ∧ 0 < s.2)
    (hr : ((g.gls i).units.map fun s => s.1 / s.2).sum < (us.map fun s => s.1 / s.2).sum) {u u' : ℝ} (h : g.u root = .ok u)
    (h' : Glazing.u ⟨g.n, fun j => if j = i then ⟨us, (g.gls j).sff, (g.gls j).sfb⟩ else g.gls j, g.als⟩ root = .ok u') : u' < u := by
  obtain ⟨n, gls, als⟩ := g
  simp only [] at *
  have hsf : ∀ j, (if j = i then ⟨us, (gls j).sff, (gls j).sfb⟩ else gls j : GlassLayer).sff = (gls j).sff := by intro j; split_ifs <;> rfl
  have hsb : ∀ j, (if j = i then ⟨us, (gls j).sff, (gls j).sfb⟩ else gls j : GlassLayer).sfb = (gls j).sfb := by intro j; split_ifs <;> rfl
  refine u_lt hg ?_ hsf hsb ?_ h h'
  · refine ⟨fun j => ?_, fun j => ?_, fun j => ?_, fun j => ?_, hg.width, hg.air, hg.argon, hg.sf6, hg.krypton, hg.total⟩
    · simp only []
      split_ifs
      · exact hus
      · exact hg.sheets j
    · simp only []
      split_ifs
      · exact hup
      · exact hg.thick j
    · simp only []
      rw [hsf]
      exact hg.front j
    · simp only []
      rw [hsb]
      exact hg.back j
  · refine sum_lt_sum (fun j _ => ?_) ⟨i, mem_univ _, ?_⟩
    · split_ifs with hj
      · subst hj
        exact hr.le
      · rfl
    · rw [if_pos rfl]
      exact hr

/-- **C105.** Another pane behind a gap lowers the coefficient, if the surface towards the room stays of the same kind. -/
theorem C105_more_panes (hg : WellMade g) (l : GlassLayer) (a : AirLayer) (hs : l.sfb = (g.gls (Fin.last g.n)).sfb)
    (hw : WellMade ⟨g.n + 1, Fin.snoc (α := fun _ => GlassLayer) g.gls l, Fin.snoc (α := fun _ => AirLayer) g.als a⟩) {u u' : ℝ}
    (h : g.u root = .ok u)
    (h' : Glazing.u ⟨g.n + 1, Fin.snoc (α := fun _ => GlassLayer) g.gls l, Fin.snoc (α := fun _ => AirLayer) g.als a⟩ root = .ok u') :
    u' < u := by
  have hlast := pane_pos hw (Fin.last (g.n + 1))
  obtain ⟨ee, ei, eb, ef, gaps, a1, a2, a3, a4, a5, a6, a7, a8, a9, a10⟩ := C105_u hg h
  obtain ⟨ee', ei', eb', ef', gaps', b1, b2, b3, b4, b5, b6, b7, b8, b9, b10⟩ := C105_u hw h'
  simp only [] at b1 b2 b3 b4 b5 b6 hlast
  rw [Fin.snoc_last] at hlast
  have c1 : ee' = ee := by
    rw [← Fin.castSucc_zero, Fin.snoc_castSucc] at b1
    exact Except.ok.inj (b1.symm.trans a1)
  have c2 : ei' = ei := by
    rw [Fin.snoc_last, hs] at b2
    exact Except.ok.inj (b2.symm.trans a2)
  have c3 : ∀ j : Fin g.n, gaps' j.castSucc = gaps j := by
    intro j
    have d1 : eb' j.castSucc = eb j := by
      have := b3 j.castSucc
      rw [Fin.snoc_castSucc] at this
      exact Except.ok.inj (this.symm.trans (a3 j))
    have d2 : ef' j.castSucc = ef j := by
      have := b4 j.castSucc
      rw [Fin.succ_castSucc, Fin.snoc_castSucc] at this
      exact Except.ok.inj (this.symm.trans (a4 j))
    rw [a5, b5, d1, d2, Fin.snoc_castSucc]
  have c4 : 0 < 1 / gaps' (Fin.last g.n) := one_div_pos.2 (b7.trans (b10 _))
  rw [a6, b6, c1, c2]
  rw [a6] at a7
  refine one_div_lt_one_div_of_lt (one_div_pos.1 a7) ?_
  have e1 : ∑ j : Fin (g.n + 1 + 1), (((Fin.snoc (α := fun _ => GlassLayer) g.gls l : Fin (g.n + 1 + 1) → GlassLayer) j).units.map fun s => s.1 / s.2).sum
      = ∑ j, ((g.gls j).units.map fun s => s.1 / s.2).sum + l.r := by
    rw [Fin.sum_univ_castSucc]
    simp only [Fin.snoc_castSucc, Fin.snoc_last]
    rfl
  have e2 : ∑ j, 1 / gaps' j = ∑ j, 1 / gaps j + 1 / gaps' (Fin.last g.n) := by
    have := Fin.sum_univ_castSucc (n := g.n) fun j => 1 / gaps' j
    rw [this]
    simp only [c3]
  rw [e1, e2]
  linarith

end HLC.Glass
