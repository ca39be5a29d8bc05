import Verif.Props.FadeHumid
import Verif.Spec.Inexact

/-!
# C134: errors of rounding do not pile up
-/

set_option linter.unusedSectionVars false

namespace HLC
open Spec

section
variable {I J : Type} [Fintype I] [DecidableEq I] [Fintype J] [DecidableEq J] {N : ℕ} {h : House I J} {hR : J → ℝ} {dt : ℝ}

theorem sq_add_le {η : ℝ} (hη : 0 < η) (a b : ℝ) : (a + b) ^ 2 ≤ (1 + η) * a ^ 2 + (1 + 1 / η) * b ^ 2 := by
  have h1 : η * (1 / η) = 1 := mul_one_div_cancel hη.ne'
  have h2 : 0 < 1 / η := by positivity
  generalize 1 / η = μ at *
  have h3 : 0 ≤ μ * (η * a - b) ^ 2 := by positivity
  have h4 : μ * (η * a - b) ^ 2 = η * a ^ 2 - 2 * (a * b) + μ * b ^ 2 := by linear_combination (η * a ^ 2 - 2 * (a * b)) * h1
  nlinarith

/-- Energies of differences that add up. -/
theorem stateEnergy_add (hw : WellFormed h hR dt) {V : J → (Fin 12 → ℝ) → ℝ} {e κ δ K η : ℝ} (hV : Stores h hR V e κ) (hδ : 0 ≤ δ) (hK : 0 ≤ K)
    (hη : 0 < η) (c c' c'' : Cond I J) :
    stateEnergy h dt V δ K c c'' ≤ (1 + η) * stateEnergy h dt V δ K c c' + (1 + 1 / η) * stateEnergy h dt V δ K c' c'' := by
  have hdt := hw.dt_pos
  have hcap : (0 : ℝ) < airCap := by unfold airCap; norm_num
  have eA : ∀ j, pendA h c c'' j = fun l => pendA h c c' j l + pendA h c' c'' j l := fun j => by
    funext l; unfold pendA; ring
  have eT : ∀ j, pendT h c c'' j = fun l => pendT h c c' j l + pendT h c' c'' j l := fun j => by
    funext l; unfold pendT; ring
  have h1 : ∑ i, (h.vRoom i * airCap / dt * (c''.thetaR i - c.thetaR i) ^ 2 + h.cSh i / dt * (c''.thetaFrt i - c.thetaFrt i) ^ 2) / 2
      ≤ (1 + η) * ∑ i, (h.vRoom i * airCap / dt * (c'.thetaR i - c.thetaR i) ^ 2 + h.cSh i / dt * (c'.thetaFrt i - c.thetaFrt i) ^ 2) / 2
        + (1 + 1 / η) * ∑ i, (h.vRoom i * airCap / dt * (c''.thetaR i - c'.thetaR i) ^ 2 + h.cSh i / dt * (c''.thetaFrt i - c'.thetaFrt i) ^ 2) / 2 := by
    rw [Finset.mul_sum, Finset.mul_sum, ← Finset.sum_add_distrib]
    refine Finset.sum_le_sum fun i _ => ?_
    have c1 : 0 ≤ h.vRoom i * airCap / dt := by have := hw.vRoom_pos i; positivity
    have c2 : 0 ≤ h.cSh i / dt := div_nonneg (hw.cSh_nonneg i) hdt.le
    have a1 := mul_le_mul_of_nonneg_left (sq_add_le hη (c'.thetaR i - c.thetaR i) (c''.thetaR i - c'.thetaR i)) c1
    have a2 := mul_le_mul_of_nonneg_left (sq_add_le hη (c'.thetaFrt i - c.thetaFrt i) (c''.thetaFrt i - c'.thetaFrt i)) c2
    have b1 : c'.thetaR i - c.thetaR i + (c''.thetaR i - c'.thetaR i) = c''.thetaR i - c.thetaR i := by ring
    have b2 : c'.thetaFrt i - c.thetaFrt i + (c''.thetaFrt i - c'.thetaFrt i) = c''.thetaFrt i - c.thetaFrt i := by ring
    rw [b1] at a1
    rw [b2] at a2
    linarith
  have h2 : ∑ j, h.area j * V j (pendA h c c'' j) ≤ (1 + η) * ∑ j, h.area j * V j (pendA h c c' j) + (1 + 1 / η) * ∑ j, h.area j * V j (pendA h c' c'' j) := by
    rw [Finset.mul_sum, Finset.mul_sum, ← Finset.sum_add_distrib]
    refine Finset.sum_le_sum fun j _ => ?_
    have := mul_le_mul_of_nonneg_left (hV.add j (pendA h c c' j) (pendA h c' c'' j) η hη) (hw.area_pos j).le
    rw [eA]
    linarith
  have sq : ∀ {x y z : J → Fin 12 → ℝ}, (∀ j, x j = fun l => y j l + z j l) →
      Gap.heldSq x ≤ (1 + η) * Gap.heldSq y + (1 + 1 / η) * Gap.heldSq z := by
    intro x y z hx
    unfold Gap.heldSq
    rw [Finset.mul_sum, Finset.mul_sum, ← Finset.sum_add_distrib]
    refine Finset.sum_le_sum fun j _ => ?_
    rw [Finset.mul_sum, Finset.mul_sum, ← Finset.sum_add_distrib]
    refine Finset.sum_le_sum fun l _ => ?_
    rw [hx]
    exact sq_add_le hη _ _
  have h3 := mul_le_mul_of_nonneg_left (sq eA) hδ
  have h4 := mul_le_mul_of_nonneg_left (sq eT) hK
  unfold stateEnergy energyOf stored
  generalize ∑ i, (h.vRoom i * airCap / dt * (c''.thetaR i - c.thetaR i) ^ 2 + h.cSh i / dt * (c''.thetaFrt i - c.thetaFrt i) ^ 2) / 2 = x1 at *
  generalize ∑ i, (h.vRoom i * airCap / dt * (c'.thetaR i - c.thetaR i) ^ 2 + h.cSh i / dt * (c'.thetaFrt i - c.thetaFrt i) ^ 2) / 2 = x2 at *
  generalize ∑ i, (h.vRoom i * airCap / dt * (c''.thetaR i - c'.thetaR i) ^ 2 + h.cSh i / dt * (c''.thetaFrt i - c'.thetaFrt i) ^ 2) / 2 = x3 at *
  linarith

/-- What one step makes of a difference. -/
theorem step_energy {w : I → ℝ} {V : J → (Fin 12 → ℝ) → ℝ} {δ K ρ L : ℝ} (hw : WellFormed h hR dt) (hpt : Partitions h hR) (hC : h.cValue = 0)
    (hρ : 0 ≤ ρ) (hL : 0 ≤ L)
    (HG : ∀ g : Gap h hR dt w,
      energyOf h dt V δ K g.d g.f g.next (fun j l => h.ratio j l * g.y j l) ≤ ρ * energyOf h dt V δ K g.old g.oldF g.x g.y ∧
      (∀ i, g.d i ^ 2 ≤ L * energyOf h dt V δ K g.old g.oldF g.x g.y) ∧ (∀ i, g.f i ^ 2 ≤ L * energyOf h dt V δ K g.old g.oldF g.x g.y) ∧
      (∀ j, g.s j ^ 2 ≤ L * energyOf h dt V δ K g.old g.oldF g.x g.y))
    {ss : PreCalc I J N} {A : Fin N → Record I J} (Hp : makePreCalc h hR dt A = .ok ss) {n : ℤ} {k : Fin N} (hk : pyIndex N n = .ok k)
    (hvent : ∀ i, w i + (∑ l, h.vInt i l + ∑ l, h.vInt l i) / 2 ≤ h.vVentEx i + (A k).vLocal i) (hp : RoomForPeople h dt (A k))
    (hd : ∀ i, (A k).acDemand i ≤ 0) {c c' : Cond I J} {t t' : TickVars I J} (hc : PartitionsEmpty h c) (hc' : PartitionsEmpty h c')
    (H : runTick n dt ss c = .ok t) (H' : runTick n dt ss c' = .ok t') :
    stateEnergy h dt V δ K t.next t'.next ≤ ρ * stateEnergy h dt V δ K c c' ∧ SquareNear (L * stateEnergy h dt V δ K c c') t t' := by
  obtain ⟨g, g1, g2, g3, g4, g5, g6, g7, g8, g9, g10⟩ := step_gap hw hpt hC Hp H H' hk hvent hp hd hc hc'
  have G := HG g
  have hm := energyOf_mono (V := V) (δ := δ) (K := K) (f := g.oldF) (x := g.x) (y := g.y) hw g1
  have hs : energyOf h dt V δ K (fun i => c'.thetaR i - c.thetaR i) g.oldF g.x g.y = stateEnergy h dt V δ K c c' := by rw [g2, g7, g8]; rfl
  rw [hs] at hm
  refine ⟨?_, ?_⟩
  · have h3 := G.1
    have e1 : g.next = pendA h t.next t'.next := by
      funext j l
      unfold Gap.next pendA
      rw [g6, g7, g9]
      rfl
    have e2 : (fun j l => h.ratio j l * g.y j l) = pendT h t.next t'.next := by
      funext j l
      unfold pendT
      rw [g8, g10]
      rfl
    rw [e1, e2, g3, g4] at h3
    exact h3.trans (mul_le_mul_of_nonneg_left hm hρ)
  · have hm := mul_le_mul_of_nonneg_left hm hL
    exact ⟨fun i => by have := G.2.1 i; rw [g3] at this; exact this.trans hm, fun i => by have := G.2.2.1 i; rw [g4] at this; exact this.trans hm,
      fun i => by have := G.2.2.2 i; rw [g5] at this; exact this.trans hm⟩

theorem Spec.Rounded.empty {ε ξ : ℝ} {c c' : Cond I J} (H : Rounded ε ξ c c') (hc : PartitionsEmpty h c) : PartitionsEmpty h c' :=
  fun j hj l => ⟨H.emptyA j l (hc j hj l).1, H.emptyT j l (hc j hj l).2⟩

theorem Spec.RowNear.mono {M M' : ℝ} {a b : LogRow I J} (hM : M ≤ M') (H : RowNear M a b) : RowNear M' a b :=
  ⟨fun i => (H.rooms i).trans hM, fun i => (H.furniture i).trans hM, fun j => (H.surfaces j).trans hM, fun i => (H.radiant i).trans hM,
    fun i => (H.operative i).trans hM⟩

theorem Spec.RowNear.trans {M M' : ℝ} {a b c : LogRow I J} (H : RowNear M a b) (H' : RowNear M' b c) : RowNear (M + M') a c := by
  have key : ∀ {x y z : ℝ}, |y - x| ≤ M → |z - y| ≤ M' → |z - x| ≤ M + M' := fun {x y z} h1 h2 => by
    rw [abs_le] at *
    constructor <;> linarith
  exact ⟨fun i => key (H.rooms i) (H'.rooms i), fun i => key (H.furniture i) (H'.furniture i), fun j => key (H.surfaces j) (H'.surfaces j),
    fun i => key (H.radiant i) (H'.radiant i), fun i => key (H.operative i) (H'.operative i)⟩

/-- A difference that is added to in every step stays small: temperatures. -/
theorem exists_bound {w : I → ℝ} (hw : WellFormed h hR dt) (hP : Passive h hR) (hpt : Partitions h hR)
    (hC : h.cValue = 0) (hw0 : ∀ i, 0 ≤ w i) (hg : ∀ i, 0 < h.gSh i) (hl : LosesHeat h w) :
    ∃ (C : ℝ) (Near : ℝ → Cond I J → Cond I J → Prop), 0 ≤ C ∧ (∀ {ε c c'}, 0 ≤ ε → StateNear ε c c' → Near ε c c') ∧
      ∀ {N : ℕ} {ss : PreCalc I J N} {A : Fin N → Record I J} (_ : makePreCalc h hR dt A = .ok ss) {n : ℤ} {k : Fin N} (_ : pyIndex N n = .ok k)
        (_ : ∀ i, w i + (∑ l, h.vInt i l + ∑ l, h.vInt l i) / 2 ≤ h.vVentEx i + (A k).vLocal i) (_ : RoomForPeople h dt (A k))
        (_ : ∀ i, (A k).acDemand i ≤ 0) {c c' d : Cond I J} {t t' : TickVars I J} (_ : PartitionsEmpty h c) (_ : PartitionsEmpty h c') {ε : ℝ} (_ : 0 ≤ ε)
        (_ : Near ε c c') (_ : runTick n dt ss c = .ok t) (_ : runTick n dt ss c' = .ok t') (_ : StateNear ε t'.next d),
        RowNear (C * ε) (LogRow.ofTick t) (LogRow.ofTick t') ∧ Near ε t.next d := by
  obtain ⟨V, e, κ, δ, K, ρ, L, hV, hδ, hK, hρ0, hρ1, hL, HG⟩ := energy_contracts hw hP hpt hw0 hg hl
  obtain ⟨B, hB, HB⟩ := state_bound hw hV hδ hK
  -- the energy that a difference may reach
  obtain ⟨η, hη, hηρ⟩ : ∃ η : ℝ, 0 < η ∧ (1 + η) * ρ ≤ (1 + ρ) / 2 := ⟨(1 - ρ) / 2, by linarith, by nlinarith⟩
  have hη1 : 0 < 1 / η := by positivity
  obtain ⟨G, hGB, hG0, hG⟩ : ∃ G : ℝ, B ≤ G ∧ 0 ≤ G ∧ (1 + ρ) / 2 * G + (1 + 1 / η) * B ≤ G := by
    refine ⟨2 * (1 + 1 / η) * B / (1 - ρ), ?_, ?_, ?_⟩
    · rw [le_div_iff₀ (by linarith)]
      nlinarith [mul_nonneg hB hρ0, mul_nonneg hη1.le hB]
    · exact div_nonneg (by positivity) (by linarith)
    · have h1 : 2 * (1 + 1 / η) * B / (1 - ρ) * (1 - ρ) = 2 * (1 + 1 / η) * B := div_mul_cancel₀ _ (by linarith)
      generalize 2 * (1 + 1 / η) * B / (1 - ρ) = G at *
      linarith
  refine ⟨√(L * G), fun ε c c' => stateEnergy h dt V δ K c c' ≤ G * ε ^ 2, by positivity,
    fun {ε c c'} _ hn => (HB ε c c' hn).trans (mul_le_mul_of_nonneg_right hGB (sq_nonneg ε)), ?_⟩
  intro N ss A Hp n k hk hvent hp hd c c' d t t' hc hc' ε hε hE a1 b1 b3
  obtain ⟨s1, s2⟩ := step_energy hw hpt hC hρ0 hL HG Hp hk hvent hp hd hc hc' a1 b1
  constructor
  · have hX : 0 ≤ √(L * G) * ε := by positivity
    have r : ∀ {z : ℝ}, z ^ 2 ≤ L * stateEnergy h dt V δ K c c' → |z| ≤ √(L * G) * ε := by
      intro z hz
      refine abs_le_of_sq_le_sq ?_ hX
      refine (hz.trans (mul_le_mul_of_nonneg_left hE hL)).trans (le_of_eq ?_)
      rw [mul_pow, Real.sq_sqrt (by positivity)]
      ring
    exact near_row hw Hp a1 b1 hX (fun i => r (s2.rooms i)) (fun i => r (s2.furniture i)) (fun j => r (s2.surfaces j))
  · have k1 := stateEnergy_add hw hV hδ hK hη t.next t'.next d
    have k2 := HB ε _ _ b3
    have k3 := mul_le_mul_of_nonneg_left (s1.trans (mul_le_mul_of_nonneg_left hE hρ0)) (by positivity : 0 ≤ 1 + η)
    have k4 := mul_le_mul_of_nonneg_left k2 (by positivity : 0 ≤ 1 + 1 / η)
    have k5 := mul_le_mul_of_nonneg_right hηρ (mul_nonneg hG0 (sq_nonneg ε))
    have k6 := mul_le_mul_of_nonneg_right hG (sq_nonneg ε)
    generalize 1 / η = y at *
    show stateEnergy h dt V δ K t.next d ≤ G * ε ^ 2
    linarith

/-- **C134 (partial), any start.** One constant for the house: under any data and over any number of steps, a calculation that is off by up to `ε` in
every step (in the state that it hands on and in the row that it writes) writes rows that are off by at most `C ε`. The house is tight and
free-running; its outer parts may store heat, its partitions do not; the rooms exchange at most twice the air that they get from outdoors.
Missing: leakage, more air between rooms, partitions that store heat, rooms with demand. -/
theorem C134_runs_partial {w : I → ℝ} (hw : WellFormed h hR dt) (hP : Passive h hR) (hpt : Partitions h hR)
    (hC : h.cValue = 0) (hw0 : ∀ i, 0 ≤ w i) (hg : ∀ i, 0 < h.gSh i) (hl : LosesHeat h w) :
    ∃ C : ℝ, 0 ≤ C ∧ ∀ {N : ℕ} {ss : PreCalc I J N} {A : Fin N → Record I J} (_ : makePreCalc h hR dt A = .ok ss)
      (_ : ∀ k i, w i + (∑ l, h.vInt i l + ∑ l, h.vInt l i) / 2 ≤ h.vVentEx i + (A k).vLocal i) (_ : ∀ k, RoomForPeople h dt (A k))
      {c c' : Cond I J} (_ : PartitionsEmpty h c) {ε ξ : ℝ} (_ : 0 ≤ ε) (_ : Rounded ε ξ c c') {ns : List ℤ} {ts : List (TickVars I J)}
      {rows : List (LogRow I J)} (_ : Run ss dt c ns ts) (_ : Inexact ss dt ε ξ c' ns rows) (j : ℕ) (_ : j < ns.length) (h1 : j < ts.length)
      (h2 : j < rows.length)
      (_ : ∀ (l : ℕ) (hl : l < ns.length), l ≤ j → ∀ k : Fin N, pyIndex N ns[l] = .ok k → ∀ i, (A k).acDemand i ≤ 0),
      RowNear (C * ε) (LogRow.ofTick ts[j]) rows[j] := by
  obtain ⟨C, Near, hC0, h0, HS⟩ := exists_bound hw hP hpt hC hw0 hg hl
  refine ⟨C + 1, by positivity, ?_⟩
  intro N ss A Hp hvent hp c c' hc ε ξ hε hcc ns ts rows H H'
  have hE := h0 hε hcc.near
  have hc' := hcc.empty hc
  clear hcc
  induction H generalizing c' rows with
  | nil => intro j hj; simp at hj
  | cons a1 a2 ih =>
    rename_i c n ns t ts
    cases H' with
    | cons b1 b2 b2' b3 b4 =>
      rename_i d t' row rows
      intro j hj h1 h2 hd
      obtain ⟨k, hk⟩ := runTick_index a1
      obtain ⟨s1, s2⟩ := HS Hp hk (hvent k) (hp k) (hd 0 (by simp) (by omega) k hk) hc hc' hε hE a1 b1 b3.near
      cases j with
      | zero =>
        rw [add_mul, one_mul]
        exact s1.trans b2
      | succ j =>
        exact ih (held_empty hpt Hp a1 hc) b4 s2 (b3.empty (held_empty hpt Hp b1 hc')) j (by simpa using hj) (by simpa using h1) (by simpa using h2)
          fun l hl hlj => hd (l + 1) (by simpa using hl) (by omega)

/-- **C134 (partial), humidity.** The same for the humidities, if every room takes in more outdoor air than air of other rooms and its furniture
exchanges moisture with its air: they are off by at most `C (ε + ξ)`, where `ξ` bounds the errors of the humidities in every step. -/
theorem C134_humidity_partial {w u : I → ℝ} (hw : WellFormed h hR dt) (hP : Passive h hR) (hpt : Partitions h hR) (hC : h.cValue = 0)
    (hw0 : ∀ i, 0 ≤ w i) (hg : ∀ i, 0 < h.gSh i) (hl : LosesHeat h w) (hu : ∀ i, 0 < u i) (hgl : ∀ i, 0 < h.gLh i) :
    ∃ C : ℝ, 0 ≤ C ∧ ∀ {N : ℕ} {ss : PreCalc I J N} {A : Fin N → Record I J} (_ : makePreCalc h hR dt A = .ok ss)
      (_ : ∀ k i, w i + (∑ l, h.vInt i l + ∑ l, h.vInt l i) / 2 ≤ h.vVentEx i + (A k).vLocal i)
      (_ : ∀ k i, u i + ∑ l, h.vInt i l ≤ h.vVentEx i + (A k).vLocal i) (_ : ∀ k, RoomForPeople h dt (A k))
      {c c' : Cond I J} (_ : PartitionsEmpty h c) {ε ξ : ℝ} (_ : 0 ≤ ε) (_ : 0 ≤ ξ) (_ : Rounded ε ξ c c') {ns : List ℤ} {ts : List (TickVars I J)}
      {rows : List (LogRow I J)} (_ : Run ss dt c ns ts) (_ : Inexact ss dt ε ξ c' ns rows) (j : ℕ) (_ : j < ns.length) (h1 : j < ts.length)
      (h2 : j < rows.length)
      (_ : ∀ (l : ℕ) (hl : l < ns.length), l ≤ j → ∀ k : Fin N, pyIndex N ns[l] = .ok k → ∀ i, (A k).acDemand i ≤ 0),
      RowHumidNear (C * (ε + ξ)) (LogRow.ofTick ts[j]) rows[j] := by
  obtain ⟨C, Near, hC0, h0, HS⟩ := exists_bound hw hP hpt hC hw0 hg hl
  obtain ⟨ρ, σ, hσ1, hF⟩ := moistFading_exists (u := u) hw hu hgl
  have hσ0 : 0 ≤ σ := hF.nonneg.trans hF.order
  have hκ := peopleMoist_pos
  -- the difference that the humidities may reach
  obtain ⟨Q, hQ1, hQ⟩ : ∃ Q : ℝ, 1 ≤ Q ∧ σ * Q + (peopleMoist * (C + 1) + 1) ≤ Q := by
    refine ⟨(peopleMoist * (C + 1) + 1) / (1 - σ), ?_, ?_⟩
    · rw [le_div_iff₀ (by linarith)]
      nlinarith [mul_nonneg hκ.le hC0]
    · have h1 : (peopleMoist * (C + 1) + 1) / (1 - σ) * (1 - σ) = peopleMoist * (C + 1) + 1 := div_mul_cancel₀ _ (by linarith)
      generalize (peopleMoist * (C + 1) + 1) / (1 - σ) = Q at *
      linarith
  refine ⟨Q, by linarith, ?_⟩
  intro N ss A Hp hvent hvent' hp c c' hc ε ξ hε hξ hcc ns ts rows H H'
  have hE := h0 hε hcc.near
  have hc' := hcc.empty hc
  have hθ : ∀ i, |c'.thetaR i - c.thetaR i| ≤ (C + 1) * ε := fun i => (hcc.near.rooms i).trans (by nlinarith [mul_nonneg hC0 hε])
  have hQε : 0 ≤ Q * (ε + ξ) := mul_nonneg (by linarith) (by linarith)
  have h0x : ξ ≤ Q * (ε + ξ) := by nlinarith
  have hx : HumidNear (Q * (ε + ξ)) c c' := ⟨fun i => (hcc.humid.rooms i).trans h0x, fun i => (hcc.humid.furniture i).trans h0x⟩
  have hle : σ * (Q * (ε + ξ)) + peopleMoist * ((C + 1) * ε) + ξ ≤ Q * (ε + ξ) := by
    have f1 := mul_le_mul_of_nonneg_right hQ (by linarith : 0 ≤ ε + ξ)
    have f2 : 0 ≤ peopleMoist * (C + 1) * ξ := by positivity
    nlinarith
  clear hcc
  induction H generalizing c' rows with
  | nil => intro j hj; simp at hj
  | cons a1 a2 ih =>
    rename_i c n ns t ts
    cases H' with
    | cons b1 b2 b2' b3 b4 =>
      rename_i d t' row rows
      intro j hj h1 h2 hd
      obtain ⟨k, hk⟩ := runTick_index a1
      have hd0 := hd 0 (by simp) (by omega) k hk
      obtain ⟨s1, s2⟩ := HS Hp hk (hvent k) (hp k) hd0 hc hc' hε hE a1 b1 b3.near
      have s3 := step_moist_fade hw hC hF Hp a1 b1 hk hd0 (fun i => ⟨(hu i).le, hvent' k i⟩) (hp k) hQε (by positivity) hx hθ
      have tri : ∀ {x y z X E : ℝ}, |y - x| ≤ X → |z - y| ≤ E → |z - x| ≤ X + E := fun {x y z X E} h1 h2 => by
        rw [abs_le] at *
        constructor <;> linarith
      cases j with
      | zero => exact ⟨fun i => (tri (s3.rooms i) (b2'.rooms i)).trans hle, fun i => (tri (s3.furniture i) (b2'.furniture i)).trans hle⟩
      | succ j =>
        exact ih (held_empty hpt Hp a1 hc) b4 s2 (b3.empty (held_empty hpt Hp b1 hc'))
          (fun i => by rw [add_mul, one_mul]; exact tri (s1.rooms i) (b3.near.rooms i))
          ⟨fun i => (tri (s3.rooms i) (b3.humid.rooms i)).trans hle, fun i => (tri (s3.furniture i) (b3.humid.furniture i)).trans hle⟩
          j (by simpa using hj) (by simpa using h1) (by simpa using h2) fun l hl hlj => hd (l + 1) (by simpa using hl) (by omega)

end

section
variable {I : Type} [Fintype I] [DecidableEq I] {m : ℕ} {h : House I (Fin m)} {hR : Fin m → ℝ}

/-- A row of a calculation as the end of a history without demand. -/
theorem calc_row {hourly : ℤ} {N : ℕ} {A : Fin N → Record I (Fin m)} {dMain dRunUp dBuild : ℤ} {r : CalcResult I m N} {c : Cond I (Fin m)}
    (hgr : ∀ j, h.isGround j = true → h.kEi j = none) (h0 : 0 ≤ dBuild * hourly * 24) (H : coreCalc h hR A hourly dMain dRunUp dBuild = .ok r)
    (hs : updateByGround r.ss.isGround (initialConditions I (Fin m)) r.ground = .ok c) (k : ℕ)
    (hd : NoDemand (fun n => (A n).acDemand) (-(dBuild * hourly * 24)) k) (hk : k < r.nMain.toNat) :
    ∃ (_ : List (List GroundCell)) (ts : List (TickVars I (Fin m))), makePreCalc h hR (3600 / (hourly : ℝ)) A = .ok r.ss ∧ PartitionsEmpty h c ∧
      Run r.ss (3600 / (hourly : ℝ)) c (pyRange (-(dBuild * hourly * 24)) (dMain * hourly * 24)) ts ∧
      ∃ (h1 : (dBuild * hourly * 24).toNat + k < ts.length)
        (_ : (dBuild * hourly * 24).toNat + k < (pyRange (-(dBuild * hourly * 24)) (dMain * hourly * 24)).length),
        r.log ⟨k, hk⟩ = LogRow.ofTick ts[(dBuild * hourly * 24).toNat + k] ∧
        ∀ (l : ℕ) (hl : l < (pyRange (-(dBuild * hourly * 24)) (dMain * hourly * 24)).length), l ≤ (dBuild * hourly * 24).toNat + k →
          ∀ k' : Fin N, pyIndex N (pyRange (-(dBuild * hourly * 24)) (dMain * hourly * 24))[l] = .ok k' → ∀ i, (A k').acDemand i ≤ 0 := by
  obtain ⟨gs, c0, up, mn, T⟩ := coreCalc_ok H
  obtain rfl : c0 = c := Except.ok.inj (T.start.symm.trans hs)
  have hM0 : 0 ≤ dMain * hourly * 24 := by rw [← T.nMain_eq]; exact T.nMain_nonneg
  have R := T.runUp.append T.main
  rw [pyRange_append (by omega) hM0] at R
  have l1 : up.length = (dBuild * hourly * 24).toNat := by rw [T.runUp.length_eq, pyRange_length]; congr 1; ring
  have lm : mn.length = (dMain * hourly * 24).toNat := by rw [T.main.length_eq, pyRange_length]; congr 1; ring
  have hm : k < mn.length := by rw [T.mn_length]; exact hk
  refine ⟨gs, up ++ mn, T.pre, start_partitions hgr T, R, by rw [List.length_append]; omega, by rw [pyRange_length]; omega, ?_, ?_⟩
  · have e : (dBuild * hourly * 24).toNat + k - up.length = k := by omega
    rw [T.logged ⟨k, hk⟩ hm, List.getElem_append_right (by omega)]
    simp only [e]
  · intro l hl hle k' hk' i
    have hsp := pyIndex_spec hk'
    rw [pyRange_getElem] at hsp
    exact hd _ (by omega) (by omega) k' hsp i

/-- **C134 (partial).** One constant for the house: whatever the data and the number of days, a calculation that is off by up to `ε` in every step, from
its start on, gives rows within `C ε` of those of the exact calculation, as long as no room has had demand. -/
theorem C134_rows_partial {hourly : ℤ} {w : I → ℝ} (hw : WellFormed h hR (3600 / (hourly : ℝ))) (hP : Passive h hR) (hpt : Partitions h hR)
    (hgr : ∀ j, h.isGround j = true → h.kEi j = none) (hC : h.cValue = 0) (hw0 : ∀ i, 0 ≤ w i)
    (hg : ∀ i, 0 < h.gSh i) (hl : LosesHeat h w) :
    ∃ C : ℝ, 0 ≤ C ∧ ∀ {N : ℕ} {A : Fin N → Record I (Fin m)} {dMain dRunUp dBuild : ℤ} {r : CalcResult I m N} {ε ξ : ℝ} {c c' : Cond I (Fin m)}
      {rows : List (LogRow I (Fin m))}
      (_ : ∀ k i, w i + (∑ l, h.vInt i l + ∑ l, h.vInt l i) / 2 ≤ h.vVentEx i + (A k).vLocal i) (_ : ∀ k, RoomForPeople h (3600 / (hourly : ℝ)) (A k))
      (_ : 0 ≤ dBuild * hourly * 24) (_ : coreCalc h hR A hourly dMain dRunUp dBuild = .ok r) (_ : 0 ≤ ε)
      (_ : updateByGround r.ss.isGround (initialConditions I (Fin m)) r.ground = .ok c) (_ : Rounded ε ξ c c')
      (_ : Inexact r.ss (3600 / (hourly : ℝ)) ε ξ c' (pyRange (-(dBuild * hourly * 24)) (dMain * hourly * 24)) rows)
      (k : ℕ) (_ : NoDemand (fun n => (A n).acDemand) (-(dBuild * hourly * 24)) k) (hk : k < r.nMain.toNat)
      (hk' : (dBuild * hourly * 24).toNat + k < rows.length),
      RowNear (C * ε) (r.log ⟨k, hk⟩) rows[(dBuild * hourly * 24).toNat + k] := by
  obtain ⟨C, hC0, HR⟩ := C134_runs_partial hw hP hpt hC hw0 hg hl
  refine ⟨C, hC0, ?_⟩
  intro N A dMain dRunUp dBuild r ε ξ c c' rows hvent hp h0 H hε hs hcc hI k hd hk hk'
  obtain ⟨gs, ts, hpre, hemp, R, h1, h2, e, hd'⟩ := calc_row hgr h0 H hs k hd hk
  rw [e]
  exact HR hpre hvent hp hemp hε hcc R hI _ h2 h1 hk' hd'

/-- **C134 (partial), humidity.** The same for the humidities of the rows. -/
theorem C134_rows_humidity_partial {hourly : ℤ} {w u : I → ℝ} (hw : WellFormed h hR (3600 / (hourly : ℝ))) (hP : Passive h hR) (hpt : Partitions h hR)
    (hgr : ∀ j, h.isGround j = true → h.kEi j = none) (hC : h.cValue = 0) (hw0 : ∀ i, 0 ≤ w i)
    (hg : ∀ i, 0 < h.gSh i) (hl : LosesHeat h w) (hu : ∀ i, 0 < u i) (hgl : ∀ i, 0 < h.gLh i) :
    ∃ C : ℝ, 0 ≤ C ∧ ∀ {N : ℕ} {A : Fin N → Record I (Fin m)} {dMain dRunUp dBuild : ℤ} {r : CalcResult I m N} {ε ξ : ℝ} {c c' : Cond I (Fin m)}
      {rows : List (LogRow I (Fin m))}
      (_ : ∀ k i, w i + (∑ l, h.vInt i l + ∑ l, h.vInt l i) / 2 ≤ h.vVentEx i + (A k).vLocal i)
      (_ : ∀ k i, u i + ∑ l, h.vInt i l ≤ h.vVentEx i + (A k).vLocal i) (_ : ∀ k, RoomForPeople h (3600 / (hourly : ℝ)) (A k))
      (_ : 0 ≤ dBuild * hourly * 24) (_ : coreCalc h hR A hourly dMain dRunUp dBuild = .ok r) (_ : 0 ≤ ε) (_ : 0 ≤ ξ)
      (_ : updateByGround r.ss.isGround (initialConditions I (Fin m)) r.ground = .ok c) (_ : Rounded ε ξ c c')
      (_ : Inexact r.ss (3600 / (hourly : ℝ)) ε ξ c' (pyRange (-(dBuild * hourly * 24)) (dMain * hourly * 24)) rows)
      (k : ℕ) (_ : NoDemand (fun n => (A n).acDemand) (-(dBuild * hourly * 24)) k) (hk : k < r.nMain.toNat)
      (hk' : (dBuild * hourly * 24).toNat + k < rows.length),
      RowHumidNear (C * (ε + ξ)) (r.log ⟨k, hk⟩) rows[(dBuild * hourly * 24).toNat + k] := by
  obtain ⟨C, hC0, HR⟩ := C134_humidity_partial hw hP hpt hC hw0 hg hl hu hgl
  refine ⟨C, hC0, ?_⟩
  intro N A dMain dRunUp dBuild r ε ξ c c' rows hvent hvent' hp h0 H hε hξ hs hcc hI k hd hk hk'
  obtain ⟨gs, ts, hpre, hemp, R, h1, h2, e, hd'⟩ := calc_row hgr h0 H hs k hd hk
  rw [e]
  exact HR hpre hvent hvent' hp hemp hε hξ hcc R hI _ h2 h1 hk' hd'

end

/-! ## Concrete cases -/

section
variable {I J : Type} [Fintype I] [DecidableEq I] [Fintype J] [DecidableEq J] {N : ℕ} {dt : ℝ} {ss : PreCalc I J N}

/-- Temperatures of the rooms rounded up by `ε` and their humidities by `ξ`. -/
def roundUp (ε ξ : ℝ) (c : Cond I J) : Cond I J := { c with thetaR := fun i => c.thetaR i + ε, xR := fun i => c.xR i + ξ }

theorem rounded_up {ε ξ : ℝ} (hε : 0 ≤ ε) (hξ : 0 ≤ ξ) (c : Cond I J) : Rounded ε ξ c (roundUp ε ξ c) where
  near := ⟨fun i => by simp [roundUp, abs_of_nonneg hε], fun i => by simpa [roundUp] using hε, fun j => by simpa [roundUp] using hε,
    fun j l => by simpa [roundUp] using hε, fun j l => by simpa [roundUp] using hε⟩
  humid := ⟨fun i => by simp [roundUp, abs_of_nonneg hξ], fun i => by simpa [roundUp] using hξ⟩
  emptyA := fun _ _ hh => hh
  emptyT := fun _ _ hh => hh

/-- A calculation that rounds the temperature and the humidity of every room up in every step, in what it writes and in what it hands on. -/
theorem inexact_exists {ε ξ : ℝ} (hε : 0 ≤ ε) (hξ : 0 ≤ ξ) {P : Cond I J → Prop} {ns : List ℤ} {c : Cond I J} (hc : P c)
    (hP : ∀ n ∈ ns, ∀ c, P c → ∃ t, runTick n dt ss c = .ok t ∧ P (roundUp ε ξ t.next)) :
    ∃ rows, Inexact ss dt ε ξ c ns rows ∧ rows.length = ns.length := by
  induction ns generalizing c with
  | nil => exact ⟨[], .nil c, rfl⟩
  | cons n ns ih =>
    obtain ⟨t, ht, hn⟩ := hP n (by simp) c hc
    obtain ⟨rows, hr, hlen⟩ := ih hn fun n hn => hP n (List.mem_cons_of_mem _ hn)
    refine ⟨{ LogRow.ofTick t with thetaR := fun i => t.thetaR i + ε, xR := fun i => t.xR i + ξ } :: rows,
      .cons ht ?_ ?_ (rounded_up hε hξ t.next) hr, by simp [hlen]⟩
    · exact ⟨fun i => by simp [LogRow.ofTick, abs_of_nonneg hε], fun i => by simpa using hε, fun j => by simpa using hε, fun i => by simpa using hε,
        fun i => by simpa using hε⟩
    · exact ⟨fun i => by simp [LogRow.ofTick, abs_of_nonneg hξ], fun i => by simpa using hξ⟩

end

/-- A day with more local ventilation. -/
noncomputable def exAiryDay : Fin 96 → Record (Fin 2) (Fin 4) := fun k => { exDay k with vLocal := fun _ => 0.1 }

/-- The hypotheses of `C134_rows_partial` and `C134_rows_humidity_partial` are met by a day (after a day of run-up) of the house of
`C110_storing_rows_partial`: any calculation that rounds the temperatures and the humidities of its rooms up in all of its 192 steps. -/
example : ∃ C : ℝ, 0 ≤ C ∧ ∃ r, coreCalc exStore exHR exAiryDay 4 1 1 1 = .ok r ∧ r.nMain.toNat = 96 ∧ ∀ ε ξ : ℝ, 0 ≤ ε → 0 ≤ ξ →
    ∃ rows : List (LogRow (Fin 2) (Fin 4)), rows.length = 192 ∧ (∃ c', Inexact r.ss 900 ε ξ c' (pyRange (-96) 96) rows) ∧
      ∀ k (hk : k < r.nMain.toNat) (hk' : 96 + k < rows.length),
        RowNear (C * ε) (r.log ⟨k, hk⟩) rows[96 + k] ∧ RowHumidNear (C * (ε + ξ)) (r.log ⟨k, hk⟩) rows[96 + k] := by
  have e4 : (3600 / ((4 : ℤ) : ℝ)) = 900 := by norm_num
  have hw : WellFormed exStore exHR (3600 / ((4 : ℤ) : ℝ)) := by rw [e4]; exact exStore_wellFormed
  have hloc : ∀ k i, 0 ≤ (exAiryDay k).vLocal i := fun k i => by fin_cases i <;> norm_num [exAiryDay, exDay]
  obtain ⟨r, H⟩ := C21_program_partial (data := exAiryDay) (dMain := 1) (dRunUp := 1) (dRunUpBuild := 1) hw (fun _ => rfl) (fun _ => rfl)
    hloc (by norm_num) (by norm_num) (by norm_num) le_rfl (by norm_num) (by norm_num)
  obtain ⟨gs, c, up, mn, T⟩ := coreCalc_ok H
  have hgr : ∀ j, exStore.isGround j = true → exStore.kEi j = none := by intro j; fin_cases j <;> simp [exStore]
  have hg : ∀ i, 0 < exStore.gSh i := by intro i; fin_cases i <;> norm_num [exStore, exHouse]
  have hgl : ∀ i, 0 < exStore.gLh i := by intro i; fin_cases i <;> norm_num [exStore, exHouse]
  obtain ⟨C1, hC1, HR⟩ := C134_rows_partial (hourly := 4) (w := fun _ => 0) hw exStore_passive exStore_partitions hgr rfl (fun _ => le_rfl) hg
    exStore_loses
  obtain ⟨C2, hC2, HX⟩ := C134_rows_humidity_partial (hourly := 4) (w := fun _ => 0) (u := fun _ => 0.01) hw exStore_passive exStore_partitions hgr rfl
    (fun _ => le_rfl) hg exStore_loses (fun _ => by norm_num) hgl
  refine ⟨C1 + C2, by linarith, r, H, by rw [T.nMain_eq]; rfl, fun ε ξ hε hξ => ?_⟩
  have hl0 : ∀ i, Legal (c.mode i) := by
    intro i
    have hs := T.start
    unfold updateByGround at hs
    simp only [bind, Except.bind] at hs
    split at hs
    · cases hs
    split at hs
    · cases hs
    cases hs
    exact initial_legal (m := 4) i
  obtain ⟨rows, hI, hlen⟩ := inexact_exists (ss := r.ss) (dt := 3600 / ((4 : ℤ) : ℝ)) hε hξ (P := fun c => ∀ i, Legal (c.mode i))
    (ns := pyRange (-(1 * 4 * 24)) (1 * 4 * 24)) (c := roundUp ε ξ c) hl0 (by
      intro n hn c hc
      rw [mem_pyRange] at hn
      obtain ⟨ss', t, Hp', ht⟩ := C21_step_completes_partial (data := exAiryDay) (n := n) hw (fun _ => rfl) (fun _ => rfl) hloc
        (fun i => legal_iff_ne.mp (hc i)) ⟨by push_cast; omega, by push_cast; omega⟩
      obtain rfl : ss' = r.ss := Except.ok.inj (Hp'.symm.trans T.pre)
      obtain ⟨k, hk⟩ := runTick_index ht
      exact ⟨t, ht, fun i => (step_mode T.pre ht hk hc i).1⟩)
  have hlen : rows.length = 192 := by rw [hlen, pyRange_length]; rfl
  have hp : ∀ k, RoomForPeople exStore (3600 / ((4 : ℤ) : ℝ)) (exAiryDay k) := by
    intro k i
    rw [e4]
    fin_cases i <;> norm_num [exStore, exHouse, exAiryDay, exDay, airCap]
  refine ⟨rows, hlen, ⟨_, by rw [e4] at hI; exact hI⟩, fun k hk hk' => ⟨?_, ?_⟩⟩
  · have : RowNear (C1 * ε) (r.log ⟨k, hk⟩) rows[96 + k] := HR (fun k i => by fin_cases i <;> norm_num [exStore, exHouse, exAiryDay, exDay, Fin.sum_univ_two]) hp (by norm_num) H hε T.start
      (rounded_up hε hξ c) hI k (fun _ _ _ _ _ _ => le_rfl) hk hk'
    exact this.mono (mul_le_mul_of_nonneg_right (le_add_of_nonneg_right hC2) hε)
  · have : RowHumidNear (C2 * (ε + ξ)) (r.log ⟨k, hk⟩) rows[96 + k] := HX (fun k i => by fin_cases i <;> norm_num [exStore, exHouse, exAiryDay, exDay, Fin.sum_univ_two])
      (fun k i => by fin_cases i <;> norm_num [exStore, exHouse, exAiryDay, exDay, Fin.sum_univ_two]) hp (by norm_num) H hε hξ T.start
      (rounded_up hε hξ c) hI k (fun _ _ _ _ _ _ => le_rfl) hk hk'
    exact this.mono (mul_le_mul_of_nonneg_right (le_add_of_nonneg_left hC1) (add_nonneg hε hξ))

end HLC
