import Verif.Lemmas.ExampleHouse
import Mathlib.Tactic.Positivity

/-!
# C13-C18, C23: identities satisfied by every completed step

All theorems quantify over every house (any number of rooms and boundaries), every time record, every previous state `c` and
every step number `n`; the only assumption is that preparation and step returned.
-/

namespace HLC

set_option linter.unusedSectionVars false

variable {I J : Type} [Fintype I] [DecidableEq I] [Fintype J] [DecidableEq J] {N : ℕ}

open Spec

variable {h : House I J} {hR : J → ℝ} {dt : ℝ} {data : Fin N → Record I J} {ss : PreCalc I J N} {n : ℤ} {k : Fin N}
  {c : Cond I J} {t : TickVars I J}

/-- **C13.** The operative temperature of each room is the mean of its air temperature and of the mean radiant temperature (of the
same step) weighted with the convective and radiative coefficients around the occupant. -/
theorem C13_operative_temperature (Hp : makePreCalc h hR dt data = .ok ss) (H : runTick n dt ss c = .ok t) (i : I) :
    t.thetaOt i = (hHumC * t.thetaR i + hHumR * ∑ j ∈ surfaces h i, h.fMrtHum j * t.thetaS j) / (hHumC + hHumR) := by
  obtain ⟨ivs, k, -, hs, -, e⟩ := step_eqs Hp H
  have := ot_system e i
  obtain ⟨e1, e2⟩ := ot_coefs (e.ot i)
  have hm : t.thetaMrt i = ∑ j ∈ surfaces h i, h.fMrtHum j * t.thetaS j := by
    rw [e.thetaMrt, hs]; exact fMrtHum_mulVec h _ i
  rw [this, hm, Tick.kc, Tick.kr, e1, e2]
  ring

/-- The room air balance exactly as the program closes it: the inter-room term is `-c rho sum(vInt θ)`. -/
theorem C14_balance_as_coded (Hp : makePreCalc h hR dt data = .ok ss) (H : runTick n dt ss c = .ok t)
    (hk : pyIndex N n = .ok k) (i : I) (hf : h.cSh i + dt * h.gSh i ≠ 0) :
    h.vRoom i * airCap * (t.thetaR i - c.thetaR i) / dt
      = convection h i (t.thetaR i) t.thetaS + h.gSh i * (t.thetaFrt i - t.thetaR i)
        + airCap * t.vOut i * ((data k).thetaO - t.thetaR i) - airCap * ∑ l, h.vInt i l * t.thetaR l
        + (data k).qGen i + t.qHum i + t.lc i + h.beta i * t.lr i := by
  obtain ⟨ivs, k', -, hs, hk', e⟩ := step_eqs Hp H
  have : k' = k := Except.ok.inj (hk'.symm.trans hk)
  subst this
  subst hs
  have hr := room_system e i
  rw [e.brm, e.brc] at hr
  simp only [Tick.brm, Tick.brc, preCalcOf, House.brmNonVent, House.brl, Matrix.add_mulVec, Matrix.smul_mulVec, Pi.add_apply,
    Matrix.mulVec_diagonal, Pi.smul_apply, smul_eq_mul, ← Matrix.mulVec_mulVec, p_mulVec] at hr
  -- convection terms
  have hconv : convection h i (t.thetaR i) t.thetaS
      = ∑ j ∈ surfaces h i, (Matrix.of fun j i => (ivs * h.flb hR) j i * h.hC j * h.area j).mulVec t.lr j
        + ∑ j ∈ surfaces h i, h.hC j * h.area j * (ivs.mulVec (h.crx hR (data k')) j + t.wsv j)
        - ∑ j ∈ surfaces h i,
            (Matrix.of fun j i => (h.p.transpose j i - (ivs * h.fia hR) j i) * h.area j * h.hC j).mulVec t.thetaR j := by
    unfold convection
    rw [← Finset.sum_add_distrib, ← Finset.sum_sub_distrib]
    apply Finset.sum_congr rfl
    intro j hj
    have hroom : h.room j = i := by simpa [surfaces] using hj
    have eS := congrFun e.thetaS j
    simp only [Tick.thetaS, preCalcOf] at eS
    have a1 : (Matrix.of fun j i => (ivs * h.flb hR) j i * h.hC j * h.area j).mulVec t.lr j
        = h.hC j * h.area j * (ivs * h.flb hR).mulVec t.lr j := by
      rw [← rowScale_mulVec (fun j => h.hC j * h.area j)]
      congr 2
      ext a b
      ring
    have a2 : (Matrix.of fun j i => (h.p.transpose j i - (ivs * h.fia hR) j i) * h.area j * h.hC j).mulVec t.thetaR j
        = h.area j * h.hC j * (t.thetaR i - (ivs * h.fia hR).mulVec t.thetaR j) := by
      rw [← hroom, ← pT_mulVec h t.thetaR j, ← Pi.sub_apply, ← Matrix.sub_mulVec,
        ← rowScale_mulVec (fun j => h.area j * h.hC j)]
      congr 2
      ext a b
      simp only [Matrix.sub_apply]; ring
    rw [a1, a2, eS]
    ring
  -- furniture term
  have hfrt : h.gSh i * (t.thetaFrt i - t.thetaR i)
      = h.gSh i * (h.cSh i * c.thetaFrt i + House.qSolFrt (data k') i * dt) / (h.cSh i + dt * h.gSh i)
        - h.cSh i * h.gSh i / (h.cSh i + h.gSh i * dt) * t.thetaR i := by
    rw [e.thetaFrt]
    simp only [Tick.thetaFrt, preCalcOf]
    have hf' : h.cSh i + h.gSh i * dt ≠ 0 := by rwa [mul_comm (h.gSh i)]
    field_simp
    ring
  rw [hconv, hfrt]
  have hcap : cAir * rhoAir = airCap := rfl
  have hcrm : h.cRm i = h.vRoom i * airCap := by unfold House.cRm airCap rhoAir cAir; ring
  have hint : h.vInt.mulVec t.thetaR i = ∑ l, h.vInt i l * t.thetaR l := rfl
  rw [hcap, hcrm, hint] at hr
  have hstore : h.vRoom i * airCap * (t.thetaR i - c.thetaR i) / dt
      = h.vRoom i * airCap / dt * t.thetaR i - h.vRoom i * airCap / dt * c.thetaR i := by ring
  rw [hstore]
  linarith

/-- **C14 (partial).** The physical heat balance of the room air closes for every room into which no air flows from other rooms.
Missing: rooms with inter-room inflow, where the program's term has the wrong sign (`C14_balance_as_coded`,
`C14_residual`). -/
theorem C14_room_balance_partial (Hp : makePreCalc h hR dt data = .ok ss) (H : runTick n dt ss c = .ok t)
    (hk : pyIndex N n = .ok k) (i : I) (hf : h.cSh i + dt * h.gSh i ≠ 0) (hv : ∀ l, h.vInt i l = 0) :
    h.vRoom i * airCap * (t.thetaR i - c.thetaR i) / dt
      = convection h i (t.thetaR i) t.thetaS + h.gSh i * (t.thetaFrt i - t.thetaR i)
        + airCap * t.vOut i * ((data k).thetaO - t.thetaR i) + interRoomHeat h i t.thetaR
        + (data k).qGen i + t.qHum i + t.lc i + h.beta i * t.lr i := by
  rw [C14_balance_as_coded Hp H hk i hf]
  simp [interRoomHeat, hv]

/-- **C14 (residual).** With inter-room air flow the physical balance is violated by exactly `c rho Σ v (2 θ_l - θ_i)` watts: the
balance closes if and only if that sum vanishes. -/
theorem C14_residual (Hp : makePreCalc h hR dt data = .ok ss) (H : runTick n dt ss c = .ok t)
    (hk : pyIndex N n = .ok k) (i : I) (hf : h.cSh i + dt * h.gSh i ≠ 0) :
    h.vRoom i * airCap * (t.thetaR i - c.thetaR i) / dt
      = convection h i (t.thetaR i) t.thetaS + h.gSh i * (t.thetaFrt i - t.thetaR i)
        + airCap * t.vOut i * ((data k).thetaO - t.thetaR i) + interRoomHeat h i t.thetaR
        + (data k).qGen i + t.qHum i + t.lc i + h.beta i * t.lr i
    ↔ ∑ l, h.vInt i l * (2 * t.thetaR l - t.thetaR i) = 0 := by
  rw [C14_balance_as_coded Hp H hk i hf]
  have hcap : airCap ≠ 0 := by unfold airCap; norm_num
  have e1 : ∑ l, h.vInt i l * (2 * t.thetaR l - t.thetaR i)
      = ∑ l, h.vInt i l * t.thetaR l + ∑ l, h.vInt i l * (t.thetaR l - t.thetaR i) := by
    rw [← Finset.sum_add_distrib]; apply Finset.sum_congr rfl; intro l _; ring
  rw [e1]
  unfold interRoomHeat
  constructor
  · intro h1
    have : airCap * (∑ l, h.vInt i l * t.thetaR l + ∑ l, h.vInt i l * (t.thetaR l - t.thetaR i)) = 0 := by
      rw [mul_add]; linarith
    exact (mul_eq_zero.mp this).resolve_left hcap
  · intro h1
    have : airCap * (∑ l, h.vInt i l * t.thetaR l + ∑ l, h.vInt i l * (t.thetaR l - t.thetaR i)) = 0 := by
      rw [h1, mul_zero]
    rw [mul_add] at this
    linarith

/-- **C15 (heat).** The heat stored in the furniture changes by the exchange with the room air plus its absorbed solar heat. -/
theorem C15_furniture_heat (Hp : makePreCalc h hR dt data = .ok ss) (H : runTick n dt ss c = .ok t)
    (hk : pyIndex N n = .ok k) (i : I) (hf : h.cSh i + dt * h.gSh i ≠ 0) :
    h.cSh i * (t.thetaFrt i - c.thetaFrt i) = dt * (h.gSh i * (t.thetaR i - t.thetaFrt i) + (data k).qTrsSol i * 0.5) := by
  obtain ⟨ivs, k', -, hs, hk', e⟩ := step_eqs Hp H
  have : k' = k := Except.ok.inj (hk'.symm.trans hk)
  subst this
  subst hs
  have e1 : t.thetaFrt i * (h.cSh i + dt * h.gSh i)
      = h.cSh i * c.thetaFrt i + dt * h.gSh i * t.thetaR i + (data k').qTrsSol i * 0.5 * dt := by
    rw [e.thetaFrt]
    simp only [Tick.thetaFrt, preCalcOf, House.qSolFrt, House.rSolFnt]
    exact div_mul_cancel₀ _ hf
  linarith

/-- **C15 (moisture).** The moisture stored in the furniture changes by the exchange with the room air. -/
theorem C15_furniture_moisture (Hp : makePreCalc h hR dt data = .ok ss) (H : runTick n dt ss c = .ok t)
    (i : I) (hf : h.cLh i + dt * h.gLh i ≠ 0) :
    h.cLh i * (t.xFrt i - c.xFrt i) = dt * (h.gLh i * (t.xR i - t.xFrt i)) := by
  obtain ⟨ivs, k', -, hs, hk', e⟩ := step_eqs Hp H
  subst hs
  have e1 : t.xFrt i * (h.cLh i + dt * h.gLh i) = h.cLh i * c.xFrt i + dt * h.gLh i * t.xR i := by
    rw [e.xFrt]
    simp only [Tick.xFrt, preCalcOf]
    exact div_mul_cancel₀ _ hf
  linarith

/-- **C15 (range).** Without absorbed sun the furniture temperature lies between its old value and the new room temperature, and the
furniture humidity between its old value and the new room humidity. -/
theorem C15_furniture_between (Hp : makePreCalc h hR dt data = .ok ss) (H : runTick n dt ss c = .ok t)
    (hk : pyIndex N n = .ok k) (i : I) (hdt : 0 < dt) :
    (0 ≤ h.cSh i → 0 ≤ h.gSh i → 0 < h.cSh i + h.gSh i → (data k).qTrsSol i = 0 →
      min (c.thetaFrt i) (t.thetaR i) ≤ t.thetaFrt i ∧ t.thetaFrt i ≤ max (c.thetaFrt i) (t.thetaR i)) ∧
    (0 ≤ h.cLh i → 0 ≤ h.gLh i → 0 < h.cLh i + h.gLh i →
      min (c.xFrt i) (t.xR i) ≤ t.xFrt i ∧ t.xFrt i ≤ max (c.xFrt i) (t.xR i)) := by
  have key : ∀ a g x y z : ℝ, 0 ≤ a → 0 ≤ g → 0 < a + g → a * (z - x) = dt * (g * (y - z)) →
      min x y ≤ z ∧ z ≤ max x y := by
    intro a g x y z ha hg hag hz
    have hpos : 0 < a + dt * g := by
      rcases lt_or_eq_of_le ha with h1 | h1
      · have := mul_nonneg hdt.le hg; linarith
      · have : 0 < g := by linarith
        have := mul_pos hdt this; linarith
    have e1 : (a + dt * g) * z = a * x + dt * g * y := by linarith
    have hdg := mul_nonneg hdt.le hg
    constructor
    · by_contra hc
      push Not at hc
      have h1 : z < x := lt_of_lt_of_le hc (min_le_left _ _)
      have h2 : z < y := lt_of_lt_of_le hc (min_le_right _ _)
      nlinarith [mul_nonneg ha (sub_nonneg.mpr h1.le), mul_nonneg hdg (sub_nonneg.mpr h2.le), mul_pos hpos (sub_pos.mpr hc),
        mul_nonneg ha (sub_nonneg.mpr (min_le_left x y)), mul_nonneg hdg (sub_nonneg.mpr (min_le_right x y))]
    · by_contra hc
      push Not at hc
      nlinarith [mul_pos hpos (sub_pos.mpr hc),
        mul_nonneg ha (sub_nonneg.mpr (le_max_left x y)), mul_nonneg hdg (sub_nonneg.mpr (le_max_right x y))]
  have nz : ∀ a g : ℝ, 0 ≤ a → 0 ≤ g → 0 < a + g → a + dt * g ≠ 0 := by
    intro a g ha hg hag
    rcases lt_or_eq_of_le ha with h1 | h1
    · have := mul_nonneg hdt.le hg; exact ne_of_gt (by linarith)
    · have : 0 < g := by linarith
      have := mul_pos hdt this; exact ne_of_gt (by linarith)
  constructor
  · intro h1 h2 h3 h4
    apply key _ _ _ _ _ h1 h2 h3
    have := C15_furniture_heat Hp H hk i (nz _ _ h1 h2 h3)
    rw [h4] at this
    linarith
  · intro h1 h2 h3
    exact key _ _ _ _ _ h1 h2 h3 (C15_furniture_moisture Hp H i (nz _ _ h1 h2 h3))

/-- **C16.** The surface heat flux is convection + radiation to the other surfaces of the room + absorbed solar + absorbed radiant
heating. -/
theorem C16_surface_flux (Hp : makePreCalc h hR dt data = .ok ss) (H : runTick n dt ss c = .ok t)
    (hk : pyIndex N n = .ok k) (j : J) (hh : h.hC j + hR j ≠ 0) :
    t.qSrf j = h.hC j * (t.thetaR (h.room j) - t.thetaS j)
      + hR j * (roomMrt h hR (h.room j) t.thetaS - t.thetaS j)
      + h.qSol (data k) j
      + h.flr j * (1 - h.beta (h.room j)) * t.lr (h.room j) / h.area j := by
  obtain ⟨ivs, k', -, hs, hk', e⟩ := step_eqs Hp H
  have : k' = k := Except.ok.inj (hk'.symm.trans hk)
  subst this
  subst hs
  have e1 : t.thetaEi j * (h.hC j + hR j) = h.hC j * t.thetaR (h.room j)
      + hR j * roomMrt h hR (h.room j) t.thetaS + h.qSol (data k') j
      + h.flr j * ((1 - h.beta (h.room j)) * t.lr (h.room j)) / h.area j := by
    rw [e.thetaEi]
    simp only [Tick.thetaEi, preCalcOf]
    rw [div_mul_cancel₀ _ hh, pT_mulVec, pT_fMrt_mulVec, flr_mulVec]
  have e2 : t.qSrf j = (t.thetaEi j - t.thetaS j) * (h.hC j + hR j) := by rw [e.qSrf]; rfl
  rw [e2, sub_mul, e1]
  ring

/-- **C17 (partial).** Surface temperature = φa0·flux + φt0·rear temperature (of the same step) + convolution terms, for every boundary
that has no partner behind it, or whose partner has the same coefficients and area (in particular itself).
Missing: partners with different coefficients; there the step uses the boundary's own coefficients for the partner
(`C17_equation_as_coded`). -/
theorem C17_wall_equation_partial (Hp : makePreCalc h hR dt data = .ok ss) (H : runTick n dt ss c = .ok t)
    (hk : pyIndex N n = .ok k) (j : J) (hh : h.hC j + hR j ≠ 0)
    (hm : ∀ m coef, h.kEi j = some (m, coef) → h.hC m = h.hC j ∧ hR m = hR j ∧ h.area m = h.area j) :
    t.thetaS j = h.phiA0 j * t.qSrf j + h.phiT0 j * rearTemp h (data k).thetaOSol t.thetaEi j
      + ∑ m, (t.dshT j m + t.dshA j m) := by
  have hflux := C16_surface_flux Hp H hk j hh
  obtain ⟨ivs, k', hi, hs, hk', e⟩ := step_eqs Hp H
  have : k' = k := Except.ok.inj (hk'.symm.trans hk)
  subst this
  subst hs
  have hsys := congrFun (surface_system hi e) j
  rw [ax_mulVec, fia_mulVec, flb_mulVec] at hsys
  simp only [House.crx, House.hI, House.thetaDstrb, kEi_mulVec] at hsys
  have hei : ∀ m, h.hC m + hR m ≠ 0 → t.thetaEi m = (h.hC m * t.thetaR (h.room m)
      + hR m * roomMrt h hR (h.room m) t.thetaS + h.qSol (data k') m
      + h.flr m * ((1 - h.beta (h.room m)) * t.lr (h.room m)) / h.area m) / (h.hC m + hR m) := by
    intro m _
    rw [e.thetaEi]
    simp only [Tick.thetaEi, preCalcOf]
    rw [pT_mulVec, pT_fMrt_mulVec, flr_mulVec]
  unfold rearTemp
  rw [hflux]
  simp only [Tick.cvl] at hsys
  cases hK : h.kEi j with
  | none =>
    simp only [hK] at hsys
    simp only [mul_zero, add_zero, sub_zero] at hsys
    linear_combination hsys
  | some mc =>
    obtain ⟨m, coef⟩ := mc
    obtain ⟨h1, h2, h3⟩ := hm m coef hK
    simp only [hK] at hsys
    have hei' := hei m (by rw [h1, h2]; exact hh)
    rw [h1, h2, h3] at hei'
    simp only []
    rw [hei']
    linear_combination hsys

/-- The wall equation as the program closes it: the partner's equivalent temperature is evaluated with the boundary's own convective
and radiative coefficient and area. -/
theorem C17_equation_as_coded (Hp : makePreCalc h hR dt data = .ok ss) (H : runTick n dt ss c = .ok t)
    (hk : pyIndex N n = .ok k) (j : J) (hh : h.hC j + hR j ≠ 0) (m : J) (coef : ℝ) (hK : h.kEi j = some (m, coef)) :
    t.thetaS j = h.phiA0 j * t.qSrf j
      + h.phiT0 j * (h.kEo j * (data k).thetaOSol j
          + coef * ((h.hC j * t.thetaR (h.room m) + hR j * roomMrt h hR (h.room m) t.thetaS + h.qSol (data k) m
              + h.flr m * ((1 - h.beta (h.room m)) * t.lr (h.room m)) / h.area j) / (h.hC j + hR j)))
      + ∑ m, (t.dshT j m + t.dshA j m) := by
  have hflux := C16_surface_flux Hp H hk j hh
  obtain ⟨ivs, k', hi, hs, hk', e⟩ := step_eqs Hp H
  have : k' = k := Except.ok.inj (hk'.symm.trans hk)
  subst this
  subst hs
  have hsys := congrFun (surface_system hi e) j
  rw [ax_mulVec, fia_mulVec, flb_mulVec] at hsys
  simp only [House.crx, House.hI, House.thetaDstrb, kEi_mulVec] at hsys
  rw [hflux]
  simp only [Tick.cvl] at hsys
  simp only [hK] at hsys
  linear_combination hsys

/-- **C17 (residual).** For a boundary with a partner of any coefficients the wall equation holds exactly if the partner's reported
equivalent temperature agrees with the one formed with the boundary's own coefficients and area (or nothing is transmitted). -/
theorem C17_residual (Hp : makePreCalc h hR dt data = .ok ss) (H : runTick n dt ss c = .ok t)
    (hk : pyIndex N n = .ok k) (j : J) (hh : h.hC j + hR j ≠ 0) (m : J) (coef : ℝ) (hK : h.kEi j = some (m, coef)) :
    t.thetaS j = h.phiA0 j * t.qSrf j + h.phiT0 j * rearTemp h (data k).thetaOSol t.thetaEi j
      + ∑ m, (t.dshT j m + t.dshA j m) ↔
    h.phiT0 j * coef * (t.thetaEi m - (h.hC j * t.thetaR (h.room m) + hR j * roomMrt h hR (h.room m) t.thetaS
      + h.qSol (data k) m + h.flr m * ((1 - h.beta (h.room m)) * t.lr (h.room m)) / h.area j) / (h.hC j + hR j)) = 0 := by
  have e := C17_equation_as_coded Hp H hk j hh m coef hK
  unfold rearTemp
  rw [hK]
  simp only []
  constructor
  · intro h1; linear_combination e - h1
  · intro h1; linear_combination e - h1

/-- The moisture balance exactly as the program closes it: the inter-room term is `+ rho sum(vInt x)` without outflow. -/
theorem C18_balance_as_coded (Hp : makePreCalc h hR dt data = .ok ss) (H : runTick n dt ss c = .ok t)
    (hk : pyIndex N n = .ok k) (i : I) (hf : h.cLh i + dt * h.gLh i ≠ 0) :
    1.2 * h.vRoom i * (t.xR i - c.xR i) / dt
      = 1.2 * t.vOut i * ((data k).xO - t.xR i) + 1.2 * ∑ l, h.vInt i l * t.xR l
        + h.gLh i * (t.xFrt i - t.xR i) + (data k).xGen i + t.xHum i + t.lCl i / lWtr := by
  obtain ⟨ivs, k', -, hs, hk', e⟩ := step_eqs Hp H
  have : k' = k := Except.ok.inj (hk'.symm.trans hk)
  subst this
  subst hs
  have hx := congrFun e.xR.2 i
  rw [e.brmxNonDh, e.brxcNonDh] at hx
  simp only [Tick.brmx, Tick.brxc, Tick.brmxNonDh, Tick.brxcNonDh, preCalcOf, Matrix.add_mulVec, Matrix.smul_mulVec,
    Matrix.sub_mulVec, Pi.add_apply, Pi.smul_apply, Pi.sub_apply, Matrix.mulVec_diagonal, smul_eq_mul] at hx
  have hl : t.lCl i / lWtr = -((t.rac i).brmx * t.xR i - (t.rac i).brxc) := by
    rw [e.lCl]
    simp only [Tick.lCl, Matrix.mulVec_diagonal]
    have : lWtr ≠ 0 := by unfold lWtr; norm_num
    exact mul_div_cancel_right₀ _ this
  have hfrt : h.gLh i * (t.xFrt i - t.xR i) = h.cLh i * h.gLh i / (h.cLh i + dt * h.gLh i) * (c.xFrt i - t.xR i) := by
    rw [e.xFrt]
    simp only [Tick.xFrt, preCalcOf]
    rw [div_mul_eq_mul_div, eq_div_iff hf, mul_assoc, sub_mul, div_mul_cancel₀ _ hf]
    ring
  have hint : h.vInt.mulVec t.xR i = ∑ l, h.vInt i l * t.xR l := rfl
  rw [hint] at hx
  rw [hl, hfrt]
  have hrho : rhoAir = 1.2 := rfl
  rw [hrho] at hx
  have hstore : 1.2 * h.vRoom i * (t.xR i - c.xR i) / dt
      = 1.2 * (h.vRoom i / dt * t.xR i) - 1.2 * (h.vRoom i / dt * c.xR i) := by ring
  rw [hstore]
  linarith

/-- **C18 (partial).** The vapour balance of the room air closes for every room without inflow from other rooms; the reported latent
load is minus the dehumidification times the heat of evaporation.
Missing: rooms with inter-room inflow (`C18_residual`). -/
theorem C18_moisture_balance_partial (Hp : makePreCalc h hR dt data = .ok ss) (H : runTick n dt ss c = .ok t)
    (hk : pyIndex N n = .ok k) (i : I) (hf : h.cLh i + dt * h.gLh i ≠ 0) (hv : ∀ l, h.vInt i l = 0) :
    1.2 * h.vRoom i * (t.xR i - c.xR i) / dt
      = 1.2 * t.vOut i * ((data k).xO - t.xR i) + interRoomVapour h i t.xR
        + h.gLh i * (t.xFrt i - t.xR i) + (data k).xGen i + t.xHum i + t.lCl i / 2501000 := by
  rw [C18_balance_as_coded Hp H hk i hf]
  simp [interRoomVapour, hv, lWtr]

/-- **C18 (residual).** With inter-room inflow the vapour balance closes if and only if the inflow vanishes or the room is dry: the
program forgets the air that the inflow displaces. -/
theorem C18_residual (Hp : makePreCalc h hR dt data = .ok ss) (H : runTick n dt ss c = .ok t)
    (hk : pyIndex N n = .ok k) (i : I) (hf : h.cLh i + dt * h.gLh i ≠ 0) :
    1.2 * h.vRoom i * (t.xR i - c.xR i) / dt
      = 1.2 * t.vOut i * ((data k).xO - t.xR i) + interRoomVapour h i t.xR
        + h.gLh i * (t.xFrt i - t.xR i) + (data k).xGen i + t.xHum i + t.lCl i / 2501000
    ↔ (∑ l, h.vInt i l) * t.xR i = 0 := by
  rw [C18_balance_as_coded Hp H hk i hf]
  have e1 : interRoomVapour h i t.xR = 1.2 * ∑ l, h.vInt i l * t.xR l - 1.2 * ((∑ l, h.vInt i l) * t.xR i) := by
    unfold interRoomVapour
    rw [← mul_sub, Finset.sum_mul, ← Finset.sum_sub_distrib]
    congr 1
    apply Finset.sum_congr rfl; intro l _; ring
  rw [e1, show lWtr = 2501000 from rfl]
  constructor
  · intro h1; linarith
  · intro h1; rw [h1]; linarith

/-- **C23.** Natural ventilation is added exactly in rooms whose mode is STOP_OPEN (so never while heating or cooling); the outside-air
flow is infiltration + mechanical + natural, hence at least the mechanical flow. -/
theorem C23_natural_ventilation (Hp : makePreCalc h hR dt data = .ok ss) (H : runTick n dt ss c = .ok t)
    (hk : pyIndex N n = .ok k) (i : I) :
    (t.next.mode i = .stopOpen → t.vNtrl i = h.vNtrl i) ∧
    (t.next.mode i ≠ .stopOpen → t.vNtrl i = 0) ∧
    t.vOut i = t.vLeak i + (h.vVentEx i + (data k).vLocal i) + t.vNtrl i ∧
    (0 ≤ h.vRoom i → 0 ≤ h.vNtrl i → h.vVentEx i + (data k).vLocal i ≤ t.vOut i) := by
  obtain ⟨ivs, k', -, hs, hk', e⟩ := step_eqs Hp H
  have : k' = k := Except.ok.inj (hk'.symm.trans hk)
  subst this
  subst hs
  have en : t.vNtrl i = if (t.ot i).mode = .stopOpen then h.vNtrl i else 0 := by rw [e.vNtrl]; rfl
  have eo : t.vOut i = t.vLeak i + (h.vVentEx i + (data k').vLocal i) + t.vNtrl i := by rw [e.vOut]; rfl
  refine ⟨fun hm => ?_, fun hm => ?_, eo, fun hv hn => ?_⟩
  · have hm' : (t.ot i).mode = .stopOpen := hm
    rw [en, if_pos hm']
  · have hm' : (t.ot i).mode ≠ .stopOpen := hm
    rw [en, if_neg hm']
  · have hleak : 0 ≤ t.vLeak i := by
      have := e.vLeak
      unfold getInfiltration at this
      simp only [bind, Except.bind] at this
      split at this
      · cases this
      split at this
      · cases this
      split at this
      · cases this
      rw [← Except.ok.inj this]
      simp only [preCalcOf]
      have := le_max_right (0.022 : ℝ) 0
      positivity
    have hnat : 0 ≤ t.vNtrl i := by rw [en]; split_ifs <;> linarith
    linarith

/-- The hypotheses of C13-C18 and C23 are met by the first run-up step of the example house (record 2, room 0 without inflow; room 1
with inflow), with every furniture denominator and coefficient sum non-zero. -/
example : ∃ ss t, makePreCalc exHouse exHR 900 exData = .ok ss ∧ runTick (-1) 900 ss (initialConditions (Fin 2) (Fin 4)) = .ok t ∧
    pyIndex 3 (-1) = .ok 2 ∧ (∀ i, exHouse.cSh i + 900 * exHouse.gSh i ≠ 0) ∧ (∀ i, exHouse.cLh i + 900 * exHouse.gLh i ≠ 0) ∧
    (∀ l, exHouse.vInt 0 l = 0) ∧ exHouse.vInt 1 0 ≠ 0 ∧ (∀ j, exHouse.hC j + exHR j ≠ 0) ∧
    (∀ j m coef, exHouse.kEi j = some (m, coef) →
      exHouse.hC m = exHouse.hC j ∧ exHR m = exHR j ∧ exHouse.area m = exHouse.area j) := by
  obtain ⟨ss, t, h1, h2⟩ := exHouse_first
  refine ⟨ss, t, h1, h2, by simp [pyIndex], ?_, ?_, ?_, ?_, ?_, ?_⟩
  · intro i; fin_cases i <;> norm_num [exHouse]
  · intro i; fin_cases i <;> norm_num [exHouse]
  · intro l; fin_cases l <;> simp [exHouse]
  · norm_num [exHouse]
  · intro j; fin_cases j <;> norm_num [exHouse, exHR]
  · intro j m coef; fin_cases j <;> simp [exHouse, exHR] <;> rintro rfl _ <;> simp

end HLC
