import Verif.Props.Cycle
import Verif.Props.Equilibrium

/-!
# C95: the calculation stands still exactly where the heat balance of the house is closed
-/

namespace HLC

set_option linter.unusedSectionVars false

open Spec Finset

variable {I J : Type} [Fintype I] [DecidableEq I] [Fintype J] [DecidableEq J] {N : ℕ} {h : House I J} {hR : J → ℝ}
  {data : Fin N → Record I J} {dt : ℝ} {ss : PreCalc I J N} {n : ℤ} {k : Fin N} {c : Cond I J} {t : TickVars I J} {j : J}

/-- Resistance in series. -/
theorem series_iff (hh : 0 < h.hC j + hR j) (hres : 0 ≤ resistance h j) (e b θ : ℝ) :
    (h.hC j + hR j) * (e - θ) = uValue h hR j * (e - b) ↔ θ = resistance h j * ((h.hC j + hR j) * (e - θ)) + b := by
  have hpos : 0 < 1 / (h.hC j + hR j) + resistance h j := by have := one_div_pos.2 hh; linarith
  unfold uValue
  rw [one_div_mul_eq_div, eq_div_iff hpos.ne']
  have e1 : (h.hC j + hR j) * (e - θ) * (1 / (h.hC j + hR j) + resistance h j)
      = (e - θ) + resistance h j * ((h.hC j + hR j) * (e - θ)) := by
    rw [mul_add, mul_comm _ (1 / (h.hC j + hR j)), ← mul_assoc, one_div_mul_cancel hh.ne', one_mul]
    ring
  rw [e1]
  constructor <;> intro h0 <;> linarith

/-- **C95 (only there).** If a step leaves the house with the heat it had, the temperatures it computed balance all heat flows.
Missing: rooms with air from other rooms, partitions with uneven sides. -/
theorem C95_standstill_partial (Hp : makePreCalc h hR dt data = .ok ss) (hw : WellFormed h hR dt) (H : runTick n dt ss c = .ok t)
    (hk : pyIndex N n = .ok k) (habs : ∀ i, ∑ j ∈ surfaces h i, h.area j * (if h.solarAbs j then 1 else 0) ≠ 0)
    (hflr : ∀ i, ∑ j ∈ surfaces h i, h.flr j = 1 ∨ t.lr i = 0) (hv : ∀ i l, h.vInt i l = 0)
    (hp : ∀ j, 0 ≤ resistance h j ∧ Transmits h j ∧ EvenSides h hR j) (hsame : SameHeat c t.next) :
    SteadyState h hR (data k) t.vOut t.qHum t.lc t.lr t.thetaR t.thetaFrt t.thetaS := by
  have hS : Steps ss dt 1 (fun _ => n) (fun _ => k) (fun p => if p = 0 then c else t.next) (fun _ => t) :=
    ⟨fun p h0 => by have : p = 0 := by omega
                    subst this; exact H, fun _ _ => hk, fun p h0 => by simp⟩
  have hret : SameHeat ((fun p => if p = 0 then c else t.next) 0) ((fun p : ℕ => if p = 0 then c else t.next) 1) := by simpa using hsame
  have hflux : ∀ j, t.qSrf j = (h.hC j + hR j) * (exposure h hR (data k) t.thetaR t.lr t.thetaS j - t.thetaS j) := fun j =>
    exposureIn_flux Hp H hk j (add_pos (hw.hC_pos j) (hw.hR_pos j)).ne'
  have hpart : ∀ j, t.qSrf j = transmission h hR (data k) t j := fun j => by
    obtain ⟨h1, h2, h3⟩ := hp j
    simpa using C93_part_partial Hp hS hret j (add_pos (hw.hC_pos j) (hw.hR_pos j)) h1 h2 h3
  refine ⟨fun j => ?_, fun i => ?_, fun i => ?_⟩
  · rw [← hflux, hpart]
    rfl
  · have := C93_room_partial Hp hw hS hret i (habs i) ((hflr i).imp id fun h0 _ _ => h0) (hv i) (fun j _ => hp j)
    simp only [range_one, sum_singleton, heatPut, heatLost] at this
    rw [this]
    congr 1
    exact sum_congr rfl fun j _ => by rw [← hflux, hpart]
  · have hf : h.cSh i + dt * h.gSh i ≠ 0 := frt_ne hw.dt_pos (hw.cSh_nonneg i) (hw.gSh_nonneg i) (hw.frtSh_pos i)
    have h1 := C15_furniture_heat Hp H hk i hf
    have h2 : c.thetaFrt i = t.thetaFrt i := (congrFun hsame.furniture i).symm
    rw [h2, sub_self, mul_zero] at h1
    have := (mul_eq_zero.1 h1.symm).resolve_left hw.dt_pos.ne'
    linarith

/-- The surface equations of the program, from the steady balance of the parts. -/
theorem steady_surface {θr θfrt v qHum lc lr : I → ℝ} {θs : J → ℝ} (hw : WellFormed h hR dt)
    (hp : ∀ j, 0 ≤ resistance h j ∧ Transmits h j ∧ EvenSides h hR j)
    (hs : SteadyState h hR (data k) v qHum lc lr θr θfrt θs) (hc : Settled h hR (data k) lr θr θfrt θs c)
    {ivs : Matrix J J ℝ} (e : TickEqs (preCalcOf h hR dt data ivs) dt k c t) :
    (h.ax hR).mulVec θs = (h.fia hR).mulVec θr + h.crx hR (data k) + (h.flb hR).mulVec lr + Tick.cvl t.dshA t.dshT := by
  funext j
  obtain ⟨hres, htr, hev⟩ := hp j
  have hh : 0 < h.hC j + hR j := add_pos (hw.hC_pos j) (hw.hR_pos j)
  set ex := exposure h hR (data k) θr lr θs with hex
  set b := rearTemp h (data k).thetaOSol ex j with hb
  set f := (h.hC j + hR j) * (ex j - θs j) with hf
  have h1 : θs j = resistance h j * f + b := (series_iff hh hres _ _ _).1 (hs.part j)
  have hne : ∀ l, 1 - h.ratio j l ≠ 0 := fun l => sub_ne_zero.2 (Ne.symm (htr.ratio_ne l))
  have hrear : t.thetaRear j = b := by
    rw [e.thetaRear]
    simp only [Tick.thetaRear, preCalcOf, House.thetaDstrb, kEi_mulVec, hc.equivalent]
    rw [hb, ← hex]
    unfold rearTemp
    cases h.kEi j <;> ring
  have hA : ∀ l, t.dshA j l = h.phiA1 j l / (1 - h.ratio j l) * f := by
    intro l
    rw [e.dshA]
    simp only [Tick.dshA, preCalcOf]
    rw [hc.absorbed, hc.flux, ← hex, ← hf]
    have := hne l
    field_simp
    ring
  have hT : ∀ l, t.dshT j l = h.phiT1 j l / (1 - h.ratio j l) * b := by
    intro l
    rw [e.dshT]
    simp only [Tick.dshT, hrear, preCalcOf]
    rw [hc.transmitted, ← hex, ← hb]
    have := hne l
    field_simp
    ring
  have hcvl : Tick.cvl t.dshA t.dshT j = (1 - h.phiT0 j) * b + (resistance h j - h.phiA0 j) * f := by
    unfold Tick.cvl
    rw [sum_add_distrib]
    simp only [hA, hT]
    rw [← sum_mul, ← sum_mul]
    unfold resistance
    linear_combination b * htr.total
  have h2 : θs j = h.phiA0 j * f + h.phiT0 j * b + Tick.cvl t.dshA t.dshT j := by rw [hcvl]; linear_combination h1
  have hfl : f = h.hC j * (θr (h.room j) - θs j) + hR j * (roomMrt h hR (h.room j) θs - θs j) + h.qSol (data k) j
      + h.flr j * (1 - h.beta (h.room j)) * lr (h.room j) / h.area j := by
    rw [hf, hex]
    unfold exposure
    rw [mul_sub (h.hC j + hR j), mul_div_cancel₀ _ hh.ne']
    ring
  simp only [Pi.add_apply]
  rw [ax_mulVec, fia_mulVec, flb_mulVec]
  simp only [House.crx, House.hI, House.thetaDstrb, kEi_mulVec]
  rw [hfl] at h2
  rw [hb] at h2
  unfold rearTemp at h2
  cases hK : h.kEi j with
  | none =>
    rw [hK] at h2
    simp only [mul_zero, add_zero, sub_zero] at h2 ⊢
    linear_combination h2
  | some mc =>
    obtain ⟨m, coef⟩ := mc
    obtain ⟨e1, e2, e3⟩ := hev m coef hK
    rw [hK] at h2
    simp only [] at h2 ⊢
    rw [hex] at h2
    unfold exposure at h2
    rw [e1, e2, e3] at h2
    linear_combination h2


/-- The surface temperatures of a steady state, in the terms of the program. -/
theorem steady_thetaS {θr θfrt v qHum lc lr : I → ℝ} {θs : J → ℝ} (hw : WellFormed h hR dt)
    (hp : ∀ j, 0 ≤ resistance h j ∧ Transmits h j ∧ EvenSides h hR j)
    (hs : SteadyState h hR (data k) v qHum lc lr θr θfrt θs) (hc : Settled h hR (data k) lr θr θfrt θs c)
    {ivs : Matrix J J ℝ} (hi : npInv (h.ax hR) = .ok ivs) (e : TickEqs (preCalcOf h hR dt data ivs) dt k c t) (j : J) :
    θs j = (ivs * h.fia hR).mulVec θr j + ivs.mulVec (h.crx hR (data k)) j + (ivs * h.flb hR).mulVec lr j + t.wsv j := by
  have hws : t.wsv = ivs.mulVec (Tick.cvl t.dshA t.dshT) := e.wsv
  have h1 := congrFun (congrArg ivs.mulVec (steady_surface hw hp hs hc e)) j
  rw [npInv_mulVec hi, Matrix.mulVec_add, Matrix.mulVec_add, Matrix.mulVec_add] at h1
  rw [hws, ← Matrix.mulVec_mulVec, ← Matrix.mulVec_mulVec]
  simpa only [Pi.add_apply] using h1

/-- The equations of the rooms in the program, from the steady balance of rooms, parts and furniture. -/
theorem steady_room {θr θfrt lc lr : I → ℝ} {θs : J → ℝ} (Hp : makePreCalc h hR dt data = .ok ss) (hw : WellFormed h hR dt)
    (habs : ∀ i, ∑ j ∈ surfaces h i, h.area j * (if h.solarAbs j then 1 else 0) ≠ 0)
    (hv : ∀ i l, h.vInt i l = 0) (hp : ∀ j, 0 ≤ resistance h j ∧ Transmits h j ∧ EvenSides h hR j)
    (hflr : ∀ i, ∑ j ∈ surfaces h i, h.flr j = 1 ∨ lr i = 0)
    (hs : SteadyState h hR (data k) t.vOut t.qHum lc lr θr θfrt θs)
    (hc : Settled h hR (data k) lr θr θfrt θs c) {ivs : Matrix J J ℝ} (hi : npInv (h.ax hR) = .ok ivs)
    (hss : ss = preCalcOf h hR dt data ivs) (e : TickEqs ss dt k c t) (i : I) :
    t.brm.mulVec θr i = lc i + ss.brl.mulVec lr i + t.brc i := by
  subst hss
  have hθs := steady_thetaS hw hp hs hc hi e
  have hne : ∀ i, h.cSh i + dt * h.gSh i ≠ 0 := fun i => frt_ne hw.dt_pos (hw.cSh_nonneg i) (hw.gSh_nonneg i) (hw.frtSh_pos i)
  -- what the parts take from the air
  have hrad := C32_radiant_exchange Hp hw.area_pos hw.hR_pos (LogRow.ofTick { t with thetaS := θs }) i
  have hsol := (C35_solar_distributed Hp k i (habs i)).1
  obtain ⟨e1, e2, e3, e4, e5, e6, -⟩ := fMrt_eq Hp
  have hparts : ∑ j ∈ surfaces h i, h.area j * ((h.hC j + hR j) * (exposure h hR (data k) θr lr θs j - θs j))
      = - convection h i (θr i) θs + (data k).qTrsSol i * 0.5 + (1 - h.beta i) * lr i := by
    have e0 : ∀ j ∈ surfaces h i, h.area j * ((h.hC j + hR j) * (exposure h hR (data k) θr lr θs j - θs j))
        = - (h.area j * h.hC j * (θs j - θr i)) + (LogRow.ofTick { t with thetaS := θs }).qr (preCalcOf h hR dt data ivs) j
          + qisol (preCalcOf h hR dt data ivs) k j + h.flr j * ((1 - h.beta i) * lr i) := by
      intro j hj
      have hj' : h.room j = i := by simpa [surfaces] using hj
      have hh : h.hC j + hR j ≠ 0 := (add_pos (hw.hC_pos j) (hw.hR_pos j)).ne'
      have ht : (LogRow.ofTick { t with thetaS := θs }).thetaS = θs := rfl
      have ha : h.area j * (h.flr j * (1 - h.beta i) * lr i / h.area j) = h.flr j * (1 - h.beta i) * lr i :=
        mul_div_cancel₀ _ (hw.area_pos j).ne'
      unfold LogRow.qr qisol exposure
      rw [e1, e2, e3, e4, e6, pT_fMrt_mulVec, hj', ht, mul_sub (h.hC j + hR j), mul_div_cancel₀ _ hh]
      linear_combination ha
    have hsol' : ∑ j ∈ surfaces h i, qisol (preCalcOf h hR dt data ivs) k j = (data k).qTrsSol i * 0.5 := by
      rw [e5] at hsol
      simp only [House.qSolFrt, House.rSolFnt] at hsol
      linarith
    have hfl : ∑ j ∈ surfaces h i, h.flr j * ((1 - h.beta i) * lr i) = (1 - h.beta i) * lr i := by
      rw [← sum_mul]
      rcases hflr i with h1 | h1
      · rw [h1, one_mul]
      · rw [h1]; ring
    rw [sum_congr rfl e0, sum_add_distrib, sum_add_distrib, sum_add_distrib, hrad, hsol', hfl, sum_neg_distrib]
    unfold convection
    ring
  have hroom := hs.room i
  rw [hparts] at hroom
  have hfrt := hs.furniture i
  rw [e.brm, e.brc]
  simp only [Tick.brm, Tick.brc, preCalcOf, House.brmNonVent, House.brl, Matrix.add_mulVec, Matrix.smul_mulVec, Pi.add_apply,
    Matrix.mulVec_diagonal, Pi.smul_apply, smul_eq_mul, ← Matrix.mulVec_mulVec, p_mulVec]
  have hint : h.vInt.mulVec θr i = 0 := by
    simp only [Matrix.mulVec, dotProduct, hv, zero_mul, sum_const_zero]
  have hconv : convection h i (θr i) θs
      = ∑ j ∈ surfaces h i, h.hC j * h.area j * (ivs.mulVec (h.crx hR (data k)) j + t.wsv j)
        - ∑ j ∈ surfaces h i,
          (Matrix.of fun j i => (h.p.transpose j i - (ivs * h.fia hR) j i) * h.area j * h.hC j).mulVec θr j
        + ∑ j ∈ surfaces h i, (Matrix.of fun j i => (ivs * h.flb hR) j i * h.hC j * h.area j).mulVec lr j := by
    unfold convection
    rw [← sum_sub_distrib, ← sum_add_distrib]
    apply sum_congr rfl
    intro j hj
    have hroom : h.room j = i := by simpa [surfaces] using hj
    have a2 : (Matrix.of fun j i => (h.p.transpose j i - (ivs * h.fia hR) j i) * h.area j * h.hC j).mulVec θr j
        = h.area j * h.hC j * (θr i - (ivs * h.fia hR).mulVec θr j) := by
      rw [← hroom, ← pT_mulVec h θr j, ← Pi.sub_apply, ← Matrix.sub_mulVec,
        ← rowScale_mulVec (fun j => h.area j * h.hC j)]
      congr 2
      ext a b
      simp only [Matrix.sub_apply]; ring
    have a3 : (Matrix.of fun j i => (ivs * h.flb hR) j i * h.hC j * h.area j).mulVec lr j
        = h.area j * h.hC j * (ivs * h.flb hR).mulVec lr j := by
      rw [← rowScale_mulVec (fun j => h.area j * h.hC j)]
      congr 2
      ext a b
      ring
    rw [a2, a3, hθs j]
    ring
  have hf2 : h.gSh i * (h.cSh i * c.thetaFrt i + House.qSolFrt (data k) i * dt) / (h.cSh i + dt * h.gSh i)
      - h.cSh i * h.gSh i / (h.cSh i + h.gSh i * dt) * θr i = (data k).qTrsSol i * 0.5 := by
    have hf' : h.cSh i + h.gSh i * dt ≠ 0 := by rw [mul_comm (h.gSh i)]; exact hne i
    rw [hc.furniture, mul_comm dt (h.gSh i), div_mul_eq_mul_div, ← sub_div, div_eq_iff hf']
    simp only [House.qSolFrt, House.rSolFnt]
    linear_combination h.cSh i * hfrt
  have hcap : cAir * rhoAir = airCap := rfl
  rw [hint, hcap, congrFun hc.room i]
  linarith

/-- Once a step computes the air temperatures and the radiant loads of the steady state, it computes all of it and leaves the state as
it is. -/
theorem steady_rest {θr θfrt v qHum lc : I → ℝ} {θs : J → ℝ} (Hp : makePreCalc h hR dt data = .ok ss) (hw : WellFormed h hR dt)
    (H : runTick n dt ss c = .ok t) (hk : pyIndex N n = .ok k)
    (hp : ∀ j, 0 ≤ resistance h j ∧ Transmits h j ∧ EvenSides h hR j)
    (hs : SteadyState h hR (data k) v qHum lc t.lr θr θfrt θs) (hc : Settled h hR (data k) t.lr θr θfrt θs c)
    (hθ : t.thetaR = θr) : t.thetaS = θs ∧ t.thetaFrt = θfrt ∧ SameHeat c t.next := by
  obtain ⟨ivs, k', hi, hss, hk', e⟩ := step_eqs Hp H
  have : k' = k := Except.ok.inj (hk'.symm.trans hk)
  subst this
  subst hss
  have hne : ∀ i, h.cSh i + dt * h.gSh i ≠ 0 := fun i => frt_ne hw.dt_pos (hw.cSh_nonneg i) (hw.gSh_nonneg i) (hw.frtSh_pos i)
  have hS : t.thetaS = θs := by
    funext j
    rw [e.thetaS, steady_thetaS hw hp hs hc hi e j]
    simp only [Tick.thetaS, preCalcOf]
    rw [hθ]
  have hF : t.thetaFrt = θfrt := by
    funext i
    have h1 := C15_furniture_heat Hp H hk i (hne i)
    rw [hθ, congrFun hc.furniture i] at h1
    have h2 := hs.furniture i
    have h3 : (t.thetaFrt i - θfrt i) * (h.cSh i + dt * h.gSh i) = 0 := by linear_combination h1 - dt * h2
    exact sub_eq_zero.1 ((mul_eq_zero.1 h3).resolve_right (hne i))
  have hE : t.thetaEi = exposure h hR (data k') θr t.lr θs := by
    funext j
    rw [exposureIn_eq Hp H hk j]
    unfold exposureIn
    rw [hθ, hS]
  refine ⟨hS, hF, ?_, ?_, ?_, ?_, ?_, ?_⟩
  · exact hθ.trans hc.room.symm
  · exact hF.trans hc.furniture.symm
  · funext j
    show t.qSrf j = c.qSrf j
    rw [exposureIn_flux Hp H hk j (add_pos (hw.hC_pos j) (hw.hR_pos j)).ne', hc.flux]
    unfold exposureIn
    rw [hθ, hS]
  · exact hE.trans hc.equivalent.symm
  · funext j l
    show t.dshA j l = c.dshA j l
    have := sub_ne_zero.2 (Ne.symm ((hp j).2.1.ratio_ne l))
    rw [e.dshA]
    simp only [Tick.dshA, preCalcOf]
    rw [hc.absorbed, hc.flux]
    field_simp
    ring
  · funext j l
    show t.dshT j l = c.dshT j l
    have := sub_ne_zero.2 (Ne.symm ((hp j).2.1.ratio_ne l))
    have hrear : t.thetaRear j = rearTemp h (data k').thetaOSol (exposure h hR (data k') θr t.lr θs) j := by
      rw [e.thetaRear]
      simp only [Tick.thetaRear, preCalcOf, House.thetaDstrb, kEi_mulVec, hc.equivalent]
      unfold rearTemp
      cases h.kEi j <;> ring
    rw [e.dshT]
    simp only [Tick.dshT, hrear, preCalcOf]
    rw [hc.transmitted]
    field_simp
    ring

/-- The equations between operative temperatures and loads that the load calculation solves hold in a steady state. -/
theorem steady_operative {θr θfrt lc lr : I → ℝ} {θs : J → ℝ} (Hp : makePreCalc h hR dt data = .ok ss) (hw : WellFormed h hR dt)
    (habs : ∀ i, ∑ j ∈ surfaces h i, h.area j * (if h.solarAbs j then 1 else 0) ≠ 0)
    (hv : ∀ i l, h.vInt i l = 0) (hp : ∀ j, 0 ≤ resistance h j ∧ Transmits h j ∧ EvenSides h hR j)
    (hflr : ∀ i, ∑ j ∈ surfaces h i, h.flr j = 1 ∨ lr i = 0)
    (hs : SteadyState h hR (data k) t.vOut t.qHum lc lr θr θfrt θs)
    (hc : Settled h hR (data k) lr θr θfrt θs c) {ivs : Matrix J J ℝ} (hi : npInv (h.ax hR) = .ok ivs)
    (hss : ss = preCalcOf h hR dt data ivs) (e : TickEqs ss dt k c t) :
    θr = Tick.thetaR t.xot t.xlr t.xc (operative h θr θs) lr
      ∧ t.brmOt.mulVec (operative h θr θs) = lc + t.brlOt.mulVec lr + t.brcOt := by
  have hroom := funext (steady_room Hp hw habs hv hp hflr hs hc hi hss e)
  subst hss
  have hθs := steady_thetaS hw hp hs hc hi e
  have hM : (Tick.otMat (preCalcOf h hR dt data ivs) t.ot).mulVec θr = fun i => operative h θr θs i
      - Tick.kr t.ot i * ((preCalcOf h hR dt data ivs).fMrtHum * (preCalcOf h hR dt data ivs).wsb).mulVec lr i
      - Tick.kr t.ot i * (preCalcOf h hR dt data ivs).fMrtHum.mulVec (fun j => (preCalcOf h hR dt data ivs).wsc k j + t.wsv j) i := by
    funext i
    obtain ⟨e1, e2⟩ := ot_coefs (e.ot i)
    have h2 : h.fMrtHumMat.mulVec θs i = (h.fMrtHumMat * (ivs * h.fia hR)).mulVec θr i
        + (h.fMrtHumMat * (ivs * h.flb hR)).mulVec lr i
        + h.fMrtHumMat.mulVec (fun j => ivs.mulVec (h.crx hR (data k)) j + t.wsv j) i := by
      rw [← Matrix.mulVec_mulVec θr h.fMrtHumMat, ← Matrix.mulVec_mulVec lr h.fMrtHumMat, ← Pi.add_apply, ← Pi.add_apply,
        ← Matrix.mulVec_add, ← Matrix.mulVec_add]
      congr 2
      funext j
      simp only [Pi.add_apply]
      rw [hθs j]
      ring
    have h3 : operative h θr θs i = Tick.kc t.ot i * θr i + Tick.kr t.ot i * h.fMrtHumMat.mulVec θs i := by
      unfold operative Tick.kc Tick.kr
      rw [e1, e2, fMrtHum_mulVec]
      ring
    simp only [Tick.otMat, Matrix.add_mulVec, Pi.add_apply, Matrix.mulVec_diagonal, rowScale_mulVec]
    simp only [preCalcOf]
    rw [h3, h2]
    ring
  have hθ : θr = Tick.thetaR t.xot t.xlr t.xc (operative h θr θs) lr := by
    have h1 := congrArg t.xot.mulVec hM
    rw [npInv_mulVec e.xot] at h1
    have : (fun i => operative h θr θs i
          - Tick.kr t.ot i * ((preCalcOf h hR dt data ivs).fMrtHum * (preCalcOf h hR dt data ivs).wsb).mulVec lr i
          - Tick.kr t.ot i * (preCalcOf h hR dt data ivs).fMrtHum.mulVec (fun j => (preCalcOf h hR dt data ivs).wsc k j + t.wsv j) i)
        = operative h θr θs - (Matrix.of fun i l => Tick.kr t.ot i *
            ((preCalcOf h hR dt data ivs).fMrtHum * (preCalcOf h hR dt data ivs).wsb) i l).mulVec lr
          - fun i => Tick.kr t.ot i * (preCalcOf h hR dt data ivs).fMrtHum.mulVec (fun j => (preCalcOf h hR dt data ivs).wsc k j + t.wsv j) i := by
      funext i
      simp only [Pi.sub_apply, rowScale_mulVec]
    rw [this, Matrix.mulVec_sub, Matrix.mulVec_sub, Matrix.mulVec_mulVec] at h1
    conv_lhs => rw [h1]
    funext i
    simp only [Tick.thetaR, e.xlr, e.xc, Tick.xlr, Tick.xc, Pi.sub_apply]
  refine ⟨hθ, ?_⟩
  have eR : θr = t.xot.mulVec (operative h θr θs) - t.xlr.mulVec lr - t.xc := hθ
  funext i
  have h1 : t.brm.mulVec (t.xot.mulVec (operative h θr θs)) i = t.brm.mulVec θr i + t.brm.mulVec (t.xlr.mulVec lr) i + t.brm.mulVec t.xc i := by
    rw [← Pi.add_apply, ← Pi.add_apply, ← Matrix.mulVec_add, ← Matrix.mulVec_add]
    congr 2
    conv_rhs => rw [eR]
    abel
  have h2 := congrFun hroom i
  rw [e.brmOt, e.brlOt, e.brcOt]
  simp only [Tick.brmOt, Tick.brlOt, Tick.brcOt, ← Matrix.mulVec_mulVec, Matrix.add_mulVec, Pi.add_apply]
  rw [h1, h2]
  ring

/-- **C95 (there, without demand).** From a state that has been, for infinitely long time, at temperatures which balance all heat flows, a step
without demand computes these temperatures and leaves the state as it is. Missing: rooms with air from other rooms, partitions with uneven
sides. -/
theorem C95_stays_partial (Hp : makePreCalc h hR dt data = .ok ss) (hw : WellFormed h hR dt) (H : runTick n dt ss c = .ok t)
    (hk : pyIndex N n = .ok k) (habs : ∀ i, ∑ j ∈ surfaces h i, h.area j * (if h.solarAbs j then 1 else 0) ≠ 0)
    (hv : ∀ i l, h.vInt i l = 0) (hp : ∀ j, 0 ≤ resistance h j ∧ Transmits h j ∧ EvenSides h hR j)
    (hd : ∀ i, (data k).acDemand i ≤ 0) {θr θfrt : I → ℝ} {θs : J → ℝ}
    (hs : SteadyState h hR (data k) t.vOut t.qHum (fun _ => 0) (fun _ => 0) θr θfrt θs)
    (hc : Settled h hR (data k) (fun _ => 0) θr θfrt θs c) :
    t.thetaR = θr ∧ t.thetaS = θs ∧ t.thetaFrt = θfrt ∧ SameHeat c t.next := by
  obtain ⟨ivs, k', hi, hss, hk', e⟩ := step_eqs Hp H
  have : k' = k := Except.ok.inj (hk'.symm.trans hk)
  subst this
  have hroom := steady_room Hp hw habs hv hp (fun _ => Or.inr rfl) hs hc hi hss e
  have e' := e
  subst hss
  have hload : ∀ i, t.lc i = 0 ∧ t.lr i = 0 := fun i =>
    (no_demand e hd (fun i => ⟨hw.capH_nonneg i, hw.capC_nonneg i⟩) i).2
  have hlr : t.lr = fun _ => 0 := funext fun i => (hload i).2
  have hdet : t.brm.det ≠ 0 := by
    obtain ⟨nat, p1, h1, -⟩ := calc_passes e.load
    have h2 : t.brmOt.det ≠ 0 := h1
    rw [e.brmOt, Tick.brmOt, Matrix.det_mul] at h2
    exact left_ne_zero_of_mul h2
  have hθ : t.thetaR = θr := by
    apply mulVec_inj_of_det hdet
    funext i
    rw [room_system e i, hroom i, (hload i).1, hlr]
  rw [← hlr] at hs hc
  exact ⟨hθ, steady_rest Hp hw H hk hp hs hc hθ⟩

/-- **C95 (there, conditioned).** As before, with air conditioning: a room of which the step keeps the operative temperature of the steady
state is given the load of the steady state, and a room that is given the load of the steady state keeps its temperature; both kinds may
occur in one house. Missing: rooms with air from other rooms, partitions with uneven sides, radiant loads that the step has to find
(`C95_found_partial`). -/
theorem C95_kept_partial (Hp : makePreCalc h hR dt data = .ok ss) (hw : WellFormed h hR dt) (H : runTick n dt ss c = .ok t)
    (hk : pyIndex N n = .ok k) (habs : ∀ i, ∑ j ∈ surfaces h i, h.area j * (if h.solarAbs j then 1 else 0) ≠ 0)
    (hflr : ∀ i, ∑ j ∈ surfaces h i, h.flr j = 1 ∨ t.lr i = 0) (hvo : ∀ i, 0 ≤ t.vOut i)
    (hv : ∀ i l, h.vInt i l = 0) (hp : ∀ j, 0 ≤ resistance h j ∧ Transmits h j ∧ EvenSides h hR j)
    {θr θfrt lc : I → ℝ} {θs : J → ℝ}
    (hs : SteadyState h hR (data k) t.vOut t.qHum lc t.lr θr θfrt θs)
    (hc : Settled h hR (data k) t.lr θr θfrt θs c)
    (hctl : ∀ i, t.lc i = lc i ∨ t.thetaOt i = operative h θr θs i) :
    t.thetaR = θr ∧ t.thetaS = θs ∧ t.thetaFrt = θfrt ∧ t.lc = lc ∧ SameHeat c t.next := by
  obtain ⟨ivs, k', hi, hss, hk', e⟩ := step_eqs Hp H
  have : k' = k := Except.ok.inj (hk'.symm.trans hk)
  subst this
  have hroom := steady_room Hp hw habs hv hp hflr hs hc hi hss e
  obtain ⟨hθr, -⟩ := steady_operative Hp hw habs hv hp hflr hs hc hi hss e
  have e' := e
  subst hss
  have hA : ∀ i, RowDom t.brm i := fun i => by rw [e.brm]; exact brm_rowDom hw hi hvo i
  have hM : ∀ i, RowDom (Tick.otMat (preCalcOf h hR dt data ivs) t.ot) i := otMat_rowDom hw hi fun i => ot_coefs (e.ot i)
  have hdiff : t.thetaR - θr = t.xot.mulVec (t.thetaOt - operative h θr θs) := by
    have h1 : t.thetaR = t.xot.mulVec t.thetaOt - t.xlr.mulVec t.lr - t.xc := by rw [e.thetaR]; rfl
    have h2 : θr = t.xot.mulVec (operative h θr θs) - t.xlr.mulVec t.lr - t.xc := hθr
    rw [Matrix.mulVec_sub]
    conv_lhs => rw [h1, h2]
    abel
  have hot := congrArg (Tick.otMat (preCalcOf h hR dt data ivs) t.ot).mulVec hdiff
  rw [mulVec_npInv e.xot] at hot
  have hlc : ∀ i, t.brm.mulVec (t.thetaR - θr) i = t.lc i - lc i := fun i => by
    rw [Matrix.mulVec_sub, Pi.sub_apply, room_system e i, hroom i]
    ring
  classical
  have hB : (Matrix.of fun i l => if t.lc i = lc i then t.brm i l else Tick.otMat (preCalcOf h hR dt data ivs) t.ot i l).det ≠ 0 := by
    apply det_ne_zero_of_rowDom
    intro i
    unfold RowDom
    simp only [Matrix.of_apply]
    split_ifs
    · exact hA i
    · exact hM i
  have h0 : (Matrix.of fun i l => if t.lc i = lc i then t.brm i l else Tick.otMat (preCalcOf h hR dt data ivs) t.ot i l).mulVec (t.thetaR - θr)
      = (Matrix.of fun i l => if t.lc i = lc i then t.brm i l else Tick.otMat (preCalcOf h hR dt data ivs) t.ot i l).mulVec 0 := by
    rw [Matrix.mulVec_zero]
    funext i
    by_cases hi : t.lc i = lc i
    · have : (Matrix.of fun i l => if t.lc i = lc i then t.brm i l else Tick.otMat (preCalcOf h hR dt data ivs) t.ot i l).mulVec (t.thetaR - θr) i
          = t.brm.mulVec (t.thetaR - θr) i := by
        simp only [Matrix.mulVec, dotProduct, Matrix.of_apply, hi, if_true]
      rw [this, hlc, hi, sub_self]; rfl
    · have : (Matrix.of fun i l => if t.lc i = lc i then t.brm i l else Tick.otMat (preCalcOf h hR dt data ivs) t.ot i l).mulVec (t.thetaR - θr) i
          = (Tick.otMat (preCalcOf h hR dt data ivs) t.ot).mulVec (t.thetaR - θr) i := by
        simp only [Matrix.mulVec, dotProduct, Matrix.of_apply, hi, if_false]
      rw [this, hot, Pi.sub_apply, (hctl i).resolve_left hi, sub_self]; rfl
  have hz := mulVec_inj_of_det hB h0
  have hθ : t.thetaR = θr := sub_eq_zero.1 hz
  obtain ⟨r1, r2, r3⟩ := steady_rest Hp hw H hk hp hs hc hθ
  refine ⟨hθ, r1, r2, ?_, r3⟩
  funext i
  have := hlc i
  rw [hz, Matrix.mulVec_zero] at this
  exact (sub_eq_zero.1 this.symm)

/-- The masks of the load calculation in its last pass, where no radiant load was cut. -/
theorem last_pass {a : LoadInput I} {res : LoadTemp I} (H : calcNextTempAndLoad a = .ok res) {nat : I → ℝ} (hn : IsNatural a nat)
    (hcap : CapsNonneg a) (hin : ∀ i, RadiantActive a nat i → -a.capC i < res.lr i ∧ res.lr i < a.capH i) :
    (loadX1 a.brm 1 a.brl (a.nt nat) (a.c0 nat) (a.r0 nat)).det ≠ 0
      ∧ ∀ i, (a.nt nat i = true → res.lc i = 0 ∧ res.lr i = 0) ∧ (a.r0 nat i = true → res.lc i = 0) ∧ (a.c0 nat i = true → res.lr i = 0) := by
  obtain ⟨p1, hd, h1, h2⟩ := calc_passes' H hn
  have hno : ∀ i, a.overLr p1.lr i = false ∧ a.underLr p1.lr i = false := by
    intro i
    by_cases hr : RadiantActive a nat i
    · obtain ⟨b1, b2⟩ := hin i hr
      by_contra hcon
      have hr1 : a.r1 nat p1.lr i = false := by
        unfold LoadInput.r1
        cases ho : a.overLr p1.lr i <;> cases hu : a.underLr p1.lr i <;> simp_all
      have h3 := (getLoadAndTemp_fixed h2 i).2.2 hr1
      unfold LoadInput.lrSet1 at h3
      cases hu : a.underLr p1.lr i <;> cases ho : a.overLr p1.lr i <;> simp only [hu, ho, if_true] at h3 hcon
      · simp at hcon
      · simp only [Bool.false_eq_true, if_false] at h3; linarith
      · linarith
      · linarith
    · exact not_limited hcap (pass1_lr_zero h1 hr)
  have hc1 : a.c1 nat p1.lr = a.c0 nat := by
    funext i; unfold LoadInput.c1; simp [(hno i).1, (hno i).2]
  have hr1 : a.r1 nat p1.lr = a.r0 nat := by
    funext i; unfold LoadInput.r1; simp [(hno i).1, (hno i).2]
  have hs1 : ∀ i, a.lrSet1 (resetWhere (a.r0 nat) fun _ => 0) p1.lr i = 0 := by
    intro i; unfold LoadInput.lrSet1 resetWhere; simp [(hno i).1, (hno i).2]
  rw [hc1, hr1] at h2
  have hfix := getLoadAndTemp_fixed h2
  constructor
  · unfold getLoadAndTemp at h2
    simp only [bind, Except.bind] at h2
    cases hinv : npInv (loadX1 a.brm 1 a.brl (a.nt nat) (a.c0 nat) (a.r0 nat)) with
    | error e => rw [hinv] at h2; cases h2
    | ok B => exact (npInv_ok hinv).1
  · intro i
    have hlc : a.c0 nat i = false → res.lc i = 0 := fun hm => by rw [(hfix i).2.1 hm]; simp [resetWhere]
    have hlr : a.r0 nat i = false → res.lr i = 0 := fun hm => by rw [(hfix i).2.2 hm]; exact hs1 i
    refine ⟨fun hm => ⟨hlc ?_, hlr ?_⟩, fun hm => hlc ?_, fun hm => hlr ?_⟩ <;>
      revert hm <;> simp only [LoadInput.nt, LoadInput.c0, LoadInput.r0] <;>
      cases hC : a.isCooling nat i <;> cases hH : a.isHeating nat i <;> cases a.isRadCooling i <;> cases a.isRadHeating i <;> simp
    all_goals
      exfalso
      exact not_heated_of_cooled (isCooling_iff.1 hC) (isHeating_iff.1 hH)

/-- **C95 (there, loads found by the step).** From a state that has been, for infinitely long time, at temperatures which balance all heat
flows with loads `lc`, `lr`, a step that keeps the operative temperature of the steady state in every room it conditions computes these
temperatures and these loads, convective or radiant, and leaves the state as it is. Missing: rooms with air from other rooms, partitions
with uneven sides, radiant loads cut at the capacity. -/
theorem C95_found_partial (Hp : makePreCalc h hR dt data = .ok ss) (hw : WellFormed h hR dt) (H : runTick n dt ss c = .ok t)
    (hk : pyIndex N n = .ok k) (habs : ∀ i, ∑ j ∈ surfaces h i, h.area j * (if h.solarAbs j then 1 else 0) ≠ 0)
    {θr θfrt lc lr nat : I → ℝ} {θs : J → ℝ} (hflr : ∀ i, ∑ j ∈ surfaces h i, h.flr j = 1 ∨ lr i = 0)
    (hv : ∀ i l, h.vInt i l = 0) (hp : ∀ j, 0 ≤ resistance h j ∧ Transmits h j ∧ EvenSides h hR j)
    (hs : SteadyState h hR (data k) t.vOut t.qHum lc lr θr θfrt θs)
    (hc : Settled h hR (data k) lr θr θfrt θs c) {a : LoadInput I} (ha : a = Tick.loadInput ss k t.ot t.brcOt t.brmOt t.brlOt)
    (hn : IsNatural a nat)
    (hfree : ∀ i, ¬ Heated a nat i → ¬ Cooled a nat i → lc i = 0 ∧ lr i = 0)
    (hkept : ∀ i, Heated a nat i ∨ Cooled a nat i → t.thetaOt i = operative h θr θs i)
    (hrad : ∀ i, RadiantActive a nat i → lc i = 0 ∧ -h.capC i < t.lr i ∧ t.lr i < h.capH i)
    (hcon : ∀ i, ¬ RadiantActive a nat i → lr i = 0) :
    t.thetaR = θr ∧ t.thetaS = θs ∧ t.thetaFrt = θfrt ∧ t.lc = lc ∧ t.lr = lr ∧ SameHeat c t.next := by
  obtain ⟨ivs, k', hi, hss, hk', e⟩ := step_eqs Hp H
  have : k' = k := Except.ok.inj (hk'.symm.trans hk)
  subst this
  obtain ⟨hθr, hsys⟩ := steady_operative Hp hw habs hv hp hflr hs hc hi hss e
  have hcapH : ∀ i, a.capH i = h.capH i := fun i => by rw [ha, hss]; rfl
  have hcapC : ∀ i, a.capC i = h.capC i := fun i => by rw [ha, hss]; rfl
  have hbrm : a.brm = t.brmOt := by rw [ha]; rfl
  have hbrl : a.brl = t.brlOt := by rw [ha]; rfl
  have hbrc : a.brc = t.brcOt := by rw [ha]; rfl
  have hload := e.load
  rw [← ha] at hload
  obtain ⟨hdet, hmask⟩ := last_pass hload hn (fun i => ⟨(hcapH i).symm ▸ hw.capH_nonneg i, (hcapC i).symm ▸ hw.capC_nonneg i⟩)
    fun i hr => by rw [hcapH, hcapC]; exact (hrad i hr).2
  have h7 := C07_room_equations _ _ hload
  -- differences between the step and the steady state
  set dT : I → ℝ := t.thetaOt - operative h θr θs with hdT
  set dc : I → ℝ := t.lc - lc with hdc
  set dr : I → ℝ := t.lr - lr with hdr
  have hlin : ∀ i, t.brmOt.mulVec dT i = dc i + t.brlOt.mulVec dr i := by
    intro i
    have h1 := congrFun hsys i
    have h2 := h7 i
    rw [hbrm, hbrl, hbrc] at h2
    have h2' : t.brmOt.mulVec t.thetaOt i = t.lc i + t.brlOt.mulVec t.lr i + t.brcOt i := by
      simpa [Matrix.mulVec, dotProduct] using h2
    rw [hdT, hdc, hdr, Matrix.mulVec_sub, Matrix.mulVec_sub]
    simp only [Pi.sub_apply, Pi.add_apply] at h1 ⊢
    linarith
  have hclass : ∀ i, (a.nt nat i = true ∧ a.c0 nat i = false ∧ a.r0 nat i = false ∧ dc i = 0 ∧ dr i = 0)
      ∨ (a.nt nat i = false ∧ a.c0 nat i = true ∧ a.r0 nat i = false ∧ dT i = 0 ∧ dr i = 0)
      ∨ (a.nt nat i = false ∧ a.c0 nat i = false ∧ a.r0 nat i = true ∧ dT i = 0 ∧ dc i = 0) := by
    intro i
    obtain ⟨m1, m2, m3⟩ := hmask i
    change a.nt nat i = true → t.lc i = 0 ∧ t.lr i = 0 at m1
    change a.r0 nat i = true → t.lc i = 0 at m2
    change a.c0 nat i = true → t.lr i = 0 at m3
    simp only [hdT, hdc, hdr, Pi.sub_apply]
    by_cases hc : Cooled a nat i
    · have hh := not_heated_of_cooled hc
      have b1 := isCooling_iff.2 hc
      have b2 := isHeating_false hh
      have hnt : a.nt nat i = false := by unfold LoadInput.nt; simp [b1]
      by_cases hr : a.isRadCooling i = true
      · have hra : RadiantActive a nat i := Or.inr ⟨hc, hr⟩
        have hr0 : a.r0 nat i = true := r0_iff.2 hra
        have hc0 : a.c0 nat i = false := by unfold LoadInput.c0; simp [b1, b2, hr]
        exact Or.inr (Or.inr ⟨hnt, hc0, hr0, by rw [hkept i (Or.inr hc), sub_self], by rw [m2 hr0, (hrad i hra).1, sub_self]⟩)
      · have hra : ¬ RadiantActive a nat i := fun h' => h'.elim (fun h1 => hh h1.1) fun h1 => hr h1.2
        have hr0 : a.r0 nat i = false := by rw [← Bool.not_eq_true]; exact fun h' => hra (r0_iff.1 h')
        have hc0 : a.c0 nat i = true := by unfold LoadInput.c0; simp [b1, hr]
        exact Or.inr (Or.inl ⟨hnt, hc0, hr0, by rw [hkept i (Or.inr hc), sub_self], by rw [m3 hc0, hcon i hra, sub_self]⟩)
    · have b1 := isCooling_false hc
      by_cases hh : Heated a nat i
      · have b2 := isHeating_iff.2 hh
        have hnt : a.nt nat i = false := by unfold LoadInput.nt; simp [b1, b2]
        by_cases hr : a.isRadHeating i = true
        · have hra : RadiantActive a nat i := Or.inl ⟨hh, hr⟩
          have hr0 : a.r0 nat i = true := r0_iff.2 hra
          have hc0 : a.c0 nat i = false := by unfold LoadInput.c0; simp [b1, b2, hr]
          exact Or.inr (Or.inr ⟨hnt, hc0, hr0, by rw [hkept i (Or.inl hh), sub_self], by rw [m2 hr0, (hrad i hra).1, sub_self]⟩)
        · have hra : ¬ RadiantActive a nat i := fun h' => h'.elim (fun h1 => hr h1.2) fun h1 => hc h1.1
          have hr0 : a.r0 nat i = false := by rw [← Bool.not_eq_true]; exact fun h' => hra (r0_iff.1 h')
          have hc0 : a.c0 nat i = true := by unfold LoadInput.c0; simp [b1, b2, hr]
          exact Or.inr (Or.inl ⟨hnt, hc0, hr0, by rw [hkept i (Or.inl hh), sub_self], by rw [m3 hc0, hcon i hra, sub_self]⟩)
      · have b2 := isHeating_false hh
        have hnt : a.nt nat i = true := by unfold LoadInput.nt; simp [b1, b2]
        refine Or.inl ⟨hnt, ?_, ?_, ?_, ?_⟩
        · unfold LoadInput.c0; simp [b1, b2]
        · unfold LoadInput.r0; simp [b1, b2]
        · rw [(m1 hnt).1, (hfree i hh hc).1, sub_self]
        · rw [(m1 hnt).2, (hfree i hh hc).2, sub_self]
  have hsum : ∀ i, ind (a.nt nat i) * (dT i + dc i + dr i) = dT i ∧ ind (a.c0 nat i) * (dT i + dc i + dr i) = dc i
      ∧ ind (a.r0 nat i) * (dT i + dc i + dr i) = dr i := by
    intro i
    rcases hclass i with ⟨x1, x2, x3, x4, x5⟩ | ⟨x1, x2, x3, x4, x5⟩ | ⟨x1, x2, x3, x4, x5⟩ <;> rw [x1, x2, x3, x4, x5] <;>
      simp
  have hz : (fun i => dT i + dc i + dr i) = 0 := by
    apply mulVec_inj_of_det hdet
    rw [Matrix.mulVec_zero, hbrm, hbrl]
    funext i
    have h1 := hlin i
    simp only [Matrix.mulVec, dotProduct] at h1
    simp only [loadX1, Matrix.mulVec, dotProduct, Matrix.of_apply, sub_mul, mul_assoc, (hsum _).1, (hsum _).2.1, (hsum _).2.2,
      sum_sub_distrib, Matrix.one_apply, ite_mul, one_mul, zero_mul, sum_ite_eq, mem_univ, if_true, Pi.zero_apply]
    linarith
  have hall : ∀ i, dT i = 0 ∧ dc i = 0 ∧ dr i = 0 := by
    intro i
    have h0 : dT i + dc i + dr i = 0 := congrFun hz i
    obtain ⟨y1, y2, y3⟩ := hsum i
    rw [h0, mul_zero] at y1 y2 y3
    exact ⟨y1.symm, y2.symm, y3.symm⟩
  have eT : t.thetaOt = operative h θr θs := sub_eq_zero.1 (funext fun i => (hall i).1)
  have ec : t.lc = lc := sub_eq_zero.1 (funext fun i => (hall i).2.1)
  have er : t.lr = lr := sub_eq_zero.1 (funext fun i => (hall i).2.2)
  have hθ : t.thetaR = θr := by rw [e.thetaR, hθr, eT, er, ← hθr]
  rw [← er] at hs hc
  obtain ⟨r1, r2, r3⟩ := steady_rest Hp hw H hk hp hs hc hθ
  exact ⟨hθ, r1, r2, ec, er, r3⟩

end HLC
