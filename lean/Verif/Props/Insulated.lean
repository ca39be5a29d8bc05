import Verif.Spec.Insulated
import Verif.Props.Warmer
import Verif.Props.Fade
import Verif.Props.LoadLogged
import Verif.Props.Latch

/-!
# C117: a better insulated house needs no more heating
-/

namespace HLC

set_option linter.unusedSectionVars false

open Spec

section
variable {I J : Type} [Fintype I] [DecidableEq I] [Fintype J] [DecidableEq J] {N : ℕ} {h : House I J} {hR : J → ℝ} {dt : ℝ} {R' : J → ℝ}

theorem insulated_wellFormed (hw : WellFormed h hR dt) (hR' : ∀ j, h.phiA0 j ≤ R' j) : WellFormed (insulated h R') hR dt :=
  { hw with phiA0_nonneg := fun j => (hw.phiA0_nonneg j).trans (hR' j) }

theorem insulated_storageless (hst : Storageless h) : Storageless (insulated h R') :=
  ⟨hst.absorbed, hst.transmitted, hst.steady, hst.weights⟩

/-- A house seen as an insulated one: where heat goes into a part, less of it. -/
theorem Averages.insulate {v : I → ℝ} {θo : ℝ} {θosol : J → ℝ} {old oldF θr θf : I → ℝ} {θs : J → ℝ} {g f : I → ℝ} {s p : J → ℝ}
    (A : Averages h hR dt v θo θosol old oldF θr θf θs g f s p) (h0 : ∀ j, 0 ≤ h.phiA0 j) (hR' : ∀ j, h.phiA0 j ≤ R' j) :
    Averages (insulated h R') hR dt v θo θosol old oldF θr θf θs g f
      (fun j => s j - (R' j - h.phiA0 j) / R' j * (h.hC j * (θr (h.room j) - θs j) + hR j * (roomMrt h hR (h.room j) θs - θs j) + s j)) p where
  room := A.room
  furniture := A.furniture
  surface j := by
    refine (A.surface j).trans ?_
    have e : h.phiA0 j * (h.hC j * (θr (h.room j) - θs j) + hR j * (roomMrt h hR (h.room j) θs - θs j) + s j)
        = R' j * (h.hC j * (θr (h.room j) - θs j) + hR j * (roomMrt h hR (h.room j) θs - θs j)
          + (s j - (R' j - h.phiA0 j) / R' j * (h.hC j * (θr (h.room j) - θs j) + hR j * (roomMrt h hR (h.room j) θs - θs j) + s j))) := by
      rcases eq_or_ne (R' j) 0 with hz | hz
      · have : h.phiA0 j = 0 := le_antisymm (hz ▸ hR' j) (h0 j)
        rw [this, hz]; ring
      · field_simp
        ring
    rw [e]
    rfl

/-- Without radiant systems there is no radiant load. -/
theorem no_radiant_load {data : Fin N → Record I J} {ss : PreCalc I J N} {n : ℤ} {c : Cond I J} {t : TickVars I J}
    (Hp : makePreCalc h hR dt data = .ok ss) (H : runTick n dt ss c = .ok t) (hcap : ∀ i, 0 ≤ h.capH i ∧ 0 ≤ h.capC i)
    (hrad : ∀ i, h.isRadHeating i = false ∧ h.isRadCooling i = false) (i : I) : t.lr i = 0 := by
  obtain ⟨ivs, k', -, hs, hk', e⟩ := step_eqs Hp H
  obtain ⟨nat, p1, -, hnat, -, -⟩ := calc_passes e.load
  set a := Tick.loadInput ss k' t.ot t.brcOt t.brmOt t.brlOt with ha
  have hcap' : CapsNonneg a := by rw [ha, hs]; exact hcap
  refine (C10_one_system a _ e.load hcap' nat hnat i).1 ?_
  have eH : a.isRadHeating = h.isRadHeating := by rw [ha, hs]; rfl
  have eC : a.isRadCooling = h.isRadCooling := by rw [ha, hs]; rfl
  rintro (⟨-, y⟩ | ⟨-, y⟩)
  · rw [eH, (hrad i).1] at y; cases y
  · rw [eC, (hrad i).2] at y; cases y

/-- With closed windows a house is ventilated as planned and by what leaks. -/
theorem closed_vOut {data : Fin N → Record I J} {ss : PreCalc I J N} {n : ℤ} {k : Fin N} {c : Cond I J} {t : TickVars I J}
    (Hp : makePreCalc h hR dt data = .ok ss) (H : runTick n dt ss c = .ok t) (hk : pyIndex N n = .ok k) (i : I) (hm : (t.ot i).mode ≠ .stopOpen) :
    t.vOut i = h.vVentEx i + (data k).vLocal i + t.vLeak i := by
  obtain ⟨ivs, k', -, hs, hk', e⟩ := step_eqs Hp H
  obtain rfl : k' = k := Except.ok.inj (hk'.symm.trans hk)
  have n1 : t.vNtrl i = 0 := by rw [e.vNtrl]; unfold Tick.vNtrl; simp [hm]
  rw [e.vOut, hs]
  simp only [Tick.vOut, n1, preCalcOf, House.vMec]
  ring

/-- A tight house does not leak. -/
theorem tight_vLeak {data : Fin N → Record I J} {ss : PreCalc I J N} {n : ℤ} {c : Cond I J} {t : TickVars I J} (hC : h.cValue = 0)
    (Hp : makePreCalc h hR dt data = .ok ss) (H : runTick n dt ss c = .ok t) : t.vLeak = fun _ => 0 := by
  obtain ⟨ivs, k', -, hs, hk', e⟩ := step_eqs Hp H
  have := e.vLeak
  rw [hs] at this
  simp only [preCalcOf, hC] at this
  exact leak_tight this

/-- Heat taken out by a part of the air flow, seen as a source. -/
theorem Averages.leak {v l : I → ℝ} {θo : ℝ} {θosol : J → ℝ} {old oldF θr θf : I → ℝ} {θs : J → ℝ} {g f : I → ℝ} {s p : J → ℝ}
    (A : Averages h hR dt (fun i => v i + l i) θo θosol old oldF θr θf θs g f s p) :
    Averages h hR dt v θo θosol old oldF θr θf θs (fun i => g i + airCap * l i * (θo - θr i)) f s p where
  room i := by rw [A.room i]; ring
  furniture := A.furniture
  surface := A.surface

end

/-- What the differences of a step amount to. -/
theorem less_heat_step {C F g δr δf δr0 δf0 Δ q x : ℝ} (hC : 0 ≤ C) (hF : 0 ≤ F) (hg : 0 ≤ g)
    (hfur : g * (δr - δf) ≤ F * (δf - δf0)) (hq : -q ≤ C * max δr0 0) (hx : δr ≤ 0 → x ≤ 0)
    (hbal : Δ = C * (δr - δr0) + g * (δr - δf) + x - q) (hor : δr ≤ 0 ∨ Δ ≤ 0) :
    Δ + (C * max (-δr) 0 + F * max (-δf) 0) ≤ C * max (-δr0) 0 + F * max (-δf0) 0 := by
  have m1 : max δr0 0 - δr0 = max (-δr0) 0 := by
    rcases le_total δr0 0 with h | h
    · rw [max_eq_right h, max_eq_left (by linarith)]; ring
    · rw [max_eq_left h, max_eq_right (by linarith)]; ring
  have n1 : δf0 * -1 ≤ max (-δf0) 0 := by have := le_max_left (-δf0) 0; linarith
  have z1 : (0 : ℝ) ≤ max (-δf0) 0 := le_max_right _ _
  have z2 : (0 : ℝ) ≤ max (-δr0) 0 := le_max_right _ _
  by_cases hr : δr ≤ 0
  · have hx := hx hr
    have d1 : max (-δr) 0 = -δr := max_eq_left (by linarith)
    have step : Δ + C * max (-δr) 0 ≤ C * max (-δr0) 0 + g * (δr - δf) := by
      rw [d1, ← m1, hbal]
      nlinarith
    rcases le_total δf 0 with hf | hf
    · have d2 : max (-δf) 0 = -δf := max_eq_left (by linarith)
      rw [d2]
      have := mul_le_mul_of_nonneg_left n1 hF
      nlinarith
    · have d2 : max (-δf) 0 = 0 := max_eq_right (by linarith)
      rw [d2]
      have := mul_nonneg hF z1
      have : g * (δr - δf) ≤ 0 := mul_nonpos_of_nonneg_of_nonpos hg (by linarith)
      linarith
  · have hl := hor.resolve_left hr
    push Not at hr
    have d1 : max (-δr) 0 = 0 := max_eq_right (by linarith)
    rw [d1]
    have c1 := mul_nonneg hC z2
    rcases le_total δf 0 with hf | hf
    · have d2 : max (-δf) 0 = -δf := max_eq_left (by linarith)
      rw [d2]
      have h1 : 0 ≤ g * (δr - δf) := mul_nonneg hg (by linarith)
      have := mul_le_mul_of_nonneg_left n1 hF
      nlinarith
    · have d2 : max (-δf) 0 = 0 := max_eq_right (by linarith)
      rw [d2]
      have := mul_nonneg hF z1
      linarith

section
variable {I J : Type} [Fintype I] [DecidableEq I] [Unique I] [Fintype J] [DecidableEq J] {N : ℕ} {h : House I J} {hR : J → ℝ} {dt : ℝ} {R' : J → ℝ}

/-- No heat is stored in the parts. -/
structure Empty (c : Cond I J) : Prop where
  absorbed : ∀ j m, c.dshA j m = 0
  transmitted : ∀ j m, c.dshT j m = 0

/-- What a pair of steps must satisfy: windows closed, no more than as warm as without the insulation or no higher load, and heat going into
the better insulated parts. -/
structure PairOk (h : House I J) (R' : J → ℝ) (θo : ℝ) (t t' : TickVars I J) : Prop where
  closed : (t.ot default).mode ≠ .stopOpen
  closed' : (t'.ot default).mode ≠ .stopOpen
  compare : t'.thetaOt default ≤ t.thetaOt default ∨ t'.lc default ≤ t.lc default
  loses : ∀ j, h.phiA0 j < R' j → 0 ≤ t.qSrf j
  leak : h.cValue = 0 ∨ (t'.vLeak default ≤ t.vLeak default ∧ θo ≤ t.thetaR default)

theorem step_insulated {ss ss' : PreCalc I J N} {n : ℤ} {k : Fin N} {A B : Fin N → Record I J} {c c' : Cond I J} {t t' : TickVars I J}
    (hw : WellFormed h hR dt) (hst : Storageless h) (hv : ∀ i l, h.vInt i l = 0)
    (hrad : ∀ i, h.isRadHeating i = false ∧ h.isRadCooling i = false) (hR' : ∀ j, h.phiA0 j ≤ R' j)
    (Hp : makePreCalc h hR dt A = .ok ss) (Hp' : makePreCalc (insulated h R') hR dt B = .ok ss') (H : runTick n dt ss c = .ok t)
    (H' : runTick n dt ss' c' = .ok t') (hk : pyIndex N n = .ok k) (hloc : ∀ i, 0 ≤ (A k).vLocal i) (hAB : Warmer (A k) (B k))
    (hp : RoomForPeople h dt (A k)) (ok : PairOk h R' (A k).thetaO t t') (hc : Empty c) (hc' : Empty c') :
    Empty t.next ∧ Empty t'.next ∧
      t'.lc default - t.lc default + excess h dt default (t.thetaR default) (t.thetaFrt default) (t'.thetaR default) (t'.thetaFrt default)
        ≤ excess h dt default (c.thetaR default) (c.thetaFrt default) (c'.thetaR default) (c'.thetaFrt default) := by
  have hw' := insulated_wellFormed hw hR'
  have hst' := insulated_storageless (R' := R') hst
  have hcap : ∀ i, 0 ≤ h.capH i ∧ 0 ≤ h.capC i := fun i => ⟨hw.capH_nonneg i, hw.capC_nonneg i⟩
  obtain ⟨a1, a2, SA⟩ := step_averages hw hst hv Hp H hk hc.absorbed hc.transmitted
  obtain ⟨b1, b2, SB⟩ := step_averages hw' hst' hv Hp' H' hk hc'.absorbed hc'.transmitted
  refine ⟨⟨a1, a2⟩, ⟨b1, b2⟩, ?_⟩
  have lr1 : ∀ i, t.lr i = 0 := no_radiant_load Hp H hcap hrad
  have lr2 : ∀ i, t'.lr i = 0 := no_radiant_load Hp' H' hcap hrad
  have hv1 : t.vOut = fun i => h.vVentEx i + (A k).vLocal i + t.vLeak i := by
    funext i; rw [Unique.eq_default i]; exact closed_vOut Hp H hk _ ok.closed
  have hv2 : t'.vOut = fun i => h.vVentEx i + (A k).vLocal i + t'.vLeak i := by
    funext i; rw [Unique.eq_default i, ← hAB.ventilation]; exact closed_vOut (h := insulated h R') Hp' H' hk _ ok.closed'
  rw [hv1] at SA
  rw [hv2] at SB
  replace SA := SA.leak (v := fun i => h.vVentEx i + (A k).vLocal i)
  replace SB := SB.leak (v := fun i => h.vVentEx i + (A k).vLocal i)
  have leak0 : 0 ≤ t'.vLeak default := C36_logged_nonneg (h := insulated h R') Hp' H' (fun i => (hw.vRoom_pos i).le) default
  have hleak : t'.thetaR default - t.thetaR default ≤ 0 →
      t.vLeak default * ((A k).thetaO - t.thetaR default) ≤ t'.vLeak default * ((B k).thetaO - t'.thetaR default) := by
    intro hneg
    have hair := hAB.air
    rcases ok.leak with hC | ⟨h1, h2⟩
    · rw [tight_vLeak hC Hp H, tight_vLeak (h := insulated h R') hC Hp' H']
      simp
    · nlinarith [mul_nonneg (sub_nonneg.2 h1) (sub_nonneg.2 h2), mul_nonneg leak0 (show 0 ≤ (B k).thetaO - (A k).thetaO - (t'.thetaR default - t.thetaR default) by linarith)]
  have flux : ∀ j, t.qSrf j = h.hC j * (t.thetaR (h.room j) - t.thetaS j) + hR j * (roomMrt h hR (h.room j) t.thetaS - t.thetaS j)
      + (h.qSol (A k) j + h.flr j * (1 - h.beta (h.room j)) * t.lr (h.room j) / h.area j) := by
    intro j
    rw [C16_surface_flux Hp H hk j (add_pos (hw.hC_pos j) (hw.hR_pos j)).ne']
    ring
  have D := (SA.insulate hw.phiA0_nonneg hR').sub SB
  have hdiff : ∀ j, 0 ≤ h.qSol (B k) j - h.qSol (A k) j := by
    intro j
    rw [qSol_sub h (A k) (B k) { A k with qTrsSol := fun i => (B k).qTrsSol i - (A k).qTrsSol i } (fun _ => rfl)]
    exact qSol_nonneg hw (fun i => sub_nonneg.2 (hAB.sun i)) j
  have hextra : ∀ j, 0 ≤ (R' j - h.phiA0 j) / R' j * t.qSrf j := by
    intro j
    rcases eq_or_lt_of_le (hR' j) with he | he
    · rw [he, sub_self, zero_div, zero_mul]
    · exact mul_nonneg (div_nonneg (by linarith) ((hw.phiA0_nonneg j).trans (hR' j))) (ok.loses j he)
  have hsurf := D.surfaces_ge hw' hst'.weights (lo := 0) (fun j => sub_nonneg.2 (hAB.parts j))
    (fun j => by
      have h1 := hdiff j
      have h2 := hextra j
      rw [flux j] at h2
      simp only [lr1, lr2, mul_zero, zero_div, add_zero] at h2 ⊢
      show 0 ≤ h.qSol (B k) j - _
      linarith)
    (fun j => by
      have hkk : (insulated h R').kEi j = h.kEi j := rfl
      simp only [hkk]
      cases hK : h.kEi j with
      | none => simp
      | some mc =>
        obtain ⟨m, coef⟩ := mc
        have := hdiff m
        simp only [lr1, lr2, mul_zero, zero_div, add_zero]
        exact this)
  have hsd : ∀ m : ℝ, m ≤ 0 → m ≤ t'.thetaR default - t.thetaR default → ∀ j, m ≤ t'.thetaS j - t.thetaS j := by
    intro m hm hmr
    exact hsurf m hm fun i => by rw [Unique.eq_default i]; exact hmr
  have hR0 := hHumR_pos
  have hC0 := hHumC_pos
  have hsum : 0 < hHumC + hHumR := by linarith
  -- the room is not warmer where the operative temperature is not
  have hot : t'.thetaOt default ≤ t.thetaOt default → t'.thetaR default - t.thetaR default ≤ 0 := by
    intro hle
    by_contra hgt
    push Not at hgt
    have hs0 := hsd 0 le_rfl hgt.le
    rw [C13_operative_temperature Hp H default, C13_operative_temperature Hp' H' default, div_le_div_iff_of_pos_right hsum] at hle
    have : ∑ j ∈ surfaces h default, h.fMrtHum j * t.thetaS j ≤ ∑ j ∈ surfaces (insulated h R') default, (insulated h R').fMrtHum j * t'.thetaS j :=
      Finset.sum_le_sum fun j _ => mul_le_mul_of_nonneg_left (by have := hs0 j; linarith) (hw.fMrtHum_nonneg j)
    have := mul_le_mul_of_nonneg_left this hR0.le
    nlinarith
  have hdt := hw.dt_pos
  have hcapA : 0 < h.vRoom default * airCap := mul_pos (hw.vRoom_pos default) (by unfold airCap; norm_num)
  obtain ⟨ivs, k1, hi1, hs1, hk1, e1⟩ := step_eqs Hp H
  obtain rfl : k1 = k := Except.ok.inj (hk1.symm.trans hk)
  obtain ⟨ivs', k2, hi2, hs2, hk2, e2⟩ := step_eqs Hp' H'
  obtain rfl : k2 = k1 := Except.ok.inj (hk2.symm.trans hk)
  have q1 : t.qHum default = qHumPsn (c.thetaR default) * (A k2).nHum default := by rw [e1.qHum, hs1]; rfl
  have q2 : t'.qHum default = qHumPsn (c'.thetaR default) * (A k2).nHum default := by rw [e2.qHum, hs2, ← hAB.people]; rfl
  have hpd := hp default
  have hqq : -(t'.qHum default - t.qHum default) ≤ h.vRoom default * airCap / dt * max (c'.thetaR default - c.thetaR default) 0 := by
    rw [q1, q2]
    have hn := hpd.1
    have h4 : 4 * (A k2).nHum default ≤ h.vRoom default * airCap / dt := by rw [le_div_iff₀ hdt]; exact hpd.2
    rcases le_total (c.thetaR default) (c'.thetaR default) with hle | hle
    · rw [max_eq_left (by linarith)]
      have := mul_le_mul_of_nonneg_right (qHumPsn_slope hle) hn
      have := mul_le_mul_of_nonneg_right h4 (sub_nonneg.2 hle)
      nlinarith
    · rw [max_eq_right (by linarith)]
      have := mul_le_mul_of_nonneg_right (qHumPsn_antitone hle) hn
      linarith
  have er := D.room default
  have ef := D.furniture default
  have hor : t'.thetaR default - t.thetaR default ≤ 0 ∨ t'.lc default - t.lc default ≤ 0 := by
    rcases ok.compare with hle | hle
    · exact .inl (hot hle)
    · exact .inr (by linarith)
  have key := less_heat_step (C := h.vRoom default * airCap / dt) (F := h.cSh default / dt) (g := h.gSh default)
    (δr := t'.thetaR default - t.thetaR default) (δf := t'.thetaFrt default - t.thetaFrt default)
    (δr0 := c'.thetaR default - c.thetaR default) (δf0 := c'.thetaFrt default - c.thetaFrt default)
    (Δ := t'.lc default - t.lc default) (q := t'.qHum default - t.qHum default)
    (x := -convection (insulated h R') default (t'.thetaR default - t.thetaR default) (fun j => t'.thetaS j - t.thetaS j)
      - airCap * (h.vVentEx default + (A k2).vLocal default) * ((B k2).thetaO - (A k2).thetaO - (t'.thetaR default - t.thetaR default))
      - ((B k2).qGen default - (A k2).qGen default)
      - (airCap * t'.vLeak default * ((B k2).thetaO - t'.thetaR default) - airCap * t.vLeak default * ((A k2).thetaO - t.thetaR default)))
    (div_nonneg hcapA.le hdt.le) (div_nonneg (hw.cSh_nonneg _) hdt.le) (hw.gSh_nonneg _) ?_ hqq ?_ ?_ hor
  · have m1 : -(t'.thetaR default - t.thetaR default) = t.thetaR default - t'.thetaR default := by ring
    have m2 : -(t'.thetaFrt default - t.thetaFrt default) = t.thetaFrt default - t'.thetaFrt default := by ring
    have m3 : -(c'.thetaR default - c.thetaR default) = c.thetaR default - c'.thetaR default := by ring
    have m4 : -(c'.thetaFrt default - c.thetaFrt default) = c.thetaFrt default - c'.thetaFrt default := by ring
    rw [m1, m2, m3, m4] at key
    exact key
  · have hsun := hAB.sun default
    have : h.cSh default / dt * (t'.thetaFrt default - t.thetaFrt default - (c'.thetaFrt default - c.thetaFrt default))
        = h.gSh default * (t'.thetaR default - t.thetaR default - (t'.thetaFrt default - t.thetaFrt default))
          + ((B k2).qTrsSol default * 0.5 - (A k2).qTrsSol default * 0.5) := by
      rw [div_mul_eq_mul_div, div_eq_iff hdt.ne']
      refine Eq.trans ef ?_
      show dt * (h.gSh default * _ + _) = _
      ring
    rw [this]
    linarith
  · intro hneg
    have hS := hsd _ hneg le_rfl
    have b1 : 0 ≤ convection (insulated h R') default (t'.thetaR default - t.thetaR default) (fun j => t'.thetaS j - t.thetaS j) :=
      Finset.sum_nonneg fun j _ => mul_nonneg (mul_nonneg (hw.area_pos j).le (hw.hC_pos j).le) (sub_nonneg.2 (hS j))
    have b2 : 0 ≤ airCap * (h.vVentEx default + (A k2).vLocal default) * ((B k2).thetaO - (A k2).thetaO - (t'.thetaR default - t.thetaR default)) := by
      have := hAB.air
      exact mul_nonneg (mul_nonneg (by unfold airCap; norm_num) (add_nonneg (hw.vVentEx_nonneg _) (hloc _))) (by linarith)
    have := hAB.gains default
    have b3 := mul_le_mul_of_nonneg_left (hleak hneg) (show 0 ≤ airCap by unfold airCap; norm_num)
    rw [← mul_assoc, ← mul_assoc] at b3
    linarith
  · have e3 : h.vRoom default * airCap / dt * (t'.thetaR default - t.thetaR default - (c'.thetaR default - c.thetaR default))
        = h.vRoom default * airCap * (t'.thetaR default - t.thetaR default - (c'.thetaR default - c.thetaR default)) / dt := by ring
    rw [e3]
    have er' := er
    simp only [lr1, lr2, mul_zero, add_zero] at er'
    rw [show h.vRoom default * airCap * (t'.thetaR default - t.thetaR default - (c'.thetaR default - c.thetaR default)) / dt = _ from er']
    show _ = _ + h.gSh default * _ + airCap * (h.vVentEx default + (A k2).vLocal default) * _ + _ + _ + _ - _
    ring

theorem run_insulated {ss ss' : PreCalc I J N} {A B : Fin N → Record I J}
    (hw : WellFormed h hR dt) (hst : Storageless h) (hv : ∀ i l, h.vInt i l = 0)
    (hrad : ∀ i, h.isRadHeating i = false ∧ h.isRadCooling i = false) (hR' : ∀ j, h.phiA0 j ≤ R' j)
    (Hp : makePreCalc h hR dt A = .ok ss) (Hp' : makePreCalc (insulated h R') hR dt B = .ok ss') (hloc : ∀ k i, 0 ≤ (A k).vLocal i)
    (hAB : ∀ k, Warmer (A k) (B k)) (hp : ∀ k, RoomForPeople h dt (A k)) {c c' : Cond I J} {ns : List ℤ}
    {ts ts' : List (TickVars I J)} (hc : Empty c) (hc' : Empty c') (H : Run ss dt c ns ts) (H' : Run ss' dt c' ns ts')
    (ok : ∀ (j : ℕ) (h1 : j < ts.length) (h2 : j < ts'.length) (n : ℤ) (k : Fin N), ns[j]? = some n → pyIndex N n = .ok k →
      PairOk h R' (A k).thetaO ts[j] ts'[j]) :
    (ts'.map fun t => t.lc default).sum - (ts.map fun t => t.lc default).sum
      + excess h dt default ((after c ts).thetaR default) ((after c ts).thetaFrt default) ((after c' ts').thetaR default) ((after c' ts').thetaFrt default)
      ≤ excess h dt default (c.thetaR default) (c.thetaFrt default) (c'.thetaR default) (c'.thetaFrt default) := by
  induction H generalizing c' ts' with
  | nil =>
    cases H' with
    | nil => simp [after]
  | cons a1 _ ih =>
    cases H' with
    | cons b1 b2 =>
      rename_i c n ns t ts _ t' ts'
      obtain ⟨k, hk⟩ := runTick_index a1
      obtain ⟨s1, s2, s3⟩ := step_insulated hw hst hv hrad hR' Hp Hp' a1 b1 hk (hloc k) (hAB k) (hp k) (ok 0 (by simp) (by simp) n k (by simp) hk) hc hc'
      have := ih s1 s2 b2 fun j h1 h2 n k hn => ok (j + 1) (by simpa using h1) (by simpa using h2) n k (by simpa using hn)
      simp only [List.map_cons, List.sum_cons]
      have n1 : t.next.thetaR default = t.thetaR default := rfl
      have n2 : t.next.thetaFrt default = t.thetaFrt default := rfl
      have n3 : t'.next.thetaR default = t'.thetaR default := rfl
      have n4 : t'.next.thetaFrt default = t'.thetaFrt default := rfl
      rw [n1, n2, n3, n4] at this
      have f1 : after c (t :: ts) = after t.next ts := rfl
      have f2 : after c' (t' :: ts') = after t'.next ts' := rfl
      rw [f1, f2]
      linarith

/-- Nothing is stored in the parts of a house without storage. -/
theorem run_empty {ss : PreCalc I J N} {A : Fin N → Record I J} (hw : WellFormed h hR dt) (hst : Storageless h) (hv : ∀ i l, h.vInt i l = 0)
    (Hp : makePreCalc h hR dt A = .ok ss) {c : Cond I J} {ns : List ℤ} {ts : List (TickVars I J)} (hc : Empty c) (H : Run ss dt c ns ts) :
    Empty (after c ts) := by
  induction H with
  | nil => exact hc
  | cons a1 _ ih =>
    obtain ⟨k, hk⟩ := runTick_index a1
    obtain ⟨a, b, -⟩ := step_averages hw hst hv Hp a1 hk hc.absorbed hc.transmitted
    exact ih ⟨a, b⟩

end

section
variable {I : Type} [Fintype I] [DecidableEq I] [Unique I] {m N : ℕ} {h : House I (Fin m)} {solve : List ℝ → ℝ} {hR R' : Fin m → ℝ}
  {A B : Fin N → Record I (Fin m)} {hourly dMain dRunUp dRunUpBuild : ℤ} {r1 r2 : CalcResult I m N}

theorem main_index {b n : ℤ} {j : ℕ} {k : Fin N} (hn : (pyRange 0 b)[j]? = some n) (hk : pyIndex N n = .ok k) : (k : ℕ) = j := by
  obtain ⟨hj, e⟩ := List.getElem?_eq_some_iff.1 hn
  rw [pyRange_getElem, zero_add] at e
  subst e
  by_cases h : j < N
  · rw [pyIndex_nonneg h] at hk; rw [← Except.ok.inj hk]
  · rw [pyIndex_error (Or.inr (by omega))] at hk; cases hk

theorem log_sum {n : ℕ} {log : Fin n → LogRow I (Fin m)} {mn : List (TickVars I (Fin m))} (hl : mn.length = n)
    (hlog : ∀ (k : Fin n) (hk : (k : ℕ) < mn.length), log k = LogRow.ofTick mn[(k : ℕ)]) :
    ∑ k, (log k).lCs default = (mn.map fun t => t.lc default).sum := by
  subst hl
  rw [← List.sum_ofFn]
  congr 1
  apply List.ext_getElem
  · simp
  · intro i h1 h2
    have h3 : i < mn.length := by simpa using h1
    simp only [List.getElem_ofFn, List.getElem_map]
    rw [hlog ⟨i, h3⟩ h3]
    rfl

/-- **C117, from a common start.** A one-room house without heat storage in its parts and without radiant systems, against the same
house with more resistance in any of its parts, in weather at least as warm, with at least as much sun and gains. If in every row the
windows are closed, the better insulated house is kept no warmer (unless its load is no larger anyway) and the better insulated parts
lose heat in the other house, which (if not tight) is warmer than outdoors and leaks at least as much, then the sum of the loads of the better insulated house is no larger: heating does not rise. -/
theorem C117_total_partial (hw : WellFormed h hR (3600 / (hourly : ℝ))) (hst : Storageless h) (hng : ∀ j, h.isGround j = false)
    (hv : ∀ i l, h.vInt i l = 0) (hrad : ∀ i, h.isRadHeating i = false ∧ h.isRadCooling i = false)
    (hR' : ∀ j, h.phiA0 j ≤ R' j) (hloc : ∀ k i, 0 ≤ (A k).vLocal i) (hAB : ∀ k, Warmer (A k) (B k))
    (hp : ∀ k, RoomForPeople h (3600 / (hourly : ℝ)) (A k))
    (H1 : coreCalc h hR A hourly dMain dRunUp 0 = .ok r1) (H2 : coreCalc (insulated h R') hR B hourly dMain dRunUp 0 = .ok r2)
    (hrows : ∀ (k : ℕ) (h1 : k < r1.nMain.toNat) (h2 : k < r2.nMain.toNat) (hN : k < N),
      ComparableRows h R' default (A ⟨k, hN⟩).thetaO (r1.log ⟨k, h1⟩) (r2.log ⟨k, h2⟩)) :
    ∑ k, (r2.log k).lCs default ≤ ∑ k, (r1.log k).lCs default := by
  obtain ⟨gs1, c1, up1, mn1, T1⟩ := coreCalc_ok H1
  obtain ⟨gs2, c2, up2, mn2, T2⟩ := coreCalc_ok H2
  have e1 := start_eq hng T1
  have e2 := start_eq (h := insulated h R') hng T2
  subst e1 e2
  have z : pyRange (-((0 : ℤ) * hourly * 24)) 0 = [] := by simp [pyRange]
  have u1 := T1.runUp
  have u2 := T2.runUp
  rw [z] at u1 u2
  cases u1
  cases u2
  have m1 : Run r1.ss (3600 / (hourly : ℝ)) (initialConditions I (Fin m)) (pyRange 0 (dMain * hourly * 24)) mn1 := T1.main
  have m2 : Run r2.ss (3600 / (hourly : ℝ)) (initialConditions I (Fin m)) (pyRange 0 (dMain * hourly * 24)) mn2 := T2.main
  rw [log_sum T1.mn_length T1.logged, log_sum T2.mn_length T2.logged]
  have hc : Empty (initialConditions I (Fin m)) := ⟨fun _ _ => rfl, fun _ _ => rfl⟩
  have key := run_insulated hw hst hv hrad hR' T1.pre T2.pre hloc hAB hp hc hc m1 m2 (by
    intro j h1 h2 n k hn hk
    have h1' : j < r1.nMain.toNat := by rw [← T1.mn_length]; exact h1
    have h2' : j < r2.nMain.toNat := by rw [← T2.mn_length]; exact h2
    have ek := main_index hn hk
    have := hrows j h1' h2' (ek ▸ k.2)
    rw [T1.logged ⟨j, h1'⟩ h1, T2.logged ⟨j, h2'⟩ h2] at this
    subst ek
    exact ⟨fun e => this.closed (congrArg some e), fun e => this.closed' (congrArg some e), this.compare, this.loses, this.leak⟩)
  have x0 : ∀ a b : ℝ, excess h (3600 / (hourly : ℝ)) default a b a b = 0 := by intro a b; simp [excess]
  rw [x0] at key
  have x1 : ∀ a b a' b' : ℝ, 0 ≤ excess h (3600 / (hourly : ℝ)) default a b a' b' := by
    intro a b a' b'
    have hdt := hw.dt_pos
    have hca : 0 ≤ h.vRoom default * airCap := mul_nonneg (hw.vRoom_pos default).le (by unfold airCap; norm_num)
    unfold excess
    exact add_nonneg (mul_nonneg (div_nonneg hca hdt.le) (le_max_right _ _)) (mul_nonneg (div_nonneg (hw.cSh_nonneg _) hdt.le) (le_max_right _ _))
  have := x1 ((after (initialConditions I (Fin m)) mn1).thetaR default) ((after (initialConditions I (Fin m)) mn1).thetaFrt default)
    ((after (initialConditions I (Fin m)) mn2).thetaR default) ((after (initialConditions I (Fin m)) mn2).thetaFrt default)
  linarith

/-- **C117, with a run-up.** The same, whatever happened in the run-up: the heat supplied in all rows but the first is larger in the better
insulated house at most by the heat its air and furniture lacked in the first row against the other house. -/
theorem C117_rows_partial (hw : WellFormed h hR (3600 / (hourly : ℝ))) (hst : Storageless h) (hng : ∀ j, h.isGround j = false)
    (hv : ∀ i l, h.vInt i l = 0) (hrad : ∀ i, h.isRadHeating i = false ∧ h.isRadCooling i = false)
    (hR' : ∀ j, h.phiA0 j ≤ R' j) (hloc : ∀ k i, 0 ≤ (A k).vLocal i) (hAB : ∀ k, Warmer (A k) (B k))
    (hp : ∀ k, RoomForPeople h (3600 / (hourly : ℝ)) (A k))
    (H1 : coreCalc h hR A hourly dMain dRunUp dRunUpBuild = .ok r1)
    (H2 : coreCalc (insulated h R') hR B hourly dMain dRunUp dRunUpBuild = .ok r2) (n1 : 0 < r1.nMain.toNat) (n2 : 0 < r2.nMain.toNat)
    (hrows : ∀ (k : ℕ) (h1 : k < r1.nMain.toNat) (h2 : k < r2.nMain.toNat) (hN : k < N), 0 < k →
      ComparableRows h R' default (A ⟨k, hN⟩).thetaO (r1.log ⟨k, h1⟩) (r2.log ⟨k, h2⟩)) :
    (3600 / (hourly : ℝ)) * (∑ k, (r2.log k).lCs default - (r2.log ⟨0, n2⟩).lCs default)
      ≤ (3600 / (hourly : ℝ)) * (∑ k, (r1.log k).lCs default - (r1.log ⟨0, n1⟩).lCs default)
        + h.vRoom default * airCap * max ((r1.log ⟨0, n1⟩).thetaR default - (r2.log ⟨0, n2⟩).thetaR default) 0
        + h.cSh default * max ((r1.log ⟨0, n1⟩).thetaFrt default - (r2.log ⟨0, n2⟩).thetaFrt default) 0 := by
  obtain ⟨gs1, c1, up1, mn1, T1⟩ := coreCalc_ok H1
  obtain ⟨gs2, c2, up2, mn2, T2⟩ := coreCalc_ok H2
  have e1 := start_eq hng T1
  have e2 := start_eq (h := insulated h R') hng T2
  subst e1 e2
  have l1 := T1.mn_length
  have l2 := T2.mn_length
  have g1 := T1.logged
  have g2 := T2.logged
  have s1 := log_sum l1 g1
  have s2 := log_sum l2 g2
  have hc : Empty (initialConditions I (Fin m)) := ⟨fun _ _ => rfl, fun _ _ => rfl⟩
  have x1 := run_empty hw hst hv T1.pre hc T1.runUp
  have x2 := run_empty (insulated_wellFormed hw hR') (insulated_storageless hst) hv T2.pre hc T2.runUp
  have m1 := T1.main
  have m2 := T2.main
  generalize hns : pyRange 0 (dMain * hourly * 24) = ns at m1 m2
  cases m1 with
  | nil => rw [← l1] at n1; simp at n1
  | cons a1 a2 =>
    cases m2 with
    | cons b1 b2 =>
      rename_i n ns t ts t' ts'
      obtain ⟨y1, y2⟩ : Empty t.next ∧ Empty t'.next := by
        obtain ⟨k, hk⟩ := runTick_index a1
        obtain ⟨p1, p2, -⟩ := step_averages hw hst hv T1.pre a1 hk x1.absorbed x1.transmitted
        obtain ⟨q1, q2, -⟩ := step_averages (insulated_wellFormed hw hR') (insulated_storageless hst) hv T2.pre b1 hk x2.absorbed x2.transmitted
        exact ⟨⟨p1, p2⟩, ⟨q1, q2⟩⟩
      have key := run_insulated hw hst hv hrad hR' T1.pre T2.pre hloc hAB hp y1 y2 a2 b2 (by
        intro j h1 h2 n' k hn hk
        have h1' : j + 1 < r1.nMain.toNat := by rw [← l1]; simpa using h1
        have h2' : j + 1 < r2.nMain.toNat := by rw [← l2]; simpa using h2
        have hn' : (pyRange 0 (dMain * hourly * 24))[j + 1]? = some n' := by rw [hns]; simpa using hn
        have ek : (k : ℕ) = j + 1 := main_index hn' hk
        have := hrows (j + 1) h1' h2' (ek ▸ k.2) (Nat.succ_pos j)
        rw [g1 ⟨j + 1, h1'⟩ (by simpa using h1), g2 ⟨j + 1, h2'⟩ (by simpa using h2)] at this
        have ek' : (⟨j + 1, ek ▸ k.2⟩ : Fin N) = k := Fin.ext ek.symm
        rw [ek'] at this
        exact ⟨fun e => this.closed (congrArg some e), fun e => this.closed' (congrArg some e), this.compare, this.loses, this.leak⟩)
      rw [s1, s2, g1 ⟨0, n1⟩ (by simp), g2 ⟨0, n2⟩ (by simp)]
      simp only [List.map_cons, List.sum_cons, List.getElem_cons_zero, LogRow.ofTick, add_sub_cancel_left]
      have hdt := hw.dt_pos
      have hca : 0 ≤ h.vRoom default * airCap := mul_nonneg (hw.vRoom_pos default).le (by unfold airCap; norm_num)
      have hx : ∀ a b a' b' : ℝ, (3600 / (hourly : ℝ)) * excess h (3600 / (hourly : ℝ)) default a b a' b'
          = h.vRoom default * airCap * max (a - a') 0 + h.cSh default * max (b - b') 0 := by
        intro a b a' b'
        unfold excess
        generalize (3600 / (hourly : ℝ)) = d at hdt
        field_simp
      have hpos : 0 ≤ excess h (3600 / (hourly : ℝ)) default ((after t.next ts).thetaR default) ((after t.next ts).thetaFrt default)
          ((after t'.next ts').thetaR default) ((after t'.next ts').thetaFrt default) := by
        unfold excess
        exact add_nonneg (mul_nonneg (div_nonneg hca hdt.le) (le_max_right _ _)) (mul_nonneg (div_nonneg (hw.cSh_nonneg _) hdt.le) (le_max_right _ _))
      have k2 : (ts'.map fun t => t.lc default).sum ≤ (ts.map fun t => t.lc default).sum
          + excess h (3600 / (hourly : ℝ)) default (t.next.thetaR default) (t.next.thetaFrt default) (t'.next.thetaR default) (t'.next.thetaFrt default) := by
        linarith
      have := mul_le_mul_of_nonneg_left k2 hdt.le
      rw [mul_add, hx, ← add_assoc] at this
      exact this

/-- **C117, rows that compare (leakage).** If in a row the better insulated house is no warmer than the other one and both are at least as warm as outdoors in the
next quarter of an hour, then it leaks no more in the next row. -/
theorem C117_leakage (hvol : ∀ i, 0 < h.vRoom i) (hc0 : 0 ≤ h.cValue) (H1 : coreCalc h hR A hourly dMain dRunUp dRunUpBuild = .ok r1)
    (H2 : coreCalc (insulated h R') hR B hourly dMain dRunUp dRunUpBuild = .ok r2) (k : ℕ) (hN : k + 1 < N) (h1 : k + 1 < r1.nMain.toNat)
    (h2 : k + 1 < r2.nMain.toNat) (hair : (A ⟨k + 1, hN⟩).thetaO ≤ (B ⟨k + 1, hN⟩).thetaO)
    (hwarm : (B ⟨k + 1, hN⟩).thetaO ≤ (r2.log ⟨k, by omega⟩).thetaR default)
    (hle : (r2.log ⟨k, by omega⟩).thetaR default ≤ (r1.log ⟨k, by omega⟩).thetaR default) :
    (r2.log ⟨k + 1, h2⟩).vLeak default ≤ (r1.log ⟨k + 1, h1⟩).vLeak default := by
  obtain ⟨k1, t0, t, e1, i1, Hp, Ht, l0, l1⟩ := logged_pair H1 k h1
  obtain ⟨k2, s0, s, e2, i2, Hp', Hs, q0, q1⟩ := logged_pair H2 k h2
  obtain rfl : k1 = ⟨k + 1, hN⟩ := Fin.ext e1
  obtain rfl : k2 = ⟨k + 1, hN⟩ := Fin.ext e2
  rw [l0, q0] at hle
  rw [q0] at hwarm
  rw [l1, q1]
  obtain ⟨ivs, j1, -, hs1, hj1, E1⟩ := step_eqs Hp Ht
  obtain ⟨ivs', j2, -, hs2, hj2, E2⟩ := step_eqs Hp' Hs
  obtain rfl : j1 = ⟨k + 1, hN⟩ := Except.ok.inj (hj1.symm.trans i1)
  obtain rfl : j2 = ⟨k + 1, hN⟩ := Except.ok.inj (hj2.symm.trans i2)
  have f1 := E1.vLeak
  have f2 := E2.vLeak
  rw [hs1] at f1
  rw [hs2] at f2
  have mean : ∀ θ : I → ℝ, meanTemp h.vRoom θ = θ default := by
    intro θ
    unfold meanTemp
    rw [Fintype.sum_unique, Fintype.sum_unique]
    have := (hvol default).ne'
    field_simp
  refine C36_monotone f2 f1 (fun i => (hvol i).le) hc0 le_rfl ?_ default
  rw [show (preCalcOf (insulated h R') hR (3600 / (hourly : ℝ)) B ivs').vRoom = h.vRoom from rfl, mean, mean]
  have hle' : s0.next.thetaR default ≤ t0.next.thetaR default := hle
  have hwarm' : (B ⟨k + 1, hN⟩).thetaO ≤ s0.next.thetaR default := hwarm
  show |s0.next.thetaR default - (B ⟨k + 1, hN⟩).thetaO| ≤ |t0.next.thetaR default - (A ⟨k + 1, hN⟩).thetaO|
  rw [abs_of_nonneg (by linarith), abs_of_nonneg (by linarith)]
  linarith

/-- **C117, rows that compare.** In a row in which the first house is not cooled and in which, if the second is heated, both are in the heating
mode with full demand and had the same humidity in the row before, the second is no warmer or its load is no larger. -/
theorem C117_compare (hcap : ∀ i, 0 ≤ h.capH i ∧ 0 ≤ h.capC i)
    (H1 : coreCalc h hR A hourly dMain dRunUp dRunUpBuild = .ok r1)
    (H2 : coreCalc (insulated h R') hR B hourly dMain dRunUp dRunUpBuild = .ok r2) (k : ℕ) (hN : k + 1 < N)
    (h1 : k + 1 < r1.nMain.toNat) (h2 : k + 1 < r2.nMain.toNat) (hpos : 0 ≤ (r1.log ⟨k + 1, h1⟩).lCs default)
    (hheat : 0 < (r2.log ⟨k + 1, h2⟩).lCs default →
      (r1.log ⟨k + 1, h1⟩).mode default = some .heating ∧ (r2.log ⟨k + 1, h2⟩).mode default = some .heating ∧
      (A ⟨k + 1, hN⟩).acDemand default = 1 ∧ (B ⟨k + 1, hN⟩).acDemand default = 1 ∧
      (r1.log ⟨k, by omega⟩).xR default = (r2.log ⟨k, by omega⟩).xR default) :
    (r2.log ⟨k + 1, h2⟩).thetaOt default ≤ (r1.log ⟨k + 1, h1⟩).thetaOt default ∨
      (r2.log ⟨k + 1, h2⟩).lCs default ≤ (r1.log ⟨k + 1, h1⟩).lCs default := by
  by_cases hl : 0 < (r2.log ⟨k + 1, h2⟩).lCs default
  · obtain ⟨ma, mb, da, db, hx⟩ := hheat hl
    left
    obtain ⟨k1, t0, t, e1, i1, Hp, Ht, l0, l1⟩ := logged_pair H1 k h1
    obtain ⟨k2, s0, s, e2, i2, Hp', Hs, q0, q1⟩ := logged_pair H2 k h2
    obtain rfl : k1 = ⟨k + 1, hN⟩ := Fin.ext e1
    obtain rfl : k2 = ⟨k + 1, hN⟩ := Fin.ext e2
    rw [l1] at ma ⊢
    rw [q1] at mb hl ⊢
    rw [l0, q0] at hx
    have ma' : (t.ot default).mode = .heating := Option.some.inj ma
    have mb' : (s.ot default).mode = .heating := Option.some.inj mb
    have tg := ((step_target Hp Ht i1 hcap default da).1 ma').1
    have tg' := ((step_target (h := insulated h R') Hp' Hs i2 hcap default db).1 mb').2 (.inl (ne_of_gt hl))
    obtain ⟨ivs, j1, -, hs1, hj1, E1⟩ := step_eqs Hp Ht
    obtain ⟨ivs', j2, -, hs2, hj2, E2⟩ := step_eqs Hp' Hs
    have o1 := E1.ot default
    have o2 := E2.ot default
    have hx' : t0.next.xR default = s0.next.xR default := hx
    rw [hx'] at o1
    have := (target_agrees o1 o2 (ma'.trans mb'.symm)).1
    show s.thetaOt default ≤ t.thetaOt default
    rw [tg', ← this]
    exact tg
  · exact .inr ((not_lt.1 hl).trans hpos)

end

section
variable {m N : ℕ} {h : House (Fin 1) (Fin m)} {solve : List ℝ → ℝ} {R' : Fin m → ℝ}
  {A B : Fin N → Record (Fin 1) (Fin m)} {hourly dMain dRunUp : ℤ} {r1 r2 : CalcResult (Fin 1) m N}

/-- **C117 for the program.** -/
theorem C117_program_partial (hw : WellFormed h (getHr solve h.area h.room) (3600 / (hourly : ℝ))) (hst : Storageless h)
    (hng : ∀ j, h.isGround j = false) (hv : ∀ i l, h.vInt i l = 0)
    (hrad : ∀ i, h.isRadHeating i = false ∧ h.isRadCooling i = false)
    (hR' : ∀ j, h.phiA0 j ≤ R' j) (hloc : ∀ k i, 0 ≤ (A k).vLocal i) (hAB : ∀ k, Warmer (A k) (B k))
    (hp : ∀ k, RoomForPeople h (3600 / (hourly : ℝ)) (A k))
    (H1 : program solve h A hourly dMain dRunUp 0 = .ok r1) (H2 : program solve (insulated h R') B hourly dMain dRunUp 0 = .ok r2)
    (hrows : ∀ (k : ℕ) (h1 : k < r1.nMain.toNat) (h2 : k < r2.nMain.toNat) (hN : k < N),
      ComparableRows h R' default (A ⟨k, hN⟩).thetaO (r1.log ⟨k, h1⟩) (r2.log ⟨k, h2⟩)) :
    ∑ k, (r2.log k).lCs default ≤ ∑ k, (r1.log k).lCs default :=
  C117_total_partial hw hst hng hv hrad hR' hloc hAB hp H1 H2 hrows

end

end HLC
