import Verif.Spec.Flat
import Verif.Lemmas.Tick
import Verif.Lemmas.Cut

/-!
# One step of a flat that is separate from the rest of the building
-/

set_option linter.unusedSectionVars false

namespace HLC
open Spec

variable {I A J B : Type} [Fintype I] [DecidableEq I] [Fintype J] [DecidableEq J] [Fintype A] [DecidableEq A] [Fintype B]
  [DecidableEq B] {N : ℕ} {e : A → I} {f : B → J}

/-- The state of the flat. -/
def condFlat (e : A → I) (f : B → J) (c : Cond I J) : Cond A B where
  mode := fun i => c.mode (e i)
  thetaR := fun i => c.thetaR (e i)
  thetaMrt := fun i => c.thetaMrt (e i)
  xR := fun i => c.xR (e i)
  dshA := fun j => c.dshA (f j)
  dshT := fun j => c.dshT (f j)
  qSrf := fun j => c.qSrf (f j)
  thetaFrt := fun i => c.thetaFrt (e i)
  xFrt := fun i => c.xFrt (e i)
  thetaEi := fun j => c.thetaEi (f j)

/-- The parameters of the flat. -/
def preFlat (e : A → I) (f : B → J) (s : PreCalc I J N) : PreCalc A B N where
  vRoom := fun i => s.vRoom (e i)
  cRoom := fun i => s.cRoom (e i)
  cSh := fun i => s.cSh (e i)
  cLh := fun i => s.cLh (e i)
  gSh := fun i => s.gSh (e i)
  gLh := fun i => s.gLh (e i)
  vInt := s.vInt.submatrix e e
  aSrf := fun j => s.aSrf (f j)
  vMec := fun n i => s.vMec n (e i)
  qGen := fun n i => s.qGen n (e i)
  nHum := fun n i => s.nHum n (e i)
  xGen := fun n i => s.xGen n (e i)
  acDemand := fun n i => s.acDemand n (e i)
  qTrsSol := fun n i => s.qTrsSol n (e i)
  qSolFrt := fun n i => s.qSolFrt n (e i)
  qSol := fun n j => s.qSol n (f j)
  thetaDstrb := fun n j => s.thetaDstrb n (f j)
  fMrtHum := s.fMrtHum.submatrix e f
  ratio := fun j => s.ratio (f j)
  phiA0 := fun j => s.phiA0 (f j)
  phiA1 := fun j => s.phiA1 (f j)
  phiT0 := fun j => s.phiT0 (f j)
  phiT1 := fun j => s.phiT1 (f j)
  vNtrl := fun i => s.vNtrl (e i)
  isRadHeating := fun i => s.isRadHeating (e i)
  isRadCooling := fun i => s.isRadCooling (e i)
  capH := fun i => s.capH (e i)
  capC := fun i => s.capC (e i)
  flr := s.flr.submatrix f e
  hR := fun j => s.hR (f j)
  hC := fun j => s.hC (f j)
  fMrt := s.fMrt.submatrix e f
  beta := fun i => s.beta (e i)
  wsr := s.wsr.submatrix f e
  wsb := s.wsb.submatrix f e
  brmNonVent := s.brmNonVent.submatrix e e
  ivsAx := s.ivsAx.submatrix f f
  brl := s.brl.submatrix e e
  p := s.p.submatrix e f
  isGround := fun j => s.isGround (f j)
  wsc := fun n j => s.wsc n (f j)
  kEi := s.kEi.submatrix f f
  thetaO := s.thetaO
  xO := s.xO
  thetaOAve := s.thetaOAve
  rac := fun i => s.rac (e i)
  story := s.story
  cValue := s.cValue
  pressure := s.pressure

/-- What a step computes of the flat. -/
def tickFlat (e : A → I) (f : B → J) (t : TickVars I J) : TickVars A B where
  ot := fun i => t.ot (e i)
  thetaRear := fun j => t.thetaRear (f j)
  qHum := fun i => t.qHum (e i)
  xHum := fun i => t.xHum (e i)
  vLeak := fun i => t.vLeak (e i)
  dshA := fun j => t.dshA (f j)
  dshT := fun j => t.dshT (f j)
  wsv := fun j => t.wsv (f j)
  vNtrl := fun i => t.vNtrl (e i)
  vOut := fun i => t.vOut (e i)
  brc := fun i => t.brc (e i)
  brm := t.brm.submatrix e e
  xot := t.xot.submatrix e e
  xlr := t.xlr.submatrix e e
  xc := fun i => t.xc (e i)
  brmOt := t.brmOt.submatrix e e
  brlOt := t.brlOt.submatrix e e
  brcOt := fun i => t.brcOt (e i)
  thetaOt := fun i => t.thetaOt (e i)
  lc := fun i => t.lc (e i)
  lr := fun i => t.lr (e i)
  thetaR := fun i => t.thetaR (e i)
  thetaFrt := fun i => t.thetaFrt (e i)
  thetaS := fun j => t.thetaS (f j)
  thetaMrt := fun i => t.thetaMrt (e i)
  thetaEi := fun j => t.thetaEi (f j)
  qSrf := fun j => t.qSrf (f j)
  brmxNonDh := t.brmxNonDh.submatrix e e
  brxcNonDh := fun i => t.brxcNonDh (e i)
  xNonDh := fun i => t.xNonDh (e i)
  rac := fun i => t.rac (e i)
  xR := fun i => t.xR (e i)
  lCl := fun i => t.lCl (e i)
  xFrt := fun i => t.xFrt (e i)

theorem next_flat (t : TickVars I J) : (tickFlat e f t).next = condFlat e f t.next := rfl

theorem ofTick_flat (t : TickVars I J) : LogRow.ofTick (tickFlat e f t) = rowFlat e f (LogRow.ofTick t) := rfl

/-! ## Infiltration -/

theorem infiltrationB_nonneg {s : ℤ} {p : String} {b : ℝ} (h : infiltrationB s p = .ok b) : 0 ≤ b := by
  unfold infiltrationB at h
  split_ifs at h <;> (injection h with h; subst h; norm_num)

/-- A house without leakage has no infiltration, and no room knows of the others. -/
theorem getInfiltration_flat {v : I → ℝ} {s : ℤ} {p : String} {th : I → ℝ} {o : ℝ} {r : I → ℝ}
    (H : getInfiltration 0 v s p th o = .ok r) (hv : ∑ i, v (e i) ≠ 0) (th' : A → ℝ) :
    getInfiltration 0 (fun i => v (e i)) s p th' o = .ok fun i => r (e i) := by
  unfold getInfiltration at H ⊢
  simp only [bind, Except.bind] at H ⊢
  split at H
  · cases H
  split at H
  · cases H
  rename_i a ha
  split at H
  · cases H
  rename_i b hb
  rw [volumeAverage, if_neg hv]
  have h0 := infiltrationB_nonneg hb
  have hz : max (-b) 0 = 0 := max_eq_right (by linarith)
  simp only [zero_mul, mul_zero, zero_sub, hz, zero_div] at H ⊢
  rw [← Except.ok.inj H]

/-! ## The load calculation -/

/-- Loads and temperatures of the flat. -/
def loadTempFlat (e : A → I) (x : LoadTemp I) : LoadTemp A where
  theta := fun i => x.theta (e i)
  lc := fun i => x.lc (e i)
  lr := fun i => x.lr (e i)

/-- The arguments of the load calculation of the flat. -/
def loadInputFlat (e : A → I) (a : LoadInput I) : LoadInput A where
  isRadHeating := fun i => a.isRadHeating (e i)
  isRadCooling := fun i => a.isRadCooling (e i)
  brc := fun i => a.brc (e i)
  brm := a.brm.submatrix e e
  brl := a.brl.submatrix e e
  lower := fun i => a.lower (e i)
  upper := fun i => a.upper (e i)
  capH := fun i => a.capH (e i)
  capC := fun i => a.capC (e i)
  mode := fun i => a.mode (e i)
  demand := fun i => a.demand (e i)


section
variable (he : Function.Injective e)
include he

theorem one_flat : (1 : Matrix I I ℝ).submatrix e e = 1 := by
  have := diagonal_sub' he (fun _ => (1 : ℝ))
  rw [Matrix.diagonal_one, Matrix.diagonal_one] at this
  exact this.symm

theorem cut_one : Cut e e (1 : Matrix I I ℝ) := by
  have := cut_diagonal e (fun _ => (1 : ℝ))
  rwa [Matrix.diagonal_one] at this

theorem getLoadAndTemp_flat {kt kc kr : Matrix I I ℝ} (ht : Cut e e kt) (hc : Cut e e kc) (hr : Cut e e kr) {k : I → ℝ} {nt : I → Bool}
    {a : I → ℝ} {c : I → Bool} {b : I → ℝ} {r : I → Bool} {d : I → ℝ} {x : LoadTemp I} (H : getLoadAndTemp kt kc kr k nt a c b r d = .ok x) :
    getLoadAndTemp (kt.submatrix e e) (kc.submatrix e e) (kr.submatrix e e) (fun i => k (e i)) (fun i => nt (e i)) (fun i => a (e i))
      (fun i => c (e i)) (fun i => b (e i)) (fun i => r (e i)) (fun i => d (e i)) = .ok (loadTempFlat e x) := by
  unfold getLoadAndTemp at H ⊢
  have h1 : loadX1 (kt.submatrix e e) (kc.submatrix e e) (kr.submatrix e e) (fun i => nt (e i)) (fun i => c (e i)) (fun i => r (e i))
      = (loadX1 kt kc kr nt c r).submatrix e e := rfl
  have hcut : Cut e e (loadX1 kt kc kr nt c r) := by
    intro i l hl
    simp [loadX1, ht i l hl, hc i l hl, hr i l hl]
  simp only [bind, Except.bind] at H
  split at H
  · cases H
  rename_i inv hinv
  obtain ⟨h2, h3⟩ := hcut.npInv he hinv
  have h4 : loadX2 (kt.submatrix e e) (kc.submatrix e e) (kr.submatrix e e) (fun i => k (e i))
        (resetWhere (fun i => nt (e i)) fun i => a (e i)) (resetWhere (fun i => c (e i)) fun i => b (e i))
        (resetWhere (fun i => r (e i)) fun i => d (e i))
      = fun i => loadX2 kt kc kr k (resetWhere nt a) (resetWhere c b) (resetWhere r d) (e i) := by
    funext i
    have e1 := ht.mulVec he (resetWhere nt a) i
    have e2 := hc.mulVec he (resetWhere c b) i
    have e3 := hr.mulVec he (resetWhere r d) i
    simp only [loadX2]
    rw [← e1, ← e2, ← e3]
    rfl
  rw [h1, h2, ← Except.ok.inj H]
  simp only [bind, Except.bind, h4, h3.mulVec he]
  rfl

theorem calcNextTempAndLoad_flat {a : LoadInput I} (ht : Cut e e a.brm) (hr : Cut e e a.brl) {x : LoadTemp I}
    (H : calcNextTempAndLoad a = .ok x) : calcNextTempAndLoad (loadInputFlat e a) = .ok (loadTempFlat e x) := by
  unfold calcNextTempAndLoad naturalTemp at H ⊢
  simp only [bind, Except.bind] at H ⊢
  cases hi : npInv a.brm with
  | error y => rw [hi] at H; cases H
  | ok inv =>
    rw [hi] at H
    obtain ⟨h2, h3⟩ := ht.npInv he hi
    have h2' : npInv (loadInputFlat e a).brm = .ok (inv.submatrix e e) := h2
    have hn : (inv.submatrix e e).mulVec (loadInputFlat e a).brc = fun i => inv.mulVec a.brc (e i) :=
      funext fun i => h3.mulVec he a.brc i
    simp only [h2', hn]
    simp only at H
    split at H
    · cases H
    rename_i p1 hp1
    have g1 := getLoadAndTemp_flat he ht (cut_one he) hr hp1
    rw [one_flat he] at g1
    have g2 := getLoadAndTemp_flat he ht (cut_one he) hr H
    rw [one_flat he] at g2
    have g1' : getLoadAndTemp (loadInputFlat e a).brm 1 (loadInputFlat e a).brl (loadInputFlat e a).brc
        ((loadInputFlat e a).nt fun i => inv.mulVec a.brc (e i)) ((loadInputFlat e a).thetaSet fun i => inv.mulVec a.brc (e i))
        ((loadInputFlat e a).c0 fun i => inv.mulVec a.brc (e i)) (fun _ => 0) ((loadInputFlat e a).r0 fun i => inv.mulVec a.brc (e i))
        (fun _ => 0) = _ := g1
    rw [g1']
    exact g2

end

/-! ## The parameters -/

section
variable {room : B → A} {rear : B → Option (B × ℝ)} {h : House I J} (S : Separate e f room rear h) (hR : J → ℝ) (d : Record I J)
include S

local notation "hf" => houseFlat e f room rear h

theorem p_flat : (hf).p = h.p.submatrix e f := by
  funext i j
  simp only [House.p, Matrix.of_apply, Matrix.submatrix_apply, S.room_eq, S.rooms.eq_iff]
  rfl

theorem cut_p : Cut e f h.p := by
  intro i j hj
  simp only [House.p, Matrix.of_apply]
  rw [if_neg fun hr => hj (S.all_parts j ⟨i, hr.symm⟩)]

theorem cut_pT : Cut f e h.p.transpose := by
  intro j i hi
  simp only [House.p, Matrix.transpose_apply, Matrix.of_apply]
  rw [if_neg fun hr => hi ⟨room j, (S.room_eq j).symm.trans hr⟩]

theorem kEiMat_flat : (hf).kEiMat = h.kEiMat.submatrix f f := by
  funext j k
  simp only [House.kEiMat, Matrix.of_apply, Matrix.submatrix_apply, S.rear_eq]
  show (match rear j with | none => (0 : ℝ) | some (m, coef) => if k = m then coef else 0) = _
  cases rear j with
  | none => rfl
  | some x => simp only [Option.map_some, S.parts.eq_iff]

theorem cut_kEi : Cut f f h.kEiMat := by
  intro j k hk
  simp only [House.kEiMat, Matrix.of_apply, S.rear_eq]
  cases rear j with
  | none => rfl
  | some x => exact if_neg fun hx => hk ⟨x.1, hx.symm⟩

theorem flrMat_flat : (hf).flrMat = h.flrMat.submatrix f e := by
  funext j i
  simp only [House.flrMat, Matrix.of_apply, p_flat S]
  rfl

theorem cut_flrMat : Cut f e h.flrMat := by
  intro j i hi
  have := cut_pT S j i hi
  simp only [House.flrMat, Matrix.of_apply, Matrix.transpose_apply] at this ⊢
  rw [this, zero_mul]

theorem fMrtHumMat_flat : (hf).fMrtHumMat = h.fMrtHumMat.submatrix e f := by
  funext i j
  simp only [House.fMrtHumMat, Matrix.of_apply, p_flat S]
  rfl

theorem cut_fMrtHumMat : Cut e f h.fMrtHumMat := by
  intro i j hj
  simp only [House.fMrtHumMat, Matrix.of_apply, cut_p S i j hj, zero_mul]

theorem sum_p_flat (F : J → ℝ) (i : A) : ∑ k, (hf).p i k * F (f k) = ∑ k, h.p (e i) k * F k := by
  rw [p_flat S]
  exact Fintype.sum_of_injective f S.parts _ _ (fun j hj => by rw [cut_p S i j hj, zero_mul]) fun _ => rfl

theorem fMrt_flat : (hf).fMrt (fun j => hR (f j)) = (h.fMrt hR).submatrix e f := by
  funext i j
  simp only [House.fMrt, Matrix.of_apply, Matrix.submatrix_apply]
  rw [← sum_p_flat S (fun k => h.area k * hR k) i, p_flat S]
  rfl

theorem cut_fMrt : Cut e f (h.fMrt hR) := by
  intro i j hj
  simp only [House.fMrt, Matrix.of_apply, cut_p S i j hj, zero_mul, zero_div]

theorem aSrfAbs_flat (i : A) : (hf).aSrfAbs i = h.aSrfAbs (e i) :=
  sum_p_flat S (fun k => h.area k * ind (h.solarAbs k)) i

theorem qSol_flat (j : B) : (hf).qSol (recordFlat e f d) j = h.qSol d (f j) := by
  unfold House.qSol
  congr 2
  simp only [aSrfAbs_flat S, p_flat S]
  exact Fintype.sum_of_injective e S.rooms _ _ (fun i hi => by
    have := cut_pT S j i hi
    rw [Matrix.transpose_apply] at this
    rw [this, zero_mul]) fun _ => rfl

theorem pT_fMrt_flat : (hf).p.transpose * (hf).fMrt (fun j => hR (f j)) = (h.p.transpose * h.fMrt hR).submatrix f f := by
  rw [p_flat S, fMrt_flat S, Matrix.transpose_submatrix, (cut_pT S).sub_mul S.rooms]

theorem cut_pT_fMrt : Cut f f (h.p.transpose * h.fMrt hR) := (cut_pT S).mul (cut_fMrt S hR)

theorem ax_flat : (hf).ax (fun j => hR (f j)) = (h.ax hR).submatrix f f := by
  funext j k
  simp only [House.ax, Matrix.of_apply, pT_fMrt_flat S hR, kEiMat_flat S, (cut_kEi S).sub_mul S.parts, Matrix.submatrix_apply,
    S.parts.eq_iff]
  rfl

theorem cut_ax : Cut f f (h.ax hR) := by
  intro j k hk
  simp only [House.ax, Matrix.of_apply, cut_pT_fMrt S hR j k hk, (cut_kEi S).mul (cut_pT_fMrt S hR) j k hk,
    if_neg fun hj : f j = k => hk ⟨j, hj⟩, zero_mul, zero_div, sub_zero]

theorem fia_flat : (hf).fia (fun j => hR (f j)) = (h.fia hR).submatrix f e := by
  funext j k
  simp only [House.fia, Matrix.of_apply, p_flat S, kEiMat_flat S, Matrix.transpose_submatrix, (cut_kEi S).sub_mul S.parts,
    Matrix.submatrix_apply]
  rfl

theorem cut_fia : Cut f e (h.fia hR) := by
  intro j k hk
  simp only [House.fia, Matrix.of_apply, cut_pT S j k hk, (cut_kEi S).mul (cut_pT S) j k hk, zero_mul, mul_zero, zero_div, add_zero]

theorem crx_flat (j : B) : (hf).crx (fun j => hR (f j)) (recordFlat e f d) j = h.crx hR d (f j) := by
  have hq : (hf).qSol (recordFlat e f d) = fun j => h.qSol d (f j) := funext fun j => qSol_flat S d j
  simp only [House.crx, hq, kEiMat_flat S, (cut_kEi S).mulVec S.parts]
  rfl

theorem flrBeta_flat : (hf).flrBeta = h.flrBeta.submatrix f e := by
  funext j i
  simp only [House.flrBeta, Matrix.of_apply, flrMat_flat S]
  rfl

theorem cut_flrBeta : Cut f e h.flrBeta := by
  intro j i hi
  simp only [House.flrBeta, Matrix.of_apply, cut_flrMat S j i hi, zero_mul]

theorem flb_flat : (hf).flb (fun j => hR (f j)) = (h.flb hR).submatrix f e := by
  funext j i
  simp only [House.flb, Matrix.of_apply, flrBeta_flat S, kEiMat_flat S, (cut_kEi S).sub_mul S.parts, Matrix.submatrix_apply]
  rfl

theorem cut_flb : Cut f e (h.flb hR) := by
  intro j i hi
  simp only [House.flb, Matrix.of_apply, cut_flrBeta S j i hi, (cut_kEi S).mul (cut_flrBeta S) j i hi, zero_mul, zero_div, add_zero]

theorem brl_flat (w : Matrix J I ℝ) : (hf).brl (w.submatrix f e) = (h.brl w).submatrix e e := by
  have h1 : (Matrix.of fun j i => w.submatrix f e j i * (hf).hC j * (hf).area j : Matrix B A ℝ)
      = (Matrix.of fun j i => w j i * h.hC j * h.area j : Matrix J I ℝ).submatrix f e := rfl
  have h2 : Matrix.diagonal (hf).beta = (Matrix.diagonal h.beta).submatrix e e := diagonal_sub' S.rooms h.beta
  unfold House.brl
  rw [h1, h2, p_flat S, (cut_p S).sub_mul S.parts]
  rfl

theorem cut_brl {w : Matrix J I ℝ} (hw : Cut f e w) : Cut e e (h.brl w) := by
  refine ((cut_p S).mul (c := e) ?_).add (cut_diagonal e _)
  intro j i hi
  simp only [Matrix.of_apply, hw j i hi, zero_mul]

theorem brmNonVent_flat (dt : ℝ) (w : Matrix J I ℝ) : (hf).brmNonVent dt (w.submatrix f e) = (h.brmNonVent dt w).submatrix e e := by
  have h1 : (Matrix.of fun j i => ((hf).p.transpose j i - w.submatrix f e j i) * (hf).area j * (hf).hC j : Matrix B A ℝ)
      = (Matrix.of fun j i => (h.p.transpose j i - w j i) * h.area j * h.hC j : Matrix J I ℝ).submatrix f e := by
    rw [p_flat S]; rfl
  have h2 : Matrix.diagonal (fun i => (hf).cRm i / dt) = (Matrix.diagonal fun i => h.cRm i / dt).submatrix e e :=
    diagonal_sub' S.rooms fun i => h.cRm i / dt
  have h3 : Matrix.diagonal (fun i => (hf).cSh i * (hf).gSh i / ((hf).cSh i + (hf).gSh i * dt))
      = (Matrix.diagonal fun i => h.cSh i * h.gSh i / (h.cSh i + h.gSh i * dt)).submatrix e e :=
    diagonal_sub' S.rooms fun i => h.cSh i * h.gSh i / (h.cSh i + h.gSh i * dt)
  unfold House.brmNonVent
  rw [h1, h2, h3, p_flat S, (cut_p S).sub_mul S.parts]
  rfl

theorem cut_brmNonVent (dt : ℝ) {w : Matrix J I ℝ} (hw : Cut f e w) : Cut e e (h.brmNonVent dt w) := by
  refine ((cut_diagonal e _).add ((cut_p S).mul (c := e) ?_)).add (cut_diagonal e _)
  intro j i hi
  simp only [Matrix.of_apply, hw j i hi, cut_pT S j i hi, sub_zero, zero_mul]

end

/-- No parameter of the flat depends on the rest of the building. -/
structure PreCut (e : A → I) (f : B → J) (s : PreCalc I J N) : Prop where
  rooms : Function.Injective e
  parts : Function.Injective f
  vInt : Cut e e s.vInt
  fMrtHum : Cut e f s.fMrtHum
  flr : Cut f e s.flr
  fMrt : Cut e f s.fMrt
  wsr : Cut f e s.wsr
  wsb : Cut f e s.wsb
  brmNonVent : Cut e e s.brmNonVent
  ivsAx : Cut f f s.ivsAx
  brl : Cut e e s.brl
  p : Cut e f s.p
  pT : Cut f e s.p.transpose
  kEi : Cut f f s.kEi

theorem makePreCalc_flat {room : B → A} {rear : B → Option (B × ℝ)} {h : House I J} (S : Separate e f room rear h) {hR : J → ℝ} {dt : ℝ}
    {data : Fin N → Record I J} {s : PreCalc I J N} (H : makePreCalc h hR dt data = .ok s) :
    makePreCalc (houseFlat e f room rear h) (fun j => hR (f j)) dt (fun n => recordFlat e f (data n)) = .ok (preFlat e f s) ∧
      PreCut e f s := by
  obtain ⟨ivs, hi, rfl⟩ := makePreCalc_ok H
  obtain ⟨h1, h2⟩ := (cut_ax S hR).npInv S.parts hi
  have hwsr : Cut f e (ivs * h.fia hR) := h2.mul (cut_fia S hR)
  have hwsb : Cut f e (ivs * h.flb hR) := h2.mul (cut_flb S hR)
  constructor
  · unfold makePreCalc
    rw [ax_flat S hR, h1]
    simp only [bind, Except.bind]
    congr 1
    have h3 : ∀ n, (houseFlat e f room rear h).qSol (recordFlat e f (data n)) = fun j => h.qSol (data n) (f j) :=
      fun n => funext fun j => qSol_flat S (data n) j
    have h4 : ∀ n, (ivs.submatrix f f).mulVec ((houseFlat e f room rear h).crx (fun j => hR (f j)) (recordFlat e f (data n)))
        = fun j => ivs.mulVec (h.crx hR (data n)) (f j) := by
      intro n
      funext j
      rw [show (houseFlat e f room rear h).crx (fun j => hR (f j)) (recordFlat e f (data n)) = fun j => h.crx hR (data n) (f j) from
        funext fun j => crx_flat S hR (data n) j, h2.mulVec S.parts]
    simp only [preCalcOf, h3, h4, fia_flat S, flb_flat S, h2.sub_mul S.parts, brl_flat S, brmNonVent_flat S, p_flat S,
      kEiMat_flat S, flrMat_flat S, fMrtHumMat_flat S, fMrt_flat S]
    rfl
  · exact {
      rooms := S.rooms
      parts := S.parts
      vInt := S.no_air
      fMrtHum := cut_fMrtHumMat S
      flr := cut_flrMat S
      fMrt := cut_fMrt S hR
      wsr := hwsr
      wsb := hwsb
      brmNonVent := cut_brmNonVent S dt hwsr
      ivsAx := h2
      brl := cut_brl S hwsb
      p := cut_p S
      pT := cut_pT S
      kEi := cut_kEi S }

/-! ## One step -/

section
variable {ss : PreCalc I J N} (P : PreCut e f ss) {dt : ℝ} {k : Fin N} {c : Cond I J} {t : TickVars I J}
include P

theorem tickEqs_flat (hc : ss.cValue = 0) (hv : ∑ i, ss.vRoom (e i) ≠ 0) (E : TickEqs ss dt k c t) :
    TickEqs (preFlat e f ss) dt k (condFlat e f c) (tickFlat e f t) := by
  have he := P.rooms
  have hf := P.parts
  have cBrm : Cut e e t.brm := by
    rw [E.brm]
    exact P.brmNonVent.add (((cut_diagonal e _).add P.vInt).smul _)
  have cW : Cut e e (ss.fMrtHum * ss.wsr) := P.fMrtHum.mul P.wsr
  have cB : Cut e e (ss.fMrtHum * ss.wsb) := P.fMrtHum.mul P.wsb
  have cOt : Cut e e (Tick.otMat ss t.ot) := by
    refine (cut_diagonal e _).add ?_
    intro i l hl
    simp only [Matrix.of_apply, cW i l hl, mul_zero]
  obtain ⟨iOt, cXot⟩ := cOt.npInv he E.xot
  have cKrB : Cut e e (Matrix.of fun i l => Tick.kr t.ot i * (ss.fMrtHum * ss.wsb) i l : Matrix I I ℝ) := by
    intro i l hl
    simp only [Matrix.of_apply, cB i l hl, mul_zero]
  have cXlr : Cut e e t.xlr := by rw [E.xlr]; exact cXot.mul cKrB
  have cBrmOt : Cut e e t.brmOt := by rw [E.brmOt]; exact cBrm.mul cXot
  have cBrlOt : Cut e e t.brlOt := by rw [E.brlOt]; exact P.brl.add (cBrm.mul cXlr)
  have cX : Cut e e t.brmxNonDh := by
    rw [E.brmxNonDh]
    exact (((cut_diagonal e _).sub P.vInt).smul _).add (cut_diagonal e _)
  have cXd : Cut e e (Tick.brmx t.brmxNonDh t.rac) := cX.add (cut_diagonal e _)
  exact {
    ot := fun i => E.ot (e i)
    thetaRear := by
      funext j
      simp only [tickFlat, E.thetaRear]
      exact congrArg (· + ss.thetaDstrb k (f j)) (P.kEi.mulVec hf c.thetaEi j).symm
    qHum := by simp only [tickFlat, E.qHum]; rfl
    xHum := by simp only [tickFlat, E.xHum]; rfl
    vLeak := by
      have h1 := E.vLeak
      rw [hc] at h1
      have h2 := getInfiltration_flat h1 hv (fun i => c.thetaR (e i))
      rw [← hc] at h2
      exact h2
    dshA := by simp only [tickFlat, E.dshA]; rfl
    dshT := by simp only [tickFlat, E.dshT]; rfl
    wsv := by
      funext j
      simp only [tickFlat, E.wsv]
      exact (P.ivsAx.mulVec hf (Tick.cvl t.dshA t.dshT) j).symm
    vNtrl := by simp only [tickFlat, E.vNtrl]; rfl
    vOut := by simp only [tickFlat, E.vOut]; rfl
    brc := by
      funext i
      simp only [tickFlat, E.brc, Tick.brc]
      have h1 : (preFlat e f ss).p.mulVec (fun j => (preFlat e f ss).hC j * (preFlat e f ss).aSrf j * ((preFlat e f ss).wsc k j + t.wsv (f j))) i
          = ss.p.mulVec (fun j => ss.hC j * ss.aSrf j * (ss.wsc k j + t.wsv j)) (e i) :=
        P.p.mulVec hf (fun j => ss.hC j * ss.aSrf j * (ss.wsc k j + t.wsv j)) i
      rw [h1]
      rfl
    brm := by
      simp only [tickFlat, E.brm, Tick.brm]
      rw [diagonal_sub' he t.vOut]
      rfl
    xot := by
      have h1 : Tick.otMat (preFlat e f ss) (tickFlat e f t).ot = (Tick.otMat ss t.ot).submatrix e e := by
        unfold Tick.otMat
        rw [show Tick.kc (tickFlat e f t).ot = fun i => Tick.kc t.ot (e i) from rfl, diagonal_sub' he (Tick.kc t.ot),
          show (preFlat e f ss).fMrtHum * (preFlat e f ss).wsr = (ss.fMrtHum * ss.wsr).submatrix e e from P.fMrtHum.sub_mul hf ss.wsr]
        rfl
      rw [h1]
      exact iOt
    xlr := by
      simp only [tickFlat, E.xlr, Tick.xlr]
      rw [show (preFlat e f ss).fMrtHum * (preFlat e f ss).wsb = (ss.fMrtHum * ss.wsb).submatrix e e from P.fMrtHum.sub_mul hf ss.wsb,
        ← cXot.sub_mul (c := e) he]
      rfl
    xc := by
      funext i
      simp only [tickFlat, E.xc, Tick.xc]
      have h1 : (fun i => Tick.kr (fun i => t.ot (e i)) i * (preFlat e f ss).fMrtHum.mulVec (fun j => (preFlat e f ss).wsc k j + t.wsv (f j)) i)
          = fun i => (fun i => Tick.kr t.ot i * ss.fMrtHum.mulVec (fun j => ss.wsc k j + t.wsv j) i) (e i) :=
        funext fun i => congrArg (Tick.kr t.ot (e i) * ·) (P.fMrtHum.mulVec hf (fun j => ss.wsc k j + t.wsv j) i)
      rw [h1]
      exact (cXot.mulVec he (fun i => Tick.kr t.ot i * ss.fMrtHum.mulVec (fun j => ss.wsc k j + t.wsv j) i) i).symm
    brmOt := by
      simp only [tickFlat, E.brmOt, Tick.brmOt]
      exact (cBrm.sub_mul he t.xot).symm
    brlOt := by
      simp only [tickFlat, E.brlOt, Tick.brlOt]
      rw [cBrm.sub_mul he t.xlr]
      rfl
    brcOt := by
      funext i
      simp only [tickFlat, E.brcOt, Tick.brcOt]
      rw [cBrm.mulVec he]
    load := calcNextTempAndLoad_flat he (a := Tick.loadInput ss k t.ot t.brcOt t.brmOt t.brlOt) cBrmOt cBrlOt E.load
    thetaR := by
      funext i
      simp only [tickFlat, Tick.thetaR, cXot.mulVec he, cXlr.mulVec he]
      rw [E.thetaR]
      rfl
    thetaFrt := by simp only [tickFlat, E.thetaFrt]; rfl
    thetaS := by
      funext j
      have h1 := P.wsr.mulVec he t.thetaR j
      have h2 := P.wsb.mulVec he t.lr j
      simp only [tickFlat, Tick.thetaS, preFlat, h1, h2]
      rw [E.thetaS]
      rfl
    thetaMrt := by
      funext i
      have h1 := P.fMrtHum.mulVec hf t.thetaS i
      simp only [tickFlat, Tick.thetaMrt, preFlat, h1]
      rw [E.thetaMrt]
      rfl
    thetaEi := by
      funext j
      have h1 : (preFlat e f ss).p.transpose * (preFlat e f ss).fMrt = (ss.p.transpose * ss.fMrt).submatrix f f := P.pT.sub_mul he ss.fMrt
      have h2 : (preFlat e f ss).flr.mulVec (fun i => (1 - (preFlat e f ss).beta i) * t.lr (e i)) j
          = ss.flr.mulVec (fun i => (1 - ss.beta i) * t.lr i) (f j) := P.flr.mulVec he (fun i => (1 - ss.beta i) * t.lr i) j
      have h3 : (preFlat e f ss).p.transpose.mulVec (fun i => t.thetaR (e i)) j = ss.p.transpose.mulVec t.thetaR (f j) :=
        P.pT.mulVec he t.thetaR j
      simp only [tickFlat, Tick.thetaEi, h1, h2, h3, (P.pT.mul P.fMrt).mulVec hf]
      rw [E.thetaEi]
      rfl
    qSrf := by simp only [tickFlat, E.qSrf]; rfl
    brmxNonDh := by
      simp only [tickFlat, E.brmxNonDh, Tick.brmxNonDh]
      rw [show (Matrix.diagonal fun i => (preFlat e f ss).vRoom i / dt + t.vOut (e i)) = (Matrix.diagonal fun i => ss.vRoom i / dt + t.vOut i).submatrix e e
          from diagonal_sub' he fun i => ss.vRoom i / dt + t.vOut i,
        show (Matrix.diagonal fun i => (preFlat e f ss).cLh i * (preFlat e f ss).gLh i / ((preFlat e f ss).cLh i + dt * (preFlat e f ss).gLh i))
          = (Matrix.diagonal fun i => ss.cLh i * ss.gLh i / (ss.cLh i + dt * ss.gLh i)).submatrix e e
          from diagonal_sub' he fun i => ss.cLh i * ss.gLh i / (ss.cLh i + dt * ss.gLh i)]
      rfl
    brxcNonDh := by simp only [tickFlat, E.brxcNonDh]; rfl
    xNonDh := by
      refine ⟨cX.det_ne_zero he E.xNonDh.1, ?_⟩
      funext i
      exact (cX.mulVec he t.xNonDh i).trans (congrFun E.xNonDh.2 (e i))
    rac := by simp only [tickFlat, E.rac]; rfl
    xR := by
      have hm : Tick.brmx (tickFlat e f t).brmxNonDh (tickFlat e f t).rac = (Tick.brmx t.brmxNonDh t.rac).submatrix e e := by
        simp only [tickFlat, Tick.brmx]
        rw [diagonal_sub' he fun i => (t.rac i).brmx]
        rfl
      rw [hm]
      refine ⟨cXd.det_ne_zero he E.xR.1, ?_⟩
      funext i
      exact (cXd.mulVec he t.xR i).trans (congrFun E.xR.2 (e i))
    lCl := by
      funext i
      simp only [tickFlat, Tick.lCl]
      rw [diagonal_sub' he fun i => (t.rac i).brmx, (cut_diagonal e fun i => (t.rac i).brmx).mulVec he, E.lCl]
      rfl
    xFrt := by simp only [tickFlat, E.xFrt]; rfl }

theorem runTick_flat (hc : ss.cValue = 0) (hv : ∑ i, ss.vRoom (e i) ≠ 0) {n : ℤ} (H : runTick n dt ss c = .ok t) :
    runTick n dt (preFlat e f ss) (condFlat e f c) = .ok (tickFlat e f t) := by
  obtain ⟨k, hk, ht⟩ := runTick_ok H
  unfold runTick
  rw [hk]
  exact tickAt_of_eqs (tickEqs_flat P hc hv (tickAt_ok ht))

end

end HLC
