import Verif.Spec.Renumber
import Verif.Lemmas.Tick

/-!
# One step of a house with its rooms and parts in another order
-/

set_option linter.unusedSectionVars false

namespace HLC
open Spec

variable {I I' J J' : Type} [Fintype I] [DecidableEq I] [Fintype J] [DecidableEq J] [Fintype I'] [DecidableEq I'] [Fintype J']
  [DecidableEq J'] {N : ℕ} (e : I' ≃ I) (f : J' ≃ J)

/-- The state in another order. -/
def condInOrder (e : I' ≃ I) (f : J' ≃ J) (c : Cond I J) : Cond I' J' where
  mode := fun i => c.mode (e i)
  thetaR := fun i => c.thetaR (e i)
  thetaMrt := fun i => c.thetaMrt (e i)
  xR := fun i => c.xR (e i)
  dshA := fun j => c.dshA (f j)
  dshT := fun j => c.dshT (f j)
  qSrf := fun j => c.qSrf (f j)
  thetaFrt := fun i => c.thetaFrt (e i)
  xFrt := fun i => c.xFrt (e i)
  thetaEi := fun j => c.thetaEi (f j)

/-- The parameters in another order. -/
def preInOrder (e : I' ≃ I) (f : J' ≃ J) (s : PreCalc I J N) : PreCalc I' J' N where
  vRoom := fun i => s.vRoom (e i)
  cRoom := fun i => s.cRoom (e i)
  cSh := fun i => s.cSh (e i)
  cLh := fun i => s.cLh (e i)
  gSh := fun i => s.gSh (e i)
  gLh := fun i => s.gLh (e i)
  vInt := s.vInt.submatrix e e
  aSrf := fun j => s.aSrf (f j)
  vMec := fun n i => s.vMec n (e i)
  qGen := fun n i => s.qGen n (e i)
  nHum := fun n i => s.nHum n (e i)
  xGen := fun n i => s.xGen n (e i)
  acDemand := fun n i => s.acDemand n (e i)
  qTrsSol := fun n i => s.qTrsSol n (e i)
  qSolFrt := fun n i => s.qSolFrt n (e i)
  qSol := fun n j => s.qSol n (f j)
  thetaDstrb := fun n j => s.thetaDstrb n (f j)
  fMrtHum := s.fMrtHum.submatrix e f
  ratio := fun j => s.ratio (f j)
  phiA0 := fun j => s.phiA0 (f j)
  phiA1 := fun j => s.phiA1 (f j)
  phiT0 := fun j => s.phiT0 (f j)
  phiT1 := fun j => s.phiT1 (f j)
  vNtrl := fun i => s.vNtrl (e i)
  isRadHeating := fun i => s.isRadHeating (e i)
  isRadCooling := fun i => s.isRadCooling (e i)
  capH := fun i => s.capH (e i)
  capC := fun i => s.capC (e i)
  flr := s.flr.submatrix f e
  hR := fun j => s.hR (f j)
  hC := fun j => s.hC (f j)
  fMrt := s.fMrt.submatrix e f
  beta := fun i => s.beta (e i)
  wsr := s.wsr.submatrix f e
  wsb := s.wsb.submatrix f e
  brmNonVent := s.brmNonVent.submatrix e e
  ivsAx := s.ivsAx.submatrix f f
  brl := s.brl.submatrix e e
  p := s.p.submatrix e f
  isGround := fun j => s.isGround (f j)
  wsc := fun n j => s.wsc n (f j)
  kEi := s.kEi.submatrix f f
  thetaO := s.thetaO
  xO := s.xO
  thetaOAve := s.thetaOAve
  rac := fun i => s.rac (e i)
  story := s.story
  cValue := s.cValue
  pressure := s.pressure

/-- What a step computes in another order. -/
def tickInOrder (e : I' ≃ I) (f : J' ≃ J) (t : TickVars I J) : TickVars I' J' where
  ot := fun i => t.ot (e i)
  thetaRear := fun j => t.thetaRear (f j)
  qHum := fun i => t.qHum (e i)
  xHum := fun i => t.xHum (e i)
  vLeak := fun i => t.vLeak (e i)
  dshA := fun j => t.dshA (f j)
  dshT := fun j => t.dshT (f j)
  wsv := fun j => t.wsv (f j)
  vNtrl := fun i => t.vNtrl (e i)
  vOut := fun i => t.vOut (e i)
  brc := fun i => t.brc (e i)
  brm := t.brm.submatrix e e
  xot := t.xot.submatrix e e
  xlr := t.xlr.submatrix e e
  xc := fun i => t.xc (e i)
  brmOt := t.brmOt.submatrix e e
  brlOt := t.brlOt.submatrix e e
  brcOt := fun i => t.brcOt (e i)
  thetaOt := fun i => t.thetaOt (e i)
  lc := fun i => t.lc (e i)
  lr := fun i => t.lr (e i)
  thetaR := fun i => t.thetaR (e i)
  thetaFrt := fun i => t.thetaFrt (e i)
  thetaS := fun j => t.thetaS (f j)
  thetaMrt := fun i => t.thetaMrt (e i)
  thetaEi := fun j => t.thetaEi (f j)
  qSrf := fun j => t.qSrf (f j)
  brmxNonDh := t.brmxNonDh.submatrix e e
  brxcNonDh := fun i => t.brxcNonDh (e i)
  xNonDh := fun i => t.xNonDh (e i)
  rac := fun i => t.rac (e i)
  xR := fun i => t.xR (e i)
  lCl := fun i => t.lCl (e i)
  xFrt := fun i => t.xFrt (e i)

theorem next_inOrder (t : TickVars I J) : (tickInOrder e f t).next = condInOrder e f t.next := rfl

theorem ofTick_inOrder (t : TickVars I J) : LogRow.ofTick (tickInOrder e f t) = rowInOrder e f (LogRow.ofTick t) := rfl

theorem mulVec_sub {A A' B B' : Type} [Fintype B] [Fintype B'] (a : A' → A) (b : B' ≃ B) (M : Matrix A B ℝ) (v : B → ℝ) (x : A') :
    (M.submatrix a b).mulVec (fun y => v (b y)) x = M.mulVec v (a x) := by
  simp only [Matrix.mulVec, dotProduct, Matrix.submatrix_apply]
  exact b.sum_comp fun y => M (a x) y * v y

theorem npInv_sub (A : Matrix I I ℝ) : npInv (A.submatrix e e) = (npInv A).map fun B => B.submatrix e e := by
  unfold npInv
  rw [Matrix.det_submatrix_equiv_self]
  by_cases h : A.det = 0
  · simp [h, Except.map]
  · simp [h, Except.map, Matrix.inv_submatrix_equiv]

theorem allRooms_sub {α : Type} (g : I → Except PyErr α) : allRooms (fun i => g (e i)) = (allRooms g).map fun r i => r (e i) := by
  unfold allRooms
  by_cases h : ∀ i, ∃ a, g i = .ok a
  · have h' : ∀ i, ∃ a, g (e i) = .ok a := fun i => h (e i)
    rw [dif_pos h, dif_pos h']
    rfl
  · have h' : ¬ ∀ i, ∃ a, g (e i) = .ok a := fun H => h fun i => by simpa using H (e.symm i)
    rw [dif_neg h, dif_neg h']
    rfl

theorem volumeAverage_sub (v th : I → ℝ) : volumeAverage (fun i => v (e i)) (fun i => th (e i)) = volumeAverage v th := by
  unfold volumeAverage
  rw [e.sum_comp v, e.sum_comp fun i => th i * v i]

theorem getInfiltration_sub (c : ℝ) (v : I → ℝ) (s : ℤ) (p : String) (th : I → ℝ) (o : ℝ) :
    getInfiltration c (fun i => v (e i)) s p (fun i => th (e i)) o = (getInfiltration c v s p th o).map fun r i => r (e i) := by
  unfold getInfiltration
  rw [volumeAverage_sub]
  cases volumeAverage v th with
  | error x => rfl
  | ok a =>
    cases infiltrationA s with
    | error x => rfl
    | ok a =>
      cases infiltrationB s p with
      | error x => rfl
      | ok a => rfl

/-! ## The load calculation -/

/-- Loads and temperatures in another order. -/
def loadTempInOrder (e : I' ≃ I) (x : LoadTemp I) : LoadTemp I' where
  theta := fun i => x.theta (e i)
  lc := fun i => x.lc (e i)
  lr := fun i => x.lr (e i)

/-- The arguments of the load calculation in another order. -/
def loadInputInOrder (e : I' ≃ I) (a : LoadInput I) : LoadInput I' where
  isRadHeating := fun i => a.isRadHeating (e i)
  isRadCooling := fun i => a.isRadCooling (e i)
  brc := fun i => a.brc (e i)
  brm := a.brm.submatrix e e
  brl := a.brl.submatrix e e
  lower := fun i => a.lower (e i)
  upper := fun i => a.upper (e i)
  capH := fun i => a.capH (e i)
  capC := fun i => a.capC (e i)
  mode := fun i => a.mode (e i)
  demand := fun i => a.demand (e i)

theorem one_sub : (1 : Matrix I' I' ℝ) = (1 : Matrix I I ℝ).submatrix e e := (Matrix.submatrix_one_equiv e).symm

theorem loadX2_sub (kt kc kr : Matrix I I ℝ) (k a b c : I → ℝ) :
    loadX2 (kt.submatrix e e) (kc.submatrix e e) (kr.submatrix e e) (fun i => k (e i)) (fun i => a (e i)) (fun i => b (e i))
      (fun i => c (e i)) = fun i => loadX2 kt kc kr k a b c (e i) := by
  funext i
  simp only [loadX2, mulVec_sub]

theorem getLoadAndTemp_sub (kt kc kr : Matrix I I ℝ) (k : I → ℝ) (nt : I → Bool) (a : I → ℝ) (c : I → Bool) (b : I → ℝ) (r : I → Bool)
    (d : I → ℝ) :
    getLoadAndTemp (kt.submatrix e e) (kc.submatrix e e) (kr.submatrix e e) (fun i => k (e i)) (fun i => nt (e i)) (fun i => a (e i))
      (fun i => c (e i)) (fun i => b (e i)) (fun i => r (e i)) (fun i => d (e i))
    = (getLoadAndTemp kt kc kr k nt a c b r d).map (loadTempInOrder e) := by
  unfold getLoadAndTemp
  have h1 : loadX1 (kt.submatrix e e) (kc.submatrix e e) (kr.submatrix e e) (fun i => nt (e i)) (fun i => c (e i)) (fun i => r (e i))
      = (loadX1 kt kc kr nt c r).submatrix e e := rfl
  rw [h1, npInv_sub]
  cases npInv (loadX1 kt kc kr nt c r) with
  | error x => rfl
  | ok inv =>
    have h2 := loadX2_sub e kt kc kr k (resetWhere nt a) (resetWhere c b) (resetWhere r d)
    have h3 : ∀ i, (inv.submatrix e e).mulVec (loadX2 (kt.submatrix e e) (kc.submatrix e e) (kr.submatrix e e) (fun i => k (e i))
        (resetWhere (fun i => nt (e i)) fun i => a (e i)) (resetWhere (fun i => c (e i)) fun i => b (e i))
        (resetWhere (fun i => r (e i)) fun i => d (e i))) i
        = inv.mulVec (loadX2 kt kc kr k (resetWhere nt a) (resetWhere c b) (resetWhere r d)) (e i) := by
      intro i
      exact (congrFun (congrArg (inv.submatrix e e).mulVec h2) i).trans (mulVec_sub e e inv _ i)
    simp only [Except.map, bind, Except.bind, h3]
    rfl

theorem calcNextTempAndLoad_sub (a : LoadInput I) :
    calcNextTempAndLoad (loadInputInOrder e a) = (calcNextTempAndLoad a).map (loadTempInOrder e) := by
  unfold calcNextTempAndLoad naturalTemp
  have h0 : (loadInputInOrder e a).brm = a.brm.submatrix e e := rfl
  rw [h0, npInv_sub]
  cases npInv a.brm with
  | error x => rfl
  | ok inv =>
    have hn : (inv.submatrix e e).mulVec (loadInputInOrder e a).brc = fun i => inv.mulVec a.brc (e i) := by
      funext i; exact mulVec_sub e e inv a.brc i
    simp only [Except.map, bind, Except.bind, hn]
    have h1 := getLoadAndTemp_sub e a.brm 1 a.brl a.brc (a.nt (inv.mulVec a.brc)) (a.thetaSet (inv.mulVec a.brc)) (a.c0 (inv.mulVec a.brc))
      (fun _ => 0) (a.r0 (inv.mulVec a.brc)) (fun _ => 0)
    rw [Matrix.submatrix_one_equiv] at h1
    have h1' : getLoadAndTemp (a.brm.submatrix e e) 1 (loadInputInOrder e a).brl (loadInputInOrder e a).brc
        ((loadInputInOrder e a).nt fun i => inv.mulVec a.brc (e i)) ((loadInputInOrder e a).thetaSet fun i => inv.mulVec a.brc (e i))
        ((loadInputInOrder e a).c0 fun i => inv.mulVec a.brc (e i)) (fun _ => 0) ((loadInputInOrder e a).r0 fun i => inv.mulVec a.brc (e i))
        (fun _ => 0) = _ := h1
    rw [h1']
    cases getLoadAndTemp a.brm 1 a.brl a.brc (a.nt (inv.mulVec a.brc)) (a.thetaSet (inv.mulVec a.brc)) (a.c0 (inv.mulVec a.brc))
      (fun _ => 0) (a.r0 (inv.mulVec a.brc)) (fun _ => 0) with
    | error x => rfl
    | ok p1 =>
      have h2 := getLoadAndTemp_sub e a.brm 1 a.brl a.brc (a.nt (inv.mulVec a.brc))
        (resetWhere (a.nt (inv.mulVec a.brc)) (a.thetaSet (inv.mulVec a.brc))) (a.c1 (inv.mulVec a.brc) p1.lr)
        (resetWhere (a.c0 (inv.mulVec a.brc)) fun _ => 0) (a.r1 (inv.mulVec a.brc) p1.lr)
        (a.lrSet1 (resetWhere (a.r0 (inv.mulVec a.brc)) fun _ => 0) p1.lr)
      rw [Matrix.submatrix_one_equiv] at h2
      exact h2

/-! ## The parameters -/

variable (h : House I J) (hR : J → ℝ) (d : Record I J)

theorem p_inOrder : (houseInOrder e f h).p = h.p.submatrix e f := by
  funext i j
  simp only [House.p, Matrix.of_apply, Matrix.submatrix_apply, houseInOrder, Equiv.symm_apply_eq]

theorem kEiMat_inOrder : (houseInOrder e f h).kEiMat = h.kEiMat.submatrix f f := by
  funext j k
  simp only [House.kEiMat, Matrix.of_apply, Matrix.submatrix_apply, houseInOrder]
  cases h.kEi (f j) with
  | none => rfl
  | some x => simp only [Option.map_some, Equiv.eq_symm_apply]

theorem flrMat_inOrder : (houseInOrder e f h).flrMat = h.flrMat.submatrix f e := by
  funext j i
  simp only [House.flrMat, Matrix.of_apply, p_inOrder]
  rfl

theorem fMrtHumMat_inOrder : (houseInOrder e f h).fMrtHumMat = h.fMrtHumMat.submatrix e f := by
  funext i j
  simp only [House.fMrtHumMat, Matrix.of_apply, p_inOrder]
  rfl

theorem fMrt_inOrder : (houseInOrder e f h).fMrt (fun j => hR (f j)) = (h.fMrt hR).submatrix e f := by
  funext i j
  simp only [House.fMrt, Matrix.of_apply, p_inOrder, Matrix.submatrix_apply]
  congr 1
  exact f.sum_comp fun k => h.p (e i) k * (h.area k * hR k)

theorem aSrfAbs_inOrder (i : I') : (houseInOrder e f h).aSrfAbs i = h.aSrfAbs (e i) := by
  simp only [House.aSrfAbs, p_inOrder, Matrix.submatrix_apply]
  exact f.sum_comp fun k => h.p (e i) k * (h.area k * ind (h.solarAbs k))

theorem qSol_inOrder (j : J') : (houseInOrder e f h).qSol (recordInOrder e f d) j = h.qSol d (f j) := by
  simp only [House.qSol, p_inOrder, Matrix.submatrix_apply, aSrfAbs_inOrder]
  congr 2
  exact e.sum_comp fun i => h.p i (f j) * (d.qTrsSol i / h.aSrfAbs i)

theorem transpose_mul_inOrder : ((houseInOrder e f h).p.transpose * (houseInOrder e f h).fMrt fun j => hR (f j))
    = (h.p.transpose * h.fMrt hR).submatrix f f := by
  rw [p_inOrder, fMrt_inOrder, Matrix.transpose_submatrix, Matrix.submatrix_mul_equiv]

theorem ax_inOrder : (houseInOrder e f h).ax (fun j => hR (f j)) = (h.ax hR).submatrix f f := by
  funext j k
  simp only [House.ax, Matrix.of_apply, transpose_mul_inOrder, kEiMat_inOrder, Matrix.submatrix_mul_equiv, Matrix.submatrix_apply,
    f.injective.eq_iff]
  rfl

theorem fia_inOrder : (houseInOrder e f h).fia (fun j => hR (f j)) = (h.fia hR).submatrix f e := by
  funext j k
  simp only [House.fia, Matrix.of_apply, p_inOrder, kEiMat_inOrder, Matrix.transpose_submatrix, Matrix.submatrix_mul_equiv,
    Matrix.submatrix_apply]
  rfl

theorem crx_inOrder (j : J') : (houseInOrder e f h).crx (fun j => hR (f j)) (recordInOrder e f d) j = h.crx hR d (f j) := by
  have hq : (houseInOrder e f h).qSol (recordInOrder e f d) = fun j => h.qSol d (f j) := funext fun j => qSol_inOrder e f h d j
  simp only [House.crx, hq, kEiMat_inOrder, mulVec_sub]
  rfl

theorem flrBeta_inOrder : (houseInOrder e f h).flrBeta = h.flrBeta.submatrix f e := by
  funext j i
  simp only [House.flrBeta, Matrix.of_apply, flrMat_inOrder]
  rfl

theorem flb_inOrder : (houseInOrder e f h).flb (fun j => hR (f j)) = (h.flb hR).submatrix f e := by
  funext j i
  simp only [House.flb, Matrix.of_apply, flrBeta_inOrder, kEiMat_inOrder, Matrix.submatrix_mul_equiv, Matrix.submatrix_apply]
  rfl

theorem diagonal_sub {A A' : Type} [DecidableEq A] [DecidableEq A'] (a : A' ≃ A) (v : A → ℝ) :
    Matrix.diagonal (fun x => v (a x)) = (Matrix.diagonal v).submatrix a a := (Matrix.submatrix_diagonal_equiv v a).symm

theorem brl_inOrder (w : Matrix J I ℝ) : (houseInOrder e f h).brl (w.submatrix f e) = (h.brl w).submatrix e e := by
  have h1 : (Matrix.of fun j i => w.submatrix f e j i * (houseInOrder e f h).hC j * (houseInOrder e f h).area j : Matrix J' I' ℝ)
      = (Matrix.of fun j i => w j i * h.hC j * h.area j : Matrix J I ℝ).submatrix f e := rfl
  have h2 : Matrix.diagonal (houseInOrder e f h).beta = (Matrix.diagonal h.beta).submatrix e e := diagonal_sub e h.beta
  unfold House.brl
  rw [h1, h2, p_inOrder, Matrix.submatrix_mul_equiv]
  rfl

theorem brmNonVent_inOrder (dt : ℝ) (w : Matrix J I ℝ) :
    (houseInOrder e f h).brmNonVent dt (w.submatrix f e) = (h.brmNonVent dt w).submatrix e e := by
  have h1 : (Matrix.of fun j i => ((houseInOrder e f h).p.transpose j i - w.submatrix f e j i) * (houseInOrder e f h).area j
        * (houseInOrder e f h).hC j : Matrix J' I' ℝ)
      = (Matrix.of fun j i => (h.p.transpose j i - w j i) * h.area j * h.hC j : Matrix J I ℝ).submatrix f e := by
    rw [p_inOrder]; rfl
  have h2 : Matrix.diagonal (fun i => (houseInOrder e f h).cRm i / dt) = (Matrix.diagonal fun i => h.cRm i / dt).submatrix e e :=
    diagonal_sub e fun i => h.cRm i / dt
  have h3 : Matrix.diagonal (fun i => (houseInOrder e f h).cSh i * (houseInOrder e f h).gSh i
        / ((houseInOrder e f h).cSh i + (houseInOrder e f h).gSh i * dt))
      = (Matrix.diagonal fun i => h.cSh i * h.gSh i / (h.cSh i + h.gSh i * dt)).submatrix e e :=
    diagonal_sub e fun i => h.cSh i * h.gSh i / (h.cSh i + h.gSh i * dt)
  unfold House.brmNonVent
  rw [h1, h2, h3, p_inOrder, Matrix.submatrix_mul_equiv]
  rfl

theorem preCalcOf_inOrder (dt : ℝ) (data : Fin N → Record I J) (ivs : Matrix J J ℝ) :
    preCalcOf (houseInOrder e f h) (fun j => hR (f j)) dt (fun n => recordInOrder e f (data n)) (ivs.submatrix f f)
      = preInOrder e f (preCalcOf h hR dt data ivs) := by
  have h1 : ∀ n, (houseInOrder e f h).qSol (recordInOrder e f (data n)) = fun j => h.qSol (data n) (f j) :=
    fun n => funext fun j => qSol_inOrder e f h (data n) j
  have h2 : ∀ n, (ivs.submatrix f f).mulVec ((houseInOrder e f h).crx (fun j => hR (f j)) (recordInOrder e f (data n)))
      = fun j => ivs.mulVec (h.crx hR (data n)) (f j) := by
    intro n
    funext j
    rw [show (houseInOrder e f h).crx (fun j => hR (f j)) (recordInOrder e f (data n)) = fun j => h.crx hR (data n) (f j) from
      funext fun j => crx_inOrder e f h hR (data n) j, mulVec_sub]
  simp only [preCalcOf, h1, h2, fia_inOrder, flb_inOrder, Matrix.submatrix_mul_equiv, brl_inOrder, brmNonVent_inOrder, p_inOrder,
    kEiMat_inOrder, flrMat_inOrder, fMrtHumMat_inOrder, fMrt_inOrder]
  rfl

theorem makePreCalc_inOrder (dt : ℝ) (data : Fin N → Record I J) :
    makePreCalc (houseInOrder e f h) (fun j => hR (f j)) dt (fun n => recordInOrder e f (data n))
      = (makePreCalc h hR dt data).map (preInOrder e f) := by
  unfold makePreCalc
  rw [ax_inOrder, npInv_sub]
  cases npInv (h.ax hR) with
  | error x => rfl
  | ok ivs => exact congrArg Except.ok (preCalcOf_inOrder e f h hR dt data ivs)

/-! ## One step -/

namespace Tick
variable (ss : PreCalc I J N) (dt : ℝ) (k : Fin N) (c : Cond I J)

theorem thetaRear_sub : thetaRear (preInOrder e f ss) k (condInOrder e f c) = fun j => thetaRear ss k c (f j) := by
  funext j
  exact congrArg (· + ss.thetaDstrb k (f j)) (mulVec_sub f f ss.kEi c.thetaEi j)

theorem wsv_sub (v : J → ℝ) : wsv (preInOrder e f ss) (fun j => v (f j)) = fun j => wsv ss v (f j) :=
  funext fun j => mulVec_sub f f ss.ivsAx v j

theorem brc_sub (w : J → ℝ) (vo q : I → ℝ) :
    brc (preInOrder e f ss) dt k (condInOrder e f c) (fun j => w (f j)) (fun i => vo (e i)) (fun i => q (e i))
      = fun i => brc ss dt k c w vo q (e i) := by
  funext i
  unfold brc
  rw [show (preInOrder e f ss).p.mulVec (fun j => (preInOrder e f ss).hC j * (preInOrder e f ss).aSrf j
      * ((preInOrder e f ss).wsc k j + w (f j))) i = ss.p.mulVec (fun j => ss.hC j * ss.aSrf j * (ss.wsc k j + w j)) (e i) from
    mulVec_sub e f ss.p (fun j => ss.hC j * ss.aSrf j * (ss.wsc k j + w j)) i]
  rfl

theorem brm_sub (vo : I → ℝ) : brm (preInOrder e f ss) (fun i => vo (e i)) = (brm ss vo).submatrix e e := by
  unfold brm
  rw [diagonal_sub e vo]
  rfl

theorem otMat_sub (ot : I → OtTarget) : otMat (preInOrder e f ss) (fun i => ot (e i)) = (otMat ss ot).submatrix e e := by
  unfold otMat
  rw [show kc (fun i => ot (e i)) = fun i => kc ot (e i) from rfl, diagonal_sub e (kc ot),
    show (preInOrder e f ss).fMrtHum * (preInOrder e f ss).wsr = (ss.fMrtHum * ss.wsr).submatrix e e from
      Matrix.submatrix_mul_equiv ss.fMrtHum ss.wsr e f e]
  rfl

theorem xlr_sub (ot : I → OtTarget) (xot : Matrix I I ℝ) :
    xlr (preInOrder e f ss) (fun i => ot (e i)) (xot.submatrix e e) = (xlr ss ot xot).submatrix e e := by
  unfold xlr
  rw [show (preInOrder e f ss).fMrtHum * (preInOrder e f ss).wsb = (ss.fMrtHum * ss.wsb).submatrix e e from
      Matrix.submatrix_mul_equiv ss.fMrtHum ss.wsb e f e,
    show (Matrix.of fun i l => kr (fun i => ot (e i)) i * (ss.fMrtHum * ss.wsb).submatrix e e i l : Matrix I' I' ℝ)
      = (Matrix.of fun i l => kr ot i * (ss.fMrtHum * ss.wsb) i l : Matrix I I ℝ).submatrix e e from rfl, Matrix.submatrix_mul_equiv]

theorem xc_sub (ot : I → OtTarget) (xot : Matrix I I ℝ) (w : J → ℝ) :
    xc (preInOrder e f ss) k (fun i => ot (e i)) (xot.submatrix e e) (fun j => w (f j)) = fun i => xc ss k ot xot w (e i) := by
  funext i
  unfold xc
  rw [show (fun i => kr (fun i => ot (e i)) i * (preInOrder e f ss).fMrtHum.mulVec (fun j => (preInOrder e f ss).wsc k j + w (f j)) i)
      = fun i => (fun i => kr ot i * ss.fMrtHum.mulVec (fun j => ss.wsc k j + w j) i) (e i) from
    funext fun i => congrArg (kr ot (e i) * ·) (mulVec_sub e f ss.fMrtHum (fun j => ss.wsc k j + w j) i)]
  exact mulVec_sub e e xot (fun i => kr ot i * ss.fMrtHum.mulVec (fun j => ss.wsc k j + w j) i) i

theorem brlOt_sub (b x : Matrix I I ℝ) : brlOt (preInOrder e f ss) (b.submatrix e e) (x.submatrix e e) = (brlOt ss b x).submatrix e e := by
  unfold brlOt
  rw [Matrix.submatrix_mul_equiv]
  rfl

theorem brcOt_sub (b : I → ℝ) (m : Matrix I I ℝ) (x : I → ℝ) :
    brcOt (fun i => b (e i)) (m.submatrix e e) (fun i => x (e i)) = fun i => brcOt b m x (e i) :=
  funext fun i => congrArg (b (e i) + ·) (mulVec_sub e e m x i)

theorem thetaR_sub (x y : Matrix I I ℝ) (a b g : I → ℝ) :
    thetaR (x.submatrix e e) (y.submatrix e e) (fun i => a (e i)) (fun i => b (e i)) (fun i => g (e i)) = fun i => thetaR x y a b g (e i) := by
  funext i
  simp only [thetaR, mulVec_sub]

theorem thetaS_sub (a b : I → ℝ) (w : J → ℝ) :
    thetaS (preInOrder e f ss) k (fun i => a (e i)) (fun i => b (e i)) (fun j => w (f j)) = fun j => thetaS ss k a b w (f j) := by
  funext j
  simp only [thetaS, preInOrder, mulVec_sub]

theorem thetaMrt_sub (s : J → ℝ) : thetaMrt (preInOrder e f ss) (fun j => s (f j)) = fun i => thetaMrt ss s (e i) :=
  funext fun i => mulVec_sub e f ss.fMrtHum s i

theorem thetaEi_sub (a b : I → ℝ) (s : J → ℝ) :
    thetaEi (preInOrder e f ss) k (fun i => a (e i)) (fun i => b (e i)) (fun j => s (f j)) = fun j => thetaEi ss k a b s (f j) := by
  funext j
  have h1 : ((preInOrder e f ss).p.transpose * (preInOrder e f ss).fMrt) = (ss.p.transpose * ss.fMrt).submatrix f f := by
    simp only [preInOrder, Matrix.transpose_submatrix, Matrix.submatrix_mul_equiv]
  have h2 : (preInOrder e f ss).flr.mulVec (fun i => (1 - (preInOrder e f ss).beta i) * b (e i)) j
      = ss.flr.mulVec (fun i => (1 - ss.beta i) * b i) (f j) := mulVec_sub f e ss.flr (fun i => (1 - ss.beta i) * b i) j
  have h3 : (preInOrder e f ss).p.transpose.mulVec (fun i => a (e i)) j = ss.p.transpose.mulVec a (f j) :=
    mulVec_sub f e ss.p.transpose a j
  unfold thetaEi
  rw [h1, h2, h3, mulVec_sub]
  rfl

theorem brmxNonDh_sub (vo : I → ℝ) : brmxNonDh (preInOrder e f ss) dt (fun i => vo (e i)) = (brmxNonDh ss dt vo).submatrix e e := by
  unfold brmxNonDh
  rw [show (Matrix.diagonal fun i => (preInOrder e f ss).vRoom i / dt + vo (e i)) = (Matrix.diagonal fun i => ss.vRoom i / dt + vo i).submatrix e e
      from diagonal_sub e fun i => ss.vRoom i / dt + vo i,
    show (Matrix.diagonal fun i => (preInOrder e f ss).cLh i * (preInOrder e f ss).gLh i / ((preInOrder e f ss).cLh i + dt * (preInOrder e f ss).gLh i))
      = (Matrix.diagonal fun i => ss.cLh i * ss.gLh i / (ss.cLh i + dt * ss.gLh i)).submatrix e e
      from diagonal_sub e fun i => ss.cLh i * ss.gLh i / (ss.cLh i + dt * ss.gLh i)]
  rfl

theorem brmx_sub (b : Matrix I I ℝ) (r : I → DehumCoef) : brmx (b.submatrix e e) (fun i => r (e i)) = (brmx b r).submatrix e e := by
  unfold brmx
  rw [diagonal_sub e fun i => (r i).brmx]
  rfl

theorem lCl_sub (r : I → DehumCoef) (x : I → ℝ) : lCl (fun i => r (e i)) (fun i => x (e i)) = fun i => lCl r x (e i) := by
  funext i
  unfold lCl
  rw [diagonal_sub e fun i => (r i).brmx, mulVec_sub]

end Tick

theorem tickEqs_inOrder {ss : PreCalc I J N} {dt : ℝ} {k : Fin N} {c : Cond I J} {t : TickVars I J} (E : TickEqs ss dt k c t) :
    TickEqs (preInOrder e f ss) dt k (condInOrder e f c) (tickInOrder e f t) where
  ot := fun i => E.ot (e i)
  thetaRear := by rw [Tick.thetaRear_sub, ← E.thetaRear]; rfl
  qHum := by simp only [tickInOrder, E.qHum]; rfl
  xHum := by simp only [tickInOrder, E.xHum]; rfl
  vLeak := by
    have := getInfiltration_sub e ss.cValue ss.vRoom ss.story ss.pressure c.thetaR (ss.thetaO k)
    rw [E.vLeak] at this
    exact this
  dshA := by simp only [tickInOrder, E.dshA]; rfl
  dshT := by simp only [tickInOrder, E.dshT]; rfl
  wsv := by
    have := Tick.wsv_sub e f ss (Tick.cvl t.dshA t.dshT)
    rw [← E.wsv] at this
    exact this.symm
  vNtrl := by simp only [tickInOrder, E.vNtrl]; rfl
  vOut := by simp only [tickInOrder, E.vOut]; rfl
  brc := by
    have := Tick.brc_sub e f ss dt k c t.wsv t.vOut t.qHum
    rw [← E.brc] at this
    exact this.symm
  brm := by
    have := Tick.brm_sub e f ss t.vOut
    rw [← E.brm] at this
    exact this.symm
  xot := by
    have := npInv_sub e (Tick.otMat ss t.ot)
    rw [E.xot, ← Tick.otMat_sub e f ss] at this
    exact this
  xlr := by
    have := Tick.xlr_sub e f ss t.ot t.xot
    rw [← E.xlr] at this
    exact this.symm
  xc := by
    have := Tick.xc_sub e f ss k t.ot t.xot t.wsv
    rw [← E.xc] at this
    exact this.symm
  brmOt := by
    have := Matrix.submatrix_mul_equiv t.brm t.xot e e e
    rw [show t.brm * t.xot = t.brmOt from E.brmOt.symm] at this
    exact this.symm
  brlOt := by
    have := Tick.brlOt_sub e f ss t.brm t.xlr
    rw [← E.brlOt] at this
    exact this.symm
  brcOt := by
    have := Tick.brcOt_sub e t.brc t.brm t.xc
    rw [← E.brcOt] at this
    exact this.symm
  load := by
    have := calcNextTempAndLoad_sub e (Tick.loadInput ss k t.ot t.brcOt t.brmOt t.brlOt)
    rw [E.load] at this
    exact this
  thetaR := by
    have := Tick.thetaR_sub e t.xot t.xlr t.xc t.thetaOt t.lr
    rw [← E.thetaR] at this
    exact this.symm
  thetaFrt := by simp only [tickInOrder, E.thetaFrt]; rfl
  thetaS := by
    have := Tick.thetaS_sub e f ss k t.thetaR t.lr t.wsv
    rw [← E.thetaS] at this
    exact this.symm
  thetaMrt := by
    have := Tick.thetaMrt_sub e f ss t.thetaS
    rw [← E.thetaMrt] at this
    exact this.symm
  thetaEi := by
    have := Tick.thetaEi_sub e f ss k t.thetaR t.lr t.thetaS
    rw [← E.thetaEi] at this
    exact this.symm
  qSrf := by simp only [tickInOrder, E.qSrf]; rfl
  brmxNonDh := by
    have := Tick.brmxNonDh_sub e f ss dt t.vOut
    rw [← E.brmxNonDh] at this
    exact this.symm
  brxcNonDh := by simp only [tickInOrder, E.brxcNonDh]; rfl
  xNonDh := by
    refine ⟨?_, ?_⟩
    · have := Matrix.det_submatrix_equiv_self e t.brmxNonDh
      rw [show (tickInOrder e f t).brmxNonDh = t.brmxNonDh.submatrix e e from rfl, this]
      exact E.xNonDh.1
    · funext i
      exact (mulVec_sub e e t.brmxNonDh t.xNonDh i).trans (congrFun E.xNonDh.2 (e i))
  rac := by simp only [tickInOrder, E.rac]; rfl
  xR := by
    have hm : Tick.brmx (tickInOrder e f t).brmxNonDh (tickInOrder e f t).rac = (Tick.brmx t.brmxNonDh t.rac).submatrix e e :=
      Tick.brmx_sub e t.brmxNonDh t.rac
    rw [hm]
    refine ⟨?_, ?_⟩
    · rw [Matrix.det_submatrix_equiv_self]; exact E.xR.1
    · funext i
      exact (mulVec_sub e e (Tick.brmx t.brmxNonDh t.rac) t.xR i).trans (congrFun E.xR.2 (e i))
  lCl := by
    have := Tick.lCl_sub e t.rac t.xR
    rw [← E.lCl] at this
    exact this.symm
  xFrt := by simp only [tickInOrder, E.xFrt]; rfl

theorem runTick_inOrder {ss : PreCalc I J N} {dt : ℝ} {n : ℤ} {c : Cond I J} {t : TickVars I J} (H : runTick n dt ss c = .ok t) :
    runTick n dt (preInOrder e f ss) (condInOrder e f c) = .ok (tickInOrder e f t) := by
  obtain ⟨k, hk, ht⟩ := runTick_ok H
  unfold runTick
  rw [hk]
  exact tickAt_of_eqs (tickEqs_inOrder e f (tickAt_ok ht))

end HLC
