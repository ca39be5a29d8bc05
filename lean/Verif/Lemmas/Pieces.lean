import Verif.Spec.Pieces
import Verif.Lemmas.House
import Verif.Lemmas.WellFormed

/-!
# One step of a house whose parts are entered in pieces
-/

set_option linter.unusedSectionVars false

namespace HLC
open Spec

variable {I J J' : Type} [Fintype I] [DecidableEq I] [Fintype J] [DecidableEq J] [Fintype J'] [DecidableEq J'] {N : ℕ} {π : J → J'}

/-! ## Parameters -/

section
variable {h : House I J} {h' : House I J'} {hR' : J' → ℝ} (P : Pieces π h h')
include P

theorem sum_pieces {w : J → ℝ} {w' : J' → ℝ} (hw : ∀ j', w' j' = ∑ j ∈ Finset.univ.filter (fun j => π j = j'), w j) (x : J' → ℝ) (i : I) :
    ∑ j ∈ surfaces h i, w j * x (π j) = ∑ j ∈ surfaces h' i, w' j * x j := by
  simp only [surfaces, Finset.sum_filter, P.room]
  have e : ∀ j', (if h'.room j' = i then w' j' * x j' else 0) = ∑ j, if π j = j' then (if h'.room j' = i then w j * x j' else 0) else 0 := by
    intro j'
    rw [hw, Finset.sum_filter]
    split_ifs with hi
    · rw [Finset.sum_mul]; exact Finset.sum_congr rfl fun j _ => by split_ifs <;> simp
    · simp
  simp only [e]
  rw [Finset.sum_comm]
  exact Finset.sum_congr rfl fun j _ => by simp

theorem sum_area (x : J' → ℝ) (i : I) : ∑ j ∈ surfaces h i, h.area j * x (π j) = ∑ j ∈ surfaces h' i, h'.area j * x j :=
  sum_pieces P P.area x i

theorem roomMrt_pieces (x : J' → ℝ) (i : I) : roomMrt h (fun j => hR' (π j)) i (fun j => x (π j)) = roomMrt h' hR' i x := by
  unfold roomMrt
  have h1 := sum_area P (fun j => hR' j * x j) i
  have h2 := sum_area P hR' i
  simp only [mul_assoc]
  rw [h1, h2]

theorem kEi_pieces (x : J' → ℝ) (j : J) : h.kEiMat.mulVec (fun j => x (π j)) j = h'.kEiMat.mulVec x (π j) := by
  rw [kEi_mulVec, kEi_mulVec, ← P.kEi]
  cases h.kEi j <;> rfl

theorem ax_pieces (x : J' → ℝ) (j : J) :
    (h.ax fun j => hR' (π j)).mulVec (fun j => x (π j)) j = (h'.ax hR').mulVec x (π j) := by
  rw [ax_mulVec, ax_mulVec, ← kEi_pieces P]
  simp only [roomMrt_pieces P, P.room, P.phiA0, P.phiT0, P.hC]

theorem fia_pieces (x : I → ℝ) (j : J) : (h.fia fun j => hR' (π j)).mulVec x j = (h'.fia hR').mulVec x (π j) := by
  rw [fia_mulVec, fia_mulVec, ← kEi_pieces P]
  simp only [P.room, P.phiA0, P.phiT0, P.hC]

theorem aSrfAbs_pieces (i : I) : h.aSrfAbs i = h'.aSrfAbs i := by
  simp only [House.aSrfAbs, sum_p]
  rw [← sum_area P fun j => ind (h'.solarAbs j)]
  simp only [P.solarAbs]

theorem qSol_pieces {d : Record I J} {d' : Record I J'} (D : PieceData π d d') (j : J) : h.qSol d j = h'.qSol d' (π j) := by
  simp only [House.qSol, D.qTrsSol, aSrfAbs_pieces P, P.solarAbs]
  rw [sum_pT h fun i => d'.qTrsSol i / h'.aSrfAbs i, sum_pT h' fun i => d'.qTrsSol i / h'.aSrfAbs i, P.room]

theorem thetaDstrb_pieces {d : Record I J} {d' : Record I J'} (D : PieceData π d d') (j : J) :
    h.thetaDstrb d j = h'.thetaDstrb d' (π j) := by
  simp only [House.thetaDstrb, D.thetaOSol, P.kEo]

theorem crx_pieces {d : Record I J} {d' : Record I J'} (D : PieceData π d d') (j : J) :
    h.crx (fun j => hR' (π j)) d j = h'.crx hR' d' (π j) := by
  have e : h.qSol d = fun j => h'.qSol d' (π j) := funext fun j => qSol_pieces P D j
  simp only [House.crx, e, kEi_pieces P, thetaDstrb_pieces P D, P.phiA0, P.phiT0, House.hI, P.hC]

theorem area'_pos (j' : J') : 0 < h'.area j' := by
  obtain ⟨j, rfl⟩ := P.onto j'
  rw [P.area]
  exact Finset.sum_pos (fun l _ => P.area_pos l) ⟨j, by simp⟩

theorem flrMat_pieces (i : I) (j : J) : h.flrMat j i / h.area j = h'.flrMat (π j) i / h'.area (π j) := by
  simp only [House.flrMat, Matrix.of_apply, House.p, P.room, mul_div_assoc, P.flr]

theorem flb_pieces (i : I) (j : J) : h.flb (fun j => hR' (π j)) j i = h'.flb hR' (π j) i := by
  have hb : ∀ j, h.flrBeta j i / h.area j = h'.flrBeta (π j) i / h'.area (π j) := by
    intro j
    simp only [House.flrBeta, Matrix.of_apply, P.beta]
    rw [mul_div_right_comm, flrMat_pieces P, ← mul_div_right_comm]
  have hk : (h.kEiMat * h.flrBeta) j i / h.area j = (h'.kEiMat * h'.flrBeta) (π j) i / h'.area (π j) := by
    rw [show (h.kEiMat * h.flrBeta) j i = h.kEiMat.mulVec (fun m => h.flrBeta m i) j from by rw [Matrix.mul_apply]; rfl,
      show (h'.kEiMat * h'.flrBeta) (π j) i = h'.kEiMat.mulVec (fun m => h'.flrBeta m i) (π j) from by rw [Matrix.mul_apply]; rfl,
      kEi_mulVec, kEi_mulVec, ← P.kEi]
    cases hj : h.kEi j with
    | none => simp
    | some a =>
      obtain ⟨m, c⟩ := a
      simp only [Option.map_some]
      have h1 := hb m
      have h2 := P.behind j m c hj
      have a1 := (P.area_pos j).ne'
      have a2 := (P.area_pos m).ne'
      have a3 := (area'_pos P (π j)).ne'
      have a4 := (area'_pos P (π m)).ne'
      have e1 : h.flrBeta m i / h.area j = h.flrBeta m i / h.area m * (h.area m / h.area j) := by rw [div_mul_div_cancel₀ a2]
      have e2 : h'.flrBeta (π m) i / h'.area (π j) = h'.flrBeta (π m) i / h'.area (π m) * (h'.area (π m) / h'.area (π j)) := by
        rw [div_mul_div_cancel₀ a4]
      rw [mul_div_assoc, mul_div_assoc, e1, e2, h1, h2]
  simp only [House.flb, Matrix.of_apply, House.hI, P.hC, P.phiA0, P.phiT0]
  have e1 : ∀ a b c d : ℝ, a * b / c / d = a / d * b / c := fun a b c d => by rw [div_right_comm, mul_div_right_comm]
  rw [mul_div_right_comm, hb, e1, hk, ← mul_div_right_comm, ← e1]

theorem hMrtHum_pieces (x : J' → ℝ) (i : I) : h.fMrtHumMat.mulVec (fun j => x (π j)) i = h'.fMrtHumMat.mulVec x i := by
  rw [fMrtHum_mulVec, fMrtHum_mulVec]
  exact sum_pieces P P.fMrtHum x i

theorem brmNonVent_pieces (dt : ℝ) {w : Matrix J I ℝ} {w' : Matrix J' I ℝ} (hw : ∀ i j, w j i = w' (π j) i) :
    h.brmNonVent dt w = h'.brmNonVent dt w' := by
  funext i l
  rw [brmNonVent_apply, brmNonVent_apply]
  have h1 := sum_area P h'.hC i
  have h2 := sum_area P (fun j => h'.hC j * w' j l) i
  simp only [hw, P.hC, House.cRm, P.vRoom, P.cSh, P.gSh, mul_assoc] at h1 h2 ⊢
  rw [h1, h2]

theorem brl_pieces {w : Matrix J I ℝ} {w' : Matrix J' I ℝ} (hw : ∀ i j, w j i = w' (π j) i) : h.brl w = h'.brl w' := by
  funext i l
  have h2 := sum_area P (fun j => w' j l * h'.hC j) i
  simp only [House.brl, Matrix.add_apply, Matrix.mul_apply, Matrix.of_apply, sum_p, hw, P.hC, P.beta, mul_comm _ (h.area _),
    mul_comm _ (h'.area _)]
  rw [h2]

/-- The inverse matrices act alike. -/
theorem ivs_pieces {ivs : Matrix J J ℝ} {ivs' : Matrix J' J' ℝ} (hi : npInv (h.ax fun j => hR' (π j)) = .ok ivs)
    (hi' : npInv (h'.ax hR') = .ok ivs') (b : J' → ℝ) (j : J) : ivs.mulVec (fun j => b (π j)) j = ivs'.mulVec b (π j) := by
  have e : (fun j => b (π j)) = (h.ax fun j => hR' (π j)).mulVec fun j => ivs'.mulVec b (π j) := by
    funext j
    rw [ax_pieces P, mulVec_npInv hi']
  rw [e, npInv_mulVec hi]

/-- If the equations of the pieces are solvable, so are those of the parts. -/
theorem det_of_pieces (hd : (h.ax fun j => hR' (π j)).det ≠ 0) : (h'.ax hR').det ≠ 0 := by
  intro h0
  obtain ⟨v, hv, hz⟩ := Matrix.exists_mulVec_eq_zero_iff.mpr h0
  refine hd (Matrix.exists_mulVec_eq_zero_iff.mp ⟨fun j => v (π j), ?_, ?_⟩)
  · intro h1
    apply hv
    funext j'
    obtain ⟨j, rfl⟩ := P.onto j'
    exact congrFun h1 j
  · funext j
    rw [ax_pieces P, hz]
    rfl

/-- If the equations of the parts are solvable, so are those of the pieces. -/
theorem det_of_parts (hD : ∀ j, 1 + h'.phiA0 j * (h'.hC j + hR' j) ≠ 0) (hd : (h'.ax hR').det ≠ 0) :
    (h.ax fun j => hR' (π j)).det ≠ 0 := by
  intro h0
  obtain ⟨v, hv, hz⟩ := Matrix.exists_mulVec_eq_zero_iff.mpr h0
  -- the solution is the same on all pieces of a part
  set M : I → ℝ := fun i => roomMrt h (fun j => hR' (π j)) i v with hM
  set w : J' → ℝ := fun j => (hR' j * h'.phiA0 j * M (h'.room j)
      + hR' j * h'.phiT0 j / (h'.hC j + hR' j) * h'.kEiMat.mulVec (fun m => M (h'.room m)) j) / (1 + h'.phiA0 j * (h'.hC j + hR' j)) with hw
  have hvw : v = fun j => w (π j) := by
    funext j
    have h1 := congrFun hz j
    rw [ax_mulVec] at h1
    have h2 := kEi_pieces P (fun m => M (h'.room m)) j
    simp only [P.room, P.phiA0, P.phiT0, P.hC] at h1
    simp only [hw]
    rw [eq_div_iff (hD (π j)), ← h2]
    simp only [Pi.zero_apply] at h1
    linear_combination h1
  apply hd
  refine Matrix.exists_mulVec_eq_zero_iff.mp ⟨w, ?_, ?_⟩
  · intro h1
    apply hv
    rw [hvw, h1]
    rfl
  · funext j'
    obtain ⟨j, rfl⟩ := P.onto j'
    have h1 := congrFun hz j
    rw [hvw, ax_pieces P] at h1
    exact h1

end

/-- Parameters of the pieces and of the parts. -/
structure PiecePre (π : J → J') (s : PreCalc I J N) (s' : PreCalc I J' N) : Prop where
  vRoom : s.vRoom = s'.vRoom
  cRoom : s.cRoom = s'.cRoom
  cSh : s.cSh = s'.cSh
  cLh : s.cLh = s'.cLh
  gSh : s.gSh = s'.gSh
  gLh : s.gLh = s'.gLh
  vInt : s.vInt = s'.vInt
  vMec : s.vMec = s'.vMec
  qGen : s.qGen = s'.qGen
  nHum : s.nHum = s'.nHum
  xGen : s.xGen = s'.xGen
  acDemand : s.acDemand = s'.acDemand
  qSolFrt : s.qSolFrt = s'.qSolFrt
  vNtrl : s.vNtrl = s'.vNtrl
  isRadHeating : s.isRadHeating = s'.isRadHeating
  isRadCooling : s.isRadCooling = s'.isRadCooling
  capH : s.capH = s'.capH
  capC : s.capC = s'.capC
  beta : s.beta = s'.beta
  brmNonVent : s.brmNonVent = s'.brmNonVent
  brl : s.brl = s'.brl
  thetaO : s.thetaO = s'.thetaO
  xO : s.xO = s'.xO
  thetaOAve : s.thetaOAve = s'.thetaOAve
  rac : s.rac = s'.rac
  story : s.story = s'.story
  cValue : s.cValue = s'.cValue
  pressure : s.pressure = s'.pressure
  qSol : ∀ n j, s.qSol n j = s'.qSol n (π j)
  thetaDstrb : ∀ n j, s.thetaDstrb n j = s'.thetaDstrb n (π j)
  ratio : ∀ j, s.ratio j = s'.ratio (π j)
  phiA0 : ∀ j, s.phiA0 j = s'.phiA0 (π j)
  phiA1 : ∀ j, s.phiA1 j = s'.phiA1 (π j)
  phiT1 : ∀ j, s.phiT1 j = s'.phiT1 (π j)
  hR : ∀ j, s.hR j = s'.hR (π j)
  hC : ∀ j, s.hC j = s'.hC (π j)
  isGround : ∀ j, s.isGround j = s'.isGround (π j)
  wsc : ∀ n j, s.wsc n j = s'.wsc n (π j)
  wsr : ∀ x j, s.wsr.mulVec x j = s'.wsr.mulVec x (π j)
  wsb : ∀ x j, s.wsb.mulVec x j = s'.wsb.mulVec x (π j)
  pT : ∀ x j, s.p.transpose.mulVec x j = s'.p.transpose.mulVec x (π j)
  fMrtHum : ∀ (x : J' → ℝ) i, s.fMrtHum.mulVec (fun j => x (π j)) i = s'.fMrtHum.mulVec x i
  fMrt : ∀ (x : J' → ℝ) i, s.fMrt.mulVec (fun j => x (π j)) i = s'.fMrt.mulVec x i
  area : ∀ (x : J' → ℝ) i, s.p.mulVec (fun j => s.aSrf j * x (π j)) i = s'.p.mulVec (fun j => s'.aSrf j * x j) i
  flr : ∀ x j, s.flr.mulVec x j / s.aSrf j = s'.flr.mulVec x (π j) / s'.aSrf (π j)
  ivsAx : ∀ (x : J' → ℝ) j, s.ivsAx.mulVec (fun j => x (π j)) j = s'.ivsAx.mulVec x (π j)
  kEi : ∀ (x : J' → ℝ) j, s.kEi.mulVec (fun j => x (π j)) j = s'.kEi.mulVec x (π j)

theorem preCalc_pieces {h : House I J} {h' : House I J'} {hR' : J' → ℝ} (P : Pieces π h h') {data : Fin N → Record I J}
    {data' : Fin N → Record I J'} (D : ∀ n, PieceData π (data n) (data' n)) {ivs : Matrix J J ℝ} {ivs' : Matrix J' J' ℝ}
    (hi : npInv (h.ax fun j => hR' (π j)) = .ok ivs) (hi' : npInv (h'.ax hR') = .ok ivs') (dt : ℝ) :
    PiecePre π (preCalcOf h (fun j => hR' (π j)) dt data ivs) (preCalcOf h' hR' dt data' ivs') := by
  have hwsr : ∀ i j, (ivs * h.fia fun j => hR' (π j)) j i = (ivs' * h'.fia hR') (π j) i := by
    intro i j
    have e : ∀ j, (h.fia fun j => hR' (π j)) j i = h'.fia hR' (π j) i := by
      intro j
      have := fia_pieces (hR' := hR') P (Pi.single i 1) j
      simpa using this
    have := ivs_pieces P hi hi' (fun j => h'.fia hR' j i) j
    rw [Matrix.mul_apply, Matrix.mul_apply]
    simp only [Matrix.mulVec, dotProduct] at this
    rw [← this]
    exact Finset.sum_congr rfl fun l _ => by rw [e]
  have hwsb : ∀ i j, (ivs * h.flb fun j => hR' (π j)) j i = (ivs' * h'.flb hR') (π j) i := by
    intro i j
    have := ivs_pieces P hi hi' (fun j => h'.flb hR' j i) j
    rw [Matrix.mul_apply, Matrix.mul_apply]
    simp only [Matrix.mulVec, dotProduct] at this
    rw [← this]
    exact Finset.sum_congr rfl fun l _ => by rw [flb_pieces P]
  have hpm : ∀ (x : J' → ℝ) i, h.p.mulVec (fun j => h.area j * x (π j)) i = h'.p.mulVec (fun j => h'.area j * x j) i := by
    intro x i
    rw [p_mulVec, p_mulVec]; exact sum_area P x i
  have hpT : ∀ x j, h.p.transpose.mulVec x j = h'.p.transpose.mulVec x (π j) := by
    intro x j; rw [pT_mulVec, pT_mulVec, P.room]
  have hpT1 : ∀ i j, h.p i j = h'.p i (π j) := by intro i j; simp only [House.p, Matrix.of_apply, P.room]
  refine { vRoom := P.vRoom, cRoom := ?_, cSh := P.cSh, cLh := P.cLh, gSh := P.gSh, gLh := P.gLh, vInt := P.vInt, vMec := ?_, qGen := ?_
           nHum := ?_, xGen := ?_, acDemand := ?_, qSolFrt := ?_, vNtrl := P.vNtrl, isRadHeating := P.isRadHeating
           isRadCooling := P.isRadCooling, capH := P.capH, capC := P.capC, beta := P.beta, brmNonVent := ?_, brl := ?_, thetaO := ?_, xO := ?_
           thetaOAve := ?_, rac := P.rac, story := P.story, cValue := P.cValue, pressure := P.pressure
           qSol := fun n j => qSol_pieces P (D n) j, thetaDstrb := fun n j => thetaDstrb_pieces P (D n) j, ratio := P.ratio, phiA0 := P.phiA0
           phiA1 := P.phiA1, phiT1 := P.phiT1, hR := fun _ => rfl, hC := P.hC, isGround := P.isGround, wsc := ?_, wsr := ?_, wsb := ?_
           pT := hpT, fMrtHum := hMrtHum_pieces P, fMrt := ?_, area := hpm, flr := ?_, ivsAx := ivs_pieces P hi hi', kEi := kEi_pieces P }
  · funext i; simp only [preCalcOf, House.cRm, P.vRoom]
  · funext n i; simp only [preCalcOf, House.vMec, P.vVentEx, (D n).vLocal]
  · funext n; exact (D n).qGen
  · funext n; exact (D n).nHum
  · funext n; exact (D n).xGen
  · funext n; exact (D n).acDemand
  · funext n i; simp only [preCalcOf, House.qSolFrt, (D n).qTrsSol]
  · exact brmNonVent_pieces P dt hwsr
  · exact brl_pieces P hwsb
  · funext n; exact (D n).thetaO
  · funext n; exact (D n).xO
  · simp only [preCalcOf, fun n => (D n).thetaO]
  · intro n j
    have e : h.crx (fun j => hR' (π j)) (data n) = fun j => h'.crx hR' (data' n) (π j) := funext fun j => crx_pieces P (D n) j
    simp only [preCalcOf, e]
    exact ivs_pieces P hi hi' _ j
  · intro x j
    simp only [preCalcOf, Matrix.mulVec, dotProduct, hwsr]
  · intro x j
    simp only [preCalcOf, Matrix.mulVec, dotProduct, hwsb]
  · intro x i
    simp only [preCalcOf, fMrt_mulVec]
    exact roomMrt_pieces P x i
  · intro x j
    simp only [preCalcOf, flr_mulVec, P.room]
    rw [mul_div_right_comm, P.flr, ← mul_div_right_comm]

/-! ## A step -/

/-- The state of the pieces. -/
def condOfPieces (π : J → J') (c : Cond I J') : Cond I J where
  mode := c.mode
  thetaR := c.thetaR
  thetaMrt := c.thetaMrt
  xR := c.xR
  dshA := fun j => c.dshA (π j)
  dshT := fun j => c.dshT (π j)
  qSrf := fun j => c.qSrf (π j)
  thetaFrt := c.thetaFrt
  xFrt := c.xFrt
  thetaEi := fun j => c.thetaEi (π j)

/-- What a step computes for the pieces. -/
def tickOfPieces (π : J → J') (t : TickVars I J') : TickVars I J where
  ot := t.ot
  thetaRear := fun j => t.thetaRear (π j)
  qHum := t.qHum
  xHum := t.xHum
  vLeak := t.vLeak
  dshA := fun j => t.dshA (π j)
  dshT := fun j => t.dshT (π j)
  wsv := fun j => t.wsv (π j)
  vNtrl := t.vNtrl
  vOut := t.vOut
  brc := t.brc
  brm := t.brm
  xot := t.xot
  xlr := t.xlr
  xc := t.xc
  brmOt := t.brmOt
  brlOt := t.brlOt
  brcOt := t.brcOt
  thetaOt := t.thetaOt
  lc := t.lc
  lr := t.lr
  thetaR := t.thetaR
  thetaFrt := t.thetaFrt
  thetaS := fun j => t.thetaS (π j)
  thetaMrt := t.thetaMrt
  thetaEi := fun j => t.thetaEi (π j)
  qSrf := fun j => t.qSrf (π j)
  brmxNonDh := t.brmxNonDh
  brxcNonDh := t.brxcNonDh
  xNonDh := t.xNonDh
  rac := t.rac
  xR := t.xR
  lCl := t.lCl
  xFrt := t.xFrt

namespace Tick
variable {s : PreCalc I J N} {s' : PreCalc I J' N} (P : PiecePre π s s') (dt : ℝ) (k : Fin N) (c : Cond I J')
include P

theorem thetaRear_pieces : thetaRear s k (condOfPieces π c) = fun j => thetaRear s' k c (π j) := by
  funext j
  simp only [thetaRear, condOfPieces, P.kEi, P.thetaDstrb]

theorem dshA_pieces : dshA s (condOfPieces π c) = fun j => dshA s' c (π j) := by
  funext j m; simp only [dshA, condOfPieces, P.phiA1, P.ratio]

theorem dshT_pieces (r : J' → ℝ) : dshT s (condOfPieces π c) (fun j => r (π j)) = fun j => dshT s' c r (π j) := by
  funext j m; simp only [dshT, condOfPieces, P.phiT1, P.ratio]

theorem wsv_pieces (a b : J' → Fin 12 → ℝ) : wsv s (cvl (fun j => a (π j)) fun j => b (π j)) = fun j => wsv s' (cvl a b) (π j) := by
  funext j; exact P.ivsAx (cvl a b) j

theorem brc_pieces (w : J' → ℝ) (vo q : I → ℝ) :
    brc s dt k (condOfPieces π c) (fun j => w (π j)) vo q = brc s' dt k c w vo q := by
  funext i
  have h1 : s.p.mulVec (fun j => s.hC j * s.aSrf j * (s.wsc k j + w (π j))) i
      = s'.p.mulVec (fun j => s'.hC j * s'.aSrf j * (s'.wsc k j + w j)) i := by
    have := P.area (fun j => s'.hC j * (s'.wsc k j + w j)) i
    have e1 : (fun j => s.hC j * s.aSrf j * (s.wsc k j + w (π j))) = fun j => s.aSrf j * (s'.hC (π j) * (s'.wsc k (π j) + w (π j))) := by
      funext j; rw [P.hC, P.wsc]; ring
    have e2 : (fun j => s'.hC j * s'.aSrf j * (s'.wsc k j + w j)) = fun j => s'.aSrf j * (s'.hC j * (s'.wsc k j + w j)) := by
      funext j; ring
    rw [e1, e2]; exact this
  simp only [brc, h1, condOfPieces, P.cRoom, P.thetaO, P.qGen, P.gSh, P.cSh, P.qSolFrt]

theorem brm_pieces (vo : I → ℝ) : brm s vo = brm s' vo := by simp only [brm, P.brmNonVent, P.vInt]

theorem fMrtHum_mul (w : Matrix J I ℝ) (w' : Matrix J' I ℝ) (hw : ∀ x j, w.mulVec x j = w'.mulVec x (π j)) :
    s.fMrtHum * w = s'.fMrtHum * w' := by
  have e : ∀ j l, w j l = w' (π j) l := by
    intro j l
    have := hw (Pi.single l 1) j
    simpa using this
  funext i l
  have := P.fMrtHum (fun j => w' j l) i
  rw [Matrix.mul_apply, Matrix.mul_apply]
  simp only [Matrix.mulVec, dotProduct] at this
  rw [← this]
  exact Finset.sum_congr rfl fun j _ => by rw [e]

theorem otMat_pieces (ot : I → OtTarget) : otMat s ot = otMat s' ot := by
  simp only [otMat, fMrtHum_mul P s.wsr s'.wsr P.wsr]

theorem xlr_pieces (ot : I → OtTarget) (x : Matrix I I ℝ) : xlr s ot x = xlr s' ot x := by
  simp only [xlr, fMrtHum_mul P s.wsb s'.wsb P.wsb]

theorem xc_pieces (ot : I → OtTarget) (x : Matrix I I ℝ) (w : J' → ℝ) : xc s k ot x (fun j => w (π j)) = xc s' k ot x w := by
  have e : ∀ i, s.fMrtHum.mulVec (fun j => s.wsc k j + w (π j)) i = s'.fMrtHum.mulVec (fun j => s'.wsc k j + w j) i := by
    intro i
    have := P.fMrtHum (fun j => s'.wsc k j + w j) i
    simp only [← P.wsc] at this
    exact this
  simp only [xc, e]

theorem brlOt_pieces (b x : Matrix I I ℝ) : brlOt s b x = brlOt s' b x := by simp only [brlOt, P.brl]

theorem loadInput_pieces (ot : I → OtTarget) (a : I → ℝ) (b d : Matrix I I ℝ) : loadInput s k ot a b d = loadInput s' k ot a b d := by
  simp only [loadInput, P.isRadHeating, P.isRadCooling, P.capH, P.capC, P.acDemand]

theorem thetaFrt_pieces (r : I → ℝ) : thetaFrt s dt k (condOfPieces π c) r = thetaFrt s' dt k c r := by
  funext i; simp only [thetaFrt, condOfPieces, P.cSh, P.gSh, P.qSolFrt]

theorem thetaS_pieces (a b : I → ℝ) (w : J' → ℝ) : thetaS s k a b (fun j => w (π j)) = fun j => thetaS s' k a b w (π j) := by
  funext j; simp only [thetaS, P.wsr, P.wsb, P.wsc]

theorem thetaMrt_pieces (x : J' → ℝ) : thetaMrt s (fun j => x (π j)) = thetaMrt s' x := by
  funext i; exact P.fMrtHum x i

theorem thetaEi_pieces (a b : I → ℝ) (x : J' → ℝ) : thetaEi s k a b (fun j => x (π j)) = fun j => thetaEi s' k a b x (π j) := by
  funext j
  have e : (s.p.transpose * s.fMrt).mulVec (fun j => x (π j)) j = (s'.p.transpose * s'.fMrt).mulVec x (π j) := by
    rw [← Matrix.mulVec_mulVec, ← Matrix.mulVec_mulVec, P.pT,
      show s.fMrt.mulVec (fun j => x (π j)) = s'.fMrt.mulVec x from funext fun i => P.fMrt x i]
  simp only [thetaEi, e, P.pT, P.flr, P.hC, P.hR, P.qSol, P.beta]

theorem qSrf_pieces (a b : J' → ℝ) : qSrf s (fun j => a (π j)) (fun j => b (π j)) = fun j => qSrf s' a b (π j) := by
  funext j; simp only [qSrf, P.hC, P.hR]

end Tick

open Tick in
theorem tickAt_pieces {s : PreCalc I J N} {s' : PreCalc I J' N} (P : PiecePre π s s') (dt : ℝ) (k : Fin N) (c : Cond I J') :
    tickAt s dt k (condOfPieces π c) = (tickAt s' dt k c).map (tickOfPieces π) := by
  have h1 : (fun i => getOtTargetAndHHum ((condOfPieces π c).thetaR i) ((condOfPieces π c).thetaMrt i) ((condOfPieces π c).xR i)
      ((condOfPieces π c).mode i) (s.acDemand k i))
      = fun i => getOtTargetAndHHum (c.thetaR i) (c.thetaMrt i) (c.xR i) (c.mode i) (s'.acDemand k i) := by
    funext i; rw [P.acDemand]; rfl
  have h2 : getInfiltration s.cValue s.vRoom s.story s.pressure (condOfPieces π c).thetaR (s.thetaO k)
      = getInfiltration s'.cValue s'.vRoom s'.story s'.pressure c.thetaR (s'.thetaO k) := by
    rw [P.cValue, P.vRoom, P.story, P.pressure, P.thetaO]; rfl
  have h3 : ∀ ot, Tick.vNtrl s ot = Tick.vNtrl s' ot := fun ot => by funext i; simp only [Tick.vNtrl, P.vNtrl]
  have h4 : ∀ a b, Tick.vOut s k a b = Tick.vOut s' k a b := fun a b => by funext i; simp only [Tick.vOut, P.vMec]
  have h5 : Tick.qHum s k (condOfPieces π c) = Tick.qHum s' k c := by funext i; simp only [Tick.qHum, P.nHum]; rfl
  have h6 : Tick.xHum s k (condOfPieces π c) = Tick.xHum s' k c := by funext i; simp only [Tick.xHum, P.nHum]; rfl
  have h7 : ∀ v, Tick.brmxNonDh s dt v = Tick.brmxNonDh s' dt v := fun v => by
    simp only [Tick.brmxNonDh, P.vRoom, P.vInt, P.cLh, P.gLh]
  have h8 : ∀ a b, Tick.brxcNonDh s dt k (condOfPieces π c) a b = Tick.brxcNonDh s' dt k c a b := fun a b => by
    funext i; simp only [Tick.brxcNonDh, P.vRoom, P.xO, P.cLh, P.gLh, P.xGen]; rfl
  have h9 : ∀ a b x, Tick.rac s a b x = Tick.rac s' a b x := fun a b x => by funext i; simp only [Tick.rac, P.rac]
  have h10 : ∀ x, Tick.xFrt s dt (condOfPieces π c) x = Tick.xFrt s' dt c x := fun x => by
    funext i; simp only [Tick.xFrt, P.cLh, P.gLh]; rfl
  unfold tickAt
  simp only [h1, h2, h3, h4, h5, h6, h7, h8, h9, h10, thetaRear_pieces P, dshA_pieces P, dshT_pieces P, wsv_pieces P, brc_pieces P,
    brm_pieces P, otMat_pieces P, xlr_pieces P, xc_pieces P, brlOt_pieces P, loadInput_pieces P, thetaFrt_pieces P, thetaS_pieces P,
    thetaMrt_pieces P, thetaEi_pieces P, qSrf_pieces P]
  cases allRooms fun i => getOtTargetAndHHum (c.thetaR i) (c.thetaMrt i) (c.xR i) (c.mode i) (s'.acDemand k i) with
  | error x => rfl
  | ok ot =>
  cases getInfiltration s'.cValue s'.vRoom s'.story s'.pressure c.thetaR (s'.thetaO k) with
  | error x => rfl
  | ok vl =>
  simp only [bind, Except.bind]
  cases npInv (Tick.otMat s' ot) with
  | error x => rfl
  | ok xot =>
  simp only []
  generalize hL : calcNextTempAndLoad (_ : LoadInput I) = L
  cases L with
  | error x => rfl
  | ok lt =>
  simp only []
  cases npInv (Tick.brmxNonDh s' dt (Tick.vOut s' k vl (Tick.vNtrl s' ot))) with
  | error x => rfl
  | ok inv1 =>
  simp only []
  generalize hM : npInv (Tick.brmx (I := I) _ _) = M
  cases M with
  | error x => rfl
  | ok inv2 => rfl

theorem runTick_pieces {s : PreCalc I J N} {s' : PreCalc I J' N} (P : PiecePre π s s') (dt : ℝ) (n : ℤ) (c : Cond I J') :
    runTick n dt s (condOfPieces π c) = (runTick n dt s' c).map (tickOfPieces π) := by
  unfold runTick
  cases pyIndex N n with
  | error x => rfl
  | ok k => exact tickAt_pieces P dt k c

end HLC
