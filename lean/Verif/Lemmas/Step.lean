import Verif.Lemmas.House
import Verif.Lemmas.Load
import Verif.Props.Load

/-!
# Systems solved by a completed step
-/

namespace HLC

set_option linter.unusedSectionVars false

variable {I J : Type} [Fintype I] [DecidableEq I] [Fintype J] [DecidableEq J] {N : ℕ}

open Spec

variable {h : House I J} {hR : J → ℝ} {dt : ℝ} {data : Fin N → Record I J} {n : ℤ} {k : Fin N}
  {c : Cond I J} {t : TickVars I J}

theorem ot_coefs {a b x d : ℝ} {m : OpMode} {o : OtTarget} (H : getOtTargetAndHHum a b x m d = .ok o) :
    o.hHumC = hHumC ∧ o.hHumR = hHumR := by
  unfold getOtTargetAndHHum at H
  simp only [bind, Except.bind] at H
  split at H
  · cases H
  · rw [← Except.ok.inj H]; exact ⟨rfl, rfl⟩

/-- The operative temperature matrix applied to the room temperatures. -/
theorem ot_system {ss : PreCalc I J N} (e : TickEqs ss dt k c t) (i : I) :
    t.thetaOt i = Tick.kc t.ot i * t.thetaR i + Tick.kr t.ot i * t.thetaMrt i := by
  have hM : (Tick.otMat ss t.ot).mulVec t.thetaR = fun i => t.thetaOt i
      - Tick.kr t.ot i * (ss.fMrtHum * ss.wsb).mulVec t.lr i
      - Tick.kr t.ot i * ss.fMrtHum.mulVec (fun j => ss.wsc k j + t.wsv j) i := by
    have e1 : t.thetaR = t.xot.mulVec (fun i => t.thetaOt i
      - Tick.kr t.ot i * (ss.fMrtHum * ss.wsb).mulVec t.lr i
      - Tick.kr t.ot i * ss.fMrtHum.mulVec (fun j => ss.wsc k j + t.wsv j) i) := by
      have : (fun i => t.thetaOt i - Tick.kr t.ot i * (ss.fMrtHum * ss.wsb).mulVec t.lr i
          - Tick.kr t.ot i * ss.fMrtHum.mulVec (fun j => ss.wsc k j + t.wsv j) i)
          = t.thetaOt - (Matrix.of fun i l => Tick.kr t.ot i * (ss.fMrtHum * ss.wsb) i l).mulVec t.lr
            - fun i => Tick.kr t.ot i * ss.fMrtHum.mulVec (fun j => ss.wsc k j + t.wsv j) i := by
        funext i
        simp only [Pi.sub_apply, rowScale_mulVec]
      rw [this, Matrix.mulVec_sub, Matrix.mulVec_sub, Matrix.mulVec_mulVec, e.thetaR]
      funext i
      simp only [Tick.thetaR, e.xlr, e.xc, Tick.xlr, Tick.xc, Pi.sub_apply]
    rw [e1]
    exact mulVec_npInv e.xot _
  have hi := congrFun hM i
  simp only [Tick.otMat, Matrix.add_mulVec, Pi.add_apply, Matrix.mulVec_diagonal, rowScale_mulVec] at hi
  have hmrt : t.thetaMrt i = (ss.fMrtHum * ss.wsr).mulVec t.thetaR i + (ss.fMrtHum * ss.wsb).mulVec t.lr i
      + ss.fMrtHum.mulVec (fun j => ss.wsc k j + t.wsv j) i := by
    rw [e.thetaMrt]
    have : t.thetaS = ss.wsr.mulVec t.thetaR + ss.wsb.mulVec t.lr + fun j => ss.wsc k j + t.wsv j := by
      rw [e.thetaS]; funext j; simp only [Tick.thetaS, Pi.add_apply]; ring
    simp only [Tick.thetaMrt]
    rw [this, Matrix.mulVec_add, Matrix.mulVec_add, Matrix.mulVec_mulVec, Matrix.mulVec_mulVec]
    rfl
  rw [hmrt]
  linarith

/-- Room equations in terms of room air temperatures: BRM θr = Lc + BRL Lr + BRC. -/
theorem room_system {ss : PreCalc I J N} (e : TickEqs ss dt k c t) (i : I) :
    t.brm.mulVec t.thetaR i = t.lc i + ss.brl.mulVec t.lr i + t.brc i := by
  have h7 := C07_room_equations _ _ e.load i
  simp only [Tick.loadInput] at h7
  have h7' : t.brmOt.mulVec t.thetaOt i = t.lc i + t.brlOt.mulVec t.lr i + t.brcOt i := by
    simpa [Matrix.mulVec, dotProduct] using h7
  have eR : t.thetaR = t.xot.mulVec t.thetaOt - t.xlr.mulVec t.lr - t.xc := by rw [e.thetaR]; rfl
  rw [e.brmOt, e.brlOt, e.brcOt] at h7'
  simp only [Tick.brmOt, Tick.brlOt, Tick.brcOt, ← Matrix.mulVec_mulVec, Matrix.add_mulVec, Pi.add_apply] at h7'
  rw [eR, Matrix.mulVec_sub, Matrix.mulVec_sub]
  simp only [Pi.sub_apply]
  linarith

end HLC
