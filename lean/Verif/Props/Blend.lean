import Verif.Spec.Blend
import Verif.Props.Idle

/-!
# C108: superposition of free-running rooms
-/

set_option linter.unusedSectionVars false

namespace HLC
open Spec

theorem mix_self (w x : ℝ) : mix w x x = x := by unfold mix; ring

section
variable {I J K L : Type} [Fintype I] [DecidableEq I] [Fintype J] [DecidableEq J] [Fintype K] [Fintype L] {N : ℕ}

theorem mulVec_mix (A : Matrix K L ℝ) (w : ℝ) (x y : L → ℝ) :
    A.mulVec (fun l => mix w (x l) (y l)) = fun k => mix w (A.mulVec x k) (A.mulVec y k) := by
  have : (fun l => mix w (x l) (y l)) = (1 - w) • x + w • y := by funext l; simp [mix]
  rw [this, Matrix.mulVec_add, Matrix.mulVec_smul, Matrix.mulVec_smul]
  funext k
  simp [mix]

/-- A state that is the weighted mean of two. -/
structure MixCond (w : ℝ) (c1 c2 c3 : Cond I J) : Prop where
  thetaR : c3.thetaR = fun i => mix w (c1.thetaR i) (c2.thetaR i)
  xR : c3.xR = fun i => mix w (c1.xR i) (c2.xR i)
  dshA : c3.dshA = fun j m => mix w (c1.dshA j m) (c2.dshA j m)
  dshT : c3.dshT = fun j m => mix w (c1.dshT j m) (c2.dshT j m)
  qSrf : c3.qSrf = fun j => mix w (c1.qSrf j) (c2.qSrf j)
  thetaFrt : c3.thetaFrt = fun i => mix w (c1.thetaFrt i) (c2.thetaFrt i)
  xFrt : c3.xFrt = fun i => mix w (c1.xFrt i) (c2.xFrt i)
  thetaEi : c3.thetaEi = fun j => mix w (c1.thetaEi j) (c2.thetaEi j)

theorem qSol_blend (h : House I J) (w : ℝ) (a b : Record I J) :
    h.qSol (blend w a b) = fun j => mix w (h.qSol a j) (h.qSol b j) := by
  funext j
  have : (∑ i, h.p i j * ((blend w a b).qTrsSol i / h.aSrfAbs i))
      = mix w (∑ i, h.p i j * (a.qTrsSol i / h.aSrfAbs i)) (∑ i, h.p i j * (b.qTrsSol i / h.aSrfAbs i)) := by
    unfold mix
    rw [Finset.mul_sum, Finset.mul_sum, ← Finset.sum_add_distrib]
    refine Finset.sum_congr rfl fun i _ => ?_
    simp only [blend, mix]
    ring
  unfold House.qSol
  rw [this]
  unfold mix
  ring

theorem crx_blend (h : House I J) (hR : J → ℝ) (w : ℝ) (a b : Record I J) :
    h.crx hR (blend w a b) = fun j => mix w (h.crx hR a j) (h.crx hR b j) := by
  funext j
  simp only [House.crx, qSol_blend, mulVec_mix]
  simp only [House.thetaDstrb, blend, mix]
  ring

/-- The rooms of a tight building have no infiltration. -/
theorem leak_tight {v : I → ℝ} {story : ℤ} {pr : String} {x : I → ℝ} {o : ℝ} {l : I → ℝ}
    (H : getInfiltration 0 v story pr x o = .ok l) : l = fun _ => 0 := by
  unfold getInfiltration at H
  simp only [bind, Except.bind] at H
  split at H
  · cases H
  split at H
  · cases H
  split at H
  · cases H
  rename_i b hb
  have hb0 : 0 ≤ b := by
    unfold infiltrationB at hb
    split_ifs at hb <;> (have e := Except.ok.inj hb; linarith)
  rw [← Except.ok.inj H]
  funext i
  rw [max_eq_right (by simpa using hb0)]
  simp

theorem lcl_no_load {ss : PreCalc I J N} {dt : ℝ} {k : Fin N} {c : Cond I J} {t : TickVars I J} (e : TickEqs ss dt k c t)
    (h0 : t.lc = fun _ => 0) : (∀ i, (t.rac i).brmx = 0 ∧ (t.rac i).brxc = 0) ∧ t.lCl = fun _ => 0 := by
  have hr : ∀ i, (t.rac i).brmx = 0 ∧ (t.rac i).brxc = 0 := by
    intro i
    rw [e.rac, h0]
    unfold Tick.rac getDehumidCoeff
    norm_num
  refine ⟨hr, ?_⟩
  funext i
  rw [e.lCl]
  simp only [Tick.lCl, Matrix.mulVec_diagonal]
  rw [(hr i).1, (hr i).2]
  ring

theorem step_blend {h : House I J} {hR : J → ℝ} {dt w : ℝ} {A B : Fin N → Record I J} {ivs : Matrix J J ℝ} {k : Fin N} {c1 c2 c3 : Cond I J}
    {t1 t2 t3 : TickVars I J} (hcap : ∀ i, 0 ≤ h.capH i ∧ 0 ≤ h.capC i) (hC : h.cValue = 0)
    (hv : (B k).vLocal = (A k).vLocal) (hn1 : (A k).nHum = fun _ => 0) (hn2 : (B k).nHum = fun _ => 0)
    (hd1 : ∀ i, (A k).acDemand i ≤ 0) (hd2 : ∀ i, (B k).acDemand i ≤ 0)
    (E1 : TickEqs (preCalcOf h hR dt A ivs) dt k c1 t1) (E2 : TickEqs (preCalcOf h hR dt B ivs) dt k c2 t2)
    (E3 : TickEqs (preCalcOf h hR dt (fun n => blend w (A n) (B n)) ivs) dt k c3 t3)
    (hc : MixCond w c1 c2 c3) : LogRow.ofTick t3 = blendRow w (LogRow.ofTick t1) (LogRow.ofTick t2) ∧ MixCond w t1.next t2.next t3.next := by
  have o1 := ot_no_demand E1 hd1
  have o2 := ot_no_demand E2 hd2
  have o3 := ot_no_demand E3 hd1
  have l1 := natural_no_demand E1.load hcap (fun i => by simp only [Tick.loadInput, o1])
  have l2 := natural_no_demand E2.load hcap (fun i => by simp only [Tick.loadInput, o2])
  have l3 := natural_no_demand E3.load hcap (fun i => by simp only [Tick.loadInput, o3])
  have lc1 : t1.lc = fun _ => 0 := l1.2.2.1
  have lr1 : t1.lr = fun _ => 0 := l1.2.2.2
  have lc2 : t2.lc = fun _ => 0 := l2.2.2.1
  have lr2 : t2.lr = fun _ => 0 := l2.2.2.2
  have lc3 : t3.lc = fun _ => 0 := l3.2.2.1
  have lr3 : t3.lr = fun _ => 0 := l3.2.2.2
  have rear : t3.thetaRear = fun j => mix w (t1.thetaRear j) (t2.thetaRear j) := by
    rw [E1.thetaRear, E2.thetaRear, E3.thetaRear]; funext j; unfold Tick.thetaRear
    rw [hc.thetaEi, show (preCalcOf h hR dt (fun n => blend w (A n) (B n)) ivs).kEi = h.kEiMat from rfl, mulVec_mix]
    simp only [preCalcOf, House.thetaDstrb, blend, mix]; ring
  have q1 : t1.qHum = fun _ => 0 := by rw [E1.qHum]; funext i; simp [Tick.qHum, preCalcOf, hn1]
  have q2 : t2.qHum = fun _ => 0 := by rw [E2.qHum]; funext i; simp [Tick.qHum, preCalcOf, hn2]
  have q3 : t3.qHum = fun _ => 0 := by rw [E3.qHum]; funext i; simp [Tick.qHum, preCalcOf, blend, hn1]
  have x1 : t1.xHum = fun _ => 0 := by rw [E1.xHum]; funext i; simp [Tick.xHum, preCalcOf, hn1]
  have x2 : t2.xHum = fun _ => 0 := by rw [E2.xHum]; funext i; simp [Tick.xHum, preCalcOf, hn2]
  have x3 : t3.xHum = fun _ => 0 := by rw [E3.xHum]; funext i; simp [Tick.xHum, preCalcOf, blend, hn1]
  have k1 : t1.vLeak = fun _ => 0 := by have := E1.vLeak; simp only [preCalcOf, hC] at this; exact leak_tight this
  have k2 : t2.vLeak = fun _ => 0 := by have := E2.vLeak; simp only [preCalcOf, hC] at this; exact leak_tight this
  have k3 : t3.vLeak = fun _ => 0 := by have := E3.vLeak; simp only [preCalcOf, hC] at this; exact leak_tight this
  have da : t3.dshA = fun j m => mix w (t1.dshA j m) (t2.dshA j m) := by
    rw [E1.dshA, E2.dshA, E3.dshA]; funext j m; unfold Tick.dshA; rw [hc.qSrf, hc.dshA]; simp only [preCalcOf, mix]; ring
  have dT : t3.dshT = fun j m => mix w (t1.dshT j m) (t2.dshT j m) := by
    rw [E1.dshT, E2.dshT, E3.dshT, rear]; funext j m; unfold Tick.dshT; rw [hc.dshT]; simp only [preCalcOf, mix]; ring
  have wsv : t3.wsv = fun j => mix w (t1.wsv j) (t2.wsv j) := by
    rw [E1.wsv, E2.wsv, E3.wsv, da, dT]; unfold Tick.wsv
    have : Tick.cvl (fun j m => mix w (t1.dshA j m) (t2.dshA j m)) (fun j m => mix w (t1.dshT j m) (t2.dshT j m))
        = fun j => mix w (Tick.cvl t1.dshA t1.dshT j) (Tick.cvl t2.dshA t2.dshT j) := by
      funext j
      unfold Tick.cvl mix
      rw [Finset.mul_sum, Finset.mul_sum, ← Finset.sum_add_distrib]
      exact Finset.sum_congr rfl fun m _ => by ring
    rw [this, mulVec_mix]; rfl
  have n1 : t1.vNtrl = fun _ => 0 := by rw [E1.vNtrl, o1]; unfold Tick.vNtrl; funext i; simp
  have n2 : t2.vNtrl = fun _ => 0 := by rw [E2.vNtrl, o2]; unfold Tick.vNtrl; funext i; simp
  have n3 : t3.vNtrl = fun _ => 0 := by rw [E3.vNtrl, o3]; unfold Tick.vNtrl; funext i; simp
  have vo3 : t3.vOut = t1.vOut := by rw [E1.vOut, E3.vOut, k1, k3, n1, n3]; rfl
  have vo2 : t2.vOut = t1.vOut := by
    rw [E1.vOut, E2.vOut, k1, k2, n1, n2]; funext i; simp only [Tick.vOut, preCalcOf, House.vMec, hv]
  have wsc : (preCalcOf h hR dt (fun n => blend w (A n) (B n)) ivs).wsc k
      = fun j => mix w ((preCalcOf h hR dt A ivs).wsc k j) ((preCalcOf h hR dt B ivs).wsc k j) := by
    simp only [preCalcOf, crx_blend, mulVec_mix]
  have brm3 : t3.brm = t1.brm := by rw [E1.brm, E3.brm, vo3]; rfl
  have brm2 : t2.brm = t1.brm := by rw [E1.brm, E2.brm, vo2]; rfl
  have brc : t3.brc = fun i => mix w (t1.brc i) (t2.brc i) := by
    rw [E1.brc, E2.brc, E3.brc, q1, q2, q3, vo2, vo3]; funext i; unfold Tick.brc
    rw [wsc, wsv, hc.thetaR, hc.thetaFrt]
    have : (fun j => (preCalcOf h hR dt (fun n => blend w (A n) (B n)) ivs).hC j * (preCalcOf h hR dt (fun n => blend w (A n) (B n)) ivs).aSrf j
          * (mix w ((preCalcOf h hR dt A ivs).wsc k j) ((preCalcOf h hR dt B ivs).wsc k j) + mix w (t1.wsv j) (t2.wsv j)))
        = fun j => mix w (h.hC j * h.area j * ((preCalcOf h hR dt A ivs).wsc k j + t1.wsv j))
            (h.hC j * h.area j * ((preCalcOf h hR dt B ivs).wsc k j + t2.wsv j)) := by
      funext j; simp only [preCalcOf, mix]; ring
    rw [this, mulVec_mix]
    simp only [preCalcOf, House.qSolFrt, blend, mix]
    ring
  have xot2 : t2.xot = t1.xot := by
    have := E2.xot
    rw [o2, ← o1] at this
    exact Except.ok.inj (this.symm.trans E1.xot)
  have xot3 : t3.xot = t1.xot := by
    have := E3.xot
    rw [o3, ← o1] at this
    exact Except.ok.inj (this.symm.trans E1.xot)
  have xc : t3.xc = fun i => mix w (t1.xc i) (t2.xc i) := by
    rw [E1.xc, E2.xc, E3.xc, xot2, xot3, o1, o2, o3]; unfold Tick.xc
    have e1 : (fun j => (preCalcOf h hR dt (fun n => blend w (A n) (B n)) ivs).wsc k j + t3.wsv j)
        = fun j => mix w ((preCalcOf h hR dt A ivs).wsc k j + t1.wsv j) ((preCalcOf h hR dt B ivs).wsc k j + t2.wsv j) := by
      rw [wsc, wsv]; funext j; simp only [mix]; ring
    rw [e1, mulVec_mix]
    have e2 : ∀ (f g : I → ℝ) (u : I → ℝ), (fun i => u i * mix w (f i) (g i)) = fun i => mix w (u i * f i) (u i * g i) := by
      intro f g u; funext i; simp only [mix]; ring
    rw [e2, mulVec_mix]; rfl
  have bmo2 : t2.brmOt = t1.brmOt := by rw [E1.brmOt, E2.brmOt, brm2, xot2]
  have bmo3 : t3.brmOt = t1.brmOt := by rw [E1.brmOt, E3.brmOt, brm3, xot3]
  have bco : t3.brcOt = fun i => mix w (t1.brcOt i) (t2.brcOt i) := by
    rw [E1.brcOt, E2.brcOt, E3.brcOt, brc, brm2, brm3, xc]; unfold Tick.brcOt; rw [mulVec_mix]; funext i; simp only [mix]; ring
  have th : t3.thetaOt = fun i => mix w (t1.thetaOt i) (t2.thetaOt i) := by
    have h1 : t1.brmOt.det ≠ 0 := l1.1
    have m1 : t1.brmOt.mulVec t1.thetaOt = t1.brcOt := l1.2.1
    have m2 : t2.brmOt.mulVec t2.thetaOt = t2.brcOt := l2.2.1
    have m3 : t3.brmOt.mulVec t3.thetaOt = t3.brcOt := l3.2.1
    rw [bmo2] at m2
    rw [bmo3, bco, ← m1, ← m2, ← mulVec_mix] at m3
    exact Matrix.mulVec_injective_of_isUnit ((Matrix.isUnit_iff_isUnit_det _).2 (isUnit_iff_ne_zero.2 h1)) m3
  have z : ∀ A : Matrix I I ℝ, A.mulVec (fun _ => (0 : ℝ)) = fun _ => 0 := fun A => by funext i; simp [Matrix.mulVec, dotProduct]
  have z' : ∀ A : Matrix J I ℝ, A.mulVec (fun _ => (0 : ℝ)) = fun _ => 0 := fun A => by funext i; simp [Matrix.mulVec, dotProduct]
  have thR : t3.thetaR = fun i => mix w (t1.thetaR i) (t2.thetaR i) := by
    rw [E1.thetaR, E2.thetaR, E3.thetaR, xot2, xot3, xc, th, lr1, lr2, lr3]; unfold Tick.thetaR; rw [z, z, z, mulVec_mix]
    funext i; simp only [mix]; ring
  have thF : t3.thetaFrt = fun i => mix w (t1.thetaFrt i) (t2.thetaFrt i) := by
    rw [E1.thetaFrt, E2.thetaFrt, E3.thetaFrt, thR]; unfold Tick.thetaFrt; rw [hc.thetaFrt]
    funext i; simp only [preCalcOf, House.qSolFrt, blend, mix]; ring
  have thS : t3.thetaS = fun j => mix w (t1.thetaS j) (t2.thetaS j) := by
    rw [E1.thetaS, E2.thetaS, E3.thetaS, thR, wsv, lr1, lr2, lr3]; unfold Tick.thetaS; rw [z', z', z', mulVec_mix, wsc]
    funext j; simp only [preCalcOf, mix]; ring
  have thM : t3.thetaMrt = fun i => mix w (t1.thetaMrt i) (t2.thetaMrt i) := by
    rw [E1.thetaMrt, E2.thetaMrt, E3.thetaMrt, thS]; unfold Tick.thetaMrt; rw [mulVec_mix]; rfl
  have thE : t3.thetaEi = fun j => mix w (t1.thetaEi j) (t2.thetaEi j) := by
    rw [E1.thetaEi, E2.thetaEi, E3.thetaEi, thR, thS, lr1, lr2, lr3]; unfold Tick.thetaEi; simp only [mul_zero, z']
    rw [mulVec_mix, mulVec_mix]
    funext j; simp only [preCalcOf, qSol_blend]; simp only [mix]; ring
  have qs : t3.qSrf = fun j => mix w (t1.qSrf j) (t2.qSrf j) := by
    rw [E1.qSrf, E2.qSrf, E3.qSrf, thE, thS]; unfold Tick.qSrf; funext j; simp only [preCalcOf, mix]; ring
  obtain ⟨r1, cl1⟩ := lcl_no_load E1 lc1
  obtain ⟨r2, cl2⟩ := lcl_no_load E2 lc2
  obtain ⟨r3, cl3⟩ := lcl_no_load E3 lc3
  have mx : ∀ {t : TickVars I J}, (∀ i, (t.rac i).brmx = 0 ∧ (t.rac i).brxc = 0) →
      Tick.brmx t.brmxNonDh t.rac = t.brmxNonDh ∧ Tick.brxc t.brxcNonDh t.rac = t.brxcNonDh := by
    intro t hr
    constructor
    · unfold Tick.brmx
      rw [show (fun i => (t.rac i).brmx) = fun _ => 0 from funext fun i => (hr i).1, show Matrix.diagonal (fun _ : I => (0 : ℝ)) = 0 from Matrix.diagonal_zero,
        add_zero]
    · funext i; unfold Tick.brxc; rw [(hr i).2, add_zero]
  have bx2 : t2.brmxNonDh = t1.brmxNonDh := by rw [E1.brmxNonDh, E2.brmxNonDh, vo2]; rfl
  have bx3 : t3.brmxNonDh = t1.brmxNonDh := by rw [E1.brmxNonDh, E3.brmxNonDh, vo3]; rfl
  have bc : t3.brxcNonDh = fun i => mix w (t1.brxcNonDh i) (t2.brxcNonDh i) := by
    rw [E1.brxcNonDh, E2.brxcNonDh, E3.brxcNonDh, vo2, vo3, x1, x2, x3]; unfold Tick.brxcNonDh; rw [hc.xR, hc.xFrt]
    funext i; simp only [preCalcOf, blend, mix]; ring
  have xr : t3.xR = fun i => mix w (t1.xR i) (t2.xR i) := by
    have m1 := E1.xR
    have m2 := E2.xR
    have m3 := E3.xR
    rw [(mx r1).1, (mx r1).2] at m1
    rw [(mx r2).1, (mx r2).2, bx2] at m2
    rw [(mx r3).1, (mx r3).2, bx3] at m3
    have h3 := m3.2
    rw [bc, ← m1.2, ← m2.2, ← mulVec_mix] at h3
    exact Matrix.mulVec_injective_of_isUnit ((Matrix.isUnit_iff_isUnit_det _).2 (isUnit_iff_ne_zero.2 m1.1)) h3
  have xf : t3.xFrt = fun i => mix w (t1.xFrt i) (t2.xFrt i) := by
    rw [E1.xFrt, E2.xFrt, E3.xFrt, xr]; unfold Tick.xFrt; rw [hc.xFrt]; funext i; simp only [preCalcOf, mix]; ring
  refine ⟨?_, ⟨thR, xr, da, dT, qs, thF, xf, thE⟩⟩
  simp only [LogRow.ofTick, blendRow, o1, o2, o3, thR, thM, xr, thF, xf, thE, q1, q2, q3, x1, x2, x3, lc1, lc2, lc3, lr1, lr2, lr3, cl1, cl2, cl3, k1,
    k2, k3, n1, n2, n3, th, thS, rear, qs, mix_self]

theorem run_blend {h : House I J} {hR : J → ℝ} {dt w : ℝ} {A B : Fin N → Record I J} {ivs : Matrix J J ℝ}
    (hcap : ∀ i, 0 ≤ h.capH i ∧ 0 ≤ h.capC i) (hC : h.cValue = 0) (hv : ∀ k, (B k).vLocal = (A k).vLocal)
    (hn1 : ∀ k, (A k).nHum = fun _ => 0) (hn2 : ∀ k, (B k).nHum = fun _ => 0) {c1 c2 c3 : Cond I J} {ns : List ℤ}
    {ts1 ts2 ts3 : List (TickVars I J)} (hc : MixCond w c1 c2 c3) (H1 : Run (preCalcOf h hR dt A ivs) dt c1 ns ts1)
    (H2 : Run (preCalcOf h hR dt B ivs) dt c2 ns ts2) (H3 : Run (preCalcOf h hR dt (fun n => blend w (A n) (B n)) ivs) dt c3 ns ts3) :
    ∀ (j : ℕ) (_ : j < ns.length) (h1 : j < ts1.length) (h2 : j < ts2.length) (h3 : j < ts3.length),
      (∀ (l : ℕ) (hl : l < ns.length), l ≤ j → ∀ k : Fin N, pyIndex N ns[l] = .ok k → ∀ i, (A k).acDemand i ≤ 0 ∧ (B k).acDemand i ≤ 0) →
      LogRow.ofTick ts3[j] = blendRow w (LogRow.ofTick ts1[j]) (LogRow.ofTick ts2[j]) := by
  induction H1 generalizing c2 c3 ts2 ts3 with
  | nil => intro j hj; simp at hj
  | cons a1 _ ih =>
    cases H2 with
    | cons b1 b2 =>
      cases H3 with
      | cons d1 d2 =>
        intro j hj h1 h2 h3 hd
        obtain ⟨k, hk, e1⟩ := runTick_ok a1
        obtain ⟨k2, hk2, e2⟩ := runTick_ok b1
        obtain ⟨k3, hk3, e3⟩ := runTick_ok d1
        obtain rfl : k2 = k := Except.ok.inj (hk2.symm.trans hk)
        obtain rfl : k3 = k2 := Except.ok.inj (hk3.symm.trans hk)
        have s1 := step_blend hcap hC (hv _) (hn1 _) (hn2 _) (fun i => (hd 0 (by simp) (by omega) k3 hk i).1)
          (fun i => (hd 0 (by simp) (by omega) k3 hk i).2) (tickAt_ok e1) (tickAt_ok e2) (tickAt_ok e3) hc
        cases j with
        | zero => exact s1.1
        | succ j =>
          exact ih s1.2 b2 d2 j (by simpa using hj) (by simpa using h1) (by simpa using h2) (by simpa using h3)
            fun l hl hlj => hd (l + 1) (by simpa using hl) (by omega)

end

/-! ## The ground -/

/-- A row of the ground that is the weighted mean of two. -/
def MixCell (w : ℝ) (a b c : GroundCell) : Prop := (c.dshA = fun m => mix w (a.dshA m) (b.dshA m)) ∧ c.qSrf = mix w a.qSrf b.qSrf

theorem ground_blend {N : ℕ} {W : List GroundWall} {g1 g2 g3 : PreCalcGround N} {w : ℝ} (w1 : g1.walls = W) (w2 : g2.walls = W)
    (w3 : g3.walls = W) (ho : ∀ k, g3.thetaO k = mix w (g1.thetaO k) (g2.thetaO k)) (ha : g3.thetaOAve = mix w g1.thetaOAve g2.thetaOAve)
    {ns : List ℤ} {G1 G2 G3 : GroundWall → GroundCell} (hG : ∀ x, MixCell w (G1 x) (G2 x) (G3 x)) {gc1 gc2 gc3 : List GroundCell}
    (H1 : ns.foldlM (groundTick g1) (W.map G1) = .ok gc1) (H2 : ns.foldlM (groundTick g2) (W.map G2) = .ok gc2)
    (H3 : ns.foldlM (groundTick g3) (W.map G3) = .ok gc3) :
    ∃ G1' G2' G3' : GroundWall → GroundCell, gc1 = W.map G1' ∧ gc2 = W.map G2' ∧ gc3 = W.map G3' ∧ ∀ x, MixCell w (G1' x) (G2' x) (G3' x) := by
  induction ns generalizing G1 G2 G3 with
  | nil => exact ⟨G1, G2, G3, (Except.ok.inj H1).symm, (Except.ok.inj H2).symm, (Except.ok.inj H3).symm, hG⟩
  | cons n ns ih =>
    rw [List.foldlM_cons] at H1 H2 H3
    cases hk : pyIndex N n with
    | error x => simp [groundTick, hk, bind, Except.bind] at H1
    | ok k =>
      have step : ∀ (g : PreCalcGround N) (G : GroundWall → GroundCell), g.walls = W →
          groundTick g (W.map G) n = .ok (W.map fun x => groundStep x (g.thetaO k) g.thetaOAve (G x)) := by
        intro g G h1
        simp only [groundTick, hk, bind, Except.bind, h1, zipWith_map_self]
      rw [step _ _ w1] at H1
      rw [step _ _ w2] at H2
      rw [step _ _ w3] at H3
      refine ih (fun x => ?_) H1 H2 H3
      have hd : groundDshA x (G3 x) = fun m => mix w (groundDshA x (G1 x) m) (groundDshA x (G2 x) m) := by
        funext m
        unfold groundDshA
        rw [(hG x).1, (hG x).2]
        simp only [mix]
        ring
      have hs : (∑ m, groundDshA x (G3 x) m) = mix w (∑ m, groundDshA x (G1 x) m) (∑ m, groundDshA x (G2 x) m) := by
        rw [hd]
        unfold mix
        rw [Finset.mul_sum, Finset.mul_sum, ← Finset.sum_add_distrib]
      refine ⟨hd, ?_⟩
      simp only [groundStep, groundThetaS]
      rw [hs, ho, ha]
      simp only [mix]
      ring

section
variable {I : Type} [Fintype I] [DecidableEq I] {m N : ℕ} {h : House I (Fin m)} {hR : Fin m → ℝ} {w : ℝ}
  {A B : Fin N → Record I (Fin m)} {hourly dMain dRunUp dRunUpBuild : ℤ} {r1 r2 r3 : CalcResult I m N}

/-- **C108** for given radiative coefficients. -/
theorem C108_rows (hcap : ∀ i, 0 ≤ h.capH i ∧ 0 ≤ h.capC i) (hC : h.cValue = 0) (hru : 0 ≤ dRunUpBuild * hourly * 24)
    (hv : ∀ k, (B k).vLocal = (A k).vLocal) (hn1 : ∀ k, (A k).nHum = fun _ => 0) (hn2 : ∀ k, (B k).nHum = fun _ => 0)
    (H1 : coreCalc h hR A hourly dMain dRunUp dRunUpBuild = .ok r1) (H2 : coreCalc h hR B hourly dMain dRunUp dRunUpBuild = .ok r2)
    (H3 : coreCalc h hR (fun n => blend w (A n) (B n)) hourly dMain dRunUp dRunUpBuild = .ok r3)
    (k : ℕ) (hd1 : NoDemand (fun n => (A n).acDemand) (-(dRunUpBuild * hourly * 24)) k)
    (hd2 : NoDemand (fun n => (B n).acDemand) (-(dRunUpBuild * hourly * 24)) k)
    (hk1 : k < r1.nMain.toNat) (hk2 : k < r2.nMain.toNat) (hk3 : k < r3.nMain.toNat) :
    r3.log ⟨k, hk3⟩ = blendRow w (r1.log ⟨k, hk1⟩) (r2.log ⟨k, hk2⟩) := by
  obtain ⟨gs1, c1, up1, mn1, T1⟩ := coreCalc_ok H1
  obtain ⟨gs2, c2, up2, mn2, T2⟩ := coreCalc_ok H2
  obtain ⟨gs3, c3, up3, mn3, T3⟩ := coreCalc_ok H3
  obtain ⟨ivs, hi, hs1⟩ := makePreCalc_ok T1.pre
  obtain ⟨ivs2, hi2, hs2⟩ := makePreCalc_ok T2.pre
  obtain ⟨ivs3, hi3, hs3⟩ := makePreCalc_ok T3.pre
  obtain rfl : ivs2 = ivs := Except.ok.inj (hi2.symm.trans hi)
  obtain rfl : ivs3 = ivs2 := Except.ok.inj (hi3.symm.trans hi)
  -- the ground
  have f1 := groundRun_fold T1.ground
  have f2 := groundRun_fold T2.ground
  have f3 := groundRun_fold T3.ground
  have wl1 : (makePreCalcGround r1.ss).walls = (makePreCalcGround r3.ss).walls := by rw [hs1, hs3]; rfl
  have wl2 : (makePreCalcGround r2.ss).walls = (makePreCalcGround r3.ss).walls := by rw [hs2, hs3]; rfl
  rw [initialGround_walls, wl1] at f1
  rw [initialGround_walls, wl2] at f2
  rw [initialGround_walls] at f3
  obtain ⟨G1, G2, G3, e1, e2, e3, hG⟩ := ground_blend (w := w) wl1 wl2 rfl (by intro k; rw [hs1, hs2, hs3]; rfl) (by
      rw [hs1, hs2, hs3]
      show (∑ n, (blend w (A n) (B n)).thetaO) / (N : ℝ) = mix w ((∑ n, (A n).thetaO) / N) ((∑ n, (B n).thetaO) / N)
      simp only [blend, mix]
      rw [Finset.sum_add_distrib, ← Finset.mul_sum, ← Finset.mul_sum]
      ring) (fun x => ⟨by funext m; simp [mix], by simp [mix]⟩) f1 f2 f3
  have s1 := T1.start
  have s2 := T2.start
  have s3 := T3.start
  rw [T1.ground_last, initialGround_walls, wl1, e1, ← wl1, updateByGround_walls] at s1
  rw [T2.ground_last, initialGround_walls, wl2, e2, ← wl2, updateByGround_walls] at s2
  rw [T3.ground_last, initialGround_walls, e3, updateByGround_walls] at s3
  have g1 := Except.ok.inj s1
  have g2 := Except.ok.inj s2
  have g3 := Except.ok.inj s3
  have hc : MixCond w c1 c2 c3 := by
    rw [← g1, ← g2, ← g3]
    have i1 : r1.ss.isGround = r3.ss.isGround := by rw [hs1, hs3]; rfl
    have i2 : r2.ss.isGround = r3.ss.isGround := by rw [hs2, hs3]; rfl
    have v1 : groundWallOf r1.ss = groundWallOf r3.ss := by rw [hs1, hs3]; rfl
    have v2 : groundWallOf r2.ss = groundWallOf r3.ss := by rw [hs2, hs3]; rfl
    refine ⟨?_, ?_, ?_, ?_, ?_, ?_, ?_, ?_⟩
    · funext i; exact (mix_self _ _).symm
    · funext i; exact (mix_self _ _).symm
    · funext j l
      simp only [i1, i2, v1, v2]
      split_ifs with hj
      · rw [(hG _).1]
      · exact (mix_self _ _).symm
    · funext j l; exact (mix_self _ _).symm
    · funext j
      simp only [i1, i2, v1, v2]
      split_ifs with hj
      · rw [(hG _).2]
      · exact (mix_self _ _).symm
    · funext i; exact (mix_self _ _).symm
    · funext i; exact (mix_self _ _).symm
    · funext i; exact (mix_self _ _).symm
  -- the steps
  have R1 := T1.runUp.append T1.main
  have R2 := T2.runUp.append T2.main
  have R3 := T3.runUp.append T3.main
  rw [hs1] at R1
  rw [hs2] at R2
  rw [hs3] at R3
  have hl2 : up2.length = up1.length := T2.runUp.length_eq.trans T1.runUp.length_eq.symm
  have hl3 : up3.length = up1.length := T3.runUp.length_eq.trans T1.runUp.length_eq.symm
  have hu : up1.length = (pyRange (-(dRunUpBuild * hourly * 24)) 0).length := T1.runUp.length_eq
  have hm1 : k < mn1.length := by rw [T1.mn_length]; exact hk1
  have hm2 : k < mn2.length := by rw [T2.mn_length]; exact hk2
  have hm3 : k < mn3.length := by rw [T3.mn_length]; exact hk3
  have hm : mn1.length = (pyRange 0 (dMain * hourly * 24)).length := T1.main.length_eq
  have key := run_blend hcap hC hv hn1 hn2 hc R1 R2 R3 (up1.length + k) (by rw [List.length_append]; omega)
    (by rw [List.length_append]; omega) (by rw [List.length_append]; omega) (by rw [List.length_append]; omega) (by
      intro l hl hle k' hk' i
      have hsp := pyIndex_spec hk'
      have hb : -(dRunUpBuild * hourly * 24) ≤ (pyRange (-(dRunUpBuild * hourly * 24)) 0 ++ pyRange 0 (dMain * hourly * 24))[l]
          ∧ (pyRange (-(dRunUpBuild * hourly * 24)) 0 ++ pyRange 0 (dMain * hourly * 24))[l] ≤ k := by
        rw [List.getElem_append]
        split_ifs with h5
        · rw [pyRange_getElem]
          rw [pyRange_length] at h5
          omega
        · rw [pyRange_getElem]
          rw [pyRange_length] at h5 hu
          rw [pyRange_length]
          omega
      exact ⟨hd1 _ hb.1 hb.2 k' hsp i, hd2 _ hb.1 hb.2 k' hsp i⟩)
  have e1 : (up1 ++ mn1)[up1.length + k]'(by rw [List.length_append]; omega) = mn1[k] := by
    rw [List.getElem_append_right (by omega)]; simp
  have e2 : (up2 ++ mn2)[up1.length + k]'(by rw [List.length_append]; omega) = mn2[k] := by
    rw [List.getElem_append_right (by omega)]; simp [hl2]
  have e3 : (up3 ++ mn3)[up1.length + k]'(by rw [List.length_append]; omega) = mn3[k] := by
    rw [List.getElem_append_right (by omega)]; simp [hl3]
  rw [e1, e2, e3] at key
  rw [T1.logged ⟨k, hk1⟩ hm1, T2.logged ⟨k, hk2⟩ hm2, T3.logged ⟨k, hk3⟩ hm3]
  exact key

end

/-! ## The program -/

section
variable {q m N : ℕ} {solve : List ℝ → ℝ} {h : House (Fin q) (Fin m)} {w : ℝ} {A B : Fin N → Record (Fin q) (Fin m)}
  {hourly dMain dRunUp dRunUpBuild : ℤ} {r1 r2 r3 : CalcResult (Fin q) m N}

/-- **C108.** Three completed calculations of the same tight, unoccupied building with the same ventilation: one with the input `A`, one with
`B`, and one with their weighted mean (any weight). As long as no room has demanded conditioning since the start of the run-up, every number
in the results of the third is the weighted mean of the numbers in the other two. -/
theorem C108_program (hcap : ∀ i, 0 ≤ h.capH i ∧ 0 ≤ h.capC i) (hC : h.cValue = 0) (hru : 0 ≤ dRunUpBuild * hourly * 24)
    (hv : ∀ k, (B k).vLocal = (A k).vLocal) (hn1 : ∀ k, (A k).nHum = fun _ => 0) (hn2 : ∀ k, (B k).nHum = fun _ => 0)
    (H1 : program solve h A hourly dMain dRunUp dRunUpBuild = .ok r1) (H2 : program solve h B hourly dMain dRunUp dRunUpBuild = .ok r2)
    (H3 : program solve h (fun n => blend w (A n) (B n)) hourly dMain dRunUp dRunUpBuild = .ok r3)
    (k : ℕ) (hd1 : NoDemand (fun n => (A n).acDemand) (-(dRunUpBuild * hourly * 24)) k)
    (hd2 : NoDemand (fun n => (B n).acDemand) (-(dRunUpBuild * hourly * 24)) k)
    (hk1 : k < r1.nMain.toNat) (hk2 : k < r2.nMain.toNat) (hk3 : k < r3.nMain.toNat) :
    r3.log ⟨k, hk3⟩ = blendRow w (r1.log ⟨k, hk1⟩) (r2.log ⟨k, hk2⟩) :=
  C108_rows hcap hC hru hv hn1 hn2 H1 H2 H3 k hd1 hd2 hk1 hk2 hk3

end

/-! ## A concrete case -/

/-- The cold house made tight. -/
noncomputable def exTight : House (Fin 1) (Fin 1) := { exCold with cValue := 0 }

/-- A dull day in the empty house. -/
noncomputable def exDull : Fin 96 → Record (Fin 1) (Fin 1) := fun k =>
  { thetaO := k / 10, xO := 0.004, vLocal := fun _ => 0.02, qGen := fun _ => 10, xGen := fun _ => 0, nHum := fun _ => 0
    acDemand := fun _ => 0, qTrsSol := fun _ => 0, thetaOSol := fun _ => 3 }

/-- The same day with sun, warmer air and a lamp. -/
noncomputable def exSunny : Fin 96 → Record (Fin 1) (Fin 1) := fun k =>
  { thetaO := k / 5, xO := 0.006, vLocal := fun _ => 0.02, qGen := fun _ => 50, xGen := fun _ => 0.0001, nHum := fun _ => 0
    acDemand := fun _ => 0, qTrsSol := fun _ => k, thetaOSol := fun _ => 12 }

theorem exTight_wellFormed {hR : Fin 1 → ℝ} (hr : ∀ j, 0 < hR j) : WellFormed exTight hR 900 :=
  { exCold_wellFormed_any hr with }

/-- The hypotheses of `C108_program` are met by the tight house on a dull day, a sunny day and a day with twice the sun, in all rows. -/
example : ∃ (solve : List ℝ → ℝ) (r1 r2 r3 : CalcResult (Fin 1) 1 96), SolvesRooms solve exTight.area exTight.room ∧
    program solve exTight exDull 4 1 0 0 = .ok r1 ∧ program solve exTight exSunny 4 1 0 0 = .ok r2 ∧
    program solve exTight (fun n => blend 2 (exDull n) (exSunny n)) 4 1 0 0 = .ok r3 ∧
    r1.nMain = 96 ∧ r2.nMain = 96 ∧ r3.nMain = 96 ∧
    ∀ (k : ℕ) (h1 : k < r1.nMain.toNat) (h2 : k < r2.nMain.toNat) (h3 : k < r3.nMain.toNat) (i : Fin 1),
      (r3.log ⟨k, h3⟩).thetaOt i - (r1.log ⟨k, h1⟩).thetaOt i = 2 * ((r2.log ⟨k, h2⟩).thetaOt i - (r1.log ⟨k, h1⟩).thetaOt i) := by
  obtain ⟨solve, hsol⟩ := exists_solver
  have hpos : ∀ j, 0 < exTight.area j := fun j => by norm_num [exTight, exCold]
  have hsr := solvesRooms_of hsol exTight.room hpos
  have hr : ∀ j, 0 < getHr solve exTight.area exTight.room j := fun j => by
    have := C33_coefficients solve _ _ hpos hsr j; linarith [this.1, this.2.1]
  have comp : ∀ data : Fin 96 → Record (Fin 1) (Fin 1), (∀ k i, 0 ≤ (data k).vLocal i) →
      ∃ r, program solve exTight data 4 1 0 0 = .ok r ∧ r.nMain = 96 := by
    intro data hv
    obtain ⟨r, H⟩ : ∃ r, coreCalc exTight (getHr solve exTight.area exTight.room) data 4 1 0 0 = .ok r := by
      apply C21_program_partial
      · have := exTight_wellFormed hr
        norm_num at this ⊢
        exact this
      · exact fun _ => rfl
      · exact fun _ => rfl
      · exact hv
      all_goals norm_num
    refine ⟨r, H, ?_⟩
    obtain ⟨_, _, _, _, T⟩ := coreCalc_ok H
    rw [T.nMain_eq]
    norm_num
  obtain ⟨r1, H1, m1⟩ := comp exDull (fun k i => by norm_num [exDull])
  obtain ⟨r2, H2, m2⟩ := comp exSunny (fun k i => by norm_num [exSunny])
  obtain ⟨r3, H3, m3⟩ := comp (fun n => blend 2 (exDull n) (exSunny n)) (fun k i => by norm_num [exDull, blend])
  refine ⟨solve, r1, r2, r3, hsr, H1, H2, H3, m1, m2, m3, fun k h1 h2 h3 i => ?_⟩
  rw [C108_program (A := exDull) (B := exSunny) (w := 2) (fun i => by norm_num [exTight, exCold]) rfl (by norm_num) (fun _ => rfl) (fun _ => rfl) (fun _ => rfl) H1 H2 H3 k
    (fun _ _ _ _ _ _ => le_refl _) (fun _ _ _ _ _ _ => le_refl _) h1 h2 h3]
  simp only [blendRow, mix]
  ring

end HLC
