import Verif.Lemmas.Renumber
import Verif.Props.Program
import Verif.Props.ShapeFactor

/-!
# Listing rooms and parts in another order (C83)
-/

set_option linter.unusedSectionVars false

namespace HLC
open Spec

/-! ## The ground -/

theorem zipWith_map_self {α β γ : Type} (F : α → β → γ) (G : α → β) (l : List α) :
    List.zipWith F l (l.map G) = l.map fun a => F a (G a) := by
  induction l with
  | nil => rfl
  | cons a l ih => simp [ih]

/-- What the ground run-up leaves at a wall depends on the wall only, not on the other walls. -/
theorem ground_fold {N : ℕ} {g : PreCalcGround N} {ns : List ℤ} {G : GroundWall → GroundCell} {gc : List GroundCell}
    (H : ns.foldlM (groundTick g) (g.walls.map G) = .ok gc) :
    ∃ G' : GroundWall → GroundCell, ∀ g' : PreCalcGround N, g'.thetaO = g.thetaO → g'.thetaOAve = g.thetaOAve →
      ns.foldlM (groundTick g') (g'.walls.map G) = .ok (g'.walls.map G') := by
  induction ns generalizing G with
  | nil => exact ⟨G, fun _ _ _ => rfl⟩
  | cons n ns ih =>
    rw [List.foldlM_cons] at H
    cases hk : pyIndex N n with
    | error x => simp [groundTick, hk, bind, Except.bind] at H
    | ok k =>
      have step : ∀ g' : PreCalcGround N, g'.thetaO = g.thetaO → g'.thetaOAve = g.thetaOAve →
          groundTick g' (g'.walls.map G) n = .ok (g'.walls.map fun w => groundStep w (g.thetaO k) g.thetaOAve (G w)) := by
        intro g' h1 h2
        simp only [groundTick, hk, bind, Except.bind, zipWith_map_self, h1, h2]
      rw [step g rfl rfl] at H
      obtain ⟨G', hG⟩ := ih H
      refine ⟨G', fun g' h1 h2 => ?_⟩
      rw [List.foldlM_cons, step g' h1 h2]
      exact hG g' h1 h2

theorem maskSelect_rank {m : ℕ} {α : Type} (mask : Fin m → Bool) (v : Fin m → α) (j : Fin m) (hj : mask j = true) :
    (maskSelect mask v)[rank mask j]? = some (v j) := by
  obtain ⟨new, h1, h2, -⟩ := maskAssign_exact mask v (maskSelect mask v) (by simp [maskSelect, filter_finRange_length])
  have hn : ∃ l1 l2, List.finRange m = l1 ++ j :: l2 ∧ (l1.filter mask).length = rank mask j := by
    refine ⟨(List.finRange m).take j, (List.finRange m).drop (j + 1), ?_, ?_⟩
    · conv_lhs => rw [← List.take_append_drop j (List.finRange m)]
      congr 1
      rw [List.drop_eq_getElem_cons (by simp)]
      simp
    · have := take_filter_length mask v j
      rw [← this, ← List.map_take, List.filter_map, List.length_map]
      rfl
  obtain ⟨l1, l2, e, hl⟩ := hn
  unfold maskSelect
  rw [e, List.filter_append, List.map_append, ← hl, List.getElem?_append_right (by simp)]
  simp [hj]

theorem maskAssign_select {m : ℕ} {α : Type} (mask : Fin m → Bool) (old v : Fin m → α) :
    maskAssign mask old (maskSelect mask v) = .ok fun j => if mask j then v j else old j := by
  obtain ⟨new, h1, h2, h3⟩ := maskAssign_exact mask old (maskSelect mask v) (by simp [maskSelect, filter_finRange_length])
  rw [h1]
  congr 1
  funext j
  by_cases hj : mask j = true
  · have := h2 j hj
    rw [maskSelect_rank mask v j hj] at this
    rw [if_pos hj, Option.some.inj this]
  · rw [if_neg hj, h3 j (by simpa using hj)]

variable {I I' : Type} [Fintype I] [DecidableEq I] [Fintype I'] [DecidableEq I'] {m N : ℕ}

/-- The wall of a ground part. -/
def groundWallOf (s : PreCalc I (Fin m) N) (j : Fin m) : GroundWall := ⟨s.ratio j, s.phiA0 j, s.phiA1 j, s.hR j, s.hC j⟩

theorem updateByGround_walls (s : PreCalc I (Fin m) N) (c : Cond I (Fin m)) (G : GroundWall → GroundCell) :
    updateByGround s.isGround c ((makePreCalcGround s).walls.map G)
      = .ok { c with dshA := fun j => if s.isGround j then (G (groundWallOf s j)).dshA else c.dshA j,
                     qSrf := fun j => if s.isGround j then (G (groundWallOf s j)).qSrf else c.qSrf j } := by
  have e : ∀ {α : Type} (F : GroundCell → α), ((makePreCalcGround s).walls.map G).map F
      = maskSelect s.isGround fun j => F (G (groundWallOf s j)) := by
    intro α F
    simp [makePreCalcGround, maskSelect, groundWallOf, Function.comp_def]
  unfold updateByGround
  rw [e, e, maskAssign_select]
  simp only [bind, Except.bind, maskAssign_select]

theorem initialGround_walls (s : PreCalc I (Fin m) N) :
    initialGround (makePreCalcGround s).nGrounds = (makePreCalcGround s).walls.map fun _ => ⟨fun _ => 0, 0⟩ := by
  rw [List.map_const']
  simp [initialGround, makePreCalcGround, maskSelect]

/-! ## A run -/

section
variable {J J' : Type} [Fintype J] [DecidableEq J] [Fintype J'] [DecidableEq J'] (e : I' ≃ I) (f : J' ≃ J)

theorem run_inOrder {ss : PreCalc I J N} {dt : ℝ} {c : Cond I J} {ns : List ℤ} {ts : List (TickVars I J)} (H : Run ss dt c ns ts) :
    Run (preInOrder e f ss) dt (condInOrder e f c) ns (ts.map (tickInOrder e f)) := by
  induction H with
  | nil c => exact Run.nil _
  | cons h1 _ ih => exact Run.cons (runTick_inOrder e f h1) ih

theorem after_inOrder (c : Cond I J) (ts : List (TickVars I J)) :
    after (condInOrder e f c) (ts.map (tickInOrder e f)) = condInOrder e f (after c ts) := by
  induction ts generalizing c with
  | nil => rfl
  | cons t ts ih => exact ih t.next

end

theorem groundRun_fold {g : PreCalcGround N} {gc : List GroundCell} {ns : List ℤ} {gs : List (List GroundCell)} (H : GroundRun g gc ns gs) :
    ns.foldlM (groundTick g) gc = .ok (lastGround gc gs) := by
  induction H with
  | nil gc => rfl
  | cons h1 _ ih => rw [List.foldlM_cons, h1]; exact ih

variable {h : House I (Fin m)} {hR : Fin m → ℝ} {data : Fin N → Record I (Fin m)} {hourly dMain dRunUp dRunUpBuild : ℤ}
  {r : CalcResult I m N}

/-- The calculation completes if its parts do, and logs what the steps of the main period computed. -/
theorem coreCalc_of_runs {ss : PreCalc I (Fin m) N} {gc : List GroundCell} {c0 : Cond I (Fin m)} {up mn : List (TickVars I (Fin m))}
    (hd : dRunUpBuild ≤ dRunUp) (hh : hourly ≠ 0) (hM : 0 ≤ dMain * hourly * 24) (Hp : makePreCalc h hR (3600 / (hourly : ℝ)) data = .ok ss)
    (hgc : (pyRange (-(dRunUp * hourly * 24)) (-(dRunUpBuild * hourly * 24))).foldlM (groundTick (makePreCalcGround ss))
      (initialGround (makePreCalcGround ss).nGrounds) = .ok gc)
    (hc0 : updateByGround ss.isGround (initialConditions I (Fin m)) gc = .ok c0)
    (hup : Run ss (3600 / (hourly : ℝ)) c0 (pyRange (-(dRunUpBuild * hourly * 24)) 0) up)
    (hmn : Run ss (3600 / (hourly : ℝ)) (after c0 up) (pyRange 0 (dMain * hourly * 24)) mn) :
    ∃ r, coreCalc h hR data hourly dMain dRunUp dRunUpBuild = .ok r ∧ r.ss = ss ∧ r.nMain = dMain * hourly * 24 ∧
      ∀ (k : Fin r.nMain.toNat) (hk : (k : ℕ) < mn.length), r.log k = LogRow.ofTick mn[(k : ℕ)] := by
  have hMn : ¬ (dMain * hourly * 24 < 0) := not_lt.mpr hM
  have e1 := foldlM_runUp_total (M := (dMain * hourly * 24).toNat) (fun _ => LogRow.empty I (Fin m)) hup
  obtain ⟨log', e2⟩ := foldlM_main_total (M := (dMain * hourly * 24).toNat) (fun _ => LogRow.empty I (Fin m)) hmn
    (fun n hn => by rw [mem_pyRange] at hn; omega)
  have H : coreCalc h hR data hourly dMain dRunUp dRunUpBuild
      = .ok { nMain := dMain * hourly * 24, ss := ss, ground := gc, final := after (after c0 up) mn, log := log' } := by
    unfold coreCalc getNStep deltaT
    simp only [bind, Except.bind, not_lt.mpr hd, if_false, if_neg hh, Hp, nStepMain, nStepRunUp, nStepRunUpBuild, newLogger,
      if_neg hMn, hgc, hc0, e1, e2]
  refine ⟨_, H, rfl, rfl, ?_⟩
  obtain ⟨gs, c0', up', mn', T⟩ := coreCalc_ok H
  have h1 : c0' = c0 := Except.ok.inj (T.start.symm.trans hc0)
  subst h1
  have h2 : up' = up := T.runUp.unique hup
  subst h2
  have h3 : mn' = mn := T.main.unique hmn
  subst h3
  exact T.logged

/-- **C83** for given radiative coefficients: if the calculation completes for a house, it completes for the same house with its rooms and
parts listed in any other order, and every room and every part gets the same results in every step. -/
theorem C83_order_partial (e : I' ≃ I) (f : Fin m ≃ Fin m) (H : coreCalc h hR data hourly dMain dRunUp dRunUpBuild = .ok r) :
    ∃ r', coreCalc (houseInOrder e f h) (fun j => hR (f j)) (fun n => recordInOrder e f (data n)) hourly dMain dRunUp dRunUpBuild = .ok r' ∧
      r'.nMain = r.nMain ∧
      ∀ (k : ℕ) (hk : k < r.nMain.toNat) (hk' : k < r'.nMain.toNat), r'.log ⟨k, hk'⟩ = rowInOrder e f (r.log ⟨k, hk⟩) := by
  obtain ⟨gs, c0, up, mn, T⟩ := coreCalc_ok H
  have Hp' : makePreCalc (houseInOrder e f h) (fun j => hR (f j)) (3600 / (hourly : ℝ)) (fun n => recordInOrder e f (data n))
      = .ok (preInOrder e f r.ss) := by rw [makePreCalc_inOrder, T.pre]; rfl
  have hg := groundRun_fold T.ground
  rw [← T.ground_last, initialGround_walls] at hg
  obtain ⟨G, hG⟩ := ground_fold hg
  have hg0 : r.ground = (makePreCalcGround r.ss).walls.map G := Except.ok.inj (hg.symm.trans (hG _ rfl rfl))
  have hg' := hG (makePreCalcGround (preInOrder e f r.ss)) rfl rfl
  rw [← initialGround_walls] at hg'
  have hs := T.start
  rw [hg0, updateByGround_walls] at hs
  have hs'' : updateByGround (preInOrder e f r.ss).isGround (initialConditions I' (Fin m))
      ((makePreCalcGround (preInOrder e f r.ss)).walls.map G) = .ok (condInOrder e f c0) := by
    rw [updateByGround_walls, ← Except.ok.inj hs]; rfl
  obtain ⟨r', h1, -, h3, h4⟩ := coreCalc_of_runs T.days T.hourly_ne (by rw [← T.nMain_eq]; exact T.nMain_nonneg) Hp' hg' hs''
    (run_inOrder e f T.runUp) (by rw [after_inOrder]; exact run_inOrder e f T.main)
  refine ⟨r', h1, h3.trans T.nMain_eq.symm, ?_⟩
  intro k hk hk'
  have hl : k < mn.length := by rw [T.mn_length]; exact hk
  rw [h4 ⟨k, hk'⟩ (by simpa using hl), T.logged ⟨k, hk⟩ hl]
  simp only [List.getElem_map]
  exact ofTick_inOrder e f _

/-! ## The program -/

section
variable {k : ℕ} (e : Fin k ≃ Fin k) (f : Fin m ≃ Fin m) (area : Fin m → ℝ) (room : Fin m → Fin k)

theorem sum_room_inOrder (F : Fin m → ℝ) (i : Fin k) :
    ∑ l ∈ Finset.univ.filter (fun l => e.symm (room (f l)) = i), F (f l) = ∑ l ∈ Finset.univ.filter (fun l => room l = e i), F l := by
  rw [Finset.sum_filter, Finset.sum_filter, ← f.sum_comp fun l => if room l = e i then F l else 0]
  simp only [Equiv.symm_apply_eq]

theorem share_inOrder (j : Fin m) :
    share (fun j => area (f j)) (fun j => e.symm (room (f j))) j = share area room (f j) := by
  unfold share roomArea
  rw [sum_room_inOrder e f room area, Equiv.apply_symm_apply]

theorem isRoomConst_inOrder {i : Fin k} {v : ℝ} (H : IsRoomConst area room (e i) v) :
    IsRoomConst (fun j => area (f j)) (fun j => e.symm (room (f j))) i v := by
  refine ⟨H.1, ?_⟩
  simp only [share_inOrder]
  rw [sum_room_inOrder e f room fun l => factor v (share area room l)]
  exact H.2

end

/-- **C83** (partial: the parts of every room stand together, in the order of the rooms, in both lists). With positive areas and a solver
that finds the room constants, listing the rooms in another order and the parts within the rooms in another order changes no result. -/
theorem C83_program_partial {k : ℕ} {solve : List ℝ → ℝ} {h : House (Fin k) (Fin m)} {data : Fin N → Record (Fin k) (Fin m)}
    {r : CalcResult (Fin k) m N} (e : Fin k ≃ Fin k) (f : Fin m ≃ Fin m) (hpos : ∀ j, 0 < h.area j)
    (hs : SolvesRooms solve h.area h.room) (hs' : SolvesRooms solve (houseInOrder e f h).area (houseInOrder e f h).room)
    (hm : Monotone h.room) (hm' : Monotone (houseInOrder e f h).room)
    (H : program solve h data hourly dMain dRunUp dRunUpBuild = .ok r) :
    ∃ r', program solve (houseInOrder e f h) (fun n => recordInOrder e f (data n)) hourly dMain dRunUp dRunUpBuild = .ok r' ∧
      r'.nMain = r.nMain ∧
      ∀ (k : ℕ) (hk : k < r.nMain.toNat) (hk' : k < r'.nMain.toNat), r'.log ⟨k, hk'⟩ = rowInOrder e f (r.log ⟨k, hk⟩) := by
  have hr : getHr solve (houseInOrder e f h).area (houseInOrder e f h).room = fun j => getHr solve h.area h.room (f j) := by
    funext j
    have hc := solve_isRoomConst hpos hs (f j)
    have hc' : IsRoomConst (houseInOrder e f h).area (houseInOrder e f h).room ((houseInOrder e f h).room j)
        (solve ((roomIdx h.room (h.room (f j))).map (share h.area h.room))) :=
      isRoomConst_inOrder e f h.area h.room (by
        rw [show (houseInOrder e f h).room j = e.symm (h.room (f j)) from rfl, Equiv.apply_symm_apply]; exact hc)
    rw [C34_own_coefficient_partial solve h.area h.room hpos hs hm (f j) _ hc,
      C34_own_coefficient_partial solve (houseInOrder e f h).area (houseInOrder e f h).room (fun j => hpos (f j)) hs' hm' j _ hc']
    rw [show share (houseInOrder e f h).area (houseInOrder e f h).room j = share h.area h.room (f j) from share_inOrder e f h.area h.room j]
  unfold program at H ⊢
  rw [hr]
  exact C83_order_partial e f H

end HLC
