import Verif.Lemmas.Pieces
import Verif.Props.Alternating

/-!
# Entering a part in pieces (C89)
-/

set_option linter.unusedSectionVars false

namespace HLC
open Spec

section
variable {I J J' : Type} [Fintype I] [DecidableEq I] [Fintype J] [DecidableEq J] [Fintype J'] [DecidableEq J'] {N : ℕ} {π : J → J'}
  {s : PreCalc I J N} {s' : PreCalc I J' N} {dt : ℝ}

theorem map_ok_iff {α β : Type} {x : Except PyErr α} {f : α → β} {b : β} : x.map f = .ok b ↔ ∃ a, x = .ok a ∧ f a = b := by
  cases x with
  | error e => simp [Except.map]
  | ok a => simp [Except.map]

theorem run_of_parts (P : PiecePre π s s') {c : Cond I J'} {ns : List ℤ} {ts : List (TickVars I J')} (H : Run s' dt c ns ts) :
    Run s dt (condOfPieces π c) ns (ts.map (tickOfPieces π)) := by
  induction H with
  | nil c => exact Run.nil _
  | cons h1 _ ih =>
    refine Run.cons ?_ ih
    rw [runTick_pieces P, h1]
    rfl

theorem run_of_pieces (P : PiecePre π s s') {ns : List ℤ} {c : Cond I J'} {ts : List (TickVars I J)}
    (H : Run s dt (condOfPieces π c) ns ts) : ∃ ts', Run s' dt c ns ts' ∧ ts = ts'.map (tickOfPieces π) := by
  induction ns generalizing c ts with
  | nil => cases H with | nil => exact ⟨[], Run.nil _, rfl⟩
  | cons n ns ih =>
    cases H with
    | cons h1 h2 =>
      rw [runTick_pieces P, map_ok_iff] at h1
      obtain ⟨t, ht, rfl⟩ := h1
      obtain ⟨ts', hr, rfl⟩ := ih (c := t.next) h2
      exact ⟨t :: ts', Run.cons ht hr, rfl⟩

theorem after_pieces (c : Cond I J') (ts : List (TickVars I J')) :
    after (condOfPieces π c) (ts.map (tickOfPieces π)) = condOfPieces π (after c ts) := by
  induction ts generalizing c with
  | nil => rfl
  | cons t ts ih => exact ih t.next

end

variable {I : Type} [Fintype I] [DecidableEq I] {m m' N : ℕ} {π : Fin m → Fin m'} {h : House I (Fin m)} {h' : House I (Fin m')}
  {hR' : Fin m' → ℝ} {data : Fin N → Record I (Fin m)} {data' : Fin N → Record I (Fin m')} {hourly dMain dRunUp dRunUpBuild : ℤ}

theorem groundWallOf_pieces {s : PreCalc I (Fin m) N} {s' : PreCalc I (Fin m') N} (P : PiecePre π s s') (j : Fin m) :
    groundWallOf s j = groundWallOf s' (π j) := by
  simp only [groundWallOf, P.ratio, P.phiA0, P.phiA1, P.hR, P.hC]

/-- The state handed over after the ground run-up. -/
theorem start_pieces {s : PreCalc I (Fin m) N} {s' : PreCalc I (Fin m') N} (P : PiecePre π s s') (G : GroundWall → GroundCell) :
    updateByGround s.isGround (initialConditions I (Fin m)) ((makePreCalcGround s).walls.map G)
      = (updateByGround s'.isGround (initialConditions I (Fin m')) ((makePreCalcGround s').walls.map G)).map (condOfPieces π) := by
  rw [updateByGround_walls, updateByGround_walls]
  simp only [Except.map, condOfPieces, groundWallOf_pieces P, P.isGround]
  rfl

theorem put_together (P : Pieces π h h') (D : ∀ n, PieceData π (data n) (data' n)) {r : CalcResult I m N}
    (H : coreCalc h (fun j => hR' (π j)) data hourly dMain dRunUp dRunUpBuild = .ok r) :
    ∃ r', coreCalc h' hR' data' hourly dMain dRunUp dRunUpBuild = .ok r' ∧ r'.nMain = r.nMain ∧ PiecePre π r.ss r'.ss ∧
      ∀ (k : ℕ) (hk : k < r.nMain.toNat) (hk' : k < r'.nMain.toNat), r.log ⟨k, hk⟩ = rowOfPieces π (r'.log ⟨k, hk'⟩) := by
  obtain ⟨gs, c0, up, mn, T⟩ := coreCalc_ok H
  obtain ⟨ivs, hi, hs⟩ := makePreCalc_ok T.pre
  have hi' := npInv_of_det_ne_zero (det_of_pieces P (npInv_ok hi).1)
  have Q := preCalc_pieces P D hi hi' (3600 / (hourly : ℝ))
  rw [← hs] at Q
  set ss' := preCalcOf h' hR' (3600 / (hourly : ℝ)) data' (h'.ax hR')⁻¹ with hss'
  have Hp' : makePreCalc h' hR' (3600 / (hourly : ℝ)) data' = .ok ss' := by
    unfold makePreCalc; rw [hi']; rfl
  have hg := groundRun_fold T.ground
  rw [← T.ground_last, initialGround_walls] at hg
  obtain ⟨G, hG⟩ := ground_fold hg
  have hg0 : r.ground = (makePreCalcGround r.ss).walls.map G := Except.ok.inj (hg.symm.trans (hG _ rfl rfl))
  have hg' := hG (makePreCalcGround ss') Q.thetaO.symm Q.thetaOAve.symm
  rw [← initialGround_walls] at hg'
  have hs0 := T.start
  rw [hg0, start_pieces Q, map_ok_iff] at hs0
  obtain ⟨c0', hc0', rfl⟩ := hs0
  obtain ⟨up', hup, rfl⟩ := run_of_pieces Q T.runUp
  have hm := T.main
  rw [after_pieces] at hm
  obtain ⟨mn', hmn, rfl⟩ := run_of_pieces Q hm
  obtain ⟨r', h1, hss, h3, h4⟩ := coreCalc_of_runs T.days T.hourly_ne (by rw [← T.nMain_eq]; exact T.nMain_nonneg) Hp' hg' hc0' hup hmn
  refine ⟨r', h1, h3.trans T.nMain_eq.symm, by rw [hss]; exact Q, fun k hk hk' => ?_⟩
  have hl : k < (mn'.map (tickOfPieces π)).length := by rw [T.mn_length]; exact hk
  rw [h4 ⟨k, hk'⟩ (by simpa using hl), T.logged ⟨k, hk⟩ hl]
  simp only [List.getElem_map]
  rfl

/-- **C89** for given radiative coefficients. If the calculation completes for a house entered in pieces, it completes for the house with
the pieces of every part put together, with the same results for every room and every part in every step. -/
theorem C89_put_together_partial (P : Pieces π h h') (D : ∀ n, PieceData π (data n) (data' n)) {r : CalcResult I m N}
    (H : coreCalc h (fun j => hR' (π j)) data hourly dMain dRunUp dRunUpBuild = .ok r) :
    ∃ r', coreCalc h' hR' data' hourly dMain dRunUp dRunUpBuild = .ok r' ∧ r'.nMain = r.nMain ∧
      ∀ (k : ℕ) (hk : k < r.nMain.toNat) (hk' : k < r'.nMain.toNat), r.log ⟨k, hk⟩ = rowOfPieces π (r'.log ⟨k, hk'⟩) := by
  obtain ⟨r', h1, h2, -, h3⟩ := put_together P D H
  exact ⟨r', h1, h2, h3⟩

/-- **C89**, heat flows: the flows (W) through the pieces of a part add up to the flow through the part, by convection, by radiation, and of
absorbed solar heat. -/
theorem C89_flows_partial (P : Pieces π h h') (D : ∀ n, PieceData π (data n) (data' n)) {r : CalcResult I m N}
    (H : coreCalc h (fun j => hR' (π j)) data hourly dMain dRunUp dRunUpBuild = .ok r) :
    ∃ r', coreCalc h' hR' data' hourly dMain dRunUp dRunUpBuild = .ok r' ∧ r'.nMain = r.nMain ∧ ∀ j',
      (∀ (k : ℕ) (hk : k < r.nMain.toNat) (hk' : k < r'.nMain.toNat),
        (r'.log ⟨k, hk'⟩).qc r'.ss j' = ∑ j ∈ Finset.univ.filter (fun j => π j = j'), (r.log ⟨k, hk⟩).qc r.ss j ∧
        (r'.log ⟨k, hk'⟩).qr r'.ss j' = ∑ j ∈ Finset.univ.filter (fun j => π j = j'), (r.log ⟨k, hk⟩).qr r.ss j) ∧
      ∀ k, qisol r'.ss k j' = ∑ j ∈ Finset.univ.filter (fun j => π j = j'), qisol r.ss k j := by
  obtain ⟨r', h1, h2, Q, h3⟩ := put_together P D H
  have ha : ∀ j', r'.ss.aSrf j' = ∑ j ∈ Finset.univ.filter (fun j => π j = j'), r.ss.aSrf j := by
    obtain ⟨_, _, _, _, T⟩ := coreCalc_ok H
    obtain ⟨_, _, _, _, T'⟩ := coreCalc_ok h1
    obtain ⟨_, -, hs⟩ := makePreCalc_ok T.pre
    obtain ⟨_, -, hs'⟩ := makePreCalc_ok T'.pre
    rw [hs, hs']
    exact P.area
  refine ⟨r', h1, h2, fun j' => ⟨fun k hk hk' => ⟨?_, ?_⟩, fun k => ?_⟩⟩
  · simp only [LogRow.qc, ha, h3 k hk hk', rowOfPieces, Finset.mul_sum, Finset.sum_mul]
    refine Finset.sum_congr rfl fun j hj => ?_
    rw [Q.pT, Q.hC, (Finset.mem_filter.1 hj).2]
  · simp only [LogRow.qr, ha, h3 k hk hk', rowOfPieces, Finset.mul_sum, Finset.sum_mul]
    refine Finset.sum_congr rfl fun j hj => ?_
    rw [← Matrix.mulVec_mulVec, ← Matrix.mulVec_mulVec, Q.pT,
      show r.ss.fMrt.mulVec (fun j => (r'.log ⟨k, hk'⟩).thetaS (π j)) = r'.ss.fMrt.mulVec (r'.log ⟨k, hk'⟩).thetaS from
        funext fun i => Q.fMrt _ i, Q.hR, (Finset.mem_filter.1 hj).2]
  · simp only [qisol, ha, Finset.mul_sum]
    refine Finset.sum_congr rfl fun j hj => ?_
    rw [Q.qSol, (Finset.mem_filter.1 hj).2]

/-- **C89** for given radiative coefficients, the other way: cutting parts in pieces does not change a result either. -/
theorem C89_cut_partial (P : Pieces π h h') (D : ∀ n, PieceData π (data n) (data' n)) (hp : ∀ j, 0 ≤ h'.phiA0 j)
    (hh : ∀ j, 0 ≤ h'.hC j + hR' j) {r' : CalcResult I m' N}
    (H : coreCalc h' hR' data' hourly dMain dRunUp dRunUpBuild = .ok r') :
    ∃ r, coreCalc h (fun j => hR' (π j)) data hourly dMain dRunUp dRunUpBuild = .ok r ∧ r.nMain = r'.nMain ∧
      ∀ (k : ℕ) (hk : k < r.nMain.toNat) (hk' : k < r'.nMain.toNat), r.log ⟨k, hk⟩ = rowOfPieces π (r'.log ⟨k, hk'⟩) := by
  obtain ⟨gs, c0, up, mn, T⟩ := coreCalc_ok H
  obtain ⟨ivs', hi', hs⟩ := makePreCalc_ok T.pre
  have hD : ∀ j, 1 + h'.phiA0 j * (h'.hC j + hR' j) ≠ 0 := fun j => by have := mul_nonneg (hp j) (hh j); linarith
  have hi := npInv_of_det_ne_zero (det_of_parts P hD (npInv_ok hi').1)
  have Q := preCalc_pieces P D hi hi' (3600 / (hourly : ℝ))
  rw [← hs] at Q
  set ss := preCalcOf h (fun j => hR' (π j)) (3600 / (hourly : ℝ)) data (h.ax fun j => hR' (π j))⁻¹ with hss
  have Hp : makePreCalc h (fun j => hR' (π j)) (3600 / (hourly : ℝ)) data = .ok ss := by
    unfold makePreCalc; rw [hi]; rfl
  have hg := groundRun_fold T.ground
  rw [← T.ground_last, initialGround_walls] at hg
  obtain ⟨G, hG⟩ := ground_fold hg
  have hg0 : r'.ground = (makePreCalcGround r'.ss).walls.map G := Except.ok.inj (hg.symm.trans (hG _ rfl rfl))
  have hg' := hG (makePreCalcGround ss) Q.thetaO Q.thetaOAve
  rw [← initialGround_walls] at hg'
  have hs0 := T.start
  rw [hg0] at hs0
  have hs1 : updateByGround ss.isGround (initialConditions I (Fin m)) ((makePreCalcGround ss).walls.map G) = .ok (condOfPieces π c0) := by
    rw [start_pieces Q, hs0]; rfl
  obtain ⟨r, h1, -, h3, h4⟩ := coreCalc_of_runs T.days T.hourly_ne (by rw [← T.nMain_eq]; exact T.nMain_nonneg) Hp hg' hs1
    (run_of_parts Q T.runUp) (by rw [after_pieces]; exact run_of_parts Q T.main)
  refine ⟨r, h1, h3.trans T.nMain_eq.symm, fun k hk hk' => ?_⟩
  have hl : k < mn.length := by rw [T.mn_length]; exact hk'
  rw [h4 ⟨k, hk⟩ (by simpa using hl), T.logged ⟨k, hk'⟩ hl]
  simp only [List.getElem_map]
  rfl

/-! ## The program -/

theorem radiative_inj {f g : ℝ} (hf : f ≤ 1) (hg : g ≤ 1) (e : radiative f = radiative g) : f = g := by
  rcases lt_trichotomy f g with h | h | h
  · exact absurd e (radiative_strictMono hg h).ne
  · exact h
  · exact absurd e (radiative_strictMono hf h).ne'

/-- **C89 (violated, coefficients).** Whenever a part is entered in more than one piece, the program gives some piece another radiative
coefficient than the part it belongs to: with every solver that finds the room constants, for parts listed room by room. -/
theorem C89_coefficients_violated {k : ℕ} {h : House (Fin k) (Fin m)} {h' : House (Fin k) (Fin m')} (P : Pieces π h h') {solve : List ℝ → ℝ}
    (hs : SolvesRooms solve h.area h.room) (hs' : SolvesRooms solve h'.area h'.room) (hm : Monotone h.room) (hm' : Monotone h'.room)
    {a b : Fin m} (hab : a ≠ b) (hπ : π a = π b) : ∃ j, getHr solve h.area h.room j ≠ getHr solve h'.area h'.room (π j) := by
  by_contra hcon
  push Not at hcon
  have hv := solve_isRoomConst P.area_pos hs a
  have hv' := solve_isRoomConst (area'_pos P) hs' (π a)
  rw [← P.room] at hv'
  generalize solve ((roomIdx h.room (h.room a)).map (share h.area h.room)) = v at hv
  generalize solve ((roomIdx h'.room (h.room a)).map (share h'.area h'.room)) = v' at hv'
  set F : Fin m' → ℝ := fun j => factor v' (share h'.area h'.room j) with hF
  have hF0 : ∀ j, 0 < F j := fun j => by
    simp only [hF]; rw [← getFj_factor hv'.1]; exact getFj_pos hv'.1 (share_pos (area'_pos P) j)
  have heq : ∀ j ∈ surfaces h (h.room a), factor v (share h.area h.room j) = F (π j) := by
    intro j hj
    have hr : h.room j = h.room a := by simpa [surfaces] using hj
    have c1 : IsRoomConst h.area h.room (h.room j) v := by rw [hr]; exact hv
    have c2 : IsRoomConst h'.area h'.room (h'.room (π j)) v' := by rw [← P.room, hr]; exact hv'
    have := hcon j
    rw [C34_own_coefficient_partial solve h.area h.room P.area_pos hs hm j v c1,
      C34_own_coefficient_partial solve h'.area h'.room (area'_pos P) hs' hm' (π j) v' c2] at this
    exact radiative_inj (factor_mem P.area_pos c1).2 (factor_mem (area'_pos P) c2).2 this
  have e1 : ∑ j ∈ surfaces h (h.room a), (1 : ℝ) * F (π j) = 1 := by
    refine Eq.trans (Finset.sum_congr rfl fun j hj => ?_) hv.2
    rw [one_mul, heq j hj]
  rw [sum_pieces P (w := fun _ => 1) (w' := fun j' => ∑ j ∈ Finset.univ.filter (fun j => π j = j'), (1 : ℝ)) (fun _ => rfl) F] at e1
  have e2 : ∑ j ∈ surfaces h' (h.room a), F j = 1 := hv'.2
  have hone : ∀ j', (1 : ℝ) ≤ ∑ j ∈ Finset.univ.filter (fun j => π j = j'), (1 : ℝ) := by
    intro j'
    obtain ⟨j, rfl⟩ := P.onto j'
    exact Finset.single_le_sum (f := fun _ => (1 : ℝ)) (fun _ _ => zero_le_one) (by simp : j ∈ Finset.univ.filter (fun l => π l = π j))
  have htwo : (2 : ℝ) ≤ ∑ j ∈ Finset.univ.filter (fun j => π j = π a), (1 : ℝ) := by
    have : ({a, b} : Finset (Fin m)) ⊆ Finset.univ.filter (fun j => π j = π a) := by
      intro x hx
      rcases Finset.mem_insert.1 hx with rfl | hx
      · simp
      · rw [Finset.mem_singleton.1 hx]; simp [hπ]
    have h2 := Finset.sum_le_sum_of_subset_of_nonneg this (f := fun _ => (1 : ℝ)) (fun _ _ _ => zero_le_one)
    rw [Finset.sum_pair hab] at h2
    linarith
  have hlt : ∑ j ∈ surfaces h' (h.room a), F j
      < ∑ j' ∈ surfaces h' (h.room a), (∑ j ∈ Finset.univ.filter (fun j => π j = j'), (1 : ℝ)) * F j' := by
    apply Finset.sum_lt_sum
    · intro j _
      have := mul_le_mul_of_nonneg_right (hone j) (hF0 j).le
      linarith
    · refine ⟨π a, by simp [surfaces, P.room], ?_⟩
      have := mul_le_mul_of_nonneg_right htwo (hF0 (π a)).le
      linarith [hF0 (π a)]
  rw [e1, e2] at hlt
  exact lt_irrefl _ hlt

/-- A room of thin sheets. -/
noncomputable def sheetRoom {m : ℕ} (area seen : Fin m → ℝ) : House (Fin 1) (Fin m) where
  vRoom := fun _ => 30
  beta := fun _ => 0
  vVentEx := fun _ => 0.01
  vInt := 0
  vNtrl := fun _ => 0.04
  cSh := fun _ => 1000
  gSh := fun _ => 10
  cLh := fun _ => 1000
  gLh := fun _ => 1
  isRadHeating := fun _ => false
  capH := fun _ => 0
  isRadCooling := fun _ => false
  capC := fun _ => 0
  rac := fun _ => ⟨500, 5000, 6, 11⟩
  isGround := fun _ => false
  room := fun _ => 0
  area := area
  phiA0 := fun _ => 0
  phiT0 := fun _ => 1
  phiA1 := fun _ _ => 0
  phiT1 := fun _ _ => 0
  ratio := fun _ _ => 0
  hC := fun _ => 2.5
  flr := fun _ => 0
  solarAbs := fun _ => true
  fMrtHum := seen
  kEo := fun _ => 1
  kEi := fun _ => none
  story := 1
  cValue := 2
  pressure := "balanced"

/-- A day at 15 degC with given outside temperatures of the sheets. -/
noncomputable def sheetData {m : ℕ} (out : Fin m → ℝ) : Fin 96 → Record (Fin 1) (Fin m) := fun _ =>
  { thetaO := 15, xO := 0.004, vLocal := fun _ => 0, qGen := fun _ => 0, xGen := fun _ => 0, nHum := fun _ => 0
    acDemand := fun _ => 0, qTrsSol := fun _ => 0, thetaOSol := out }

theorem sheetRoom_wellFormed {m : ℕ} {area seen hR : Fin m → ℝ} (ha : ∀ j, 0 < area j) (hs : ∀ j, 0 ≤ seen j) (hsum : ∑ j, seen j = 1)
    (hr : ∀ j, 0 < hR j) : WellFormed (sheetRoom area seen) hR 900 where
  dt_pos := by norm_num
  vRoom_pos := by intro i; norm_num [sheetRoom]
  cSh_nonneg := by intro i; norm_num [sheetRoom]
  gSh_nonneg := by intro i; norm_num [sheetRoom]
  cLh_nonneg := by intro i; norm_num [sheetRoom]
  gLh_nonneg := by intro i; norm_num [sheetRoom]
  frtSh_pos := by intro i; norm_num [sheetRoom]
  frtLh_pos := by intro i; norm_num [sheetRoom]
  area_pos := ha
  hC_pos := by intro j; norm_num [sheetRoom]
  hR_pos := hr
  phiA0_nonneg := by intro j; norm_num [sheetRoom]
  phiT0_mem := by intro j; norm_num [sheetRoom]
  kEi_mem := by intro j m coef e; cases e
  fMrtHum_nonneg := hs
  fMrtHum_sum := by
    intro i
    have : surfaces (sheetRoom area seen) i = Finset.univ := by
      simp [surfaces, sheetRoom, Fin.fin_one_eq_zero i]
    rw [this]
    exact hsum.le
  vInt_nonneg := by intro i l; simp [sheetRoom]
  vInt_lt := by intro i; norm_num [sheetRoom]
  vVentEx_nonneg := by intro i; norm_num [sheetRoom]
  vNtrl_nonneg := by intro i; norm_num [sheetRoom]
  capH_nonneg := by intro i; norm_num [sheetRoom]
  capC_nonneg := by intro i; norm_num [sheetRoom]
  story_mem := Or.inl rfl
  pressure_mem := Or.inl rfl
  rac_q := by intro i; norm_num [sheetRoom]
  rac_v := by intro i; norm_num [sheetRoom]
  rac_fan := by intro i; norm_num [sheetRoom]

/-- Surface heat fluxes of the first step in a room of sheets. -/
theorem sheetRoom_flux {m : ℕ} {area seen out hR : Fin m → ℝ} (hr : ∀ j, 0 < hR j) {r : CalcResult (Fin 1) m 96}
    (H : coreCalc (sheetRoom area seen) hR (sheetData out) 4 1 0 0 = .ok r) :
    ∃ θ : ℝ, ∀ (hk : 0 < r.nMain.toNat) (j : Fin m), (r.log ⟨0, hk⟩).qiall j
      = 2.5 * (θ - out j) + hR j * ((∑ l, area l * hR l * out l) / (∑ l, area l * hR l) - out j) := by
  obtain ⟨c, t, Hp, Ht, hlog, c1, c2, c3, c4, c5, c6, c7, c8, c9⟩ := first_step H (fun _ => rfl)
  have hk : pyIndex 96 0 = .ok (0 : Fin 96) := rfl
  have hq : ∀ j, (sheetRoom area seen).qSol (sheetData out 0) j = 0 := by intro j; simp [House.qSol, sheetData]
  have hne : ∀ j, (sheetRoom area seen).hC j + hR j ≠ 0 := fun j => by
    have : 0 < (sheetRoom area seen).hC j := by norm_num [sheetRoom]
    linarith [hr j]
  have hd : ∀ j m, t.dshT j m = 0 ∧ t.dshA j m = 0 := by
    obtain ⟨ivs, k, -, hs, -, e⟩ := step_eqs Hp Ht
    intro j m
    rw [e.dshT, e.dshA, hs]
    simp [Tick.dshT, Tick.dshA, preCalcOf, sheetRoom]
  have hS : ∀ j, t.thetaS j = out j := by
    intro j
    rw [C17_wall_equation_partial Hp Ht hk j (hne j) (by intro m coef e; cases e)]
    simp [hd, sheetRoom, rearTemp, sheetData]
  refine ⟨t.thetaR 0, fun hk0 j => ?_⟩
  rw [hlog hk0]
  show t.qSrf j = _
  rw [C16_surface_flux Hp Ht hk j (hne j), hq]
  have hsurf : surfaces (sheetRoom area seen) 0 = Finset.univ := by simp [surfaces, sheetRoom]
  have hmrt : roomMrt (sheetRoom area seen) hR 0 t.thetaS = (∑ l, area l * hR l * out l) / (∑ l, area l * hR l) := by
    simp only [roomMrt, hsurf, hS]
    rfl
  rw [show (sheetRoom area seen).room j = 0 from rfl, hmrt, hS]
  simp [sheetRoom]

/-- Two sheets of 20 m2. -/
noncomputable def exWhole : House (Fin 1) (Fin 2) := sheetRoom (fun _ => 20) (fun _ => 0.5)

/-- The first sheet in two pieces. -/
noncomputable def exCut : House (Fin 1) (Fin 3) := sheetRoom ![10, 10, 20] ![0.25, 0.25, 0.5]

/-- Which sheet a piece belongs to. -/
def exOwner : Fin 3 → Fin 2 := ![0, 0, 1]

theorem exCut_pieces : Pieces exOwner exCut exWhole where
  onto := by decide
  vRoom := rfl
  beta := rfl
  vVentEx := rfl
  vInt := rfl
  vNtrl := rfl
  cSh := rfl
  gSh := rfl
  cLh := rfl
  gLh := rfl
  isRadHeating := rfl
  capH := rfl
  isRadCooling := rfl
  capC := rfl
  rac := rfl
  story := rfl
  cValue := rfl
  pressure := rfl
  isGround := fun _ => rfl
  room := fun _ => rfl
  phiA0 := fun _ => rfl
  phiT0 := fun _ => rfl
  phiA1 := fun _ => rfl
  phiT1 := fun _ => rfl
  ratio := fun _ => rfl
  hC := fun _ => rfl
  solarAbs := fun _ => rfl
  kEo := fun _ => rfl
  kEi := fun _ => rfl
  area_pos := by intro j; fin_cases j <;> simp [exCut, sheetRoom]
  area := by
    intro j
    rw [Finset.sum_filter, Fin.sum_univ_three]
    fin_cases j <;> (simp [exCut, exWhole, sheetRoom, exOwner]; try norm_num)
  fMrtHum := by
    intro j
    rw [Finset.sum_filter, Fin.sum_univ_three]
    fin_cases j <;> (simp [exCut, exWhole, sheetRoom, exOwner]; try norm_num)
  flr := by intro j; simp [exCut, exWhole, sheetRoom]
  behind := by intro j m coef e; cases e

/-- The sun shines on the first sheet. -/
noncomputable def exWholeData : Fin 96 → Record (Fin 1) (Fin 2) := sheetData ![25, 15]

/-- The same data for the pieces. -/
noncomputable def exCutData : Fin 96 → Record (Fin 1) (Fin 3) := sheetData ![25, 25, 15]

theorem exCut_data (n : Fin 96) : PieceData exOwner (exCutData n) (exWholeData n) where
  thetaO := rfl
  xO := rfl
  vLocal := rfl
  qGen := rfl
  xGen := rfl
  nHum := rfl
  acDemand := rfl
  qTrsSol := rfl
  thetaOSol := by intro j; fin_cases j <;> simp [exCutData, exWholeData, sheetData, exOwner]

/-- The hypotheses of `C89_put_together_partial`, `C89_flows_partial` and `C89_cut_partial` are met by a room with a sheet in two pieces. -/
example : (∃ r, coreCalc exCut (fun j => (fun _ => 5 : Fin 2 → ℝ) (exOwner j)) exCutData 4 1 0 0 = .ok r) ∧
    (∃ r, coreCalc exWhole (fun _ => 5) exWholeData 4 1 0 0 = .ok r) ∧ (∀ j, 0 ≤ exWhole.phiA0 j) ∧ ∀ j, 0 ≤ exWhole.hC j + 5 := by
  refine ⟨?_, ?_, fun j => by norm_num [exWhole, sheetRoom], fun j => by norm_num [exWhole, sheetRoom]⟩
  · exact C21_program_partial
      (by
        rw [show (3600 / ((4 : ℤ) : ℝ)) = 900 by norm_num]
        exact sheetRoom_wellFormed exCut_pieces.area_pos (by intro j; fin_cases j <;> norm_num)
          (by rw [Fin.sum_univ_three]; simp; norm_num) (fun _ => by norm_num))
      (fun _ => rfl) (fun _ => rfl) (fun _ _ => by simp [exCutData, sheetData]) (by norm_num) (by norm_num) (by norm_num) (by norm_num)
      (by norm_num) (by norm_num)
  · exact C21_program_partial
      (by
        rw [show (3600 / ((4 : ℤ) : ℝ)) = 900 by norm_num]
        exact sheetRoom_wellFormed (fun _ => by norm_num) (fun _ => by norm_num) (by rw [Fin.sum_univ_two]; norm_num) (fun _ => by norm_num))
      (fun _ => rfl) (fun _ => rfl) (fun _ _ => by simp [exWholeData, sheetData]) (by norm_num) (by norm_num) (by norm_num) (by norm_num)
      (by norm_num) (by norm_num)

/-- The scale of the radiative coefficients. -/
theorem radiative_mul : ∃ C : ℝ, 0 < C ∧ ∀ f ≤ 1, radiative f * (1 - 0.9 * f) = C := by
  refine ⟨0.9 * 4 * (5.67 * (10 : ℝ) ^ (-8 : ℤ)) * 293.15 ^ 3, by positivity, fun f hf => ?_⟩
  have : (1 - 0.9 * f : ℝ) ≠ 0 := by
    have : (0 : ℝ) < 1 - 0.9 * f := by linarith
    exact this.ne'
  unfold radiative
  rw [div_mul_eq_mul_div, div_mul_eq_mul_div, div_mul_eq_mul_div, div_mul_cancel₀ _ this]

theorem exShares_whole (j : Fin 2) : share exWhole.area exWhole.room j = 1 / 2 := by
  have : roomArea exWhole.area exWhole.room 0 = 40 := by
    simp only [roomArea, Finset.sum_filter, Fin.sum_univ_two]; simp [exWhole, sheetRoom]; norm_num
  show exWhole.area j / roomArea exWhole.area exWhole.room 0 = _
  rw [this]; simp only [exWhole, sheetRoom]; norm_num

theorem exShares_cut : share exCut.area exCut.room 0 = 1 / 4 ∧ share exCut.area exCut.room 1 = 1 / 4 ∧ share exCut.area exCut.room 2 = 1 / 2 := by
  have : roomArea exCut.area exCut.room 0 = 40 := by
    simp only [roomArea, Finset.sum_filter, Fin.sum_univ_three]; simp [exCut, sheetRoom]; norm_num
  refine ⟨?_, ?_, ?_⟩
  · show exCut.area 0 / roomArea exCut.area exCut.room 0 = _
    rw [this]; simp [exCut, sheetRoom]; norm_num
  · show exCut.area 1 / roomArea exCut.area exCut.room 0 = _
    rw [this]; simp [exCut, sheetRoom]; norm_num
  · show exCut.area 2 / roomArea exCut.area exCut.room 0 = _
    rw [this]; simp [exCut, sheetRoom]; norm_num

/-- **C89 (violated).** A room of two sheets of 20 m2, one of them entered as two pieces of 10 m2: with every solver that finds the room
constants both calculations complete, and the heat flux at some piece differs from that at its sheet in the first step. -/
theorem C89_violated : ∃ (h : House (Fin 1) (Fin 3)) (h' : House (Fin 1) (Fin 2)) (π : Fin 3 → Fin 2)
    (data : Fin 96 → Record (Fin 1) (Fin 3)) (data' : Fin 96 → Record (Fin 1) (Fin 2)),
    Pieces π h h' ∧ (∀ n, PieceData π (data n) (data' n)) ∧
    (∃ solve : List ℝ → ℝ, ∀ rs : List ℝ, (∀ r ∈ rs, 0 < r) → rs.sum = 1 → shapeEq rs (solve rs) = 0) ∧
    ∀ solve : List ℝ → ℝ, (∀ rs : List ℝ, (∀ r ∈ rs, 0 < r) → rs.sum = 1 → shapeEq rs (solve rs) = 0) →
    ∃ r r', program solve h data 4 1 0 0 = .ok r ∧ program solve h' data' 4 1 0 0 = .ok r' ∧ r.nMain = 96 ∧ r'.nMain = 96 ∧
      ∀ (hk : 0 < r.nMain.toNat) (hk' : 0 < r'.nMain.toNat), ∃ j, (r.log ⟨0, hk⟩).qiall j ≠ (r'.log ⟨0, hk'⟩).qiall (π j) := by
  refine ⟨exCut, exWhole, exOwner, exCutData, exWholeData, exCut_pieces, exCut_data, exists_solver, fun solve hsol => ?_⟩
  have ap := exCut_pieces.area_pos
  have ap' := area'_pos exCut_pieces
  have hs := solvesRooms_of hsol exCut.room ap
  have hs' := solvesRooms_of hsol exWhole.room ap'
  have hm : Monotone exCut.room := fun _ _ _ => le_rfl
  have hm' : Monotone exWhole.room := fun _ _ _ => le_rfl
  have p1 : ∀ j, 0 < getHr solve exCut.area exCut.room j := fun j => by
    have := C33_coefficients solve exCut.area exCut.room ap hs j; linarith [this.1, this.2.1]
  have p2 : ∀ j, 0 < getHr solve exWhole.area exWhole.room j := fun j => by
    have := C33_coefficients solve exWhole.area exWhole.room ap' hs' j; linarith [this.1, this.2.1]
  obtain ⟨r, hr⟩ := C21_program_partial (h := exCut) (hR := getHr solve exCut.area exCut.room) (data := exCutData) (hourly := 4) (dMain := 1)
    (dRunUp := 0) (dRunUpBuild := 0)
    (by
      rw [show (3600 / ((4 : ℤ) : ℝ)) = 900 by norm_num]
      exact sheetRoom_wellFormed ap (by intro j; fin_cases j <;> norm_num) (by rw [Fin.sum_univ_three]; simp; norm_num) p1)
    (fun _ => rfl) (fun _ => rfl) (fun _ _ => by simp [exCutData, sheetData]) (by norm_num) (by norm_num) (by norm_num) (by norm_num)
    (by norm_num) (by norm_num)
  obtain ⟨r', hr'⟩ := C21_program_partial (h := exWhole) (hR := getHr solve exWhole.area exWhole.room) (data := exWholeData) (hourly := 4)
    (dMain := 1) (dRunUp := 0) (dRunUpBuild := 0)
    (by
      rw [show (3600 / ((4 : ℤ) : ℝ)) = 900 by norm_num]
      exact sheetRoom_wellFormed ap' (fun _ => by norm_num) (by rw [Fin.sum_univ_two]; norm_num) p2)
    (fun _ => rfl) (fun _ => rfl) (fun _ _ => by simp [exWholeData, sheetData]) (by norm_num) (by norm_num) (by norm_num) (by norm_num)
    (by norm_num) (by norm_num)
  have n1 : r.nMain = 96 := by obtain ⟨_, _, _, _, T⟩ := coreCalc_ok hr; rw [T.nMain_eq]; norm_num
  have n2 : r'.nMain = 96 := by obtain ⟨_, _, _, _, T⟩ := coreCalc_ok hr'; rw [T.nMain_eq]; norm_num
  refine ⟨r, r', hr, hr', n1, n2, fun hk hk' => ?_⟩
  by_contra hcon
  push Not at hcon
  -- the coefficients
  have cv := solve_isRoomConst ap hs 0
  have cv' := solve_isRoomConst ap' hs' 0
  rw [show exCut.room 0 = 0 from rfl] at cv
  rw [show exWhole.room 0 = 0 from rfl] at cv'
  generalize solve ((roomIdx exCut.room 0).map (share exCut.area exCut.room)) = v at cv
  generalize solve ((roomIdx exWhole.room 0).map (share exWhole.area exWhole.room)) = v' at cv'
  obtain ⟨s0, s1, s2⟩ := exShares_cut
  have a0 := C34_own_coefficient_partial solve exCut.area exCut.room ap hs hm 0 v cv
  have a1 := C34_own_coefficient_partial solve exCut.area exCut.room ap hs hm 1 v cv
  have a2 := C34_own_coefficient_partial solve exCut.area exCut.room ap hs hm 2 v cv
  have b0 := C34_own_coefficient_partial solve exWhole.area exWhole.room ap' hs' hm' 0 v' cv'
  have b1 := C34_own_coefficient_partial solve exWhole.area exWhole.room ap' hs' hm' 1 v' cv'
  have f0 := (factor_mem ap (j := 0) cv)
  have f2 := (factor_mem ap (j := 2) cv)
  have hsum := cv.2
  have hsum' := cv'.2
  rw [show (Finset.univ.filter fun l => exCut.room l = 0) = Finset.univ by simp [exCut, sheetRoom], Fin.sum_univ_three] at hsum
  rw [show (Finset.univ.filter fun l => exWhole.room l = 0) = Finset.univ by simp [exWhole, sheetRoom], Fin.sum_univ_two] at hsum'
  rw [exShares_whole] at b0 b1
  rw [exShares_whole, exShares_whole] at hsum'
  rw [s0] at a0 f0
  rw [s1] at a1
  rw [s2] at a2 f2
  rw [s0, s1, s2] at hsum
  have hf' : factor v' (1 / 2) = 1 / 2 := by linarith
  rw [hf'] at b0 b1
  obtain ⟨C, hC, hrad⟩ := radiative_mul
  -- the fluxes
  obtain ⟨θ, hθ⟩ := sheetRoom_flux p1 hr
  obtain ⟨θ', hθ'⟩ := sheetRoom_flux p2 hr'
  have u0 := hθ hk 0
  have u2 := hθ hk 2
  have w0 := hθ' hk' 0
  have w1 := hθ' hk' 1
  rw [hcon 0] at u0
  rw [hcon 2] at u2
  have e0 := u0.symm.trans w0
  have e2 := u2.symm.trans w1
  rw [Fin.sum_univ_three, Fin.sum_univ_three, Fin.sum_univ_two, Fin.sum_univ_two, a0, a1, a2, b0, b1] at e0
  rw [Fin.sum_univ_three, Fin.sum_univ_three, Fin.sum_univ_two, Fin.sum_univ_two, a0, a1, a2, b0, b1] at e2
  have pa : 0 < radiative (factor v (1 / 4)) := by rw [← a0]; exact p1 0
  have pb : 0 < radiative (factor v (1 / 2)) := by rw [← a2]; exact p1 2
  have ph : 0 < radiative (1 / 2) := by rw [← b0]; exact p2 0
  have ra := hrad _ f0.2
  have rb := hrad _ f2.2
  have rh := hrad (1 / 2) (by norm_num)
  generalize radiative (factor v (1 / 4)) = a at *
  generalize radiative (factor v (1 / 2)) = b at *
  generalize radiative (1 / 2) = q at *
  generalize factor v (1 / 4) = x at *
  generalize factor v (1 / 2) = y at *
  replace e0 : 2.5 * (θ - 25) + a * ((10 * a * 25 + 10 * a * 25 + 20 * b * 15) / (10 * a + 10 * a + 20 * b) - 25)
      = 2.5 * (θ' - 25) + q * ((20 * q * 25 + 20 * q * 15) / (20 * q + 20 * q) - 25) := e0
  replace e2 : 2.5 * (θ - 15) + b * ((10 * a * 25 + 10 * a * 25 + 20 * b * 15) / (10 * a + 10 * a + 20 * b) - 15)
      = 2.5 * (θ' - 15) + q * ((20 * q * 25 + 20 * q * 15) / (20 * q + 20 * q) - 15) := e2
  have hq : (20 * q * 25 + 20 * q * 15) / (20 * q + 20 * q) = 20 := by
    rw [div_eq_iff (by positivity)]; ring
  generalize hM : (10 * a * 25 + 10 * a * 25 + 20 * b * 15) / (10 * a + 10 * a + 20 * b) = M at e0 e2
  rw [div_eq_iff (by positivity)] at hM
  rw [hq] at e0 e2
  have h1 : a * (M - 25) - b * (M - 15) = -10 * q := by linarith
  have h2 : 2 * (a * b) = q * (a + b) := by linear_combination (-(a + b) / 10) * h1 - (a - b) / 200 * hM
  have da : 0 < 1 - 0.9 * x := by linarith [f0.2]
  have db : 0 < 1 - 0.9 * y := by linarith [f2.2]
  have h3 : C * C * (1.1 - ((1 - 0.9 * x) + (1 - 0.9 * y))) = 0 := by
    have k : 1.1 * ((a * (1 - 0.9 * x)) * (b * (1 - 0.9 * y)))
        = (0.55 * q) * ((a * (1 - 0.9 * x)) * (1 - 0.9 * y) + (b * (1 - 0.9 * y)) * (1 - 0.9 * x)) := by
      linear_combination 0.55 * (1 - 0.9 * x) * (1 - 0.9 * y) * h2
    rw [ra, rb, show 0.55 * q = C by linarith] at k
    linear_combination k
  rcases mul_eq_zero.1 h3 with h | h
  · exact absurd h (by positivity)
  · linarith [f0.1]

end HLC
