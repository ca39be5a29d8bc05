import Verif.Props.Alternating
import Verif.Spec.Symmetric

/-!
# C101: rooms and parts entered alike have the same results
-/

namespace HLC

open Spec

section

variable {I J : Type}

theorem rowAlike_of {e : I ≃ I} {f : J ≃ J} {r : LogRow I J} (h : rowInOrder e f r = r) : RowAlike e f r where
  mode := fun i => congrFun (congrArg LogRow.mode h) i
  thetaR := fun i => congrFun (congrArg LogRow.thetaR h) i
  thetaMrt := fun i => congrFun (congrArg LogRow.thetaMrt h) i
  thetaOt := fun i => congrFun (congrArg LogRow.thetaOt h) i
  thetaFrt := fun i => congrFun (congrArg LogRow.thetaFrt h) i
  xR := fun i => congrFun (congrArg LogRow.xR h) i
  xFrt := fun i => congrFun (congrArg LogRow.xFrt h) i
  qHum := fun i => congrFun (congrArg LogRow.qHum h) i
  xHum := fun i => congrFun (congrArg LogRow.xHum h) i
  lCs := fun i => congrFun (congrArg LogRow.lCs h) i
  lRs := fun i => congrFun (congrArg LogRow.lRs h) i
  lCl := fun i => congrFun (congrArg LogRow.lCl h) i
  vLeak := fun i => congrFun (congrArg LogRow.vLeak h) i
  vNtrl := fun i => congrFun (congrArg LogRow.vNtrl h) i
  hHumC := fun i => congrFun (congrArg LogRow.hHumC h) i
  hHumR := fun i => congrFun (congrArg LogRow.hHumR h) i
  thetaS := fun j => congrFun (congrArg LogRow.thetaS h) j
  thetaEi := fun j => congrFun (congrArg LogRow.thetaEi h) j
  thetaRear := fun j => congrFun (congrArg LogRow.thetaRear h) j
  qiall := fun j => congrFun (congrArg LogRow.qiall h) j

end

variable {I : Type} [Fintype I] [DecidableEq I] {m N : ℕ}
variable {h : House I (Fin m)} {hR : Fin m → ℝ} {data : Fin N → Record I (Fin m)} {hourly dMain dRunUp dRunUpBuild : ℤ}
  {r : CalcResult I m N}

/-- **C101 (partial: given radiative coefficients).** If the parts entered alike have the same radiative coefficient, rooms and parts
entered alike have the same results in every row. -/
theorem C101_alike_partial {e : I ≃ I} {f : Fin m ≃ Fin m} (ha : HouseAlike e f h) (hd : DataAlike e f data) (hr : ∀ j, hR (f j) = hR j)
    (H : coreCalc h hR data hourly dMain dRunUp dRunUpBuild = .ok r) (k : Fin r.nMain.toNat) : RowAlike e f (r.log k) := by
  obtain ⟨r', H', hn, hl⟩ := C83_order_partial e f H
  rw [show houseInOrder e f h = h from ha, show (fun j => hR (f j)) = hR from funext hr,
    show (fun n => recordInOrder e f (data n)) = data from funext hd, H] at H'
  obtain rfl := Except.ok.inj H'
  exact rowAlike_of (hl k.1 k.2 k.2).symm

/-- **C101 (partial: parts listed room by room).** In a house whose parts are listed room by room, rooms and parts entered alike have
the same results in every row. -/
theorem C101_program_partial {n : ℕ} {solve : List ℝ → ℝ} {h : House (Fin n) (Fin m)} {data : Fin N → Record (Fin n) (Fin m)}
    {r : CalcResult (Fin n) m N} {e : Fin n ≃ Fin n} {f : Fin m ≃ Fin m} (hpos : ∀ j, 0 < h.area j)
    (hs : ∀ rs : List ℝ, (∀ x ∈ rs, 0 < x) → rs.sum = 1 → shapeEq rs (solve rs) = 0) (hm : Monotone h.room)
    (ha : HouseAlike e f h) (hd : DataAlike e f data)
    (H : program solve h data hourly dMain dRunUp dRunUpBuild = .ok r) (k : Fin r.nMain.toNat) : RowAlike e f (r.log k) := by
  have hs1 : SolvesRooms solve h.area h.room := solvesRooms_of hs h.room hpos
  have ha' : houseInOrder e f h = h := ha
  obtain ⟨r', H', hn, hl⟩ := C83_program_partial e f hpos hs1 (by rw [ha']; exact hs1) hm (by rw [ha']; exact hm) H
  rw [ha', show (fun n => recordInOrder e f (data n)) = data from funext hd, H] at H'
  obtain rfl := Except.ok.inj H'
  exact rowAlike_of (hl k.1 k.2 k.2).symm

/-- **C101** for two parts of one room, stated entry by entry: two parts of the same room with the same entries and series, neither of
them behind another part, have the same temperatures and heat fluxes in every row. -/
theorem C101_parts_partial {n : ℕ} {solve : List ℝ → ℝ} {h : House (Fin n) (Fin m)} {data : Fin N → Record (Fin n) (Fin m)}
    {r : CalcResult (Fin n) m N} {a b : Fin m} (hpos : ∀ j, 0 < h.area j)
    (hs : ∀ rs : List ℝ, (∀ x ∈ rs, 0 < x) → rs.sum = 1 → shapeEq rs (solve rs) = 0) (hm : Monotone h.room)
    (room : h.room a = h.room b) (ground : h.isGround a = h.isGround b) (area : h.area a = h.area b) (a0 : h.phiA0 a = h.phiA0 b)
    (t0 : h.phiT0 a = h.phiT0 b) (a1 : h.phiA1 a = h.phiA1 b) (t1 : h.phiT1 a = h.phiT1 b) (ratio : h.ratio a = h.ratio b)
    (hC : h.hC a = h.hC b) (flr : h.flr a = h.flr b) (sun : h.solarAbs a = h.solarAbs b) (mrt : h.fMrtHum a = h.fMrtHum b)
    (kEo : h.kEo a = h.kEo b) (kEi : h.kEi a = h.kEi b) (behind : ∀ j c q, h.kEi j = some (c, q) → c ≠ a ∧ c ≠ b)
    (series : ∀ t, (data t).thetaOSol a = (data t).thetaOSol b)
    (H : program solve h data hourly dMain dRunUp dRunUpBuild = .ok r) (k : Fin r.nMain.toNat) :
    (r.log k).thetaS a = (r.log k).thetaS b ∧ (r.log k).thetaEi a = (r.log k).thetaEi b ∧
    (r.log k).thetaRear a = (r.log k).thetaRear b ∧ (r.log k).qiall a = (r.log k).qiall b := by
  have key : ∀ {β : Type} (g : Fin m → β), g a = g b → (fun j => g (Equiv.swap a b j)) = g := by
    intro β g hg
    funext j
    rcases eq_or_ne j a with rfl | ha
    · rw [Equiv.swap_apply_left, hg]
    · rcases eq_or_ne j b with rfl | hb
      · rw [Equiv.swap_apply_right, hg]
      · rw [Equiv.swap_apply_of_ne_of_ne ha hb]
  have hA : HouseAlike (Equiv.refl (Fin n)) (Equiv.swap a b) h := by
    have hk : (fun j => (h.kEi (Equiv.swap a b j)).map fun x => ((Equiv.swap a b).symm x.1, x.2)) = h.kEi := by
      funext j
      rw [congrFun (key h.kEi kEi) j]
      cases hj : h.kEi j with
      | none => rfl
      | some x =>
        obtain ⟨p, q⟩ := behind j x.1 x.2 hj
        simp only [Option.map_some, Equiv.symm_swap, Equiv.swap_apply_of_ne_of_ne p q]
    unfold HouseAlike houseInOrder
    rw [hk, key h.isGround ground, key h.area area, key h.phiA0 a0, key h.phiT0 t0, key h.phiA1 a1, key h.phiT1 t1, key h.ratio ratio,
      key h.hC hC, key h.flr flr, key h.solarAbs sun, key h.fMrtHum mrt, key h.kEo kEo]
    have : (fun j => (Equiv.refl (Fin n)).symm (h.room (Equiv.swap a b j))) = h.room := key h.room room
    rw [this]
    rfl
  have hD : DataAlike (Equiv.refl (Fin n)) (Equiv.swap a b) data := by
    intro t
    unfold recordInOrder
    rw [key (data t).thetaOSol (series t)]
    rfl
  have R := C101_program_partial hpos hs hm hA hD H k
  have s := R.thetaS b
  have e := R.thetaEi b
  have re := R.thetaRear b
  have q := R.qiall b
  rw [Equiv.swap_apply_right] at s e re q
  exact ⟨s, e, re, q⟩

/-! ## Rooms entered alike with alternating parts -/

/-- Two rooms entered alike, each with a sheet of 10 m2 and one of 30 m2, listed alternately. -/
noncomputable def exTwins : House (Fin 2) (Fin 4) := { exSheets with area := ![10, 10, 30, 30] }

/-- A day at 15 degC; the sun shines on the small sheets. -/
noncomputable def exTwinsData : Fin 96 → Record (Fin 2) (Fin 4) := fun _ => { exSheetsData 0 with thetaOSol := ![25, 25, 15, 15] }

/-- The first room for the second and its parts for the parts of the second. -/
def exTwin : Fin 4 ≃ Fin 4 := (Equiv.swap 0 1).trans (Equiv.swap 2 3)

theorem exTwins_area_pos (j : Fin 4) : 0 < exTwins.area j := by fin_cases j <;> norm_num [exTwins]

theorem exTwins_alike : HouseAlike (Equiv.swap 0 1) exTwin exTwins := by
  unfold HouseAlike houseInOrder
  have h1 : (fun j => (Equiv.swap (0 : Fin 2) 1).symm (exTwins.room (exTwin j))) = exTwins.room := by
    show (fun j => (Equiv.swap (0 : Fin 2) 1).symm (exRoom (exTwin j))) = exRoom
    decide
  have h2 : (fun j => exTwins.area (exTwin j)) = exTwins.area := by
    have : ∀ j, exTwin j = ![1, 0, 3, 2] j := by decide
    funext j
    rw [this]
    fin_cases j <;> simp [exTwins]
  rw [h1, h2]
  rfl

theorem exTwinsData_alike : DataAlike (Equiv.swap 0 1) exTwin exTwinsData := by
  intro n
  unfold recordInOrder
  have h2 : (fun j => (exTwinsData n).thetaOSol (exTwin j)) = (exTwinsData n).thetaOSol := by
    have : ∀ j, exTwin j = ![1, 0, 3, 2] j := by decide
    funext j
    rw [this]
    fin_cases j <;> simp [exTwinsData]
  rw [h2]
  rfl

theorem exTwins_wellFormed {hR : Fin 4 → ℝ} (hr : ∀ j, 0 < hR j) : WellFormed exTwins hR 900 :=
  { exSheets_wellFormed hr with area_pos := exTwins_area_pos }

/-- Surface heat fluxes of the first step, where the two parts of a room have the same radiative coefficient. -/
theorem twins_flux {hR : Fin 4 → ℝ} (hr : ∀ j, 0 < hR j) (e20 : hR 2 = hR 0) (e31 : hR 3 = hR 1) {r : CalcResult (Fin 2) 4 96}
    (H : coreCalc exTwins hR exTwinsData 4 1 0 0 = .ok r) :
    ∃ θ θ' : ℝ, ∀ hk : 0 < r.nMain.toNat,
      (r.log ⟨0, hk⟩).qiall 0 = 2.5 * (θ - 25) - 7.5 * hR 0 ∧ (r.log ⟨0, hk⟩).qiall 2 = 2.5 * (θ - 15) + 2.5 * hR 0 ∧
      (r.log ⟨0, hk⟩).qiall 1 = 2.5 * (θ' - 25) - 7.5 * hR 1 ∧ (r.log ⟨0, hk⟩).qiall 3 = 2.5 * (θ' - 15) + 2.5 * hR 1 := by
  obtain ⟨c, t, Hp, Ht, hlog, c1, c2, c3, c4, c5, c6, c7, c8, c9⟩ := first_step H (fun _ => rfl)
  have hk : pyIndex 96 0 = .ok (0 : Fin 96) := rfl
  have hq : ∀ j, exTwins.qSol (exTwinsData 0) j = 0 := by intro j; simp [House.qSol, exTwinsData, exSheetsData]
  have hne : ∀ j, exTwins.hC j + hR j ≠ 0 := fun j => by
    have := hr j
    have : 0 < exTwins.hC j := by norm_num [exTwins, exSheets]
    linarith [hr j]
  have hd : ∀ j m, t.dshT j m = 0 ∧ t.dshA j m = 0 := by
    obtain ⟨ivs, k, -, hs, -, e⟩ := step_eqs Hp Ht
    intro j m
    rw [e.dshT, e.dshA, hs]
    simp [Tick.dshT, Tick.dshA, preCalcOf, exTwins, exSheets]
  have hS : ∀ j, t.thetaS j = (![25, 25, 15, 15] : Fin 4 → ℝ) j := by
    intro j
    rw [C17_wall_equation_partial Hp Ht hk j (hne j) (by intro m coef e; cases e)]
    simp [hd, exTwins, exSheets, rearTemp, exTwinsData]
  have hflux : ∀ j, t.qSrf j = 2.5 * (t.thetaR (exRoom j) - t.thetaS j) + hR j * (roomMrt exTwins hR (exRoom j) t.thetaS - t.thetaS j) := by
    intro j
    rw [C16_surface_flux Hp Ht hk j (hne j), hq]
    simp [exTwins, exSheets]
  have h0 := hr 0
  have h1 := hr 1
  have m0 : roomMrt exTwins hR 0 t.thetaS = 17.5 := by
    have : roomMrt exTwins hR 0 t.thetaS = (10 * hR 0 * 25 + 30 * hR 2 * 15) / (10 * hR 0 + 30 * hR 2) := by
      simp only [roomMrt, surfaces, Finset.sum_filter, Fin.sum_univ_four, hS]
      simp [exTwins, exSheets, exRoom]
    rw [this, e20, div_eq_iff (by linarith)]
    ring
  have m1 : roomMrt exTwins hR 1 t.thetaS = 17.5 := by
    have : roomMrt exTwins hR 1 t.thetaS = (10 * hR 1 * 25 + 30 * hR 3 * 15) / (10 * hR 1 + 30 * hR 3) := by
      simp only [roomMrt, surfaces, Finset.sum_filter, Fin.sum_univ_four, hS]
      simp [exTwins, exSheets, exRoom]
    rw [this, e31, div_eq_iff (by linarith)]
    ring
  refine ⟨t.thetaR 0, t.thetaR 1, fun hk0 => ?_⟩
  rw [hlog hk0]
  have e0 : exRoom 0 = 0 := rfl
  have e1 : exRoom 1 = 1 := rfl
  have e2 : exRoom 2 = 0 := rfl
  have e3 : exRoom 3 = 1 := rfl
  refine ⟨?_, ?_, ?_, ?_⟩
  · show t.qSrf 0 = _
    rw [hflux, e0, m0, hS]
    show 2.5 * (t.thetaR 0 - 25) + hR 0 * (17.5 - 25) = _
    ring
  · show t.qSrf 2 = _
    rw [hflux, e2, m0, hS, e20]
    show 2.5 * (t.thetaR 0 - 15) + hR 0 * (17.5 - 15) = _
    ring
  · show t.qSrf 1 = _
    rw [hflux, e1, m1, hS]
    show 2.5 * (t.thetaR 1 - 25) + hR 1 * (17.5 - 25) = _
    ring
  · show t.qSrf 3 = _
    rw [hflux, e3, m1, hS, e31]
    show 2.5 * (t.thetaR 1 - 15) + hR 1 * (17.5 - 15) = _
    ring

/-- The coefficients of the four parts: both parts of a room get the same, and the two rooms get different ones. -/
theorem twins_coefficients {solve : List ℝ → ℝ} (hs : SolvesRooms solve exTwins.area exRoom) :
    getHr solve exTwins.area exRoom 2 = getHr solve exTwins.area exRoom 0 ∧
    getHr solve exTwins.area exRoom 3 = getHr solve exTwins.area exRoom 1 ∧
    getHr solve exTwins.area exRoom 0 < getHr solve exTwins.area exRoom 1 := by
  have hc0 := solve_isRoomConst exTwins_area_pos hs 0
  have hlist : (List.finRange 2).flatMap (roomIdx exRoom) = [0, 2, 1, 3] := by decide
  have i0 : roomIdx exRoom 0 = [0, 2] := by decide
  have i1 : roomIdx exRoom 1 = [1, 3] := by decide
  have r0 : exRoom 0 = 0 := rfl
  have r1 : exRoom 1 = 1 := rfl
  have r2 : exRoom 2 = 0 := rfl
  have r3 : exRoom 3 = 1 := rfl
  have a0 : roomArea exTwins.area exRoom 0 = 40 := by
    simp only [roomArea, Finset.sum_filter, Fin.sum_univ_four]; simp [exTwins, exRoom]; norm_num
  have a1 : roomArea exTwins.area exRoom 1 = 40 := by
    simp only [roomArea, Finset.sum_filter, Fin.sum_univ_four]; simp [exTwins, exRoom]; norm_num
  have s0 : share exTwins.area exRoom 0 = 1 / 4 := by
    show exTwins.area 0 / roomArea exTwins.area exRoom 0 = _
    rw [a0]; simp [exTwins]; norm_num
  have s2 : share exTwins.area exRoom 2 = 3 / 4 := by
    show exTwins.area 2 / roomArea exTwins.area exRoom 0 = _
    rw [a0]; simp [exTwins]; norm_num
  have s1 : share exTwins.area exRoom 1 = 1 / 4 := by
    show exTwins.area 1 / roomArea exTwins.area exRoom 1 = _
    rw [a1]; simp [exTwins]; norm_num
  have s3 : share exTwins.area exRoom 3 = 3 / 4 := by
    show exTwins.area 3 / roomArea exTwins.area exRoom 1 = _
    rw [a1]; simp [exTwins]; norm_num
  rw [r0, i0] at hc0
  simp only [List.map_cons, List.map_nil, s0, s2] at hc0
  set w := solve [1 / 4, 3 / 4] with hw
  have g0 : getHr solve exTwins.area exRoom 0 = radiative (factor w (1 / 4)) := by
    unfold getHr
    rw [getHrList_eq, hlist]
    simp only [List.map_cons, List.map_nil, Fin.isValue, Fin.coe_ofNat_eq_mod]
    show hrOfShape _ = _
    rw [hrOfShape_eq, r0, i0]
    simp only [List.map_cons, List.map_nil, s0, s2]
    rw [getFj_factor hc0.1]
  have g1 : getHr solve exTwins.area exRoom 1 = radiative (factor w (3 / 4)) := by
    unfold getHr
    rw [getHrList_eq, hlist]
    simp only [List.map_cons, List.map_nil, Fin.isValue, Fin.coe_ofNat_eq_mod, Nat.one_mod, List.getD_cons_succ, List.getD_cons_zero]
    rw [hrOfShape_eq, r2, i0]
    simp only [List.map_cons, List.map_nil, s0, s2]
    rw [getFj_factor hc0.1]
  have g2 : getHr solve exTwins.area exRoom 2 = radiative (factor w (1 / 4)) := by
    unfold getHr
    rw [getHrList_eq, hlist]
    simp only [List.map_cons, List.map_nil, Fin.isValue, Fin.coe_ofNat_eq_mod, List.getD_cons_succ, List.getD_cons_zero]
    show hrOfShape _ = _
    rw [hrOfShape_eq, r1, i1]
    simp only [List.map_cons, List.map_nil, s1, s3]
    rw [getFj_factor hc0.1]
  have g3 : getHr solve exTwins.area exRoom 3 = radiative (factor w (3 / 4)) := by
    unfold getHr
    rw [getHrList_eq, hlist]
    simp only [List.map_cons, List.map_nil, Fin.isValue, Fin.coe_ofNat_eq_mod, List.getD_cons_succ, List.getD_cons_zero]
    show hrOfShape _ = _
    rw [hrOfShape_eq, r3, i1]
    simp only [List.map_cons, List.map_nil, s1, s3]
    rw [getFj_factor hc0.1]
  refine ⟨g2.trans g0.symm, g3.trans g1.symm, ?_⟩
  rw [g0, g1]
  have f0 := hc0.2
  simp only [Finset.sum_filter, Fin.sum_univ_four] at f0
  rw [r0, r1, r2, r3] at f0
  simp at f0
  rw [s0, s2] at f0
  have lt : factor w (1 / 4) < factor w (3 / 4) := by
    rw [← getFj_factor hc0.1, ← getFj_factor hc0.1]
    exact getFj_mono hc0.1 (by norm_num)
  have p : 0 < factor w (1 / 4) := by
    have := getFj_mono hc0.1 (r := 0) (s := 1 / 4) (by norm_num)
    rw [getFj_factor hc0.1, getFj_factor hc0.1] at this
    have z : factor w 0 = 0 := by
      rw [← getFj_factor hc0.1]; simp [getFj]
    rwa [z] at this
  exact radiative_strictMono (by linarith) lt

/-- **C101 (violated).** Two rooms entered alike whose parts are listed alternately: with every solver that finds the room constants
the calculation completes, and in the first step a surface of one room has another heat flux than the same surface of the other. -/
theorem C101_violated : ∃ (h : House (Fin 2) (Fin 4)) (data : Fin 96 → Record (Fin 2) (Fin 4)) (e : Fin 2 ≃ Fin 2) (f : Fin 4 ≃ Fin 4),
    HouseAlike e f h ∧ DataAlike e f data ∧ e 0 = 1 ∧
    (∃ solve : List ℝ → ℝ, ∀ rs : List ℝ, (∀ r ∈ rs, 0 < r) → rs.sum = 1 → shapeEq rs (solve rs) = 0) ∧
    ∀ solve : List ℝ → ℝ, (∀ rs : List ℝ, (∀ r ∈ rs, 0 < r) → rs.sum = 1 → shapeEq rs (solve rs) = 0) →
    ∃ r, program solve h data 4 1 0 0 = .ok r ∧ r.nMain = 96 ∧
      ∀ hk : 0 < r.nMain.toNat, ∃ j, (r.log ⟨0, hk⟩).qiall (f j) ≠ (r.log ⟨0, hk⟩).qiall j := by
  refine ⟨exTwins, exTwinsData, Equiv.swap 0 1, exTwin, exTwins_alike, exTwinsData_alike, by decide, exists_solver, fun solve hsol => ?_⟩
  have hs : SolvesRooms solve exTwins.area exRoom := solvesRooms_of hsol exRoom exTwins_area_pos
  have p1 : ∀ j, 0 < getHr solve exTwins.area exRoom j := fun j => by
    have := C33_coefficients solve exTwins.area exRoom exTwins_area_pos hs j; linarith [this.1, this.2.1]
  obtain ⟨r, hr⟩ := C21_program_partial (h := exTwins) (hR := getHr solve exTwins.area exRoom) (data := exTwinsData) (hourly := 4) (dMain := 1)
    (dRunUp := 0) (dRunUpBuild := 0)
    (by rw [show (3600 / ((4 : ℤ) : ℝ)) = 900 by norm_num]; exact exTwins_wellFormed p1) (fun _ => rfl) (fun _ => rfl)
    (fun _ _ => by simp [exTwinsData, exSheetsData]) (by norm_num) (by norm_num) (by norm_num) (by norm_num) (by norm_num) (by norm_num)
  obtain ⟨g2, g3, lt⟩ := twins_coefficients hs
  obtain ⟨θ, θ', hθ⟩ := twins_flux p1 g2 g3 hr
  refine ⟨r, hr, by obtain ⟨_, _, _, _, T⟩ := coreCalc_ok hr; rw [T.nMain_eq]; norm_num, fun hk => ?_⟩
  obtain ⟨q0, q2, q1, q3⟩ := hθ hk
  by_contra hc
  push Not at hc
  have u1 := hc 1
  have u3 := hc 3
  rw [show exTwin 1 = 0 by decide, q0, q1] at u1
  rw [show exTwin 3 = 2 by decide, q2, q3] at u3
  linarith

/-- The hypotheses of `C101_program_partial` are met by the same two rooms with their parts listed room by room. -/
example : ∃ (solve : List ℝ → ℝ) (h : House (Fin 2) (Fin 4)) (data : Fin 96 → Record (Fin 2) (Fin 4)) (r : CalcResult (Fin 2) 4 96)
    (e : Fin 2 ≃ Fin 2) (f : Fin 4 ≃ Fin 4), (∀ j, 0 < h.area j) ∧
    (∀ rs : List ℝ, (∀ x ∈ rs, 0 < x) → rs.sum = 1 → shapeEq rs (solve rs) = 0) ∧ Monotone h.room ∧ HouseAlike e f h ∧ DataAlike e f data ∧
    program solve h data 4 1 0 0 = .ok r ∧ e 0 = 1 := by
  obtain ⟨solve, hsol⟩ := exists_solver
  let h' : House (Fin 2) (Fin 4) := { exTwins with area := ![10, 30, 10, 30], room := ![0, 0, 1, 1] }
  let d' : Fin 96 → Record (Fin 2) (Fin 4) := fun _ => { exSheetsData 0 with thetaOSol := ![25, 15, 25, 15] }
  let f : Fin 4 ≃ Fin 4 := (Equiv.swap 0 2).trans (Equiv.swap 1 3)
  have hf : ∀ j, f j = ![2, 3, 0, 1] j := by decide
  have hpos : ∀ j, 0 < h'.area j := by intro j; fin_cases j <;> norm_num [h']
  have hs : SolvesRooms solve h'.area h'.room := solvesRooms_of hsol h'.room hpos
  have p1 : ∀ j, 0 < getHr solve h'.area h'.room j := fun j => by
    have := C33_coefficients solve h'.area h'.room hpos hs j; linarith [this.1, this.2.1]
  have wf : WellFormed h' (getHr solve h'.area h'.room) 900 :=
    { exTwins_wellFormed p1 with
      area_pos := hpos
      fMrtHum_sum := by
        intro i
        simp only [surfaces, Finset.sum_filter, Fin.sum_univ_four]
        fin_cases i <;> simp [h', exTwins, exSheets] <;> norm_num }
  obtain ⟨r, hr⟩ := C21_program_partial (h := h') (hR := getHr solve h'.area h'.room) (data := d') (hourly := 4) (dMain := 1)
    (dRunUp := 0) (dRunUpBuild := 0)
    (by rw [show (3600 / ((4 : ℤ) : ℝ)) = 900 by norm_num]; exact wf) (fun _ => rfl) (fun _ => rfl)
    (fun _ _ => by simp [d', exSheetsData]) (by norm_num) (by norm_num) (by norm_num) (by norm_num) (by norm_num) (by norm_num)
  refine ⟨solve, h', d', r, Equiv.swap 0 1, f, hpos, hsol, ?_, ?_, ?_, hr, by decide⟩
  · show Monotone (![0, 0, 1, 1] : Fin 4 → Fin 2)
    decide
  · unfold HouseAlike houseInOrder
    have h1 : (fun j => (Equiv.swap (0 : Fin 2) 1).symm (h'.room (f j))) = h'.room := by
      show (fun j => (Equiv.swap (0 : Fin 2) 1).symm ((![0, 0, 1, 1] : Fin 4 → Fin 2) (((Equiv.swap 0 2).trans (Equiv.swap 1 3)) j))) = ![0, 0, 1, 1]
      decide
    have h2 : (fun j => h'.area (f j)) = h'.area := by
      funext j
      rw [hf]
      fin_cases j <;> simp [h']
    rw [h1, h2]
    rfl
  · intro n
    unfold recordInOrder
    have h2 : (fun j => (d' n).thetaOSol (f j)) = (d' n).thetaOSol := by
      funext j
      rw [hf]
      fin_cases j <;> simp [d']
    rw [h2]
    rfl

end HLC
