import Verif.Lemmas.Flat
import Verif.Props.Renumber
import Verif.Props.ColdHouse

/-!
# C99: a separate flat has its own results
-/

set_option linter.unusedSectionVars false

namespace HLC
open Spec

section
variable {I A J B : Type} [Fintype I] [DecidableEq I] [Fintype J] [DecidableEq J] [Fintype A] [DecidableEq A] [Fintype B]
  [DecidableEq B] {N : ℕ} {e : A → I} {f : B → J}

theorem run_flat {ss : PreCalc I J N} (P : PreCut e f ss) (hc : ss.cValue = 0) (hv : ∑ i, ss.vRoom (e i) ≠ 0) {dt : ℝ} {c : Cond I J}
    {ns : List ℤ} {ts : List (TickVars I J)} (H : Run ss dt c ns ts) :
    Run (preFlat e f ss) dt (condFlat e f c) ns (ts.map (tickFlat e f)) := by
  induction H with
  | nil c => exact Run.nil _
  | cons h1 _ ih => exact Run.cons (runTick_flat P hc hv h1) ih

theorem after_flat (c : Cond I J) (ts : List (TickVars I J)) :
    after (condFlat e f c) (ts.map (tickFlat e f)) = condFlat e f (after c ts) := by
  induction ts generalizing c with
  | nil => rfl
  | cons t ts ih => exact ih t.next

end

variable {I A : Type} [Fintype I] [DecidableEq I] [Fintype A] [DecidableEq A] {m b N : ℕ} {h : House I (Fin m)} {hR : Fin m → ℝ}
  {data : Fin N → Record I (Fin m)} {hourly dMain dRunUp dRunUpBuild : ℤ} {r : CalcResult I m N} {e : A → I} {f : Fin b → Fin m}
  {room : Fin b → A} {rear : Fin b → Option (Fin b × ℝ)}

/-- **C99** for given radiative coefficients: in a building without leakage, if the calculation of the building completes, that of a
separate flat alone completes, and gives each of its rooms and parts the results it has in the building, in every step. -/
theorem C99_flat_partial (S : Separate e f room rear h) (hc : h.cValue = 0) (hv : ∑ i, h.vRoom (e i) ≠ 0)
    (H : coreCalc h hR data hourly dMain dRunUp dRunUpBuild = .ok r) :
    ∃ r', coreCalc (houseFlat e f room rear h) (fun j => hR (f j)) (fun n => recordFlat e f (data n)) hourly dMain dRunUp dRunUpBuild
        = .ok r' ∧ r'.nMain = r.nMain ∧
      ∀ (k : ℕ) (hk : k < r.nMain.toNat) (hk' : k < r'.nMain.toNat), r'.log ⟨k, hk'⟩ = rowFlat e f (r.log ⟨k, hk⟩) := by
  obtain ⟨gs, c0, up, mn, T⟩ := coreCalc_ok H
  obtain ⟨Hp', P⟩ := makePreCalc_flat S T.pre
  have hcv : r.ss.cValue = 0 ∧ ∑ i, r.ss.vRoom (e i) ≠ 0 := by
    obtain ⟨ivs, -, hss⟩ := makePreCalc_ok T.pre
    rw [hss]
    exact ⟨hc, hv⟩
  have hg := groundRun_fold T.ground
  rw [← T.ground_last, initialGround_walls] at hg
  obtain ⟨G, hG⟩ := ground_fold hg
  have hg0 : r.ground = (makePreCalcGround r.ss).walls.map G := Except.ok.inj (hg.symm.trans (hG _ rfl rfl))
  have hg' := hG (makePreCalcGround (preFlat e f r.ss)) rfl rfl
  rw [← initialGround_walls] at hg'
  have hs := T.start
  rw [hg0, updateByGround_walls] at hs
  have hs'' : updateByGround (preFlat e f r.ss).isGround (initialConditions A (Fin b))
      ((makePreCalcGround (preFlat e f r.ss)).walls.map G) = .ok (condFlat e f c0) := by
    rw [updateByGround_walls, ← Except.ok.inj hs]; rfl
  obtain ⟨r', h1, -, h3, h4⟩ := coreCalc_of_runs T.days T.hourly_ne (by rw [← T.nMain_eq]; exact T.nMain_nonneg) Hp' hg' hs''
    (run_flat P hcv.1 hcv.2 T.runUp) (by rw [after_flat]; exact run_flat P hcv.1 hcv.2 T.main)
  refine ⟨r', h1, h3.trans T.nMain_eq.symm, ?_⟩
  intro k hk hk'
  have hl : k < mn.length := by rw [T.mn_length]; exact hk
  rw [h4 ⟨k, hk'⟩ (by simpa using hl), T.logged ⟨k, hk⟩ hl]
  simp only [List.getElem_map]
  exact ofTick_flat _

/-! ## The program -/

section
variable {k a : ℕ} {e : Fin a → Fin k} {room : Fin b → Fin a} {h : House (Fin k) (Fin m)} (S : Separate e f room rear h)
include S

theorem sum_room_flat (F : Fin m → ℝ) (i : Fin a) :
    ∑ l ∈ Finset.univ.filter (fun l => room l = i), F (f l) = ∑ l ∈ Finset.univ.filter (fun l => h.room l = e i), F l := by
  rw [Finset.sum_filter, Finset.sum_filter]
  refine Fintype.sum_of_injective f S.parts _ _ (fun j hj => if_neg fun hr => hj (S.all_parts j ⟨i, hr.symm⟩)) fun j => ?_
  simp only [S.room_eq, S.rooms.eq_iff]

theorem share_flat (j : Fin b) : share (fun j => h.area (f j)) room j = share h.area h.room (f j) := by
  unfold share roomArea
  rw [sum_room_flat S h.area, S.room_eq]

theorem isRoomConst_flat {i : Fin a} {v : ℝ} (H : IsRoomConst h.area h.room (e i) v) : IsRoomConst (fun j => h.area (f j)) room i v := by
  refine ⟨H.1, ?_⟩
  simp only [share_flat S]
  rw [sum_room_flat S fun l => factor v (share h.area h.room l)]
  exact H.2

theorem getHr_flat {solve : List ℝ → ℝ} (hpos : ∀ j, 0 < h.area j) (hs : SolvesRooms solve h.area h.room)
    (hs' : SolvesRooms solve (fun j => h.area (f j)) room) (hm : Monotone h.room) (hm' : Monotone room) (j : Fin b) :
    getHr solve (fun j => h.area (f j)) room j = getHr solve h.area h.room (f j) := by
  have hc := solve_isRoomConst hpos hs (f j)
  have hc' := hc
  rw [S.room_eq] at hc'
  rw [C34_own_coefficient_partial solve h.area h.room hpos hs hm (f j) _ hc,
    C34_own_coefficient_partial solve (fun j => h.area (f j)) room (fun j => hpos (f j)) hs' hm' j _ (isRoomConst_flat S hc'),
    share_flat S, S.room_eq]

/-- **C99** (partial: no leakage, and parts listed room by room in the building and in the flat). If the program completes for a building,
it completes for a separate flat alone, and gives each of its rooms and parts the results it has in the building, in every step. -/
theorem C99_program_partial {solve : List ℝ → ℝ} {data : Fin N → Record (Fin k) (Fin m)} {r : CalcResult (Fin k) m N}
    (hc : h.cValue = 0) (hv : ∑ i, h.vRoom (e i) ≠ 0) (hpos : ∀ j, 0 < h.area j) (hs : SolvesRooms solve h.area h.room)
    (hs' : SolvesRooms solve (fun j => h.area (f j)) room) (hm : Monotone h.room) (hm' : Monotone room)
    (H : program solve h data hourly dMain dRunUp dRunUpBuild = .ok r) :
    ∃ r', program solve (houseFlat e f room rear h) (fun n => recordFlat e f (data n)) hourly dMain dRunUp dRunUpBuild = .ok r' ∧
      r'.nMain = r.nMain ∧
      ∀ (k : ℕ) (hk : k < r.nMain.toNat) (hk' : k < r'.nMain.toNat), r'.log ⟨k, hk'⟩ = rowFlat e f (r.log ⟨k, hk⟩) := by
  unfold program at H ⊢
  have hr : getHr solve (houseFlat e f room rear h).area (houseFlat e f room rear h).room = fun j => getHr solve h.area h.room (f j) :=
    funext fun j => getHr_flat S hpos hs hs' hm hm' j
  rw [hr]
  exact C99_flat_partial S hc hv H

end

/-- So nothing that is said about the neighbours matters: two buildings that agree on a separate flat give it the same results. -/
theorem C99_neighbours_partial {I₁ I₂ : Type} [Fintype I₁] [DecidableEq I₁] [Fintype I₂] [DecidableEq I₂] {m₁ m₂ : ℕ}
    {h₁ : House I₁ (Fin m₁)} {h₂ : House I₂ (Fin m₂)} {hR₁ : Fin m₁ → ℝ} {hR₂ : Fin m₂ → ℝ} {d₁ : Fin N → Record I₁ (Fin m₁)}
    {d₂ : Fin N → Record I₂ (Fin m₂)} {r₁ : CalcResult I₁ m₁ N} {r₂ : CalcResult I₂ m₂ N} {e₁ : A → I₁} {e₂ : A → I₂}
    {f₁ : Fin b → Fin m₁} {f₂ : Fin b → Fin m₂}
    (S₁ : Separate e₁ f₁ room rear h₁) (S₂ : Separate e₂ f₂ room rear h₂)
    (hh : houseFlat e₁ f₁ room rear h₁ = houseFlat e₂ f₂ room rear h₂) (hr : ∀ j, hR₁ (f₁ j) = hR₂ (f₂ j))
    (hd : ∀ n, recordFlat e₁ f₁ (d₁ n) = recordFlat e₂ f₂ (d₂ n)) (hc : h₁.cValue = 0) (hv : ∑ i, h₁.vRoom (e₁ i) ≠ 0)
    (H₁ : coreCalc h₁ hR₁ d₁ hourly dMain dRunUp dRunUpBuild = .ok r₁) (H₂ : coreCalc h₂ hR₂ d₂ hourly dMain dRunUp dRunUpBuild = .ok r₂) :
    ∀ (k : ℕ) (hk : k < r₁.nMain.toNat) (hk' : k < r₂.nMain.toNat), rowFlat e₁ f₁ (r₁.log ⟨k, hk⟩) = rowFlat e₂ f₂ (r₂.log ⟨k, hk'⟩) := by
  have hc2 : h₂.cValue = 0 := (congrArg House.cValue hh).symm.trans hc
  have hv2 : ∑ i, h₂.vRoom (e₂ i) ≠ 0 := by
    have := congrArg (fun x => ∑ i, House.vRoom x i) hh
    exact fun h0 => hv (this.trans h0)
  obtain ⟨r, a1, a2, a3⟩ := C99_flat_partial S₁ hc hv H₁
  obtain ⟨r', b1, b2, b3⟩ := C99_flat_partial S₂ hc2 hv2 H₂
  have e1 : (fun j => hR₁ (f₁ j)) = fun j => hR₂ (f₂ j) := funext hr
  have e2 : (fun n => recordFlat e₁ f₁ (d₁ n)) = fun n => recordFlat e₂ f₂ (d₂ n) := funext hd
  rw [hh, e1, e2, b1] at a1
  obtain rfl := Except.ok.inj a1
  intro k hk hk'
  have hk1 : k < r'.nMain.toNat := by rw [a2]; exact hk
  rw [← a3 k hk hk1, ← b3 k hk' hk1]

/-! ## A concrete case: two flats of one room each, air going from the first to the second -/

/-- Two rooms with one external part each; `c` is the leakage, `w` the air going from room 0 to room 1. -/
noncomputable def exDuo (c w : ℝ) : House (Fin 2) (Fin 2) where
  vRoom := fun _ => 30
  beta := fun _ => 0
  vVentEx := fun _ => 0.01
  vInt := ![![0, 0], ![w, 0]]
  vNtrl := fun _ => 0.04
  cSh := fun _ => 1000
  gSh := fun _ => 0
  cLh := fun _ => 1000
  gLh := fun _ => 0
  isRadHeating := fun _ => false
  capH := fun _ => 0
  isRadCooling := fun _ => false
  capC := fun _ => 0
  rac := fun _ => ⟨500, 5000, 6, 11⟩
  isGround := fun _ => false
  room := id
  area := fun _ => 10
  phiA0 := fun _ => 0
  phiT0 := fun _ => 1
  phiA1 := fun _ _ => 0
  phiT1 := fun _ _ => 0
  ratio := fun _ _ => 0
  hC := fun _ => 2.5
  flr := fun _ => 0
  solarAbs := fun _ => true
  fMrtHum := fun _ => 1
  kEo := fun _ => 1
  kEi := fun _ => none
  story := 1
  cValue := c
  pressure := "balanced"

/-- 15 degC outside; `q` W in room 1. -/
noncomputable def exDuoData (q : ℝ) : Fin 96 → Record (Fin 2) (Fin 2) := fun _ =>
  { thetaO := 15, xO := 0.004, vLocal := fun _ => 0, qGen := ![0, q], xGen := fun _ => 0, nHum := fun _ => 0
    acDemand := fun _ => 0, qTrsSol := fun _ => 0, thetaOSol := fun _ => 15 }

theorem exDuo_surfaces (c w : ℝ) (i : Fin 2) : surfaces (exDuo c w) i = {i} := by
  ext j
  simp only [surfaces, Finset.mem_filter, Finset.mem_univ, true_and, Finset.mem_singleton]
  exact Iff.rfl

theorem exDuo_wellFormed {c w : ℝ} (hw : 0 ≤ w) (hw' : w ≤ 0.01) {hR : Fin 2 → ℝ} (hr : ∀ j, 0 < hR j) : WellFormed (exDuo c w) hR 900 where
  dt_pos := by norm_num
  vRoom_pos := by intro i; norm_num [exDuo]
  cSh_nonneg := by intro i; norm_num [exDuo]
  gSh_nonneg := by intro i; norm_num [exDuo]
  cLh_nonneg := by intro i; norm_num [exDuo]
  gLh_nonneg := by intro i; norm_num [exDuo]
  frtSh_pos := by intro i; norm_num [exDuo]
  frtLh_pos := by intro i; norm_num [exDuo]
  area_pos := by intro j; norm_num [exDuo]
  hC_pos := by intro j; norm_num [exDuo]
  hR_pos := hr
  phiA0_nonneg := by intro j; norm_num [exDuo]
  phiT0_mem := by intro j; norm_num [exDuo]
  kEi_mem := by intro j m coef; simp [exDuo]
  fMrtHum_nonneg := by intro j; norm_num [exDuo]
  fMrtHum_sum := by intro i; rw [exDuo_surfaces]; simp [exDuo]
  vInt_nonneg := by intro i l; fin_cases i <;> fin_cases l <;> simp [exDuo, hw]
  vInt_lt := by
    intro i
    fin_cases i
    · simp [exDuo]
    · simp [exDuo]; norm_num at hw'; linarith
  vVentEx_nonneg := by intro i; norm_num [exDuo]
  vNtrl_nonneg := by intro i; norm_num [exDuo]
  capH_nonneg := by intro i; norm_num [exDuo]
  capC_nonneg := by intro i; norm_num [exDuo]
  story_mem := Or.inl rfl
  pressure_mem := Or.inl rfl
  rac_q := by intro i; norm_num [exDuo]
  rac_v := by intro i; norm_num [exDuo]
  rac_fan := by intro i; norm_num [exDuo]

theorem exDuo_completes {c w : ℝ} (hw : 0 ≤ w) (hw' : w ≤ 0.01) (q : ℝ) {hR : Fin 2 → ℝ} (hr : ∀ j, 0 < hR j) :
    ∃ r, coreCalc (exDuo c w) hR (exDuoData q) 4 1 0 0 = .ok r := by
  apply C21_program_partial
  · have := exDuo_wellFormed (c := c) hw hw' hr
    norm_num at this ⊢
    exact this
  · exact fun _ => rfl
  · exact fun _ => rfl
  · intro k i; norm_num [exDuoData]
  all_goals norm_num

/-- The flat of room 0. -/
theorem exDuo_separate (c w : ℝ) : Separate (fun _ : Fin 1 => (0 : Fin 2)) (fun _ : Fin 1 => (0 : Fin 2)) (fun _ => 0) (fun _ => none) (exDuo c w) where
  rooms := Function.injective_of_subsingleton _
  parts := Function.injective_of_subsingleton _
  room_eq := fun _ => rfl
  all_parts := by
    rintro j ⟨i, hi⟩
    exact ⟨0, hi⟩
  rear_eq := fun _ => rfl
  no_air := by
    intro i l hl
    fin_cases l
    · exact absurd ⟨0, rfl⟩ hl
    · rfl

example : ∃ r r', coreCalc (exDuo 0 0.001) (fun _ => 5) (exDuoData 1000) 4 1 0 0 = .ok r ∧
    coreCalc (houseFlat (fun _ : Fin 1 => (0 : Fin 2)) (fun _ : Fin 1 => 0) (fun _ => 0) (fun _ => none) (exDuo 0 0.001)) (fun _ => 5)
      (fun n => recordFlat (fun _ => 0) (fun _ => 0) (exDuoData 1000 n)) 4 1 0 0 = .ok r' ∧ r'.nMain = r.nMain := by
  obtain ⟨r, hr⟩ := exDuo_completes (c := 0) (w := 0.001) (by norm_num) (by norm_num) 1000 (hR := fun _ => 5) (fun _ => by norm_num)
  obtain ⟨r', h1, h2, -⟩ := C99_flat_partial (exDuo_separate 0 0.001) rfl (by simp [exDuo]) hr
  exact ⟨r, r', hr, h1, h2⟩

/-- Also for the program with any solver that finds the room constants. -/
example (solve : List ℝ → ℝ) (hs : SolvesRooms solve (exDuo 0 0.001).area (exDuo 0 0.001).room)
    (hs' : SolvesRooms solve (fun j : Fin 1 => (exDuo 0 0.001).area ((fun _ => 0) j)) (fun _ => (0 : Fin 1)))
    {r : CalcResult (Fin 2) 2 96} (H : program solve (exDuo 0 0.001) (exDuoData 1000) 4 1 0 0 = .ok r) :
    ∃ r', program solve (houseFlat (fun _ : Fin 1 => (0 : Fin 2)) (fun _ : Fin 1 => 0) (fun _ => 0) (fun _ => none) (exDuo 0 0.001))
      (fun n => recordFlat (fun _ => 0) (fun _ => 0) (exDuoData 1000 n)) 4 1 0 0 = .ok r' := by
  obtain ⟨r', h1, -⟩ := C99_program_partial (exDuo_separate 0 0.001) rfl (by simp [exDuo]) (fun j => by norm_num [exDuo]) hs hs'
    (fun _ _ h => h) (fun _ _ _ => le_rfl) H
  exact ⟨r', h1⟩

/-! ## With leakage -/

/-- What the first step does in the two rooms. -/
theorem exDuo_first {r : CalcResult (Fin 2) 2 96} {c q : ℝ} {hR : Fin 2 → ℝ} (hr : ∀ j, 0 < hR j)
    (H : coreCalc (exDuo c 0) hR (exDuoData q) 4 1 0 0 = .ok r) (hk : 0 < r.nMain.toNat) :
    (r.log ⟨0, hk⟩).thetaR 0 = 15 ∧ (q ≠ 0 → (r.log ⟨0, hk⟩).thetaR 1 ≠ 15) := by
  obtain ⟨c0, t, Hp, Ht, el, c1, c2, c3, c4, c5, -⟩ := first_step H (fun _ => rfl)
  have hidx : pyIndex 96 0 = .ok (0 : Fin 96) := by rfl
  obtain ⟨ivs, k, hi, hs, hk', E⟩ := step_eqs Hp Ht
  have : k = 0 := Except.ok.inj (hk'.symm.trans hidx)
  subst this
  have hnd := no_demand E (by intro i; rw [hs]; simp [preCalcOf, exDuoData]) (by intro i; rw [hs]; norm_num [preCalcOf, exDuo])
  have hS : ∀ j, t.thetaS j = 15 := by
    intro j
    have hh : (exDuo c 0).hI hR j ≠ 0 := by
      have := hr j
      norm_num [exDuo, House.hI]
      linarith
    have hw := C17_wall_equation_partial Hp Ht hidx j hh (by simp [exDuo])
    have h1 : ∀ m, t.dshA j m = 0 := by
      intro m; rw [E.dshA, hs]; simp [Tick.dshA, preCalcOf, exDuo]
    have h2 : ∀ m, t.dshT j m = 0 := by
      intro m; rw [E.dshT, hs]; simp [Tick.dshT, preCalcOf, exDuo]
    simp only [h1, h2] at hw
    rw [hw]
    simp [exDuo, rearTemp, exDuoData]
  have hv : ∀ i, 0 ≤ t.vOut i := by
    have E' := E
    rw [hs] at E'
    exact vOut_nonneg (exDuo_wellFormed le_rfl (by norm_num) hr) (by intro i; simp [exDuoData]) E'
  have hb : ∀ i, (30 * airCap / 900 + 25 + airCap * t.vOut i) * (t.thetaR i - 15) = (exDuoData q 0).qGen i := by
    intro i
    have h14 := C14_balance_as_coded Hp Ht hidx i (by norm_num [exDuo])
    have hq : t.qHum i = 0 := by rw [E.qHum, hs]; simp [Tick.qHum, preCalcOf, exDuoData]
    rw [hq, (hnd i).2.1, (hnd i).2.2, c1] at h14
    simp only [convection, exDuo_surfaces, Finset.sum_singleton, hS] at h14
    have hz : ∑ l, (exDuo c 0).vInt i l * t.thetaR l = 0 := by
      refine Finset.sum_eq_zero fun l _ => ?_
      fin_cases i <;> fin_cases l <;> simp [exDuo]
    rw [hz] at h14
    simp only [exDuo, exDuoData] at h14 ⊢
    norm_num at h14 ⊢
    linarith
  have hpos : ∀ i, 0 < 30 * airCap / 900 + 25 + airCap * t.vOut i := by
    intro i
    have : 0 < airCap := by norm_num [airCap]
    have := mul_nonneg this.le (hv i)
    positivity
  rw [el hk]
  constructor
  · have h0 := hb 0
    have : (exDuoData q 0).qGen 0 = 0 := rfl
    rw [this] at h0
    have := (mul_eq_zero.1 h0).resolve_left (hpos 0).ne'
    show t.thetaR 0 = 15
    linarith
  · intro hq h15
    have h1 := hb 1
    rw [show t.thetaR 1 = 15 from h15, sub_self, mul_zero] at h1
    exact hq h1.symm

theorem exDuo_alone_completes {c : ℝ} (q : ℝ) :
    ∃ r, coreCalc (houseFlat (fun _ : Fin 1 => (0 : Fin 2)) (fun _ : Fin 1 => 0) (fun _ => 0) (fun _ => none) (exDuo c 0)) (fun _ => 5)
      (fun n => recordFlat (fun _ => 0) (fun _ => 0) (exDuoData q n)) 4 1 0 0 = .ok r := by
  have hsurf : ∀ i, surfaces (houseFlat (fun _ : Fin 1 => (0 : Fin 2)) (fun _ : Fin 1 => 0) (fun _ => 0) (fun _ => none) (exDuo c 0)) i = {0} := by
    intro i
    ext j; simp only [surfaces, Finset.mem_filter, Finset.mem_univ, true_and, Finset.mem_singleton]
    constructor
    · intro _; exact Subsingleton.elim _ _
    · intro _; exact Subsingleton.elim _ _
  have hw : WellFormed (houseFlat (fun _ : Fin 1 => (0 : Fin 2)) (fun _ : Fin 1 => 0) (fun _ => 0) (fun _ => none) (exDuo c 0)) (fun _ => 5) 900 := by
    have W := exDuo_wellFormed (c := c) (w := 0) le_rfl (by norm_num) (hR := fun _ => 5) (fun _ => by norm_num)
    exact { W with
      vRoom_pos := fun i => W.vRoom_pos 0
      cSh_nonneg := fun i => W.cSh_nonneg 0
      gSh_nonneg := fun i => W.gSh_nonneg 0
      cLh_nonneg := fun i => W.cLh_nonneg 0
      gLh_nonneg := fun i => W.gLh_nonneg 0
      frtSh_pos := fun i => W.frtSh_pos 0
      frtLh_pos := fun i => W.frtLh_pos 0
      area_pos := fun i => W.area_pos 0
      hC_pos := fun i => W.hC_pos 0
      hR_pos := fun i => W.hR_pos 0
      phiA0_nonneg := fun i => W.phiA0_nonneg 0
      phiT0_mem := fun i => W.phiT0_mem 0
      kEi_mem := by intro j m coef; simp [houseFlat]
      fMrtHum_nonneg := fun i => W.fMrtHum_nonneg 0
      fMrtHum_sum := by intro i; rw [hsurf]; simp [houseFlat, exDuo]
      vInt_nonneg := fun i l => W.vInt_nonneg 0 0
      vInt_lt := by intro i; norm_num [houseFlat, exDuo]
      vVentEx_nonneg := fun i => W.vVentEx_nonneg 0
      vNtrl_nonneg := fun i => W.vNtrl_nonneg 0
      capH_nonneg := fun i => W.capH_nonneg 0
      capC_nonneg := fun i => W.capC_nonneg 0
      rac_q := fun i => W.rac_q 0
      rac_v := fun i => W.rac_v 0
      rac_fan := fun i => W.rac_fan 0 }
  apply C21_program_partial
  · norm_num at hw ⊢
    exact hw
  · exact fun _ => rfl
  · exact fun _ => rfl
  · intro k i; norm_num [exDuoData, recordFlat]
  all_goals norm_num

/-- **C99** fails with leakage: the infiltration of every room follows the mean temperature of all rooms of the building, so a heat source
in a room with no connection to the flat changes the outside air that comes into the flat. -/
theorem C99_violated : ∃ (h : House (Fin 2) (Fin 2)) (data : Fin 96 → Record (Fin 2) (Fin 2)) (hR : Fin 2 → ℝ) (r : CalcResult (Fin 2) 2 96)
    (r' : CalcResult (Fin 1) 1 96),
    Separate (fun _ : Fin 1 => (0 : Fin 2)) (fun _ : Fin 1 => (0 : Fin 2)) (fun _ => 0) (fun _ => none) h ∧
    (∀ i l, h.vInt i l = 0) ∧ (∀ j, h.kEi j = none) ∧
    coreCalc h hR data 4 1 0 0 = .ok r ∧
    coreCalc (houseFlat (fun _ => 0) (fun _ => 0) (fun _ => 0) (fun _ => none) h) (fun _ => hR 0)
      (fun n => recordFlat (fun _ => 0) (fun _ => 0) (data n)) 4 1 0 0 = .ok r' ∧
    ¬ ∀ (k : ℕ) (hk : k < r.nMain.toNat) (hk' : k < r'.nMain.toNat),
      r'.log ⟨k, hk'⟩ = rowFlat (fun _ => 0) (fun _ => 0) (r.log ⟨k, hk⟩) := by
  obtain ⟨r, H⟩ := exDuo_completes (c := 2) (w := 0) le_rfl (by norm_num) 1000 (hR := fun _ => 5) (fun _ => by norm_num)
  obtain ⟨r', H'⟩ := exDuo_alone_completes (c := 2) 1000
  refine ⟨exDuo 2 0, exDuoData 1000, fun _ => 5, r, r', exDuo_separate 2 0, ?_, fun _ => rfl, H, H', ?_⟩
  · intro i l; fin_cases i <;> fin_cases l <;> simp [exDuo]
  intro hall
  have hn : r.nMain = 96 := by
    obtain ⟨gs, c0, up, mn, T⟩ := coreCalc_ok H
    rw [T.nMain_eq]; norm_num
  have hn' : r'.nMain = 96 := by
    obtain ⟨gs, c0, up, mn, T⟩ := coreCalc_ok H'
    rw [T.nMain_eq]; norm_num
  have k1 : 0 + 1 < r.nMain.toNat := by rw [hn]; norm_num
  have k1' : 0 + 1 < r'.nMain.toNat := by rw [hn']; norm_num
  obtain ⟨f1, f2⟩ := exDuo_first (fun _ => by norm_num) H (by omega)
  have f2 := f2 (by norm_num)
  obtain ⟨n, t, t', -, -, Hp, Ht, e0, e1⟩ := logged_pair H 0 k1
  obtain ⟨n', s, s', -, -, Hp', Hs, e0', e1'⟩ := logged_pair H' 0 k1'
  obtain ⟨ivs, k, -, hss, -, E⟩ := step_eqs Hp Ht
  obtain ⟨ivs', k', -, hss', -, E'⟩ := step_eqs Hp' Hs
  have h0 := hall 0 (by omega) (by omega)
  have h1 := hall (0 + 1) k1 k1'
  rw [e0, e0'] at h0
  rw [e1, e1'] at h1
  rw [e0] at f1 f2
  have g0 : s.thetaR 0 = 15 := (congrFun (congrArg LogRow.thetaR h0) 0).trans f1
  have g1 : s'.vLeak 0 = t'.vLeak 0 := congrFun (congrArg LogRow.vLeak h1) 0
  have v1 : getInfiltration 2 (fun _ : Fin 2 => (30 : ℝ)) 1 "balanced" t.thetaR 15 = .ok t'.vLeak := by
    have := E.vLeak
    rw [hss] at this
    exact this
  have v2 : getInfiltration 2 (fun _ : Fin 1 => (30 : ℝ)) 1 "balanced" s.thetaR 15 = .ok s'.vLeak := by
    have := E'.vLeak
    rw [hss'] at this
    exact this
  rw [C36_formula _ _ _ _ _ _ (by norm_num) (Or.inl rfl) (Or.inl rfl)] at v1
  have hm : meanTemp (fun _ : Fin 1 => (30 : ℝ)) s.thetaR = 15 := by
    simp [meanTemp, g0]
  have z2 := (C36_physical v2 fun _ => by norm_num).2.2 hm 0
  have z1 := congrFun (Except.ok.inj v1) 0
  rw [← g1, z2] at z1
  have hne : meanTemp (fun _ : Fin 2 => (30 : ℝ)) t.thetaR - 15 ≠ 0 := by
    have h15 : t.thetaR 0 = 15 := f1
    have h15' : t.thetaR 1 ≠ 15 := f2
    intro h0
    simp only [meanTemp, Fin.sum_univ_two, h15] at h0
    apply h15'
    linarith
  have hsq := Real.sqrt_pos.2 (abs_pos.2 hne)
  simp only [infiltrationRate] at z1
  have hmax := le_max_left (0.022 * (2 * √|meanTemp (fun _ : Fin 2 => (30 : ℝ)) t.thetaR - 15|)) 0
  norm_num only [if_true, sub_zero] at z1
  norm_num only at hmax
  simp only [reduceIte, String.reduceEq, sub_zero] at z1
  linarith

end HLC
