import Verif.Props.ResultUnits
import Verif.Model.Convergence

/-!
# The remarks of the detailed table (C125)
-/

namespace HLC

set_option linter.unusedSectionVars false

open Spec

theorem mode_unique {tab : Table} (hr : Regular tab) {name : String} {k : ℕ} {x y : OpMode} (hx : ModeCell tab name k x) (hy : ModeCell tab name k y) :
    x = y := by
  obtain ⟨l, h1, h2⟩ := hx
  obtain ⟨l', h3, h4⟩ := hy
  have := (get_of_mem hr h1).symm.trans (get_of_mem hr h3)
  have e : l = l' := by simpa using this
  subst e
  simpa using h2.symm.trans h4

theorem remark_unique {tab : Table} (hr : Regular tab) {name : String} {k : ℕ} {a b c a' b' c' : ℝ} (hx : RemarkCell tab name k a b c)
    (hy : RemarkCell tab name k a' b' c') : a = a' ∧ b = b' ∧ c = c' := by
  obtain ⟨l, x, h1, h2, rfl, rfl, rfl⟩ := hx
  obtain ⟨l', y, h3, h4, rfl, rfl, rfl⟩ := hy
  have := (get_of_mem hr h1).symm.trans (get_of_mem hr h3)
  have e : l = l' := by simpa using this
  subst e
  have e : x = y := by simpa using h2.symm.trans h4
  subst e
  exact ⟨rfl, rfl, rfl⟩

section
variable {n m N : ℕ} {h : House (Fin n) (Fin m)} {hR : Fin m → ℝ} {data : Fin N → Record (Fin n) (Fin m)}
    {hourly dMain dRunUp dRunUpBuild : ℤ} {rnd : ℕ → ℝ → ℝ} {ds : Digest} {tab : Table}

/-- **C125 (remarks).** In every row of the detailed table of a completed calculation every room has one operation mode, and its remark reports the
target of the PMV, the air speed and the clothing that belong to this mode. No other remark is in that row. -/
theorem C125_remarks (H : calcTables rnd h hR data hourly dMain dRunUp dRunUpBuild = .ok (ds, tab)) (k : ℕ) (hk : k < tab.rows) (i : Fin n) :
    ∃ x, ModeCell tab (roomColumn i "ac_operate") k x ∧
      ∀ pmv speed clothing, RemarkCell tab (roomColumn i "remarks") k pmv speed clothing ↔
        pmv = reportedPmv x ∧ speed = reportedSpeed (h.isRadHeating i) (h.isRadCooling i) x ∧ clothing = reportedClothing x := by
  obtain ⟨hreg, hrows, r, c1, mn, hl, hN, H1, hrun, hrow⟩ := C79_table H
  obtain ⟨-, -, hroom, -⟩ := hrow k hk
  refine ⟨_, (hroom i).operation, fun a b c => ⟨fun hc => remark_unique hreg hc (hroom i).remarks, ?_⟩⟩
  rintro ⟨rfl, rfl, rfl⟩
  exact (hroom i).remarks

/-- The convective coefficient that the program's own formula gives at 0.2 m/s. -/
theorem blown_coefficient (thetaR thetaCl : ℝ) : 5.4 < hHumCAt thetaR thetaCl (1 / 5) := by
  refine lt_of_lt_of_le ?_ (le_max_left _ _)
  have : (0.4471 : ℝ) < Real.sqrt (1 / 5) := Real.lt_sqrt_of_sq_lt (by norm_num)
  linarith

/-- **C125 violated (air speed).** The air speed in the remarks has no effect. In every row in which a room without radiant heating is heated the remark
reports 0.2 m/s, but the reported convective coefficient is 4 W/(m2 K), whereas the program's formula for that speed gives more than 5.4 whatever the
temperatures. -/
theorem C125_speed_violated (H : calcTables rnd h hR data hourly dMain dRunUp dRunUpBuild = .ok (ds, tab)) (k : ℕ) (hk : k < tab.rows) (i : Fin n)
    (hrad : h.isRadHeating i = false) (hm : ModeCell tab (roomColumn i "ac_operate") k .heating) :
    RemarkCell tab (roomColumn i "remarks") k (-(1 / 2)) (1 / 5) (11 / 10) ∧ Cell tab (roomColumn i "hc_hum") k 4 ∧
      ∀ thetaR thetaCl, 5.4 < hHumCAt thetaR thetaCl (1 / 5) := by
  obtain ⟨hreg, hrows, r, c1, mn, hl, hN, H1, hrun, hrow⟩ := C79_table H
  obtain ⟨-, -, hroom, -⟩ := hrow k hk
  have e := mode_unique hreg (hroom i).operation hm
  have R := (hroom i).remarks
  rw [e] at R
  obtain ⟨c, ht⟩ := hrun.step_mem (p := ((k : ℤ), mn[k])) (by
    rw [List.mem_iff_getElem]
    exact ⟨k, by simp [hl, hk], by simp⟩)
  obtain ⟨gs, c0, up, mn', T⟩ := coreCalc_ok H1
  obtain ⟨ivs, k', hi, hs, hk', e'⟩ := step_eqs T.pre ht
  have hc := (ot_coefs (e'.ot i)).1
  have C := (hroom i).convectiveCoefficient
  rw [hc] at C
  refine ⟨by simpa [reportedPmv, reportedSpeed, reportedClothing, hrad] using R, by simpa [hHumC] using C, blown_coefficient⟩

end

/-- The hypotheses of `C125_speed_violated` are met: the first row of the cold house. -/
theorem C125_example (rnd : ℕ → ℝ → ℝ) : ∃ ds tab, calcTables rnd exCold exColdHR exColdData 4 1 0 0 = .ok (ds, tab) ∧ 0 < tab.rows ∧
    ModeCell tab (roomColumn (0 : Fin 1) "ac_operate") 0 .heating ∧
    RemarkCell tab (roomColumn (0 : Fin 1) "remarks") 0 (-(1 / 2)) (1 / 5) (11 / 10) ∧ Cell tab (roomColumn (0 : Fin 1) "hc_hum") 0 4 := by
  obtain ⟨ds, tab, H⟩ := cold_tables rnd
  obtain ⟨hreg, hrows, r, c1, mn, hl, hN, H1, hrun, hrow⟩ := C79_table H
  obtain ⟨r', H', -, ht, -⟩ := calcTables_run H
  cases Except.ok.inj (H'.symm.trans H1)
  have e0 : tab = detailTable r := Except.ok.inj (ht.symm.trans (recordDetail_eq (nMain_le H1)))
  have hk : 0 < tab.rows := by omega
  have hk' : 0 < r.nMain.toNat := by rw [e0] at hk; exact hk
  have hm : ModeCell tab (roomColumn (0 : Fin 1) "ac_operate") 0 .heating := by
    refine ⟨_, by rw [e0]; exact mem_room 0 .acOperate, ?_⟩
    simp [hk', (cold_step H1 hk').1]
  obtain ⟨h1, h2, -⟩ := C125_speed_violated H 0 hk 0 rfl hm
  exact ⟨ds, tab, H, hk, hm, h1, h2⟩

end HLC
