import Verif.Props.AiringStore
import Verif.Props.RangeStore

/-!
# A day of a house that stores heat, with more and with less air (C137)
-/

namespace HLC
open Spec

theorem exSlabUp_wellFormed : WellFormed exSlabUp exHR 900 := { exSlab_wellFormed with }

theorem exSlabUp_relaxing : Relaxing exSlabUp exHR := ⟨exSlab_relaxing.pulse, exSlab_relaxing.outdoors, exSlab_relaxing.between⟩

/-- The hypotheses of `C137_storing_rows_partial` are met by a day at 0 degC of a house with a floor slab that stores heat: with stronger fans it is
nowhere warmer. -/
theorem C137_storing_example : ∃ r1 r2, coreCalc exSlabUp exHR exAired 4 1 1 0 = .ok r1 ∧
    coreCalc (refanned exSlabUp fun i => exSlabUp.vVentEx i / 2) exHR exLessAired 4 1 1 0 = .ok r2 ∧
    r1.nMain.toNat = 96 ∧ r2.nMain.toNat = 96 ∧ KeepsPast exSlabUp 3 ∧
    ∀ (k : ℕ) (h1 : k < r1.nMain.toNat) (h2 : k < r2.nMain.toNat), RowBelow (r1.log ⟨k, h1⟩) (r2.log ⟨k, h2⟩) := by
  have e4 : (3600 / ((4 : ℤ) : ℝ)) = 900 := by norm_num
  have hw : WellFormed exSlabUp exHR (3600 / ((4 : ℤ) : ℝ)) := by rw [e4]; exact exSlabUp_wellFormed
  have hw' : WellFormed (refanned exSlabUp fun i => exSlabUp.vVentEx i / 2) exHR (3600 / ((4 : ℤ) : ℝ)) :=
    { hw with vVentEx_nonneg := fun i => div_nonneg (hw.vVentEx_nonneg i) (by norm_num) }
  have hloc : ∀ k i, 0 ≤ (exAired k).vLocal i := fun k i => by fin_cases i <;> norm_num [exAired]
  have hloc' : ∀ k i, 0 ≤ (exLessAired k).vLocal i := fun k i => by fin_cases i <;> norm_num [exLessAired]
  have hv : ∀ i l, exSlabUp.vInt i l = 0 := by
    intro i l; fin_cases i <;> fin_cases l <;> simp [exSlabUp, exSlab, exPanels]
  obtain ⟨r1, H1⟩ := C21_program_partial (data := exAired) (dMain := 1) (dRunUp := 1) (dRunUpBuild := 0) hw (fun _ => rfl) (fun _ => rfl)
    hloc (by norm_num) (by norm_num) (by norm_num) (by norm_num) (by norm_num) (by norm_num)
  obtain ⟨r2, H2⟩ := C21_program_partial (data := exLessAired) (dMain := 1) (dRunUp := 1) (dRunUpBuild := 0) hw' (fun _ => rfl) (fun _ => rfl)
    hloc' (by norm_num) (by norm_num) (by norm_num) (by norm_num) (by norm_num) (by norm_num)
  obtain ⟨_, _, _, _, T1⟩ := coreCalc_ok H1
  obtain ⟨_, _, _, _, T2⟩ := coreCalc_ok H2
  have hr : RadiantWellFormed exSlabUp := ⟨fun i => by fin_cases i <;> norm_num [exSlabUp, exSlab, exPanels, exHouse],
    fun j => by fin_cases j <;> norm_num [exSlabUp, exSlab, exPanels, exHouse]⟩
  have warm : ∀ (l : ℕ) (h1 : l < r1.nMain.toNat) (i : Fin 2), 0 ≤ (r1.log ⟨l, h1⟩).thetaR i := fun l h1 i =>
    (C86_storing_floor_partial hw hr exSlabUp_relaxing exSlabUp_steady
      (fun j l => by norm_num [exSlabUp, exSlab, exPanels, exHouse]) (fun j _ hS => by
        have hj : j = 3 := by
          obtain ⟨l, hl⟩ := hS
          fin_cases j <;> simp [exSlabUp, exSlab] at hl ⊢
        subst hj
        exact exSlab_letsThrough) (fun _ => rfl) (fun _ => rfl) (fun _ => rfl) hv rfl H1 (lo := 0) le_rfl
      (fun k => ⟨⟨le_rfl, fun _ => le_rfl⟩, hloc k, fun _ => le_rfl, fun _ => le_rfl, fun _ => rfl, fun _ => le_rfl⟩) ⟨l, h1⟩).1 i
  refine ⟨r1, r2, H1, H2, by rw [T1.nMain_eq]; rfl, by rw [T2.nMain_eq]; rfl, ⟨0, .inl (show (0.02 : ℝ) ≠ 0 by norm_num)⟩, fun k h1 h2 => ?_⟩
  refine C137_storing_rows_partial hw hw' exSlabUp_relaxing (fun _ hj => by cases hj) hv rfl (by norm_num) (fun k i => ⟨hloc k i, hloc' k i⟩)
    (fun k => ⟨rfl, rfl, rfl, rfl, rfl⟩) ?_ H1 H2 k (fun _ _ _ _ _ _ => le_refl _) (fun _ _ _ _ _ _ => le_refl _) (fun n h h' => by omega) ?_ h1 h2
  · intro k i
    rw [e4]
    fin_cases i <;> norm_num [exSlabUp, exSlab, exPanels, exHouse, exAired, exIdle, airCap]
  · intro l g1 g2 hN _ i
    refine .inr (.inl ⟨?_, .inl (warm l g1 i)⟩)
    have := hw.vVentEx_nonneg i
    have h3 : (exLessAired ⟨l, hN⟩).vLocal i ≤ (exAired ⟨l, hN⟩).vLocal i := by fin_cases i <;> norm_num [exLessAired, exAired]
    have h4 : (fun i => exSlabUp.vVentEx i / 2) i ≤ exSlabUp.vVentEx i := by simp only; linarith
    linarith

end HLC
