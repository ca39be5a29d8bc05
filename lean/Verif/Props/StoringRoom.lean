import Verif.Props.Relaxing
import Verif.Props.AiringStore

/-!
# C138 for one room of a house that stores heat
-/

set_option linter.unusedSectionVars false

namespace HLC
open Spec

section
variable {I : Type} [Fintype I] [DecidableEq I] [Unique I] {m N : ℕ} {h : House I (Fin m)} {hR : Fin m → ℝ}
  {D : Fin N → Record I (Fin m)} {hourly dMain dRunUp dRunUpBuild : ℤ} {r r0 : CalcResult I m N}

/-- **C138 (partial), one room of a house that stores heat.** In a house of one room, on the ground or off it, whose outer parts may store heat, nothing need be said about the loads: a room that up to row `k` is only heated, or left
alone with closed windows, is not colder in row `k` than with the equipment switched off; one that is only cooled or left alone is not
warmer. -/
theorem C138_storing_one_room_partial (hw : WellFormed h hR (3600 / (hourly : ℝ))) (hr : RadiantWellFormed h)
    (hreach : h.isRadHeating default = true ∨ h.isRadCooling default = true → RadiantReaches h default)
    (hrx : Relaxing h hR) (hgr : ∀ j, h.isGround j = true → h.kEi j = none) (hv : ∀ i l, h.vInt i l = 0) (hC : h.cValue = 0) (hru : 0 ≤ dRunUpBuild * hourly * 24)
    (hloc : ∀ k i, 0 ≤ (D k).vLocal i) (hd : ∀ k i, 0 ≤ (D k).acDemand i ∧ (D k).acDemand i ≤ 1)
    (hp : ∀ k, RoomForPeople h (3600 / (hourly : ℝ)) (D k))
    (hup : ∀ n : ℤ, -(dRunUpBuild * hourly * 24) ≤ n → n < 0 → ∀ k : Fin N, (k : ℤ) = n + N → ∀ i, (D k).acDemand i ≤ 0)
    (H0 : coreCalc h hR (switchedOff D) hourly dMain dRunUp dRunUpBuild = .ok r0) (H : coreCalc h hR D hourly dMain dRunUp dRunUpBuild = .ok r)
    (k : ℕ) (hk0 : k < r0.nMain.toNat) (hk : k < r.nMain.toNat) :
    ((∀ l : Fin r.nMain.toNat, l.1 ≤ k → (r.log l).mode default = some .heating ∨ (r.log l).mode default = some .stopClose) →
      RowBelow (r0.log ⟨k, hk0⟩) (r.log ⟨k, hk⟩)) ∧
    ((∀ l : Fin r.nMain.toNat, l.1 ≤ k → (r.log l).mode default = some .cooling ∨ (r.log l).mode default = some .stopClose) →
      RowBelow (r.log ⟨k, hk⟩) (r0.log ⟨k, hk0⟩)) := by
  have off : ∀ l : Fin r.nMain.toNat, (r.log l).mode default = some .stopClose → (r.log l).lCs default = 0 ∧ (r.log l).lRs default = 0 := by
    intro l hm
    obtain ⟨k', c, t, -, e2, Hp, Ht, el⟩ := logged_step H l
    obtain ⟨ivs, k'', hi, hs, hk', e⟩ := step_eqs Hp Ht
    rw [el] at hm ⊢
    have hm' : (t.ot default).mode = .stopClose := Option.some.inj hm
    obtain ⟨nat, p1, -, hnat, -, -⟩ := calc_passes e.load
    refine C08_no_load _ _ e.load (by rw [hs]; exact fun i => ⟨hw.capH_nonneg i, hw.capC_nonneg i⟩) nat hnat default ?_ ?_
    · rintro ⟨h1, -⟩
      exact absurd (hm'.symm.trans h1) (by simp)
    · rintro ⟨h1, -⟩
      exact absurd (hm'.symm.trans h1) (by simp)
  have sgn := fun l => C12_program_partial hw hr hreach hloc hd H l default
  constructor
  · intro hm
    refine C138_storing_heated_partial hw hr hrx hgr hv hC hru hloc hp hup H0 H k ?_ hk0 hk
    intro l hl i
    rw [Unique.eq_default i]
    rcases hm l hl with g | g
    · exact ⟨by rw [g]; simp, (sgn l).1 g⟩
    · exact ⟨by rw [g]; simp, (off l g).1.ge, (off l g).2.ge⟩
  · intro hm
    refine C138_storing_cooled_partial hw hr hrx hgr hv hC hru hloc hp hup H0 H k ?_ hk0 hk
    intro l hl i
    rw [Unique.eq_default i]
    rcases hm l hl with g | g
    · exact ⟨by rw [g]; simp, (sgn l).2 g⟩
    · exact ⟨by rw [g]; simp, (off l g).1.le, (off l g).2.le⟩

end

/-- The hypotheses are met by the day of `C138_example`, in which a room is heated in every row. -/
theorem C138_storing_one_room_example {hR : Fin 1 → ℝ} : Relaxing exLatch hR ∧ ∀ j, exLatch.isGround j = true → exLatch.kEi j = none :=
  ⟨storageless_relaxing exLatch_storageless, fun _ h => by cases h⟩

end HLC
