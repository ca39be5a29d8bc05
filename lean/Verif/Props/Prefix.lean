import Verif.Props.Renumber
import Verif.Props.ResultUnits

/-!
# C100: a shorter calculation gives the first rows of a longer one
-/

namespace HLC

set_option linter.unusedSectionVars false

open Spec

variable {I : Type} [Fintype I] [DecidableEq I] {m N : ℕ}
variable {h : House I (Fin m)} {hR : Fin m → ℝ} {data : Fin N → Record I (Fin m)} {hourly dMain dRunUp dRunUpBuild : ℤ}
  {r : CalcResult I m N}

/-- **C100.** If a calculation over `dMain` days completes, the calculation of the same house with the same files and run-up over fewer
days `d` completes, and its rows are the first `d * 24 * hourly` rows of the longer one. -/
theorem C100_prefix (H : coreCalc h hR data hourly dMain dRunUp dRunUpBuild = .ok r) (h0 : 0 < hourly) {d : ℤ} (hd0 : 0 ≤ d)
    (hd : d ≤ dMain) :
    ∃ r', coreCalc h hR data hourly d dRunUp dRunUpBuild = .ok r' ∧ r'.nMain = d * 24 * hourly ∧ r'.nMain ≤ r.nMain ∧
      ∀ (k : ℕ) (hk' : k < r'.nMain.toNat) (hk : k < r.nMain.toNat), r'.log ⟨k, hk'⟩ = r.log ⟨k, hk⟩ := by
  obtain ⟨gs, c0, up, mn, T⟩ := coreCalc_ok H
  have hle : d * hourly * 24 ≤ dMain * hourly * 24 := by
    have := mul_le_mul_of_nonneg_right hd h0.le
    linarith
  have hn : 0 ≤ d * hourly * 24 := by positivity
  have hm := T.main
  rw [← pyRange_append hn hle] at hm
  obtain ⟨a, b, e, ra, -⟩ := hm.split
  have hg := groundRun_fold T.ground
  rw [← T.ground_last] at hg
  obtain ⟨r', h1, -, h3, h4⟩ := coreCalc_of_runs T.days T.hourly_ne hn T.pre hg T.start T.runUp ra
  refine ⟨r', h1, by rw [h3]; ring, by rw [h3, T.nMain_eq]; exact hle, ?_⟩
  intro k hk' hk
  have hla : a.length = (d * hourly * 24).toNat := by rw [ra.length_eq, pyRange_length]; simp
  have hka : k < a.length := by rw [hla, ← h3]; exact hk'
  rw [h4 ⟨k, hk'⟩ hka, T.logged ⟨k, hk⟩ (by rw [T.mn_length]; exact hk)]
  subst e
  simp only []
  rw [List.getElem_append_left hka]

/-- **C100** for two given calculations of different lengths: the rows they both have are equal. -/
theorem C100_common {r' : CalcResult I m N} {d : ℤ} (H : coreCalc h hR data hourly dMain dRunUp dRunUpBuild = .ok r)
    (H' : coreCalc h hR data hourly d dRunUp dRunUpBuild = .ok r') (h0 : 0 < hourly) (k : ℕ) (hk : k < r.nMain.toNat)
    (hk' : k < r'.nMain.toNat) : r'.log ⟨k, hk'⟩ = r.log ⟨k, hk⟩ := by
  obtain ⟨gs, c0, up, mn, T⟩ := coreCalc_ok H
  obtain ⟨gs', c0', up', mn', T'⟩ := coreCalc_ok H'
  have n1 : 0 ≤ dMain := by
    by_contra hc
    have := T.nMain_nonneg
    rw [T.nMain_eq] at this
    nlinarith
  have n2 : 0 ≤ d := by
    by_contra hc
    have := T'.nMain_nonneg
    rw [T'.nMain_eq] at this
    nlinarith
  rcases le_total d dMain with hd | hd
  · obtain ⟨r'', e, -, -, h4⟩ := C100_prefix H h0 n2 hd
    have := Except.ok.inj (H'.symm.trans e)
    subst this
    exact h4 k hk' hk
  · obtain ⟨r'', e, -, -, h4⟩ := C100_prefix H' h0 n1 hd
    have := Except.ok.inj (H.symm.trans e)
    subst this
    exact (h4 k hk hk').symm

/-- The hypotheses of `C100_prefix` and `C100_common` are met: the cold room over two days and over one, on the same two days of records. -/
example : ∃ r r', coreCalc exCold exColdHR (fun _ : Fin 192 => exColdData 0) 4 2 0 0 = .ok r ∧
    coreCalc exCold exColdHR (fun _ : Fin 192 => exColdData 0) 4 1 0 0 = .ok r' ∧ r.nMain = 192 ∧ r'.nMain = 96 := by
  have H : ∃ r, coreCalc exCold exColdHR (fun _ : Fin 192 => exColdData 0) 4 2 0 0 = .ok r := by
    apply C21_program_partial
    · have := exCold_wellFormed
      norm_num at this ⊢
      exact this
    · exact fun _ => rfl
    · exact fun _ => rfl
    · intro k i; norm_num [exColdData]
    all_goals norm_num
  obtain ⟨r, H⟩ := H
  obtain ⟨gs, c0, up, mn, T⟩ := coreCalc_ok H
  obtain ⟨r', h1, h2, -, -⟩ := C100_prefix H (by norm_num) (d := 1) (by norm_num) (by norm_num)
  exact ⟨r, r', H, h1, by rw [T.nMain_eq]; norm_num, by rw [h2]; norm_num⟩

end HLC
