import Verif.Props.LayerPieces
import Verif.Props.Pipeline

/-!
# Entries that do not influence the results (C121)
-/

namespace HLC.Init

open HLC.Spec

variable (rnd : ℕ → ℝ → ℝ) (solve : List ℝ → ℝ) (w : List Step) (hum : Fin 35040 → ℝ) (f : ScheduleFile) (hourly dMain dRunUp dRunUpBuild : ℤ)

/-- **C121 (descriptions).** Names of parts, and which of the known kinds of rooms is said to be behind a partition, do not influence the tables. -/
theorem C121_words (d : Input) (boundaries' : List BoundaryDict)
    (H : List.Forall₂ (fun b b' => ∃ name next, b' = { b with name := name, nextRoomType := next } ∧
      (next = b.nextRoomType ∨ ∃ s s', b.nextRoomType = some s ∧ next = some s' ∧ s ∈ roomWords ∧ s' ∈ roomWords)) d.boundaries boundaries') :
    calculate rnd solve w hum f hourly dMain dRunUp dRunUpBuild { d with boundaries := boundaries' }
      = calculate rnd solve w hum f hourly dMain dRunUp dRunUpBuild d := by
  refine (calculate_alike rnd solve w hum f hourly dMain dRunUp dRunUpBuild (d := d) (d' := { d with boundaries := boundaries' })
    ⟨rfl, List.forall₂_same.2 fun r _ => ⟨rfl, Or.inl rfl⟩, H.imp ?_⟩).symm
  rintro b b' ⟨name, next, rfl, hn⟩
  exact ⟨rfl, hn, Or.inl rfl, Or.inl rfl, Or.inl rfl⟩

/-- **C121 (entered, but not used).** For parts entered by their layers, the U value and the inner surface resistance do not influence the tables,
whatever (non-zero) resistance is entered. -/
theorem C121_layered (d : Input) (boundaries' : List BoundaryDict)
    (H : List.Forall₂ (fun b b' => b' = b ∨ ∃ u r, b' = { b with uValue := u, rIn := r } ∧ Layered b ∧ b.rIn ≠ 0 ∧ r ≠ 0) d.boundaries boundaries') :
    calculate rnd solve w hum f hourly dMain dRunUp dRunUpBuild { d with boundaries := boundaries' }
      = calculate rnd solve w hum f hourly dMain dRunUp dRunUpBuild d := by
  refine (calculate_alike rnd solve w hum f hourly dMain dRunUp dRunUpBuild (d := d) (d' := { d with boundaries := boundaries' })
    ⟨rfl, List.forall₂_same.2 fun r _ => ⟨rfl, Or.inl rfl⟩, H.imp ?_⟩).symm
  rintro b b' (rfl | ⟨u, r, rfl, hl, h1, h2⟩)
  · exact ⟨rfl, Or.inl rfl, Or.inl rfl, Or.inl rfl, Or.inl rfl⟩
  · exact ⟨rfl, Or.inl rfl, Or.inr ⟨hl, h1, h2⟩, Or.inr hl, Or.inl rfl⟩

/-- The hypotheses of `C121_layered` are met by the floor of the example house: the inner resistance 0.15 and the U value 2 of the floor
on the ground can be replaced by 100 and nothing, and the house is accepted by the initializer. -/
example (hr : IsRounding rnd) : ∃ boundaries' o h, boundaries' ≠ (exInput true exUnit).boundaries ∧
    List.Forall₂ (fun b b' => b' = b ∨ ∃ u r, b' = { b with uValue := u, rIn := r } ∧ Layered b ∧ b.rIn ≠ 0 ∧ r ≠ 0)
      (exInput true exUnit).boundaries boundaries' ∧ makeHouse rnd w exSchedule (exInput true exUnit) = .ok o ∧ readHouse o = .ok h := by
  obtain ⟨o, ho⟩ := exInput_accepted rnd w true exUnit exUnit_known
  obtain ⟨h, hh, -⟩ := C72_read_back_partial rnd hr w _ _ (exInput_complete true) o ho
  refine ⟨[{ (exInput true exUnit).boundaries[0]'(by decide) with uValue := none, rIn := 100 }, (exInput true exUnit).boundaries[1]'(by decide)],
    o, h, ?_, .cons (Or.inr ⟨none, 100, rfl, Or.inr (Or.inr rfl), ?_, by norm_num⟩) (.cons (Or.inl rfl) .nil), ho, hh⟩
  · intro e
    have := congrArg (fun l => l.map BoundaryDict.rIn) e
    norm_num [exInput] at this
  · norm_num [exInput]

end HLC.Init
