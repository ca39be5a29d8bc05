import Verif.Props.Reader

/-!
# C72: what the initializer writes for each part
-/

namespace HLC.Init
open HLC.Spec

/-- **C72, the file.** Whenever the initializer accepts an input, the file holds one entry for every part of the input, in the same order, with the
same number, name, room, area and convective coefficient, the total coefficient that belongs to the given surface resistance, and the
flags of ground contact and absorption. -/
theorem C72_written (rnd : ℕ → ℝ → ℝ) (w : List Step) (f : ScheduleFile) (d : Input) (o : Output) (H : makeHouse rnd w f d = .ok o) (j : ℕ)
    (b : BoundaryDict) (hb : d.boundaries[j]? = some b) :
    ∃ x, o.boundaries[j]? = some x ∧ x.id = b.id ∧ x.name = b.name ∧ x.room = b.connectedRoom ∧ x.area = b.area ∧ x.hC = b.hC ∧
      x.hI * b.rIn = 1 ∧ (x.isGround = "true" ∧ b.boundaryType = "ground" ∨ x.isGround = "false" ∧ b.boundaryType ≠ "ground") ∧
      x.isSolarAbsorbed = (if b.isSolarAbsorbed then "True" else "False") := by
  unfold makeHouse at H
  simp only [bind_ok_iff] at H
  obtain ⟨bss, hbs, q, -, sch, -, bd, -, ss, -, bj, hbj, e⟩ := H
  cases e
  obtain ⟨hlb, hlj, hpart⟩ := makeBoundaries_get hbs hbj
  obtain ⟨hj, rfl⟩ := List.getElem?_eq_some_iff.1 hb
  obtain ⟨spec, -, s2⟩ := hpart j hj
  have h1 := mapM_getElem hbs hj
  obtain ⟨e1, e2, e3, e4, e5, e6, e7, -, -⟩ := getBoundarySimple_eq h1
  have h2 : (bss[j]'(hlb.symm ▸ hj)).name = d.boundaries[j].name ∧ (bss[j]'(hlb.symm ▸ hj)).hI * d.boundaries[j].rIn = 1 := by
    generalize bss[j]'(hlb.symm ▸ hj) = bs at h1
    simp only [getBoundarySimple, bind_ok_iff] at h1
    obtain ⟨t, -, sun, -, htd, -, next, -, rear, -, dir, -, hI, h, sh, -, oet, -, ts, -, tsr, -, q, -, e⟩ := h1
    cases e
    unfold readHi at h
    split_ifs at h with h0
    cases h
    exact ⟨rfl, one_div_mul_cancel h0⟩
  refine ⟨_, List.getElem?_eq_getElem (by simpa [hlj] using hj), ?_⟩
  show (bj[j]'(hlj ▸ hj)).id = _ ∧ _
  rw [s2]
  refine ⟨e1, h2.1, e2, e3, e4, h2.2, ?_, by rw [← e6]; rfl⟩
  by_cases hg : (bss[j]'(hlb.symm ▸ hj)).bType = .ground
  · exact .inl ⟨if_pos hg, by rw [BType.ofString_value e7, hg]; rfl⟩
  · refine .inr ⟨if_neg hg, fun h => hg ?_⟩
    rw [h] at e7
    exact (Except.ok.inj e7).symm

/-- **C72, the file for tests.** Whenever the initializer accepts an input, `make_house_for_test` writes the same house for it. -/
theorem C72_test_house (rnd : ℕ → ℝ → ℝ) (w : List Step) (f : ScheduleFile) (d : Input) (o : Output) (H : makeHouse rnd w f d = .ok o) :
    makeHouseForTest rnd w d = .ok { building := o.building, spaces := o.spaces, boundaries := o.boundaries } := by
  unfold makeHouse at H
  simp only [bind_ok_iff] at H
  obtain ⟨bss, hbs, q, -, sch, -, bd, hbd, ss, hss, bj, hbj, e⟩ := H
  cases e
  unfold makeHouseForTest
  rw [hbs, hbd, hss]
  simp only [bind, Except.bind]
  rw [hbj]

end HLC.Init
