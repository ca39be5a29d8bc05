import Verif.Props.Summarize
import Verif.Props.Reader

/-!
# C49: parts of one group in terms of the input
-/

namespace HLC.Init

open HLC HLC.Spec

/-- **C49** in terms of the input: parts that get the same group number are entered with the same room, kind, floor flag and absorption
flag, with heat transfer coefficients closer than 2e-5; if they are outside parts, also with the same exposure to the sun, with close
temperature difference coefficients and, in the sun, the same direction; if they are inside parts, with the same kind of room behind. -/
theorem C49_input {n : ℕ} {w : List Step} {bds : Fin n → BoundaryDict} {bss : Fin n → Bs} (H : ∀ k, getBoundarySimple w (bds k) = .ok (bss k))
    {j l : Fin n} (hg : groupIndices bss j = groupIndices bss l) :
    (bds j).connectedRoom = (bds l).connectedRoom ∧ (bds j).boundaryType = (bds l).boundaryType ∧ (bds j).isFloor = (bds l).isFloor ∧
    (bds j).isSolarAbsorbed = (bds l).isSolarAbsorbed ∧ |1 / (bds j).rIn - 1 / (bds l).rIn| < 2e-5 ∧
    ((bds j).boundaryType ∈ ["external_general_part", "external_transparent_part", "external_opaque_part"] →
      (∃ s, (bds j).isSunStruck = some s ∧ (bds l).isSunStruck = some s ∧ (s = true → ∃ d, (bds j).direction = some d ∧ (bds l).direction = some d)) ∧
      ∃ a b, (bds j).tempDifCoef = some a ∧ (bds l).tempDifCoef = some b ∧ |a - b| < 2e-5) ∧
    ((bds j).boundaryType = "internal" → ∃ s, (bds j).nextRoomType = some s ∧ (bds l).nextRoomType = some s) := by
  have key_eq : ∀ {α : Type} {x : Option α} {a : α}, key x = .ok a → x = some a := by
    intro α x a h
    cases x with
    | none => cases h
    | some y => exact congrArg some (Except.ok.inj h)
  have A := (C49_groups_partial bss).2.2.1 j l hg
  have main : ∀ k : Fin n, ∃ bs : Bs, bs = bss k ∧ bs.room = (bds k).connectedRoom ∧ bs.isFloor = (bds k).isFloor ∧
      bs.isSolarAbsorbed = (bds k).isSolarAbsorbed ∧ BType.ofString (bds k).boundaryType = .ok bs.bType ∧ bs.hI = 1 / (bds k).rIn ∧
      readSun (bds k) = .ok bs.isSunStruck ∧ readHtd (bds k) = .ok bs.hTd ∧ readNextRoom (bds k) = .ok bs.nextRoomType ∧
      readDirection (bds k) = .ok bs.direction := by
    intro k
    have h1 := H k
    refine ⟨_, rfl, ?_⟩
    generalize bss k = bs at h1 ⊢
    generalize bds k = b at h1 ⊢
    simp only [getBoundarySimple, bind_ok_iff] at h1
    obtain ⟨t, ht, sun, hsun, htd, hhtd, next, hnext, rear, -, dir, hdir, hI, h, sh, -, oet, -, ts, -, tsr, -, q, -, e⟩ := h1
    cases e
    unfold readHi at h
    split_ifs at h with h0
    cases h
    exact ⟨rfl, rfl, rfl, ht, rfl, hsun, hhtd, hnext, hdir⟩
  obtain ⟨b, eb, b1, b2, b3, b4, b5, b6, b7, b8, b9⟩ := main j
  obtain ⟨c, ec, c1, c2, c3, c4, c5, c6, c7, c8, c9⟩ := main l
  rw [← eb, ← ec] at A
  have hv := BType.ofString_value b4
  have hv' := BType.ofString_value c4
  have ht : (bds j).boundaryType = (bds l).boundaryType := by rw [hv, hv', A.bType]
  refine ⟨by rw [← b1, ← c1, A.room], ht, by rw [← b2, ← c2, A.floor], by rw [← b3, ← c3, A.absorbed], by rw [← b5, ← c5]; exact A.hI, ?_, ?_⟩
  · intro he
    have he' : isExternal (bds j).boundaryType = true := by
      simp only [List.mem_cons, List.not_mem_nil, or_false] at he
      rcases he with h | h | h <;> rw [h] <;> rfl
    have hx : b.bType.isExternal = true := by rw [← BType.isExternal_value, ← hv]; exact he'
    have he2 : isExternal (bds l).boundaryType = true := by rw [← ht]; exact he'
    unfold readSun at b6 c6
    rw [if_pos he'] at b6
    rw [if_pos he2] at c6
    simp only [bind_ok_iff] at b6 c6
    obtain ⟨s, hs, e1⟩ := b6
    obtain ⟨s', hs', e2⟩ := c6
    have es := A.sun hx
    rw [← Except.ok.inj e1, ← Except.ok.inj e2] at es
    have es := Option.some.inj es
    subst es
    unfold readHtd at b7 c7
    rw [if_pos he'] at b7
    rw [if_pos he2] at c7
    refine ⟨⟨s, key_eq hs, key_eq hs', fun hs1 => ?_⟩, _, _, key_eq b7, key_eq c7, A.hTd hx⟩
    subst hs1
    unfold readDirection at b9 c9
    rw [key_eq hs] at b9
    rw [key_eq hs'] at c9
    simp only [bind_ok_iff] at b9 c9
    obtain ⟨d, hd, e3⟩ := b9
    obtain ⟨d', hd', e4⟩ := c9
    have ed := A.direction hx (Except.ok.inj e1).symm
    rw [← Except.ok.inj e3, ← Except.ok.inj e4] at ed
    have ed := Option.some.inj ed
    subst ed
    exact ⟨d, key_eq hd, key_eq hd'⟩
  · intro hi
    have hb : b.bType = .internal := by
      rw [hi] at b4
      exact (Except.ok.inj b4).symm
    unfold readNextRoom at b8 c8
    rw [if_pos hi] at b8
    rw [if_pos (by rw [← ht]; exact hi)] at c8
    simp only [bind_ok_iff] at b8 c8
    obtain ⟨s, hs, e1⟩ := b8
    obtain ⟨s', hs', e2⟩ := c8
    have en := A.next hb
    have inj : ∀ {s s' : String} {n : ℤ}, nextRoomNumber s = .ok n → nextRoomNumber s' = .ok n → s = s' := by
      intro s s' n h h'
      unfold nextRoomNumber at h h'
      split_ifs at h with p1 p2 p3 p4 <;> cases h <;> split_ifs at h' with q1 q2 q3 q4 <;> first | (cases h'; done) | simp_all
    rw [← en] at e2
    have := inj e1 e2
    subst this
    exact ⟨s, key_eq hs, key_eq hs'⟩

/-- The hypotheses of `C49_input` are met by two walls between the main and another room, entered alike but with different areas. -/
example (w : List Step) : ∃ (bds : Fin 2 → BoundaryDict) (bss : Fin 2 → Bs), (∀ k, getBoundarySimple w (bds k) = .ok (bss k)) ∧
    groupIndices bss 0 = groupIndices bss 1 ∧ (bds 0).area ≠ (bds 1).area ∧ (bds 0).nextRoomType = some "other_occupant_room" := by
  let b : ℝ → BoundaryDict := fun a => ⟨0, "wall", 0, "internal", a, none, none, some "other_occupant_room", some 1, false, false, none, 0.15, 2,
    none, none, none, some ⟨false, none, none, none, none, none⟩, none, none, none, none⟩
  have h : ∀ a, ∃ x, getBoundarySimple w (b a) = .ok x ∧ x.room = 0 ∧ x.bType = .internal ∧ x.isFloor = false ∧ x.isSolarAbsorbed = false ∧
      x.hI = 1 / 0.15 ∧ x.nextRoomType = 1 := by
    intro a
    simp [b, getBoundarySimple, BType.ofString, readSun, isExternal, readHtd, readNextRoom, nextRoomNumber, readRear, readDirection, readHi,
      Shading.create, shadingSunStruck, EqvTemp.create, EqvTemp.series, Transmission.create, Transmission.series, key, bind, Except.bind, -List.reduceReplicate,
      show (0.15 : ℝ) ≠ 0 by norm_num]
  choose x hx x1 x2 x3 x4 x5 x6 using h
  refine ⟨fun k => b (k + 1), fun k => x (k + 1), fun k => hx _, ?_, by simp [b], rfl⟩
  refine (C49_groups_partial _).2.2.2 0 1 fun t ht => ⟨?_, ?_, ?_, ?_, ?_, ?_, ?_, ?_, ?_⟩
  · rw [x1, x1]
  · rw [x2, x2]
  · rw [x3, x3]
  · rw [x4, x4]
  · rw [x5, x5, sub_self, abs_zero]; exact ht
  · rw [x2]; simp [BType.isExternal]
  · rw [x2]; simp [BType.isExternal]
  · rw [x2]; simp [BType.isExternal]
  · rw [x6, x6]; simp

end HLC.Init
