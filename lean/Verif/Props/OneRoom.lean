import Verif.Props.Pipeline

/-! # C76 for houses with one room: radiant floor heating included -/

namespace HLC.Init

open HLC.Spec

/-- **C76 (partial: one room).** For every complete and physically possible input with one room, with whatever heating equipment, every weather and
every schedule with that room, the calculation from the files the initializer writes runs to its end. For layered parts the immediate response has to
be positive. -/
theorem C76_one_room_partial (rnd : ℕ → ℝ → ℝ) (hr : IsRounding rnd) (w : List Step) (f : ScheduleFile) (hf : KnownDays f) (d : Input)
    (hd : CompleteInput d) (hp : PhysicalInput d 900)
    (hsched : ∀ r ∈ d.rooms, ∃ t, HasRoom f r.name t ∧ ∀ k day q, 0 ≤ t.localVent k day q)
    (hone : d.rooms.length = 1) (o : Output) (H : makeHouse rnd w f d = .ok o)
    (hphi : ∀ h, readHouse o = .ok h → ∀ j b, d.boundaries[j.1]? = some b → ¬ GivenByU b → 0 < h.phiA0 j ∧ 0 ≤ h.phiT0 j ∧ h.phiT0 j ≤ 1) :
    ∃ h, readHouse o = .ok h ∧ ∀ (temp hum : Fin 35040 → ℝ) (solve : List ℝ → ℝ), SolvesRooms solve h.area h.room →
      ∀ dMain dRunUp dRunUpBuild : ℤ, 0 ≤ dMain → dMain ≤ 365 → 0 ≤ dRunUpBuild → dRunUpBuild ≤ dRunUp → dRunUp ≤ 365 →
        ∃ res, program solve h (readRecord temp hum o) 4 dMain dRunUp dRunUpBuild = .ok res := by
  obtain ⟨h, Hr, hls, hlb, hroom, hpart, -, -, -, hshare⟩ := C72_read_back_partial rnd hr w f d hd o H
  by_cases hheat : ∀ r ∈ d.rooms, r.heating.kind ≠ "radiative"
  · obtain ⟨h', Hr', hrun⟩ := C76_chain_completes_partial rnd hr w f hf d hd hp hsched hheat o H
      fun h Hr j b hb hn => ⟨(hphi h Hr j b hb hn).1.le, (hphi h Hr j b hb hn).2⟩
    exact ⟨h', Hr', hrun⟩
  push Not at hheat
  obtain ⟨r, hrm, hrk⟩ := hheat
  refine ⟨h, Hr, fun temp hum solve hsolve dMain dRunUp dB m0 m1 b0 b1 r1 => ?_⟩
  have hw := C75_wellformed rnd hr w f d hd 900 hp o H h Hr
    (fun j b hb hn => ⟨(hphi h Hr j b hb hn).1.le, (hphi h Hr j b hb hn).2⟩) solve hsolve
  obtain ⟨-, -, -, hsch, -, -, -, -⟩ := makeHouse_inv H
  have hlen := mapM_length hsch
  have hs1 : o.spaces.length = 1 := hls.trans hone
  let : Unique (Fin o.spaces.length) := ⟨⟨⟨0, by omega⟩⟩, fun i => Fin.ext (by have := i.2; show i.1 = 0; omega)⟩
  have hsame : SameRoom h default r := by
    obtain ⟨r', hr'⟩ := List.length_eq_one_iff.1 hone
    rw [hr'] at hrm
    have : r = r' := List.mem_singleton.1 hrm
    refine hroom default r ?_
    rw [hr', this]; rfl
  have hbeta : ∀ i, h.beta i = 0 := fun i => by rw [Subsingleton.elim i default]; exact hsame.convective
  have hrw : RadiantWellFormed h :=
    { beta_mem := fun i => by rw [hbeta i]; norm_num
      flr_nonneg := fun j => ((hshare (h.room j)).1 j rfl).2 }
  have hreach : RadiantReaches h default := by
    refine Or.inr ⟨by rw [hbeta]; norm_num, ?_⟩
    have hsum : ∑ j with h.room j = default, h.flr j = 1 := by
      rw [(hshare default).2.2, if_pos (hsame.heating.1.2 hrk)]
    obtain ⟨j, hj, hpos⟩ : ∃ j ∈ Finset.univ.filter (fun j => h.room j = default), 0 < h.flr j := by
      by_contra hc
      push Not at hc
      have := Finset.sum_nonpos hc
      linarith
    refine ⟨j, by simpa [surfaces] using hj, hpos, ?_⟩
    have hj' : j.1 < d.boundaries.length := hlb ▸ j.2
    have hget := List.getElem?_eq_getElem hj'
    by_cases c : GivenByU d.boundaries[j.1]
    · obtain ⟨u, hu, -, e2, -, -⟩ := (hpart j _ hget).steady c
      obtain ⟨u0, u1⟩ := hd.uValue _ (List.getElem_mem hj') u hu
      rw [e2, sub_pos, lt_div_iff₀ u0]
      linarith
    · exact (hphi h Hr j _ hget c).1
  unfold program
  apply C21_program_single_partial
  · norm_num; exact hw
  · exact hrw
  · exact hreach
  · intro k i
    have hi : i.1 < d.rooms.length := hls ▸ i.2
    have h1 := mapM_getElem hsch hi
    obtain ⟨t, ht, hv⟩ := hsched _ (List.getElem_mem hi)
    simp only [readRecord]
    rw [List.getElem?_eq_getElem (by rw [hlen]; exact hi)]
    exact vLocal_nonneg hf ht hv _ _ h1 k
  all_goals omega

/-! ## Example -/

/-- Floor heating of 100 W/m² on 20 m². -/
noncomputable def exFloorHeating : EquipDict := ⟨"radiative", none, some ⟨100, 20⟩⟩

/-- The hypotheses are met by the example room with floor heating. -/
example (rnd : ℕ → ℝ → ℝ) (hr : IsRounding rnd) (w : List Step) (temp hum : Fin 35040 → ℝ) : ∃ o h solve res,
    makeHouse rnd w exSchedule (exInput false exUnit 0.15 exFloorHeating) = .ok o ∧ readHouse o = .ok h ∧ (∃ i, h.isRadHeating i = true) ∧
      program solve h (readRecord temp hum o) 4 365 365 183 = .ok res := by
  have hk : KnownEquipment exFloorHeating := Or.inr (Or.inr ⟨rfl, rfl⟩)
  have hcomp := exInput_complete false 0.15 (by norm_num) exFloorHeating hk
  obtain ⟨o, ho⟩ := exInput_accepted rnd w false exUnit exUnit_known 0.15 (by norm_num) exFloorHeating hk
  obtain ⟨h, hh, H⟩ := C76_one_room_partial rnd hr w exSchedule exSchedule_days _ hcomp
    (exInput_physical false 0.15 exFloorHeating fun s hs => by
      simp only [exFloorHeating, Option.some.injEq] at hs
      subst hs
      norm_num)
    (fun r _ => ⟨exTables, exSchedule_room _, fun _ _ _ => le_refl _⟩) rfl o ho
    (fun h _ j b hb hn => by
      exfalso
      apply hn
      have := List.mem_of_getElem? hb
      simp only [exInput, List.mem_cons, List.not_mem_nil, or_false] at this
      rcases this with rfl | rfl <;> exact Or.inr rfl)
  obtain ⟨solve, hsol⟩ := exists_solver
  obtain ⟨h', e, hls, hlb, hroom, hpart, -⟩ := C72_read_back_partial rnd hr w _ _ hcomp o ho
  cases hh.symm.trans e
  have hpos : ∀ j, 0 < h.area j := by
    intro j
    have hj : j.1 < (exInput false exUnit 0.15 exFloorHeating).boundaries.length := hlb ▸ j.2
    rw [(hpart j _ (List.getElem?_eq_getElem hj)).area]
    exact hcomp.area _ (List.getElem_mem hj)
  obtain ⟨res, hres⟩ := H temp hum solve (solvesRooms_of hsol h.room hpos) 365 365 183 (by norm_num) (by norm_num) (by norm_num) (by norm_num) (by norm_num)
  refine ⟨o, h, solve, res, ho, hh, ⟨⟨0, by rw [hls]; exact Nat.one_pos⟩, ?_⟩, hres⟩
  exact (hroom _ (exInput false exUnit 0.15 exFloorHeating).rooms[0] rfl).heating.1.2 rfl

end HLC.Init
