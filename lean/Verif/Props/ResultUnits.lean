import Verif.Props.ResultDigest
import Verif.Props.ColdHouse
import Verif.Props.Range
import Verif.Props.LoadLogged

/-!
# The documented meaning of the result columns (C80, C81, C82)
-/

namespace HLC

set_option linter.unusedSectionVars false

open Spec

theorem cell_unique {tab : Table} (hr : Regular tab) {name : String} {k : ℕ} {x y : ℝ} (hx : Cell tab name k x) (hy : Cell tab name k y) :
    x = y := by
  obtain ⟨l, h1, h2⟩ := hx
  obtain ⟨l', h3, h4⟩ := hy
  have := (get_of_mem hr h1).symm.trans (get_of_mem hr h3)
  have e : l = l' := by simpa using this
  subst e
  exact Option.some.inj (h2.symm.trans h4)

section
variable {n m N : ℕ} {h : House (Fin n) (Fin m)} {hR : Fin m → ℝ} {data : Fin N → Record (Fin n) (Fin m)}
    {hourly dMain dRunUp dRunUpBuild : ℤ} {r : CalcResult (Fin n) m N}

theorem fMrt_roomMrt (i : Fin n) (θ : Fin m → ℝ) : ∑ l, h.fMrt hR i l * θ l = roomMrt h hR i θ := by
  have e : ∀ f : Fin m → ℝ, ∑ k, h.p i k * f k = ∑ k ∈ surfaces h i, f k := by
    intro f
    rw [surfaces, Finset.sum_filter]
    refine Finset.sum_congr rfl fun k _ => ?_
    simp only [House.p, Matrix.of_apply, ite_mul, one_mul, zero_mul]
  simp only [roomMrt, House.fMrt, Matrix.of_apply]
  rw [e fun k => h.area k * hR k]
  have : ∀ l, h.p i l * (h.area l * hR l) / (∑ k ∈ surfaces h i, h.area k * hR k) * θ l
      = h.p i l * (h.area l * hR l / (∑ k ∈ surfaces h i, h.area k * hR k) * θ l) := fun l => by ring
  rw [Finset.sum_congr rfl fun l _ => this l, e, Finset.sum_div]
  exact Finset.sum_congr rfl fun l _ => by ring

/-- **C80** (the part that holds). In every row of the table the heat flux column times the area of the part is the sum of the columns
of convective, radiant and solar heat and the part's share of the radiant heating; the heat of people plus 2501000 J/kg times their
moisture is 119 W per person. -/
theorem C80_units_partial (ha : ∀ j, h.area j ≠ 0) (hh : ∀ j, h.hC j + hR j ≠ 0)
    {rnd : ℕ → ℝ → ℝ} {ds : Digest} {tab : Table} (H : calcTables rnd h hR data hourly dMain dRunUp dRunUpBuild = .ok (ds, tab)) :
    ∀ k, k < tab.rows →
      (∀ (j : Fin m) (all conv rad sun lr : ℝ), Cell tab (partColumn (h.room j) (partNumber h j) "qiall_s") k all →
        Cell tab (partColumn (h.room j) (partNumber h j) "qic_s") k conv → Cell tab (partColumn (h.room j) (partNumber h j) "qir_s") k rad →
        Cell tab (partColumn (h.room j) (partNumber h j) "qisol_s") k sun → Cell tab (roomColumn (h.room j) "l_s_r") k lr →
        h.area j * all = conv + rad + sun + h.flr j * (1 - h.beta (h.room j)) * lr) ∧
      ∃ hk : k < N, ∀ (i : Fin n) (s l : ℝ), Cell tab (roomColumn i "q_hum_s") k s → Cell tab (roomColumn i "q_hum_l") k l →
        s + 2501000 * l = 119 * (data ⟨k, hk⟩).nHum i := by
  obtain ⟨hreg, -, r, c1, mn, hl, hN, H1, hrun, hrow⟩ := C79_table H
  obtain ⟨gs, c0, up, mn', T⟩ := coreCalc_ok H1
  intro k hk
  obtain ⟨-, -, hroom, hpart⟩ := hrow k hk
  obtain ⟨c, hc⟩ := run_at hrun k (by simpa using hk) (by omega)
  have hkN : k < N := by omega
  have hidx : pyIndex N ((k : ℕ) : ℤ) = .ok ⟨k, hkN⟩ := pyIndex_nonneg hkN
  simp only [List.getElem_map, List.getElem_range] at hc
  refine ⟨fun j all conv rad sun lr h1 h2 h3 h4 h5 => ?_, hkN, fun i s l h1 h2 => ?_⟩
  · have P := hpart j
    rw [cell_unique hreg h1 P.surfaceFlux, cell_unique hreg h2 P.convectiveHeat, cell_unique hreg h3 P.radiantHeat,
      cell_unique hreg h4 P.sun, cell_unique hreg h5 (hroom (h.room j)).radiativeLoad, fMrt_roomMrt,
      C16_surface_flux T.pre hc hidx j (hh j)]
    have := ha j
    field_simp
  · rw [cell_unique hreg h1 (hroom i).heatOfPeople, cell_unique hreg h2 (hroom i).moistureOfPeople]
    exact (C37_logged T.pre hc hidx i).1

/-- **C82** (the part that holds). The number of a part in the name of its columns is its position in the input exactly when all parts
before it belong to the same room. -/
theorem C82_number_partial (j : Fin m) : partNumber h j = j ↔ ∀ j', j' < j → h.room j' = h.room j := by
  have hc : (Finset.univ.filter fun j' => j' < j).card = (j : ℕ) := by
    rw [show (Finset.univ.filter fun j' => j' < j) = Finset.Iio j by ext; simp, Fin.card_Iio]
  have hsub : (Finset.univ.filter fun j' => j' < j ∧ h.room j' = h.room j) ⊆ Finset.univ.filter fun j' => j' < j := by
    intro x hx
    simp only [Finset.mem_filter, Finset.mem_univ, true_and] at hx ⊢
    exact hx.1
  constructor
  · intro e j' hj
    have := Finset.eq_of_subset_of_card_le hsub (by rw [hc]; exact e.ge)
    have hm : j' ∈ Finset.univ.filter fun j' => j' < j := by simpa using hj
    rw [← this] at hm
    exact (Finset.mem_filter.1 hm).2.2
  · intro hall
    rw [← hc]
    refine congrArg Finset.card ?_
    ext x
    simp only [Finset.mem_filter, Finset.mem_univ, true_and]
    exact ⟨fun hx => hx.1, fun hx => ⟨hx, hall x hx⟩⟩

end

/-! ## The cold room -/

section
variable {r : CalcResult (Fin 1) 1 96}

theorem cold_storageless : Storageless exCold where
  absorbed := fun _ _ => rfl
  transmitted := fun _ _ => rfl
  steady := fun _ => rfl
  weights := fun _ => by simp [exCold]

/-- No room of the cold house comes near absolute zero. -/
theorem cold_above (H : coreCalc exCold exColdHR exColdData 4 1 0 0 = .ok r) (k : Fin r.nMain.toNat) (i : Fin 1) :
    -100 ≤ (r.log k).thetaR i := by
  have hcap : ∀ i, 0 ≤ exCold.capH i ∧ 0 ≤ exCold.capC i := fun i => by norm_num [exCold]
  have hrows : ∀ k : Fin r.nMain.toNat, ∀ i, 0 ≤ (r.log k).qHum i ∧ 0 ≤ (r.log k).lCs i ∧ 0 ≤ (r.log k).lRs i := by
    intro k i
    have hi : i = 0 := Subsingleton.elim _ _
    subst hi
    have hlr : (r.log k).lRs 0 = 0 := by
      by_contra hne
      rcases (C10_program hcap H k 0).2.1 hne with ⟨-, h⟩ | ⟨-, h⟩ <;> cases h
    obtain ⟨k', c, t, e1, e2, Hp, Ht, el⟩ := logged_step H k
    by_cases h0 : (k : ℕ) = 0
    · have : k = ⟨0, by omega⟩ := Fin.ext h0
      rw [hlr, this]
      obtain ⟨-, s1, -, s2, -⟩ := cold_step H (by omega)
      exact ⟨by rw [s2]; norm_num, by linarith, le_rfl⟩
    · have hk' : k' ≠ 0 := by
        rintro rfl
        exact h0 e1.symm
      obtain ⟨z1, z2, -⟩ := C08_program hcap H k k' e1 0 (by simp [exColdData, hk'])
      have hq := (C37_logged Hp Ht e2 0).2
      rw [el] at z1 z2 ⊢
      rw [hq, z1, z2]
      simp [exColdData, hk']
  refine (C86_floor_partial (lo := -100) (by have := exCold_wellFormed; norm_num at this ⊢; exact this) cold_storageless (fun _ => rfl)
    (fun _ _ => rfl) (fun i => by norm_num [exCold]) (fun j => by norm_num [exCold]) H (by norm_num) ?_ ?_ k).1 i
  · intro k
    refine ⟨⟨?_, fun j => ?_⟩, fun i => ?_, fun i => ?_, fun i => ?_⟩ <;> norm_num [exColdData]
  · rintro t ⟨c0, ts, hc0, hrun, hmem⟩ i
    obtain ⟨gs, c0', up, mn, T⟩ := coreCalc_ok H
    have e0 : c0' = c0 := Except.ok.inj (T.start.symm.trans hc0)
    subst e0
    have hall := T.runUp.append T.main
    have hts := hrun.unique hall
    have hup : up = [] := by
      have := T.runUp.length_eq
      rw [pyRange_length] at this
      exact List.length_eq_zero_iff.mp (by simpa using this)
    rw [hts, hup, List.nil_append] at hmem
    obtain ⟨q, hq, rfl⟩ := List.mem_iff_getElem.1 hmem
    have hq' : q < r.nMain.toNat := by rw [← T.mn_length]; exact hq
    have := hrows ⟨q, hq'⟩ i
    rw [T.logged ⟨q, hq'⟩ hq] at this
    exact this

/-- The cold house gives tables. -/
theorem cold_tables (rnd : ℕ → ℝ → ℝ) : ∃ ds dd, calcTables rnd exCold exColdHR exColdData 4 1 0 0 = .ok (ds, dd) := by
  obtain ⟨r, H⟩ := exCold_completes
  refine (C79_returns rnd).2 ⟨by norm_num, by norm_num, by norm_num, r, H, fun k i => ?_⟩
  have := cold_above H k i
  linarith

/-- **C80** fails as documented: the heat flux column is not in watts (it is not the sum of the columns in watts), and the latent heat of
people is not in watts (with the sensible heat it does not give the 119 W of a person). -/
theorem C80_violated (rnd : ℕ → ℝ → ℝ) : ∃ ds tab, calcTables rnd exCold exColdHR exColdData 4 1 0 0 = .ok (ds, tab) ∧
    ∃ all conv rad sun lr s l : ℝ, Cell tab (partColumn 0 0 "qiall_s") 0 all ∧ Cell tab (partColumn 0 0 "qic_s") 0 conv ∧
      Cell tab (partColumn 0 0 "qir_s") 0 rad ∧ Cell tab (partColumn 0 0 "qisol_s") 0 sun ∧ Cell tab (roomColumn 0 "l_s_r") 0 lr ∧
      Cell tab (roomColumn 0 "q_hum_s") 0 s ∧ Cell tab (roomColumn 0 "q_hum_l") 0 l ∧
      all ≠ conv + rad + sun + exCold.flr 0 * (1 - exCold.beta 0) * lr ∧
      s + l ≠ 119 * (exColdData 0).nHum 0 := by
  obtain ⟨ds, tab', Hc⟩ := cold_tables rnd
  obtain ⟨hreg, hrows, r, c1, mn, hl, hN, H, hrun, hrow⟩ := C79_table Hc
  have hu := C80_units_partial (by intro j; norm_num [exCold]) (by intro j; norm_num [exCold, exColdHR]) Hc
  obtain ⟨r', H', -, ht, -⟩ := calcTables_run Hc
  have er : r' = r := Except.ok.inj (H'.symm.trans H)
  subst er
  have hk : 0 < tab'.rows := by omega
  obtain ⟨-, -, hroom, hpart⟩ := hrow 0 hk
  obtain ⟨u1, u2, u3⟩ := hu 0 hk
  have P := hpart 0
  have R := hroom 0
  have hb : partNumber exCold 0 = 0 := by decide +revert
  have hz : exCold.room 0 = 0 := rfl
  rw [hb, hz] at P
  have v1 := u1 0
  rw [hb, hz] at v1
  have w1 := v1 _ _ _ _ _ P.surfaceFlux P.convectiveHeat P.radiantHeat P.sun R.radiativeLoad
  have w2 := u3 0 _ _ R.heatOfPeople R.moistureOfPeople
  have hM := nMain_le H
  have e0 : tab' = detailTable r' := Except.ok.inj (ht.symm.trans (recordDetail_eq hM))
  have hk' : 0 < r'.nMain.toNat := by rw [e0] at hk; exact hk
  obtain ⟨-, -, s1, s2, s3⟩ := cold_step H hk'
  obtain ⟨gs, c0, up, mn', T⟩ := coreCalc_ok H
  obtain ⟨ivs, -, hss⟩ := makePreCalc_ok T.pre
  have hp : r'.ss.p = exCold.p := by rw [hss]; rfl
  have x1 : mn[0].qSrf 0 = (r'.log ⟨0, hk'⟩).qiall 0 := by
    refine cell_unique hreg P.surfaceFlux ?_
    have hmem := mem_part hp 0 .qiallS
    rw [hb, hz] at hmem
    rw [e0]
    exact cell_log hk' hmem rfl
  have x2 : mn[0].qHum 0 = 99 := by
    rw [← s2]
    refine cell_unique hreg R.heatOfPeople ?_
    rw [e0]
    exact cell_log hk' (mem_room 0 .qHumS) rfl
  refine ⟨ds, tab', Hc, _, _, _, _, _, _, _, P.surfaceFlux, P.convectiveHeat, P.radiantHeat, P.sun, R.radiativeLoad, R.heatOfPeople,
    R.moistureOfPeople, ?_, ?_⟩
  · rw [← w1]
    rw [x1]
    norm_num [exCold]
    intro e
    linarith
  · rw [x2] at w2 ⊢
    norm_num [exColdData] at w2 ⊢
    intro e
    linarith

/-- **C81** fails for loads: they are documented as powers in watts, but the entry of an hour is the sum of the four powers of its
quarter hours, not their mean, however the result is rounded to integers. In the witness they differ by more than 700 W. -/
theorem C81_loads_violated (rnd : ℕ → ℝ → ℝ) (hrnd : ∀ x, |rnd 0 x - x| ≤ 1 / 2) :
    ∃ dg tab, calcTables rnd exCold exColdHR exColdData 4 1 0 0 = .ok (dg, tab) ∧
    ∃ r, coreCalc exCold exColdHR exColdData 4 1 0 0 = .ok r ∧
    ∃ (hM : 4 ≤ r.nMain.toNat) (hrooms : dg.rooms.length = 1) (x : ℝ), dg.rooms[0].lSC[0]? = some (some x) ∧
      700 < |x - hourTotal (fun k => (r.log k).lCs 0) 0 (by omega) / 4| := by
  obtain ⟨dg, tab, Hc⟩ := cold_tables rnd
  refine ⟨dg, tab, Hc, ?_⟩
  obtain ⟨h3, r, H, hN, h4, h5, h6⟩ := C81_digest_partial Hc
  refine ⟨r, H, ?_⟩
  have hr : 0 < dg.rows := by omega
  obtain ⟨-, -, h7⟩ := h6 0 hr
  have hM : 4 ≤ r.nMain.toNat := by omega
  refine ⟨hM, h5, _, (h7 0).2.2.2.2.1, ?_⟩
  obtain ⟨-, s1, -⟩ := cold_step H (by omega)
  have hz : ∀ k : Fin r.nMain.toNat, 0 < (k : ℕ) → (r.log k).lCs 0 = 0 := by
    intro k hk
    have hk' : (k : ℕ) < 96 := by have := k.isLt; omega
    refine (C08_program (by intro i; norm_num [exCold]) H k ⟨k, hk'⟩ rfl 0 ?_).1
    have : (⟨k, hk'⟩ : Fin 96) ≠ 0 := by
      intro e
      have := congrArg Fin.val e
      simp at this
      omega
    simp [exColdData, this]
  have ht : hourTotal (fun k => (r.log k).lCs 0) 0 (by omega) = (r.log ⟨0, by omega⟩).lCs 0 := by
    simp only [hourTotal]
    rw [hz ⟨4 * 0 + 1, by omega⟩ (by simp), hz ⟨4 * 0 + 2, by omega⟩ (by simp), hz ⟨4 * 0 + 3, by omega⟩ (by simp)]
    simp
  rw [ht]
  have := abs_le.1 (hrnd ((r.log ⟨0, by omega⟩).lCs 0))
  rw [lt_abs]
  left
  linarith

/-- The hypotheses of `C79_table`, `C80_units_partial`, `C81_digest_partial` and `C08_program` are met, in the first step with a load,
in the others without demand. -/
example (rnd : ℕ → ℝ → ℝ) : ∃ ds tab, calcTables rnd exCold exColdHR exColdData 4 1 0 0 = .ok (ds, tab) ∧ tab.rows = 96 ∧
    ∃ r, coreCalc exCold exColdHR exColdData 4 1 0 0 = .ok r ∧
    (∀ hk : 0 < r.nMain.toNat, 1000 ≤ (r.log ⟨0, hk⟩).lCs 0) ∧ ∀ hk : 1 < r.nMain.toNat, (r.log ⟨1, hk⟩).lCs 0 = 0 := by
  obtain ⟨ds, tab, Hc⟩ := cold_tables rnd
  obtain ⟨-, hrows, r, -, -, -, -, H, -⟩ := C79_table Hc
  refine ⟨ds, tab, Hc, by omega, r, H, fun hk => (cold_step H hk).2.1, fun hk => ?_⟩
  exact (C08_program (by intro i; norm_num [exCold]) H ⟨1, hk⟩ 1 rfl 0 (by simp [exColdData])).1

end

/-- The hypotheses of `C09_program_single` are met by the cold room with demand all day. -/
example : ∃ r, coreCalc exCold exColdHR (fun k => { exColdData k with acDemand := fun _ => 1 }) 4 1 0 0 = .ok r ∧
    1 < r.nMain.toNat ∧ ∀ i, 0 ≤ exCold.capH i ∧ 0 ≤ exCold.capC i := by
  have H : ∃ r, coreCalc exCold exColdHR (fun k => { exColdData k with acDemand := fun _ => 1 }) 4 1 0 0 = .ok r := by
    apply C21_program_partial
    · have := exCold_wellFormed
      norm_num at this ⊢
      exact this
    · exact fun _ => rfl
    · exact fun _ => rfl
    · intro k i; norm_num [exColdData]
    all_goals norm_num
  obtain ⟨r, H⟩ := H
  obtain ⟨tab, dg, -, -, h3, -, h4, -⟩ := digest_of_run (fun _ x => x) H
  exact ⟨r, H, by omega, fun i => by norm_num [exCold]⟩

/-! ## Two rooms -/

/-- The house `exHot` of two rooms with one part each, without air flow between the rooms. -/
noncomputable def exTwo : House (Fin 2) (Fin 2) := { exHot with vInt := 0 }

/-- A day without heat sources in the house `exTwo`. -/
noncomputable def exTwoData : Fin 96 → Record (Fin 2) (Fin 2) := fun _ =>
  { thetaO := 20, xO := 0, vLocal := fun _ => 0, qGen := fun _ => 0, xGen := fun _ => 0, nHum := fun _ => 0, acDemand := fun _ => 0
    qTrsSol := fun _ => 0, thetaOSol := fun _ => 20 }

theorem exTwo_wellFormed : WellFormed exTwo exHotHR 900 :=
  { exHot_wellFormed with
    kEi_mem := fun j m coef hk => by simp [exTwo, exHot] at hk
    fMrtHum_sum := exHot_wellFormed.fMrtHum_sum
    vInt_nonneg := fun i l => by simp [exTwo]
    vInt_lt := fun i => by norm_num [exTwo, exHot] }

/-- The house `exTwo` gives tables. -/
theorem two_tables (rnd : ℕ → ℝ → ℝ) : ∃ ds dd, calcTables rnd exTwo exHotHR exTwoData 4 1 0 0 = .ok (ds, dd) := by
  have hw : WellFormed exTwo exHotHR (3600 / ((4 : ℤ) : ℝ)) := by
    have := exTwo_wellFormed
    norm_num at this ⊢
    exact this
  have H : ∃ r, coreCalc exTwo exHotHR exTwoData 4 1 0 0 = .ok r := by
    apply C21_program_partial hw
    · exact fun _ => rfl
    · exact fun _ => rfl
    · intro k i; norm_num [exTwoData]
    all_goals norm_num
  obtain ⟨r, H⟩ := H
  refine (C79_returns rnd).2 ⟨by norm_num, by norm_num, by norm_num, r, H, fun k i => ?_⟩
  have := (C86_range_partial (lo := 15) (hi := 20) hw ⟨fun _ _ => rfl, fun _ _ => rfl, fun _ => rfl, fun _ => by simp [exTwo, exHot]⟩
    (fun _ => rfl) (fun _ _ => rfl) H (by norm_num) (fun k => ⟨⟨by norm_num [exTwoData], fun j => by norm_num [exTwoData]⟩,
      ⟨by norm_num [exTwoData], fun j => by norm_num [exTwoData]⟩, fun i => by norm_num [exTwoData],
      ⟨fun _ => rfl, fun _ => rfl, fun _ => rfl, fun _ => le_rfl⟩⟩) k).1.1 i
  linarith [this.1]

/-- **C82** fails in a house with two rooms: the second part of the input has no column with its own number; its column is called
number 0. -/
theorem C82_violated (rnd : ℕ → ℝ → ℝ) : ∃ ds tab, calcTables rnd exTwo exHotHR exTwoData 4 1 0 0 = .ok (ds, tab) ∧
    (∀ i : Fin 2, partColumn i 1 "t_s" ∉ tab.cols.map Prod.fst) ∧ partColumn (exTwo.room 1) 0 "t_s" ∈ tab.cols.map Prod.fst := by
  obtain ⟨ds, tab, Hc⟩ := two_tables rnd
  obtain ⟨r, H, -, ht, -⟩ := calcTables_run Hc
  have hM := nMain_le H
  obtain ⟨gs, c0, up, mn', T⟩ := coreCalc_ok H
  obtain ⟨ivs, -, hss⟩ := makePreCalc_ok T.pre
  have hp : r.ss.p = exTwo.p := by rw [hss]; rfl
  have hnum : ∀ j, partNumber exTwo j = 0 := by
    intro j
    unfold partNumber
    rw [Finset.card_eq_zero, Finset.filter_eq_empty_iff]
    rintro x - ⟨h1, h2⟩
    have h2' : x = j := h2
    subst h2'
    exact lt_irrefl _ h1
  have et : tab = detailTable r := Except.ok.inj (ht.symm.trans (recordDetail_eq hM))
  subst et
  refine ⟨ds, _, Hc, ?_, ?_⟩
  · intro i hmem
    obtain ⟨c, hc, e⟩ := List.mem_map.1 hmem
    obtain ⟨d, hd, rfl⟩ := List.mem_map.1 hc
    have e' : d.1.name = (Col.part i 1 .tS).name := by
      rw [show d.1.name = _ from e]
      simp [Col.name, partColumn, PartQ.suffix, String.append_assoc]
    have e2 := Col.name_inj e'
    simp only [allCols, List.mem_cons, List.mem_flatten, List.mem_map] at hd
    rcases hd with rfl | rfl | ⟨_, ⟨i', -, rfl⟩, hd⟩
    · cases e2
    · cases e2
    · simp only [roomCols, List.mem_append, List.mem_map, List.mem_flatten] at hd
      rcases hd with ⟨q, -, rfl⟩ | ⟨_, ⟨q, -, rfl⟩, hd⟩
      · cases e2
      · obtain ⟨⟨j, k⟩, hx, rfl⟩ := List.mem_map.1 hd
        have hk : k = 1 := by injection e2
        subst hk
        have hx' := List.mem_zipIdx_iff_getElem?.1 hx
        have hsel : j ∈ selected r i' := List.mem_of_getElem? hx'
        have hroom : exTwo.room j = i' := by
          unfold selected at hsel
          rw [List.mem_filter] at hsel
          have := of_decide_eq_true hsel.2
          rw [hp] at this
          simp only [House.p, Matrix.of_apply] at this
          by_contra hne
          rw [if_neg hne] at this
          norm_num at this
        have hr := selected_rank hp j
        rw [hroom, hnum] at hr
        have hnd : (selected r i').Nodup := (List.nodup_finRange _).filter _
        obtain ⟨a1, a2⟩ := List.getElem?_eq_some_iff.1 hr
        obtain ⟨b1, b2⟩ := List.getElem?_eq_some_iff.1 hx'
        have := (hnd.getElem_inj_iff (hi := a1) (hj := b1)).1 (a2.trans b2.symm)
        omega
  · have := mem_part hp 1 .tS
    rw [hnum] at this
    exact List.mem_map.2 ⟨_, this, rfl⟩

/-- In the house `exCold` of one room every part has its own number. -/
example : partNumber exCold 0 = 0 := (C82_number_partial (h := exCold) 0).2 (fun _ _ => rfl)

end HLC
