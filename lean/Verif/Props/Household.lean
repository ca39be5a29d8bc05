import Verif.Spec.Household
import Verif.Props.ShippedHouse

/-!
# Larger households (C130, C131)

The checks on the numbers of the schedule file (`…_data`) are complete: they go through all of them and are evaluated by the kernel.
-/

namespace HLC.Init

set_option linter.unusedSectionVars false

open HLC.Spec

/-! ## The file -/

/-- Sum of a list of the file over the day, in ten thousandths. -/
def shippedDay (n r t k : ℕ) : ℕ := ((List.range 96).map fun q => shippedAt n r t k q).sum

theorem day_data : ∀ n < 3, ∀ r < 3, ∀ t < 3, shippedDay n r t 0 ≤ shippedDay (n + 1) r t 0 ∧ shippedDay n r t 3 ≤ shippedDay (n + 1) r t 3 := by
  decide +kernel

theorem vent_data : ∀ n < 3, ∀ r < 3, ∀ t < 3, ∀ q < 96, shippedAt n r t 5 q ≤ shippedAt (n + 1) r t 5 q ∧
    shippedAt n r t 1 q ≤ shippedAt (n + 1) r t 1 q := by
  decide +kernel

theorem outing_data : runAt shippedCalendar 7 = 1 ∧ (∀ n < 3, ∀ k < 7, (k = 0 ∨ k = 6) → (shippedAt n 0 1 k 36 = 0 ↔ n = 0)) ∧
    ∀ r < 3, shippedAt 3 r 1 0 36 = 0 ∧ shippedAt 3 r 1 6 36 = 0 := by
  decide +kernel

theorem union_data : ∀ r < 3, ∀ t < 3, ∀ q < 96, shippedAt 2 r t 6 q = 0 ↔ shippedAt 1 r t 6 q = 0 ∧ shippedAt 3 r t 6 q = 0 := by
  decide +kernel

theorem longer_data : ∀ r < 3, ∀ t < 3, ∃ q < 96, shippedAt 1 r t 6 q ≠ 0 ∧ shippedAt 3 r t 6 q = 0 := by
  decide +kernel

/-! ## Interpolation between households -/

theorem mix_mono {A : ℕ → ℕ} (hA : ∀ n < 3, A n ≤ A (n + 1)) {np np' : ℝ} {k k' : ℕ} (k1 : 1 ≤ k) (k3 : k ≤ 3) (k1' : 1 ≤ k') (k3' : k' ≤ 3)
    (kl : (k : ℝ) ≤ np) (ku : np ≤ k + 1) (kl' : (k' : ℝ) ≤ np') (ku' : np' ≤ k' + 1) (h : np ≤ np') :
    mix (np - k) (A (k - 1)) (A k) ≤ mix (np' - k') (A (k' - 1)) (A k') := by
  have step : ∀ m, 1 ≤ m → m ≤ 3 → (A (m - 1) : ℝ) ≤ A m := fun m h1 h3 => by
    have := hA (m - 1) (by omega)
    rw [show m - 1 + 1 = m by omega] at this
    exact_mod_cast this
  have sk := step k k1 k3
  have sk' := step k' k1' k3'
  unfold mix
  apply div_le_div_of_nonneg_right _ (by norm_num)
  rcases lt_trichotomy k k' with hk | hk | hk
  · have e : (A k : ℝ) ≤ A (k' - 1) := by
      obtain rfl | hlt := (show k = k' - 1 ∨ k + 1 = k' - 1 by omega)
      · exact le_rfl
      · rw [← hlt]
        exact_mod_cast hA k (by omega)
    nlinarith
  · subst hk
    nlinarith
  · have : (k' : ℝ) + 1 ≤ k := by exact_mod_cast hk
    have e1 : np = k := by linarith
    have e2 : np' = k' + 1 := by linarith
    have e3 : k - 1 = k' := by
      have : (k : ℝ) = k' + 1 := by linarith
      have : k = k' + 1 := by exact_mod_cast this
      omega
    rw [e1, e2, e3]
    ring_nf
    rfl

theorem sum_map_range (f : ℕ → ℕ) (n : ℕ) : ((List.range n).map f).sum = ∑ q : Fin n, f q := by
  induction n with
  | zero => rfl
  | succ n ih => rw [List.range_succ, List.map_append, List.sum_append, ih, Fin.sum_univ_castSucc]; simp

theorem mix_sum (θ : ℝ) (a b : ℕ → ℕ) :
    ∑ q : Fin 96, mix θ (a q) (b q) = mix θ ((List.range 96).map a).sum ((List.range 96).map b).sum := by
  have e : ∀ f : ℕ → ℕ, (((List.range 96).map f).sum : ℝ) = ∑ q : Fin 96, (f q : ℝ) := by
    intro f
    rw [sum_map_range, Nat.cast_sum]
  rw [mix, e, e]
  simp only [mix]
  rw [← Finset.sum_div, Finset.sum_add_distrib, ← Finset.mul_sum, Finset.sum_sub_distrib]

/-! ## What grows with the house (C130) -/

/-- What is known about a room of an accepted house. -/
theorem room_of {rnd : ℕ → ℝ → ℝ} {w : List Step} {d : Input} {o : Output} (H : makeHouse rnd w shippedSchedule d = .ok o) {i : ℕ}
    (hi : i < d.rooms.length) : ∃ (h : i < o.schedules.length) (r k : ℕ), r < 3 ∧ shippedRooms.idxOf? d.rooms[i].name = some r ∧ 1 ≤ k ∧ k ≤ 3 ∧
      (k : ℝ) ≤ residents (totalArea d) ∧ residents (totalArea d) ≤ k + 1 ∧
      compiled shippedSchedule (residents (totalArea d)) d.rooms[i].name d.rooms[i].floorArea = .ok o.schedules[i] := by
  obtain ⟨h, hc⟩ := schedule_at H hi
  obtain ⟨r, hr3, hr⟩ := shipped_index (make_names H (List.getElem_mem hi))
  obtain ⟨-, h1, h4, -⟩ := C42_residents (totalArea d) 0
  obtain ⟨k, k1, k3, kl, ku⟩ := household _ h1 h4
  exact ⟨h, r, k, hr3, hr, k1, k3, kl, ku, hc⟩

/-- **C130.** With the schedule file of the project: in a house with a larger floor area a room of the same name has at least as much local ventilation at
every time, and over every day of the year at least as many person-hours and as much vapour. -/
theorem C130_day_partial (rnd rnd' : ℕ → ℝ → ℝ) (w w' : List Step) (d d' : Input) (o o' : Output) (H : makeHouse rnd w shippedSchedule d = .ok o)
    (H' : makeHouse rnd' w' shippedSchedule d' = .ok o') (ha : totalArea d ≤ totalArea d') (i i' : ℕ) (hi : i < d.rooms.length)
    (hi' : i' < d'.rooms.length) (hn : d.rooms[i].name = d'.rooms[i'].name) : ∃ (h : i < o.schedules.length) (h' : i' < o'.schedules.length),
      (∀ n, (o.schedules[i]).vLocal n ≤ (o'.schedules[i']).vLocal n) ∧
      ∀ dd, overDay (o.schedules[i]).nHum dd ≤ overDay (o'.schedules[i']).nHum dd ∧ overDay (o.schedules[i]).xGen dd ≤ overDay (o'.schedules[i']).xGen dd := by
  obtain ⟨h, r, k, hr3, hr, k1, k3, kl, ku, hc⟩ := room_of H hi
  obtain ⟨h', r', k', -, hr', k1', k3', kl', ku', hc'⟩ := room_of H' hi'
  obtain rfl : r = r' := by
    rw [hn, hr'] at hr
    exact (Option.some.inj hr).symm
  have hres := (C42_residents (totalArea d) (totalArea d')).2.2.2 ha
  refine ⟨h, h', fun n => ?_, fun dd => ⟨?_, ?_⟩⟩
  · obtain ⟨dd, q, rfl⟩ := quarter_surj n
    rw [(compiled_shipped hr k1 k3 kl ku hc dd q).2.2.1, (compiled_shipped hr' k1' k3' kl' ku' hc' dd q).2.2.1]
    apply div_le_div_of_nonneg_right _ (by norm_num)
    exact mix_mono (A := fun n => tenThousandths r 5 n dd q) (fun n h => (vent_data n h r hr3 _ (dayIndex_lt dd) q q.2).1) k1 k3 k1' k3' kl ku kl' ku' hres
  · simp only [overDay, (compiled_shipped hr k1 k3 kl ku hc dd _).1, (compiled_shipped hr' k1' k3' kl' ku' hc' dd _).1, tenThousandths]
    rw [mix_sum _ (fun q => shippedAt (k - 1) r (dayIndex dd) 0 q) (fun q => shippedAt k r (dayIndex dd) 0 q),
      mix_sum _ (fun q => shippedAt (k' - 1) r (dayIndex dd) 0 q) (fun q => shippedAt k' r (dayIndex dd) 0 q)]
    exact mix_mono (A := fun n => shippedDay n r (dayIndex dd) 0) (fun n h => (day_data n h r hr3 _ (dayIndex_lt dd)).1) k1 k3 k1' k3' kl ku kl' ku' hres
  · simp only [overDay, (compiled_shipped hr k1 k3 kl ku hc dd _).2.2.2.2, (compiled_shipped hr' k1' k3' kl' ku' hc' dd _).2.2.2.2, tenThousandths]
    rw [← Finset.sum_div, ← Finset.sum_div, ← Finset.sum_div, ← Finset.sum_div]
    apply div_le_div_of_nonneg_right _ (by norm_num)
    apply div_le_div_of_nonneg_right _ (by norm_num)
    rw [mix_sum _ (fun q => shippedAt (k - 1) r (dayIndex dd) 3 q) (fun q => shippedAt k r (dayIndex dd) 3 q),
      mix_sum _ (fun q => shippedAt (k' - 1) r (dayIndex dd) 3 q) (fun q => shippedAt k' r (dayIndex dd) 3 q)]
    exact mix_mono (A := fun n => shippedDay n r (dayIndex dd) 3) (fun n h => (day_data n h r hr3 _ (dayIndex_lt dd)).2) k1 k3 k1' k3' kl ku kl' ku' hres

theorem residents_between {a : ℝ} (h1 : 30 < a) (h4 : a < 120) : 1 < residents a ∧ residents a < 4 := by
  rw [(C42_residents a 0).1]
  exact ⟨lt_max_of_lt_right (lt_min (by norm_num) (by linarith)), max_lt (by norm_num) (min_lt_of_right_lt (by linarith))⟩

theorem residents_four {a : ℝ} (h4 : 120 ≤ a) : residents a = 4 := by
  rw [(C42_residents a 0).1, min_eq_left (by linarith)]
  norm_num

/-- **C130 violated.** On 8 January from 9:00 to 9:15 nobody is in any room of a house of 120 m2 or more, and comfort is not asked for; in the main room of
every smaller house of more than 30 m2 there are people, and it is. -/
theorem C130_violated (rnd : ℕ → ℝ → ℝ) (w : List Step) (d : Input) (o : Output) (H : makeHouse rnd w shippedSchedule d = .ok o) (i : ℕ)
    (hi : i < d.rooms.length) : ∃ h : i < o.schedules.length,
      (120 ≤ totalArea d → (o.schedules[i]).nHum (quarter 7 36) = 0 ∧ (o.schedules[i]).acDemand (quarter 7 36) = 0) ∧
      (30 < totalArea d → totalArea d < 120 → d.rooms[i].name = "main_occupant_room" →
        0 < (o.schedules[i]).nHum (quarter 7 36) ∧ 0 < (o.schedules[i]).acDemand (quarter 7 36)) := by
  obtain ⟨h, r, k, hr3, hr, k1, k3, kl, ku, hc⟩ := room_of H hi
  obtain ⟨ed, dl, dz⟩ := outing_data
  have hd : dayIndex 7 = 1 := ed
  obtain ⟨e1, e2, -⟩ := compiled_shipped hr k1 k3 kl ku hc 7 36
  refine ⟨h, fun ha => ?_, fun h30 h120 hn => ?_⟩
  · rw [residents_four ha] at *
    have hk : k = 3 := by
      have : (3 : ℝ) ≤ k := by linarith
      have : 3 ≤ k := by exact_mod_cast this
      omega
    subst hk
    have q36 : ((36 : Fin 96) : ℕ) = 36 := rfl
    rw [e1, e2]
    simp only [tenThousandths, hd, q36, (dz r hr3).1, (dz r hr3).2, mix]
    norm_num
  · rw [hn] at hr
    obtain rfl : 0 = r := Option.some.inj hr
    obtain ⟨r1, r4⟩ := residents_between h30 h120
    have q36 : ((36 : Fin 96) : ℕ) = 36 := rfl
    have key : ∀ j < 7, (j = 0 ∨ j = 6) → 0 < mix (residents (totalArea d) - k) (tenThousandths 0 j (k - 1) 7 36) (tenThousandths 0 j k 7 36) := by
      intro j hj hj'
      rw [mix_pos_iff (by linarith) (by linarith)]
      simp only [tenThousandths, hd, q36]
      by_cases h2 : k = 1
      · right
        subst h2
        refine ⟨by push_cast; linarith, ?_⟩
        rw [ne_eq, dl 1 (by norm_num) j hj hj']
        norm_num
      · by_cases ht : residents (totalArea d) - k < 1
        · left
          refine ⟨ht, ?_⟩
          rw [ne_eq, dl (k - 1) (by omega) j hj hj']
          omega
        · right
          have hk : k ≠ 3 := by
            rintro rfl
            push_cast at ht
            linarith
          refine ⟨by linarith, ?_⟩
          rw [ne_eq, dl k (by omega) j hj hj']
          omega
    rw [e1, e2]
    exact ⟨key 0 (by norm_num) (.inl rfl), key 6 (by norm_num) (.inr rfl)⟩

/-! ## How long rooms are conditioned (C131) -/

theorem between_cases {np : ℝ} {A : ℕ → ℕ} (hu : A 2 = 0 ↔ A 1 = 0 ∧ A 3 = 0) {k : ℕ} (k1 : 1 ≤ k) (k3 : k ≤ 3) (kl : (k : ℝ) ≤ np) (ku : np ≤ k + 1)
    (h2 : 2 ≤ np) : (np - k < 1 ∧ A (k - 1) ≠ 0) ∨ (0 < np - k ∧ A k ≠ 0) ↔ (np < 4 ∧ A 1 ≠ 0) ∨ (2 < np ∧ A 3 ≠ 0) := by
  obtain rfl | rfl | rfl : k = 1 ∨ k = 2 ∨ k = 3 := by omega
  · have e : np = 2 := by push_cast at ku; linarith
    subst e
    norm_num
  · have e1 : np - ((2 : ℕ) : ℝ) < 1 ↔ np < 3 := by push_cast; constructor <;> intro h <;> linarith
    have e2 : 0 < np - ((2 : ℕ) : ℝ) ↔ 2 < np := by push_cast; constructor <;> intro h <;> linarith
    have e3 : np < 4 := by push_cast at ku; linarith
    have e4 : np < 3 ∨ 2 < np := by
      by_cases h : np < 3
      · exact .inl h
      · right; linarith
    rw [e1, e2, show 2 - 1 = 1 from rfl]
    clear kl ku h2 e1 e2
    tauto
  · have e1 : np - ((3 : ℕ) : ℝ) < 1 ↔ np < 4 := by push_cast; constructor <;> intro h <;> linarith
    have e2 : 0 < np - ((3 : ℕ) : ℝ) → 2 < np := by push_cast; intro h; linarith
    have e3 : 2 < np := by push_cast at kl; linarith
    have e4 : np < 4 ∨ 0 < np - ((3 : ℕ) : ℝ) := by
      by_cases h : np < 4
      · exact .inl h
      · right; push_cast; linarith
    rw [e1, show 3 - 1 = 2 from rfl]
    clear kl ku h2 e1
    tauto

/-- When comfort is asked for in a house of more than 60 m2. -/
theorem demand_large {rnd : ℕ → ℝ → ℝ} {w : List Step} {d : Input} {o : Output} (H : makeHouse rnd w shippedSchedule d = .ok o) {i : ℕ}
    (hi : i < d.rooms.length) {r : ℕ} (hr : shippedRooms.idxOf? d.rooms[i].name = some r) (ha : 60 ≤ totalArea d) (dd : Fin 365) (q : Fin 96) :
    ∃ h : i < o.schedules.length, 0 < (o.schedules[i]).acDemand (quarter dd q) ↔
      (totalArea d < 120 ∧ tenThousandths r 6 1 dd q ≠ 0) ∨ (60 < totalArea d ∧ tenThousandths r 6 3 dd q ≠ 0) := by
  obtain ⟨h, r', k, hr3, hr', k1, k3, kl, ku, hc⟩ := room_of H hi
  obtain rfl : r' = r := Option.some.inj (hr'.symm.trans hr)
  refine ⟨h, ?_⟩
  rw [(compiled_shipped hr k1 k3 kl ku hc dd q).2.1, mix_pos_iff (by linarith) (by linarith)]
  have hu := union_data r' hr3 (dayIndex dd) (dayIndex_lt dd) q q.2
  have hres : residents (totalArea d) = min 4 (totalArea d / 30) := by
    rw [(C42_residents (totalArea d) 0).1, max_eq_right (le_min (by norm_num) (by linarith))]
  have hlow : (60 < totalArea d ↔ 2 < residents (totalArea d)) := by
    rw [hres, lt_min_iff]
    constructor
    · intro h; exact ⟨by norm_num, by linarith⟩
    · intro h; linarith [h.2]
  have hhigh : (totalArea d < 120 ↔ residents (totalArea d) < 4) := by
    rw [hres, min_lt_iff]
    constructor
    · intro h; right; linarith
    · rintro (h | h)
      · norm_num at h
      · linarith
  have h2 : 2 ≤ residents (totalArea d) := by rw [hres]; exact le_min (by norm_num) (by linarith)
  rw [hlow, hhigh]
  simp only [tenThousandths]
  exact between_cases (A := fun n => shippedAt n r' (dayIndex dd) 6 q) hu k1 k3 kl ku h2

/-- **C131 (when).** In a room of a house of more than 60 and less than 120 m2 comfort is asked for whenever it is in the same room of a house of 60 m2 (two
people) or of a house of 120 m2 or more (four people), and at no other time. -/
theorem C131_times (rnd : ℕ → ℝ → ℝ) (w : List Step) (d d2 d4 : Input) (o o2 o4 : Output) (H : makeHouse rnd w shippedSchedule d = .ok o)
    (H2 : makeHouse rnd w shippedSchedule d2 = .ok o2) (H4 : makeHouse rnd w shippedSchedule d4 = .ok o4) (hl : 60 < totalArea d) (hu : totalArea d < 120)
    (h2 : totalArea d2 = 60) (h4 : 120 ≤ totalArea d4) (i i2 i4 : ℕ) (hi : i < d.rooms.length) (hi2 : i2 < d2.rooms.length)
    (hi4 : i4 < d4.rooms.length) (n2 : d2.rooms[i2].name = d.rooms[i].name) (n4 : d4.rooms[i4].name = d.rooms[i].name) (n : Fin 35040) :
    ∃ (h : i < o.schedules.length) (h2 : i2 < o2.schedules.length) (h4 : i4 < o4.schedules.length),
      0 < (o.schedules[i]).acDemand n ↔ 0 < (o2.schedules[i2]).acDemand n ∨ 0 < (o4.schedules[i4]).acDemand n := by
  obtain ⟨dd, q, rfl⟩ := quarter_surj n
  obtain ⟨-, r, -, -, hr, -⟩ := room_of H hi
  obtain ⟨h, e⟩ := demand_large H hi hr hl.le dd q
  obtain ⟨h2', e2⟩ := demand_large H2 hi2 (by rw [n2]; exact hr) h2.ge dd q
  obtain ⟨h4', e4⟩ := demand_large H4 hi4 (by rw [n4]; exact hr) (by linarith) dd q
  refine ⟨h, h2', h4', ?_⟩
  have f1 : ¬totalArea d4 < 120 := not_lt.2 h4
  have f2 : 60 < totalArea d4 := by linarith
  have f3 : totalArea d2 < 120 := by linarith
  have f4 : ¬60 < totalArea d2 := by linarith
  rw [e, e2, e4]
  simp only [hl, hu, f1, f2, f3, f4, true_and, false_and, or_false, false_or]

/-- **C131 violated.** On every day of the year every room of a house of 120 m2 or more (four people) is conditioned for a shorter time than the room of the same
name of any house of more than 60 and less than 120 m2. -/
theorem C131_violated (rnd rnd' : ℕ → ℝ → ℝ) (w w' : List Step) (d d' : Input) (o o' : Output) (H : makeHouse rnd w shippedSchedule d = .ok o)
    (H' : makeHouse rnd' w' shippedSchedule d' = .ok o') (hl : 60 < totalArea d) (hu : totalArea d < 120) (ha : 120 ≤ totalArea d') (i i' : ℕ)
    (hi : i < d.rooms.length) (hi' : i' < d'.rooms.length) (hn : d.rooms[i].name = d'.rooms[i'].name) (dd : Fin 365) :
    ∃ (h : i < o.schedules.length) (h' : i' < o'.schedules.length),
      quartersOf (o'.schedules[i']).acDemand dd < quartersOf (o.schedules[i]).acDemand dd := by
  obtain ⟨h, r, -, hr3, hr, -⟩ := room_of H hi
  obtain ⟨h', -⟩ := room_of H' hi'
  have e : ∀ q, 0 < (o.schedules[i]).acDemand (quarter dd q) ↔ tenThousandths r 6 1 dd q ≠ 0 ∨ tenThousandths r 6 3 dd q ≠ 0 := fun q => by
    obtain ⟨_, e⟩ := demand_large H hi hr hl.le dd q
    rw [e]
    simp only [hl, hu, true_and]
  have e' : ∀ q, 0 < (o'.schedules[i']).acDemand (quarter dd q) ↔ tenThousandths r 6 3 dd q ≠ 0 := fun q => by
    obtain ⟨_, e⟩ := demand_large H' hi' (by rw [← hn]; exact hr) (by linarith) dd q
    have f1 : ¬totalArea d' < 120 := not_lt.2 ha
    have f2 : 60 < totalArea d' := by linarith
    rw [e]
    simp only [f1, f2, true_and, false_and, false_or]
  refine ⟨h, h', ?_⟩
  unfold quartersOf
  apply Finset.card_lt_card
  rw [Finset.ssubset_iff_of_subset]
  · obtain ⟨q, hq, q1, q3⟩ := longer_data r hr3 (dayIndex dd) (dayIndex_lt dd)
    refine ⟨⟨q, hq⟩, ?_, ?_⟩
    · rw [Finset.mem_filter, e]
      exact ⟨Finset.mem_univ _, .inl q1⟩
    · rw [Finset.mem_filter, e']
      rintro ⟨-, hc⟩
      exact hc q3
  · intro q
    rw [Finset.mem_filter, Finset.mem_filter, e, e']
    exact fun h => ⟨h.1, .inr h.2⟩

/-! ## Houses that meet the hypotheses -/

theorem resized_accepted {rnd : ℕ → ℝ → ℝ} {w : List Step} {d : Input} {o : Output} (H : makeHouse rnd w shippedSchedule d = .ok o) (a : RoomDict → ℝ) :
    ∃ o', makeHouse rnd w shippedSchedule (resized d a) = .ok o' := by
  obtain ⟨bss, h1, h2, h3, h4, h5, h6, h7⟩ := makeHouse_inv H
  have hl : (resized d a).rooms.length = d.rooms.length := by simp [resized]
  have hv := (C51_accepted_iff_partial d.rooms).1.1 ⟨_, h5⟩
  have hocc : ∀ t, occurrences (resized d a).rooms t = occurrences d.rooms t := by
    intro t
    simp only [occurrences, resized, List.countP_map]
    rfl
  obtain ⟨ss, hss⟩ := (C51_accepted_iff_partial (resized d a).rooms).1.2 (by
    rw [hl]
    refine ⟨?_, ?_, ?_, ?_, ?_, ?_, ?_⟩
    · intro i hi
      simpa [resized] using hv.ids i (by rw [← hl]; exact hi)
    · intro r hr
      obtain ⟨r', hr', rfl⟩ := List.mem_map.1 hr
      exact hv.types r' hr'
    · rw [hocc]; exact hv.main
    · intro t ht
      rw [hocc]; exact hv.others t ht
    · intro r hr
      obtain ⟨r', hr', rfl⟩ := List.mem_map.1 hr
      exact hv.heating r' hr'
    · intro r hr
      obtain ⟨r', hr', rfl⟩ := List.mem_map.1 hr
      exact hv.cooling r' hr'
    · intro r hr
      obtain ⟨r', hr', rfl⟩ := List.mem_map.1 hr
      rw [hl]
      exact hv.upstream r' hr')
  obtain ⟨-, r1, r4, -⟩ := C42_residents (totalArea (resized d a)) 0
  obtain ⟨sch, hsch⟩ := mapM_ok_of (l := (resized d a).rooms)
    (f := fun r : RoomDict => compiled shippedSchedule (residents (totalArea (resized d a))) r.name r.floorArea) (by
      intro r hr
      refine (C126_names _ r1 r4 _ _).1 ?_
      obtain ⟨r', hr', rfl⟩ := List.mem_map.1 hr
      exact make_names (r := r') H hr')
  have hrad : isRadiativeRoom (resized d a).rooms = isRadiativeRoom d.rooms := by
    funext i
    unfold isRadiativeRoom resized
    rw [List.getElem?_map]
    cases d.rooms[i.toNat]? <;> rfl
  have hb : makeBoundaries rnd (resized d a).rooms d.boundaries bss = makeBoundaries rnd d.rooms d.boundaries bss := by
    simp only [makeBoundaries, checkParts, boundaryJson, inRooms, hrad, hl]
    rfl
  refine ⟨{ o with schedules := sch, spaces := ss }, ?_⟩
  unfold makeHouse
  simp only [bind_ok_iff]
  refine ⟨bss, h1, o.qTrsSol, by rw [hl]; exact h2, sch, hsch, o.building, h4, ss, hss, o.boundaries, ?_, ?_⟩
  · rw [← h6]
    exact hb
  · rw [← h7]

/-- **C130, C131, example.** The twin rooms (60 m2) are accepted, and also with rooms of 45 m2 and of 60 m2; the last house is conditioned for a shorter time than
the second one on every day. -/
theorem C131_example (rnd : ℕ → ℝ → ℝ) (w : List Step) : totalArea exTwins = 60 ∧ totalArea (resized exTwins fun _ => 45) = 90 ∧
    totalArea (resized exTwins fun _ => 60) = 120 ∧ exTwins.rooms.map RoomDict.name = ["main_occupant_room", "other_occupant_room"] ∧
    (∃ o, makeHouse rnd w shippedSchedule exTwins = .ok o) ∧
    ∃ o3 o4, makeHouse rnd w shippedSchedule (resized exTwins fun _ => 45) = .ok o3 ∧ makeHouse rnd w shippedSchedule (resized exTwins fun _ => 60) = .ok o4 ∧
      ∀ i < 2, ∃ c3 ∈ o3.schedules[i]?, ∃ c4 ∈ o4.schedules[i]?, ∀ dd, quartersOf c4.acDemand dd < quartersOf c3.acDemand dd := by
  have a2 : totalArea exTwins = 60 := by simp [totalArea, exTwins]; norm_num
  have a3 : totalArea (resized exTwins fun _ => 45) = 90 := by simp [totalArea, exTwins, resized]; norm_num
  have a4 : totalArea (resized exTwins fun _ => 60) = 120 := by simp [totalArea, exTwins, resized]; norm_num
  obtain ⟨o, ho⟩ := exTwins_shipped rnd w
  obtain ⟨o3, h3⟩ := resized_accepted ho fun _ => 45
  obtain ⟨o4, h4⟩ := resized_accepted ho fun _ => 60
  refine ⟨a2, a3, a4, by simp [exTwins], ⟨o, ho⟩, o3, o4, h3, h4, ?_⟩
  intro i hi
  have l3 : i < (resized exTwins fun _ => 45).rooms.length := hi
  have l4 : i < (resized exTwins fun _ => 60).rooms.length := hi
  have key := C131_violated rnd rnd w w _ _ o3 o4 h3 h4 (by rw [a3]; norm_num) (by rw [a3]; norm_num) a4.ge i i l3 l4 (by simp [resized])
  obtain ⟨g3, g4, -⟩ := key 0
  refine ⟨_, List.getElem?_eq_getElem g3, _, List.getElem?_eq_getElem g4, fun dd => ?_⟩
  obtain ⟨_, _, h⟩ := key dd
  exact h

end HLC.Init
