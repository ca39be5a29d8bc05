import Verif.Spec.Daily
import Verif.Props.FadeStore
import Verif.Props.Fade
import Verif.Props.SteadyHeated

/-!
# C111: repeated days settle into one daily cycle
-/

set_option linter.unusedSectionVars false

namespace HLC
open Spec

section
variable {I J : Type} [Fintype I] [DecidableEq I] [Fintype J] [DecidableEq J] {N : ℕ} {h : House I J} {hR : J → ℝ} {dt : ℝ}
  {ss : PreCalc I J N} {A : Fin N → Record I J}

/-- Steps that read the same records do the same. -/
theorem Spec.Run.same (Hp : makePreCalc h hR dt A = .ok ss) {c : Cond I J} {ns : List ℤ} {ts : List (TickVars I J)} (H : Run ss dt c ns ts) :
    ∀ {ns' : List ℤ} (_ : ns'.length = ns.length) (_ : ∀ (l : ℕ) (h1 : l < ns.length) (h2 : l < ns'.length),
      ∃ k k', pyIndex N ns[l] = .ok k ∧ pyIndex N ns'[l] = .ok k' ∧ A k' = A k), Run ss dt c ns' ts := by
  induction H with
  | nil c =>
    intro ns' hl _
    obtain rfl := List.length_eq_zero_iff.1 hl
    exact .nil c
  | cons h1 _ ih =>
    intro ns' hl hr
    cases ns' with
    | nil => simp at hl
    | cons n' ns' =>
      obtain ⟨k, k', hk, hk', e⟩ := hr 0 (by simp) (by simp)
      refine .cons ?_ (ih (by simpa using hl) fun l h1 h2 => ?_)
      · rw [← h1]
        exact C28_reads_one_record Hp Hp hk' hk e _
      · exact hr (l + 1) (by simpa using h1) (by simpa using h2)

theorem Spec.Run.index {c : Cond I J} {ns : List ℤ} {ts : List (TickVars I J)} (H : Run ss dt c ns ts) :
    ∀ (l : ℕ) (h1 : l < ns.length), ∃ k, pyIndex N ns[l] = .ok k := by
  induction H with
  | nil c => intro l h1; simp at h1
  | cons h1 _ ih =>
    intro l hl
    cases l with
    | zero => exact runTick_index h1
    | succ l => exact ih l (by simpa using hl)

/-- **C111 (a cycle stays).** In any house, with or without equipment: steps that end in the state they began with go on for ever with the same
results while the data repeat. -/
theorem C111_cycle_stays {c : Cond I J} {ns : List ℤ} {ts : List (TickVars I J)} (H : Run ss dt c ns ts) (hc : after c ts = c) (d : ℕ) :
    Run ss dt c (List.replicate d ns).flatten (List.replicate d ts).flatten ∧ after c (List.replicate d ts).flatten = c := by
  induction d with
  | zero => exact ⟨.nil c, rfl⟩
  | succ d ih =>
    simp only [List.replicate_succ, List.flatten_cons]
    refine ⟨H.append (by rw [hc]; exact ih.1), ?_⟩
    rw [after_append, hc]
    exact ih.2

end

section
variable {I : Type} [Fintype I] [DecidableEq I] {m N : ℕ} {h : House I (Fin m)} {hR : Fin m → ℝ} {A : Fin N → Record I (Fin m)}
  {hourly dMain dRunUp d : ℤ} {r : CalcResult I m N}

/-- The history without its last `q` steps, and the history without its first `q` steps as if it had begun `q` steps earlier. -/
theorem shifted {gs : List (List GroundCell)} {c0 : Cond I (Fin m)} {up mn : List (TickVars I (Fin m))}
    (T : CalcTrace h hR A hourly dMain dRunUp d r gs c0 up mn) (h0 : 0 ≤ d * hourly * 24) {q : ℕ} (hq : (q : ℤ) ≤ dMain * hourly * 24)
    (hrep : Repeats A q (-(d * hourly * 24)) (dMain * hourly * 24)) :
    ∃ front pre rest, Run r.ss (3600 / (hourly : ℝ)) c0 (pyRange (-(d * hourly * 24)) (dMain * hourly * 24 - q)) front ∧
      Run r.ss (3600 / (hourly : ℝ)) c0 (pyRange (-(d * hourly * 24)) (-(d * hourly * 24) + q)) pre ∧ up ++ mn = pre ++ rest ∧
      Run r.ss (3600 / (hourly : ℝ)) (after c0 pre) (pyRange (-(d * hourly * 24)) (dMain * hourly * 24 - q)) rest ∧
      ∀ (k : ℕ) (h1 : k < r.nMain.toNat) (h2 : k + q < r.nMain.toNat), ∃ (h3 : (d * hourly * 24).toNat + k < front.length)
        (h4 : (d * hourly * 24).toNat + k < rest.length), r.log ⟨k, h1⟩ = LogRow.ofTick front[(d * hourly * 24).toNat + k] ∧
          r.log ⟨k + q, h2⟩ = LogRow.ofTick rest[(d * hourly * 24).toNat + k] := by
  have hM0 : 0 ≤ dMain * hourly * 24 := by rw [← T.nMain_eq]; exact T.nMain_nonneg
  have R := T.runUp.append T.main
  rw [pyRange_append (by omega) hM0] at R
  have R1 := R
  rw [← pyRange_append (b := dMain * hourly * 24 - q) (by omega) (by omega)] at R1
  obtain ⟨front, tail, e1, F1, -⟩ := R1.split
  have R2 := R
  rw [← pyRange_append (b := -(d * hourly * 24) + q) (by omega) (by omega)] at R2
  obtain ⟨pre, rest, e2, P, S⟩ := R2.split
  have S' : Run r.ss (3600 / (hourly : ℝ)) (after c0 pre) (pyRange (-(d * hourly * 24)) (dMain * hourly * 24 - q)) rest := by
    refine S.same T.pre (by rw [pyRange_length, pyRange_length]; congr 1; ring) fun l h1 h2 => ?_
    obtain ⟨k, hk⟩ := S.index l h1
    obtain ⟨k', hk'⟩ := F1.index l h2
    refine ⟨k, k', hk, hk', ?_⟩
    have s1 := pyIndex_spec hk
    have s2 := pyIndex_spec hk'
    rw [pyRange_getElem] at s1 s2
    rw [pyRange_length] at h1 h2
    refine (hrep (-(d * hourly * 24) + l) (by omega) (by omega) k' k s2 ?_).symm
    rcases s1 with s1 | s1
    · left; omega
    · right; omega
  have lu : up.length = (d * hourly * 24).toNat := by rw [T.runUp.length_eq, pyRange_length]; congr 1; ring
  have lm : mn.length = (dMain * hourly * 24).toNat := by rw [T.main.length_eq, pyRange_length]; congr 1; ring
  have lf : front.length = (dMain * hourly * 24 - q + d * hourly * 24).toNat := by rw [F1.length_eq, pyRange_length]; congr 1; ring
  have lp : pre.length = q := by rw [P.length_eq, pyRange_length]; omega
  have lr : rest.length = (dMain * hourly * 24 - q + d * hourly * 24).toNat := by rw [S'.length_eq, pyRange_length]; congr 1; ring
  refine ⟨front, pre, rest, F1, P, e2, S', fun k h1 h2 => ?_⟩
  have hn := T.nMain_eq
  have a1 : (d * hourly * 24).toNat + k < front.length := by omega
  have a2 : (d * hourly * 24).toNat + k < rest.length := by omega
  have hm1 : k < mn.length := by rw [T.mn_length]; exact h1
  have hm2 : k + q < mn.length := by rw [T.mn_length]; exact h2
  refine ⟨a1, a2, ?_, ?_⟩
  · rw [T.logged ⟨k, h1⟩ hm1]
    congr 1
    have h3 : (up ++ mn)[(d * hourly * 24).toNat + k]? = some mn[k] := by
      rw [List.getElem?_append_right (by omega)]
      simp [lu, List.getElem?_eq_getElem hm1]
    rw [e1, List.getElem?_append_left a1, List.getElem?_eq_getElem a1] at h3
    exact (Option.some.inj h3).symm
  · rw [T.logged ⟨k + q, h2⟩ hm2]
    congr 1
    have h3 : (up ++ mn)[(d * hourly * 24).toNat + k + q]? = some mn[k + q] := by
      rw [List.getElem?_append_right (by omega), lu, show (d * hourly * 24).toNat + k + q - (d * hourly * 24).toNat = k + q by omega,
        List.getElem?_eq_getElem hm2]
    rw [e2, List.getElem?_append_right (by omega), lp, show (d * hourly * 24).toNat + k + q - q = (d * hourly * 24).toNat + k by omega,
      List.getElem?_eq_getElem a2] at h3
    exact (Option.some.inj h3).symm

/-- **C111 (partial), houses that store heat.** One constant and one rate for the house: while the records repeat after `q` steps and no room
demands conditioning, a row and the row `q` steps later agree up to `C σ ^ (steps since the start)` times the difference of the start from the
states of the calculation. The house is as in `C110_storing_rows_partial`. -/
theorem C111_storing_partial {w : I → ℝ} (hw : WellFormed h hR (3600 / (hourly : ℝ))) (hP : Passive h hR) (hpt : Partitions h hR)
    (hgr : ∀ j, h.isGround j = true → h.kEi j = none) (hC : h.cValue = 0) (hw0 : ∀ i, 0 ≤ w i) (hg : ∀ i, 0 < h.gSh i) (hl : LosesHeat h w) :
    ∃ C σ : ℝ, 0 ≤ C ∧ 0 ≤ σ ∧ σ < 1 ∧ ∀ {N : ℕ} {A : Fin N → Record I (Fin m)} {dMain dRunUp d : ℤ} {r : CalcResult I m N} {D : ℝ} {q : ℕ}
      (_ : ∀ k i, w i + (∑ l, h.vInt i l + ∑ l, h.vInt l i) / 2 ≤ h.vVentEx i + (A k).vLocal i)
      (_ : ∀ k, RoomForPeople h (3600 / (hourly : ℝ)) (A k)) (_ : 0 ≤ d * hourly * 24)
      (_ : coreCalc h hR A hourly dMain dRunUp d = .ok r) (_ : Repeats A q (-(d * hourly * 24)) (dMain * hourly * 24)) (_ : 0 ≤ D)
      (_ : ∀ c c', updateByGround r.ss.isGround (initialConditions I (Fin m)) r.ground = .ok c → StateOf r hourly dMain d c' → StateNear D c c')
      (k : ℕ) (_ : NoDemand (fun n => (A n).acDemand) (-(d * hourly * 24)) k) (h1 : k < r.nMain.toNat) (h2 : k + q < r.nMain.toNat),
      RowNear (C * σ ^ ((d * hourly * 24).toNat + k) * D) (r.log ⟨k, h1⟩) (r.log ⟨k + q, h2⟩) := by
  obtain ⟨C, σ, hC0, hσ0, hσ1, HR⟩ := C110_storing_runs_partial hw hP hpt hC hw0 hg hl
  refine ⟨C, σ, hC0, hσ0, hσ1, ?_⟩
  intro N A dMain dRunUp d r D q hvent hp h0 H hrep hD hnear k hd h1 h2
  obtain ⟨gs, c0, up, mn, T⟩ := coreCalc_ok H
  have hn := T.nMain_eq
  obtain ⟨front, pre, rest, F, P, e, S, hlog⟩ := shifted T h0 (q := q) (by omega) hrep
  have hall : ∀ t ∈ up ++ mn, StepOf r hourly dMain d t := fun t ht => ⟨_, _, T.start, T.runUp.append T.main, ht⟩
  have hinv : PartitionsEmpty h (after c0 pre) ∧ StateOf r hourly dMain d (after c0 pre) := by
    refine (P.invariant (P := fun c => PartitionsEmpty h c ∧ StateOf r hourly dMain d c) (Q := fun _ t => t ∈ pre)
      ⟨start_partitions hgr T, Or.inl T.start⟩ ?_ ?_).1
    · intro n _ c t hc ht hq
      exact ⟨held_empty hpt T.pre ht hc.1, Or.inr ⟨t, hall t (by rw [e]; simp [hq]), rfl⟩⟩
    · intro p hp
      exact (List.of_mem_zip hp).2
  obtain ⟨h3, h4, e1, e2⟩ := hlog k h1 h2
  rw [e1, e2]
  refine HR T.pre hvent hp (start_partitions hgr T) hinv.1 hD (hnear _ _ T.start hinv.2) F S _ (by rw [← F.length_eq]; exact h3) h3 h4 ?_
  intro l hl hle k' hk' i
  have hsp := pyIndex_spec hk'
  rw [pyRange_getElem] at hsp
  exact hd _ (by omega) (by omega) k' hsp i

/-- **C111 (partial), with explicit factors.** The same for houses of parts without storage and without air exchange between the rooms. -/
theorem C111_rows_partial {w : I → ℝ} {ρ σ D : ℝ} (hw : WellFormed h hR (3600 / (hourly : ℝ))) (hst : Storageless h) (hng : ∀ j, h.isGround j = false)
    (hv : ∀ i l, h.vInt i l = 0) (hC : h.cValue = 0) (hF : Fading h (3600 / (hourly : ℝ)) w ρ σ)
    (hsum : ∀ i, ∑ j ∈ surfaces h i, h.fMrtHum j = 1) (hvent : ∀ k i, w i ≤ h.vVentEx i + (A k).vLocal i)
    (hp : ∀ k, RoomForPeople h (3600 / (hourly : ℝ)) (A k)) (h0 : 0 ≤ d * hourly * 24)
    (H : coreCalc h hR A hourly dMain dRunUp d = .ok r) {q : ℕ} (hrep : Repeats A q (-(d * hourly * 24)) (dMain * hourly * 24))
    (hD : 0 ≤ D) (hnear : ∀ t, StepOf r hourly dMain d t → ∀ i, |t.thetaR i - 15| ≤ D ∧ |t.thetaFrt i - 15| ≤ D)
    (k : ℕ) (hd : NoDemand (fun n => (A n).acDemand) (-(d * hourly * 24)) k) (h1 : k < r.nMain.toNat) (h2 : k + q < r.nMain.toNat) :
    RowNear (σ ^ ((d * hourly * 24).toNat + k + 1) * D) (r.log ⟨k, h1⟩) (r.log ⟨k + q, h2⟩) := by
  obtain ⟨gs, c0, up, mn, T⟩ := coreCalc_ok H
  have hn := T.nMain_eq
  have hstart := T.start
  have e0 := start_eq hng T
  subst e0
  obtain ⟨front, pre, rest, F, P, e, S, hlog⟩ := shifted T h0 (q := q) (by omega) hrep
  have hall : ∀ t ∈ up ++ mn, StepOf r hourly dMain d t := fun t ht => ⟨_, _, hstart, T.runUp.append T.main, ht⟩
  have hinv : (∀ j l, (after (initialConditions I (Fin m)) pre).dshA j l = 0) ∧ (∀ j l, (after (initialConditions I (Fin m)) pre).dshT j l = 0) ∧
      ∀ i, |(after (initialConditions I (Fin m)) pre).thetaR i - 15| ≤ D ∧ |(after (initialConditions I (Fin m)) pre).thetaFrt i - 15| ≤ D := by
    refine (P.invariant (P := fun c => (∀ j m, c.dshA j m = 0) ∧ (∀ j m, c.dshT j m = 0) ∧ ∀ i, |c.thetaR i - 15| ≤ D ∧ |c.thetaFrt i - 15| ≤ D)
      (Q := fun _ t => t ∈ pre) ⟨fun _ _ => rfl, fun _ _ => rfl, fun i => ?_⟩ ?_ ?_).1
    · simp [initialConditions, hD]
    · intro n _ c t hc ht hq
      obtain ⟨k', hk'⟩ := runTick_index ht
      obtain ⟨a1, a2, -⟩ := step_averages hw hst hv T.pre ht hk' hc.1 hc.2.1
      exact ⟨a1, a2, hnear t (hall t (by rw [e]; simp [hq]))⟩
    · intro p hp
      exact (List.of_mem_zip hp).2
  obtain ⟨h3, h4, e1, e2⟩ := hlog k h1 h2
  rw [e1, e2]
  refine run_fade hw hst hv hC hF hsum T.pre hvent hp hD ⟨fun j l => ⟨rfl, hinv.1 j l⟩, fun j l => ⟨rfl, hinv.2.1 j l⟩, fun i => (hinv.2.2 i).1,
    fun i => (hinv.2.2 i).2⟩ F S _ (by rw [← F.length_eq]; exact h3) h3 h4 ?_
  intro l hl hle k' hk' i
  have hsp := pyIndex_spec hk'
  rw [pyRange_getElem] at hsp
  exact hd _ (by omega) (by omega) k' hsp i

end

section
variable {I J : Type} [Fintype I] [DecidableEq I] [Fintype J] [DecidableEq J] {N : ℕ} {h : House I J} {hR : J → ℝ} {dt : ℝ}
  {ss : PreCalc I J N} {A : Fin N → Record I J}

theorem Spec.Days.runs {ns : List ℤ} {st : ℕ → Cond I J} {day : ℕ → List (TickVars I J)} (H : Days ss dt ns st day) (a e : ℕ) :
    Run ss dt (st a) (List.replicate e ns).flatten ((List.range e).map fun b => day (a + b)).flatten ∧
      after (st a) ((List.range e).map fun b => day (a + b)).flatten = st (a + e) := by
  induction e with
  | zero => exact ⟨.nil _, rfl⟩
  | succ e ih =>
    rw [List.replicate_succ', List.range_succ, List.map_append, List.flatten_append, List.flatten_append]
    simp only [List.map_cons, List.map_nil, List.flatten_cons, List.flatten_nil, List.append_nil]
    refine ⟨ih.1.append (by rw [ih.2]; exact H.run _), ?_⟩
    rw [after_append, ih.2, ← add_assoc, H.next]

theorem Spec.Days.at {ns : List ℤ} {st : ℕ → Cond I J} {day : ℕ → List (TickVars I J)} (H : Days ss dt ns st day) (a e j : ℕ)
    (hj : j < (day (a + e)).length) :
    ((List.range (e + 1)).map fun b => day (a + b)).flatten[e * ns.length + j]? = some (day (a + e))[j] := by
  have hl : ((List.range e).map fun b => day (a + b)).flatten.length = e * ns.length := by
    rw [(H.runs a e).1.length_eq]
    simp
  rw [List.range_succ, List.map_append, List.flatten_append, List.getElem?_append_right (by omega), hl]
  simp [List.getElem?_eq_getElem hj]

theorem geometric_limit {x : ℕ → ℝ} {K r : ℝ} (hr : r < 1) (hx : ∀ e, |x (e + 1) - x e| ≤ K * r ^ e) :
    ∃ l, ∀ e, |x e - l| ≤ K / (1 - r) * r ^ e := by
  have hu : ∀ e, dist (x e) (x (e + 1)) ≤ K * r ^ e := fun e => by rw [dist_comm, Real.dist_eq]; exact hx e
  obtain ⟨l, hl⟩ := cauchySeq_tendsto_of_complete (cauchySeq_of_le_geometric r K hr hu)
  refine ⟨l, fun e => ?_⟩
  have := dist_le_of_le_geometric_of_tendsto r K hr hu hl e
  rw [Real.dist_eq] at this
  rw [div_mul_eq_mul_div]
  exact this

/-- **C111 (partial), the cycle.** For a free-running house as in `C110_storing_runs_partial` there is a rate, and for every day of data one cycle of
rows, so that from any start the rows of repeated days approach this cycle at that rate. -/
theorem C111_settles_partial {w : I → ℝ} (hw : WellFormed h hR dt) (hP : Passive h hR) (hpt : Partitions h hR) (hC : h.cValue = 0)
    (hw0 : ∀ i, 0 ≤ w i) (hg : ∀ i, 0 < h.gSh i) (hl : LosesHeat h w) :
    ∃ σ : ℝ, 0 ≤ σ ∧ σ < 1 ∧ ∀ {N : ℕ} {ss : PreCalc I J N} {A : Fin N → Record I J} (_ : makePreCalc h hR dt A = .ok ss)
      (_ : ∀ k i, w i + (∑ l, h.vInt i l + ∑ l, h.vInt l i) / 2 ≤ h.vVentEx i + (A k).vLocal i) (_ : ∀ k, RoomForPeople h dt (A k))
      (_ : ∀ k i, (A k).acDemand i ≤ 0) (ns : List ℤ) (_ : ns ≠ []),
      ∃ L : ℕ → LogRow I J, ∀ st day, Days ss dt ns st day → PartitionsEmpty h (st 0) →
        ∃ K, ∀ e j (hj : j < (day e).length), RowNear (K * σ ^ (e * ns.length)) (L j) (LogRow.ofTick (day e)[j]) := by
  obtain ⟨C, σ, hC0, hσ0, hσ1, HR⟩ := C110_storing_runs_partial hw hP hpt hC hw0 hg hl
  refine ⟨σ, hσ0, hσ1, ?_⟩
  intro N ss A Hp hvent hp hd ns hns
  have hq : 0 < ns.length := List.length_pos_iff.2 hns
  have hr0 : 0 ≤ σ ^ ns.length := pow_nonneg hσ0 _
  have hr1 : σ ^ ns.length < 1 := pow_lt_one₀ hσ0 hσ1 (by omega)
  -- two sequences of days
  have two : ∀ {st st' : ℕ → Cond I J} {day day' : ℕ → List (TickVars I J)} (a a' : ℕ), Days ss dt ns st day → Days ss dt ns st' day' →
      PartitionsEmpty h (st a) → PartitionsEmpty h (st' a') → ∃ D, 0 ≤ D ∧ ∀ e j (h1 : j < (day (a + e)).length) (h2 : j < (day' (a' + e)).length),
        RowNear (C * D * (σ ^ ns.length) ^ e) (LogRow.ofTick (day (a + e))[j]) (LogRow.ofTick (day' (a' + e))[j]) := by
    intro st st' day day' a a' H H' hc hc'
    obtain ⟨D, hD, hn⟩ := near_exists (st a) (st' a')
    refine ⟨D, hD, fun e j h1 h2 => ?_⟩
    have R := (H.runs a (e + 1)).1
    have R' := (H'.runs a' (e + 1)).1
    obtain ⟨b1, g1⟩ := List.getElem?_eq_some_iff.1 (H.at a e j h1)
    obtain ⟨b2, g2⟩ := List.getElem?_eq_some_iff.1 (H'.at a' e j h2)
    have key := HR Hp hvent hp hc hc' hD hn R R' (e * ns.length + j) (by rw [← R.length_eq]; exact b1) b1 b2 fun _ _ _ k _ => hd k
    rw [g1, g2] at key
    have hle : C * σ ^ (e * ns.length + j) * D ≤ C * D * (σ ^ ns.length) ^ e := by
      rw [← pow_mul, mul_comm ns.length e, pow_add]
      have h1 : σ ^ (e * ns.length) * σ ^ j ≤ σ ^ (e * ns.length) * 1 :=
        mul_le_mul_of_nonneg_left (pow_le_one₀ hσ0 hσ1.le) (pow_nonneg hσ0 _)
      have h2 := mul_le_mul_of_nonneg_left h1 (mul_nonneg hC0 hD)
      linarith
    exact ⟨fun i => (key.1 i).trans hle, fun i => (key.2 i).trans hle, fun i => (key.3 i).trans hle, fun i => (key.4 i).trans hle,
      fun i => (key.5 i).trans hle⟩
  by_cases hex : ∃ st day, Days ss dt ns st day ∧ PartitionsEmpty h (st 0)
  · obtain ⟨st, day, H, hc⟩ := hex
    have hc1 : PartitionsEmpty h (st 1) := by
      rw [H.next 0]
      exact ((H.run 0).invariant (P := PartitionsEmpty h) (Q := fun _ _ => True) hc (fun n _ c t hc ht _ => held_empty hpt Hp ht hc)
        fun _ _ => trivial).1
    have hlen : ∀ e, (day e).length = ns.length := fun e => (H.run e).length_eq
    obtain ⟨D, hD, near⟩ := two 0 1 H H hc hc1
    -- one number of the rows, day by day
    have lim : ∀ (f : LogRow I J → ℝ) (j : ℕ), (∀ (M : ℝ) a b, RowNear M a b → |f b - f a| ≤ M) →
        ∃ l, ∀ e (hj : j < (day e).length), |f (LogRow.ofTick (day e)[j]) - l| ≤ C * D / (1 - σ ^ ns.length) * (σ ^ ns.length) ^ e := by
      intro f j hf
      by_cases hj : j < ns.length
      · obtain ⟨l, hl⟩ := geometric_limit (x := fun e => f (LogRow.ofTick ((day e)[j]'(by rw [hlen]; exact hj)))) (K := C * D) hr1 (by
          intro e
          have := hf _ _ _ (near e j (by rw [hlen]; exact hj) (by rw [hlen]; exact hj))
          simp only [zero_add, add_comm 1 e] at this
          exact this)
        exact ⟨l, fun e _ => hl e⟩
      · exact ⟨0, fun e he => absurd (by rw [hlen] at he; exact he) hj⟩
    choose l1 hl1 using fun j i => lim (fun r => r.thetaR i) j fun M a b hab => hab.rooms i
    choose l2 hl2 using fun j i => lim (fun r => r.thetaFrt i) j fun M a b hab => hab.furniture i
    choose l3 hl3 using fun j i => lim (fun r => r.thetaS i) j fun M a b hab => hab.surfaces i
    choose l4 hl4 using fun j i => lim (fun r => r.thetaMrt i) j fun M a b hab => hab.radiant i
    choose l5 hl5 using fun j i => lim (fun r => r.thetaOt i) j fun M a b hab => hab.operative i
    refine ⟨fun j => { LogRow.empty I J with thetaR := l1 j, thetaFrt := l2 j, thetaS := l3 j, thetaMrt := l4 j, thetaOt := l5 j }, ?_⟩
    intro st' day' H' hc'
    obtain ⟨D', hD', near'⟩ := two 0 0 H H' hc hc'
    refine ⟨C * D' + C * D / (1 - σ ^ ns.length), fun e j hj => ?_⟩
    have hj0 : j < (day e).length := by rw [hlen, ← (H'.run e).length_eq]; exact hj
    have n := near' e j (by simpa using hj0) (by simpa using hj)
    simp only [zero_add] at n
    rw [mul_comm e, pow_mul]
    have tri : ∀ {x y l : ℝ}, |y - x| ≤ C * D' * (σ ^ ns.length) ^ e → |x - l| ≤ C * D / (1 - σ ^ ns.length) * (σ ^ ns.length) ^ e →
        |y - l| ≤ (C * D' + C * D / (1 - σ ^ ns.length)) * (σ ^ ns.length) ^ e := by
      intro x y l a b
      rw [add_mul]
      exact (abs_sub_le y x l).trans (add_le_add a b)
    exact ⟨fun i => tri (n.1 i) (hl1 j i e hj0), fun i => tri (n.2 i) (hl2 j i e hj0), fun i => tri (n.3 i) (hl3 j i e hj0),
      fun i => tri (n.4 i) (hl4 j i e hj0), fun i => tri (n.5 i) (hl5 j i e hj0)⟩
  · exact ⟨fun _ => LogRow.empty I J, fun st day H hc => absurd ⟨st, day, H, hc⟩ hex⟩

end

/-! ## Concrete cases -/

/-- Repeated days exist wherever every step completes. -/
theorem days_exist {I J : Type} [Fintype I] [DecidableEq I] [Fintype J] [DecidableEq J] {N : ℕ} {ss : PreCalc I J N} {dt : ℝ} {P : Cond I J → Prop}
    {ns : List ℤ} (hstep : ∀ n ∈ ns, ∀ c, P c → ∃ t, runTick n dt ss c = .ok t ∧ P t.next) (c : Cond I J) (hc : P c) :
    ∃ st day, Days ss dt ns st day ∧ st 0 = c := by
  classical
  choose f hf using fun c : {c : Cond I J // P c} => run_exists (ns := ns) c.2 hstep
  let g : {c : Cond I J // P c} → {c : Cond I J // P c} := fun c => ⟨after c.1 (f c), (hf c).2⟩
  refine ⟨fun e => (g^[e] ⟨c, hc⟩).1, fun e => f (g^[e] ⟨c, hc⟩), ⟨fun e => (hf _).1, fun e => ?_⟩, rfl⟩
  rw [Function.iterate_succ_apply']

/-- The same day twice. -/
noncomputable def exTwoDays : Fin 192 → Record (Fin 2) (Fin 4) := fun k => exDay ⟨k % 96, Nat.mod_lt _ (by norm_num)⟩

theorem exTwoDays_repeats : Repeats exTwoDays 96 0 192 := by
  intro n h0 h1 k k' hk hk'
  have e : (k' : ℕ) % 96 = (k : ℕ) % 96 := by omega
  simp only [exTwoDays, e]

/-- The hypotheses of `C111_storing_partial` are met by two equal days of the house that stores heat. -/
example : ∃ C σ : ℝ, 0 ≤ C ∧ 0 ≤ σ ∧ σ < 1 ∧ ∃ r, coreCalc exStore exHR exTwoDays 4 2 2 0 = .ok r ∧ r.nMain.toNat = 192 ∧
    ∃ D, ∀ k (h1 : k < r.nMain.toNat) (h2 : k + 96 < r.nMain.toNat), RowNear (C * σ ^ k * D) (r.log ⟨k, h1⟩) (r.log ⟨k + 96, h2⟩) := by
  have e4 : (3600 / ((4 : ℤ) : ℝ)) = 900 := by norm_num
  have hw : WellFormed exStore exHR (3600 / ((4 : ℤ) : ℝ)) := by rw [e4]; exact exStore_wellFormed
  have hloc : ∀ k i, 0 ≤ (exTwoDays k).vLocal i := fun k i => by fin_cases i <;> norm_num [exTwoDays, exDay]
  obtain ⟨r, H⟩ := C21_program_partial (data := exTwoDays) (dMain := 2) (dRunUp := 2) (dRunUpBuild := 0) hw (fun _ => rfl) (fun _ => rfl)
    hloc (by norm_num) (by norm_num) (by norm_num) (by norm_num) (by norm_num) (by norm_num)
  obtain ⟨_, _, _, _, T⟩ := coreCalc_ok H
  obtain ⟨D, hD, HD⟩ := states_near H H
  obtain ⟨C, σ, hC0, hσ0, hσ1, HR⟩ := C111_storing_partial (hourly := 4) (w := fun _ => 0) hw exStore_passive exStore_partitions
    (by intro j; fin_cases j <;> simp [exStore]) rfl (fun _ => le_rfl) (by intro i; fin_cases i <;> norm_num [exStore, exHouse])
    (by
      intro i
      right
      fin_cases i
      · exact ⟨0, rfl, rfl⟩
      · exact ⟨3, rfl, rfl⟩)
  refine ⟨C, σ, hC0, hσ0, hσ1, r, H, by rw [T.nMain_eq]; rfl, D, fun k h1 h2 => ?_⟩
  have := HR (fun k i => by fin_cases i <;> norm_num [exStore, exHouse, exTwoDays, exDay, Fin.sum_univ_two]) ?_ (by norm_num) H
    (by simpa using exTwoDays_repeats) hD HD k (fun _ _ _ _ _ _ => le_rfl) h1 h2
  · simpa using this
  · intro k i
    rw [e4]
    fin_cases i <;> norm_num [exStore, exHouse, exTwoDays, exDay, airCap]

/-- The hypotheses of `C111_rows_partial` are met by the empty house of panels; 40 steps after the start a row and the row a day later differ by at most
11 degrees. -/
example : ∃ r, coreCalc exTightPanels exHR (fun k : Fin 192 => exIdle ⟨k % 96, Nat.mod_lt _ (by norm_num)⟩) 4 2 2 0 = .ok r ∧ r.nMain.toNat = 192 ∧
    ∀ (h1 : 39 < r.nMain.toNat) (h2 : 39 + 96 < r.nMain.toNat), RowNear 11 (r.log ⟨39, h1⟩) (r.log ⟨39 + 96, h2⟩) := by
  have e4 : (3600 / ((4 : ℤ) : ℝ)) = 900 := by norm_num
  have hw : WellFormed exTightPanels exHR (3600 / ((4 : ℤ) : ℝ)) := by rw [e4]; exact exTightPanels_wellFormed
  have hloc : ∀ k i, 0 ≤ (exIdle k).vLocal i := fun k i => by fin_cases i <;> norm_num [exIdle, exDay]
  have hidle : ∀ k, Idle (exIdle k) := fun k => ⟨fun _ => rfl, fun _ => rfl, fun _ => rfl, fun _ => le_rfl⟩
  obtain ⟨r, H⟩ := C21_program_partial (data := fun k : Fin 192 => exIdle ⟨k % 96, Nat.mod_lt _ (by norm_num)⟩) (dMain := 2) (dRunUp := 2)
    (dRunUpBuild := 0) hw (fun _ => rfl) (fun _ => rfl) (fun k => hloc _) (by norm_num) (by norm_num) (by norm_num) (by norm_num) (by norm_num)
    (by norm_num)
  obtain ⟨_, _, _, _, T⟩ := coreCalc_ok H
  have hst : Storageless exTightPanels := ⟨fun _ _ => rfl, fun _ _ => rfl, fun _ => rfl, (exPanels_storageless 0).weights⟩
  have hv : ∀ i l, exTightPanels.vInt i l = 0 := by intro i l; fin_cases i <;> fin_cases l <;> simp [exTightPanels, exPanels]
  have hout : ∀ k, Outdoors (0 ≤ ·) (exIdle k) ∧ Outdoors (· ≤ 15) (exIdle k) ∧ (∀ i, 0 ≤ (exIdle k).vLocal i) ∧ Idle (exIdle k) := by
    intro k
    have hk : ((k : ℕ) : ℝ) ≤ 96 := by exact_mod_cast k.isLt.le
    refine ⟨⟨?_, fun j => ?_⟩, ⟨?_, fun j => ?_⟩, hloc k, hidle k⟩ <;> simp only [exIdle, exDay]
    · positivity
    · positivity
    · rw [div_le_iff₀ (by norm_num)]; linarith
    · rw [div_le_iff₀ (by norm_num)]; linarith
  refine ⟨r, H, by rw [T.nMain_eq]; rfl, fun h1 h2 => ?_⟩
  have key := C111_rows_partial (D := 15) (ρ := 0.94) (σ := 0.991) (w := fun _ => 0.01) hw hst (fun _ => rfl) hv rfl
    (by rw [e4]; exact exTightPanels_fading) ?_ ?_ ?_ (by norm_num) H (q := 96) ?_ (by norm_num) ?_ 39 (fun _ _ _ _ _ _ => le_refl _) h1 h2
  · have hle : (0.991 : ℝ) ^ ((0 * 4 * 24 : ℤ).toNat + 39 + 1) * 15 ≤ 11 := by norm_num
    exact ⟨fun i => (key.1 i).trans hle, fun i => (key.2 i).trans hle, fun i => (key.3 i).trans hle, fun i => (key.4 i).trans hle,
      fun i => (key.5 i).trans hle⟩
  · intro i
    simp only [surfaces, Finset.sum_filter, Fin.sum_univ_four]
    fin_cases i <;> simp [exTightPanels, exPanels, exHouse] <;> norm_num
  · intro k i
    fin_cases i <;> norm_num [exTightPanels, exPanels, exHouse, exIdle, exDay]
  · intro k i
    rw [e4]
    fin_cases i <;> norm_num [exTightPanels, exPanels, exHouse, exIdle, exDay, airCap]
  · intro n h0 h1 k k' hk hk'
    have e : (k' : ℕ) % 96 = (k : ℕ) % 96 := by omega
    simp only [e]
  · intro t ht i
    obtain ⟨⟨a, b⟩, c, d⟩ := idle_steps hw hst (fun _ => rfl) hv H (lo := 0) (hi := 15) (by norm_num) (fun k => hout _) ht i
    exact ⟨abs_le.2 ⟨by linarith, by linarith⟩, abs_le.2 ⟨by linarith, by linarith⟩⟩

/-- The hypotheses of `C111_settles_partial` are met by the house that stores heat, whose days repeat for ever from the start of the program. -/
example : ∃ (σ : ℝ) (ss : PreCalc (Fin 2) (Fin 4) 96) (L : ℕ → LogRow (Fin 2) (Fin 4)) (st : ℕ → Cond (Fin 2) (Fin 4)) (day : ℕ → List (TickVars (Fin 2) (Fin 4)))
    (K : ℝ), σ < 1 ∧ makePreCalc exStore exHR 900 exDay = .ok ss ∧ Days ss 900 (pyRange 0 96) st day ∧ st 0 = initialConditions (Fin 2) (Fin 4) ∧
      ∀ e j (hj : j < (day e).length), RowNear (K * σ ^ (e * 96)) (L j) (LogRow.ofTick (day e)[j]) := by
  have hloc : ∀ k i, 0 ≤ (exDay k).vLocal i := fun k i => by fin_cases i <;> norm_num [exDay]
  obtain ⟨ss, Hp⟩ : ∃ ss, makePreCalc exStore exHR 900 exDay = .ok ss := by
    unfold makePreCalc
    rw [ax_inv exStore_wellFormed]
    exact ⟨_, rfl⟩
  obtain ⟨st, day, HD, h0⟩ := days_exist (ss := ss) (dt := 900) (P := fun c => ∀ i, Legal (c.mode i)) (ns := pyRange 0 96) (by
    intro n hn c hc
    rw [mem_pyRange] at hn
    obtain ⟨ss', t, Hp', ht⟩ := C21_step_completes_partial (n := n) exStore_wellFormed (fun _ => rfl) (fun _ => rfl) hloc (c := c)
      (fun i => by rcases hc i with h | h | h | h <;> rw [h] <;> simp) ⟨by omega, by omega⟩
    have : ss' = ss := Except.ok.inj (Hp'.symm.trans Hp)
    subst this
    obtain ⟨k, hk⟩ := runTick_index ht
    exact ⟨t, ht, fun i => (step_mode Hp ht hk hc i).1⟩) (initialConditions (Fin 2) (Fin 4)) initial_legal
  obtain ⟨σ, hσ0, hσ1, HS⟩ := C111_settles_partial (w := fun _ => 0) exStore_wellFormed exStore_passive exStore_partitions rfl (fun _ => le_rfl)
    (by intro i; fin_cases i <;> norm_num [exStore, exHouse])
    (by
      intro i
      right
      fin_cases i
      · exact ⟨0, rfl, rfl⟩
      · exact ⟨3, rfl, rfl⟩)
  obtain ⟨L, HL⟩ := HS Hp (fun k i => by fin_cases i <;> norm_num [exStore, exHouse, exDay, Fin.sum_univ_two])
    (fun k i => by fin_cases i <;> norm_num [exStore, exHouse, exDay, airCap]) (fun _ _ => le_rfl) (pyRange 0 96)
    (by intro h; have := congrArg List.length h; simp [pyRange_length] at this)
  obtain ⟨K, hK⟩ := HL st day HD (by rw [h0]; exact fun _ _ _ => ⟨rfl, rfl⟩)
  refine ⟨σ, ss, L, st, day, K, hσ1, Hp, HD, h0, fun e j hj => ?_⟩
  have := hK e j hj
  rwa [pyRange_length] at this

/-- A step that ends in the state it began with, as `C111_cycle_stays` asks for: the house that a radiant heater keeps 15 K above the outdoor air. -/
theorem exHearth_cycle : ∃ ss t, makePreCalc exHearth exColdHR 900 exHearthDay = .ok ss ∧ Run ss 900 exHearthC [0] [t] ∧ after exHearthC [t] = exHearthC := by
  obtain ⟨ss, t, Hp, H, -, -, hlc, -, S⟩ := exHearth_still
  refine ⟨ss, t, Hp, .cons H (.nil _), ?_⟩
  obtain ⟨ivs, k, hi, hss, hk, e⟩ := step_eqs Hp H
  subst hss
  obtain ⟨hmode, -⟩ := exHearth_target (o := t.ot 0) (by
    have := e.ot 0
    simpa [exHearthC, preCalcOf, exHearthDay] using this)
  have hwall : t.thetaS 0 = hearthT := by
    have h1 : t.qSrf 0 = 7.5 * (hearthL / 150) := congrFun S.flux 0
    have h2 : t.thetaEi 0 = hearthT + hearthL / 150 := congrFun S.equivalent 0
    have h3 := congrFun e.qSrf 0
    simp only [Tick.qSrf, preCalcOf] at h3
    rw [h1, h2] at h3
    norm_num [exHearth, exStove, exCold, exColdHR] at h3
    linarith
  have hrac : ∀ i, (t.rac i).brmx = 0 ∧ (t.rac i).brxc = 0 := by
    intro i
    rw [Subsingleton.elim i 0]
    rw [e.rac]
    simp only [Tick.rac, hlc]
    unfold getDehumidCoeff
    norm_num
  have hx : t.xR = 0 := by
    obtain ⟨hdet, hx⟩ := e.xR
    have h0 : Tick.brxc t.brxcNonDh t.rac = 0 := by
      funext i
      rw [Subsingleton.elim i 0]
      simp only [Tick.brxc, (hrac 0).2, e.brxcNonDh, Tick.brxcNonDh, e.xHum, Tick.xHum]
      norm_num [preCalcOf, exHearth, exStove, exCold, exHearthC, exHearthDay]
    rw [h0] at hx
    exact Matrix.eq_zero_of_mulVec_eq_zero hdet hx
  have hf : t.xFrt = exHearthC.xFrt := by
    funext i
    rw [Subsingleton.elim i 0, e.xFrt]
    norm_num [Tick.xFrt, preCalcOf, exHearth, exStove, exCold, exHearthC]
  have hmrt : t.thetaMrt = exHearthC.thetaMrt := by
    funext i
    rw [Subsingleton.elim i 0, e.thetaMrt]
    have : (Tick.thetaMrt (preCalcOf exHearth exColdHR 900 exHearthDay ivs) t.thetaS) 0 = exHearth.fMrtHumMat.mulVec t.thetaS 0 := rfl
    rw [this, fMrtHum_mulVec, exHearth_surfaces, Finset.sum_singleton, hwall]
    simp [exHearth, exStove, exCold, exHearthC]
  have hm : (fun i => (t.ot i).mode) = exHearthC.mode := by
    funext i
    rw [Subsingleton.elim i 0, hmode]
    rfl
  have h1 := S.room
  have h2 := S.furniture
  have h3 := S.flux
  have h4 := S.equivalent
  have h5 := S.absorbed
  have h6 := S.transmitted
  simp only [TickVars.next] at h1 h2 h3 h4 h5 h6
  show t.next = exHearthC
  simp only [TickVars.next, h1, h2, h3, h4, h5, h6, hx, hf, hmrt, hm]
  rfl

end HLC
