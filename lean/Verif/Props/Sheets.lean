import Verif.Spec.Sheets
import Verif.Props.Program
import Verif.Props.Files

/-!
# Tables that are too short (C133)
-/

namespace HLC

open Spec

set_option linter.unusedSectionVars false

section
variable {I : Type} [Fintype I] [DecidableEq I] {m N W : ℕ} {h : House I (Fin m)} {hR : Fin m → ℝ}

theorem tickAt_column (dt : ℝ) (ivs : Matrix (Fin m) (Fin m) ℝ) (data : Fin N → Record I (Fin m)) (k : Fin N) (c : Cond I (Fin m)) :
    tickAt (preCalcOf h hR dt (fun _ : Fin 1 => data k) ivs) dt 0 c = tickAt (preCalcOf h hR dt data ivs) dt k c := rfl

theorem foldlM_congr_mem {σ : Type} {f g : σ → ℤ → Except PyErr σ} {ns : List ℤ} (s : σ) (H : ∀ n ∈ ns, ∀ s, f s n = g s n) :
    ns.foldlM f s = ns.foldlM g s := by
  induction ns generalizing s with
  | nil => rfl
  | cons n ns ih =>
    rw [List.foldlM_cons, List.foldlM_cons, H n (by simp) s]
    simp only [bind, Except.bind]
    split
    · rfl
    · exact ih _ fun k hk => H k (List.mem_cons_of_mem _ hk)

theorem sheetTick_eq {S : Sheets I (Fin m) W} {dt : ℝ} {ivs : Matrix (Fin m) (Fin m) ℝ} {data : Fin N → Record I (Fin m)} {n : ℤ}
    (hS : S.row n = (pyIndex N n).map data) {M : ℕ} (b : Bool) (s : Cond I (Fin m) × Logger I (Fin m) M) :
    sheetTick h hR dt ivs S b s n = runTickLogged n dt (preCalcOf h hR dt data ivs) s.1 s.2 b := by
  unfold sheetTick runTickLogged runTick
  rw [hS]
  cases pyIndex N n with
  | error e => rfl
  | ok k =>
    simp only [Except.map, bind, Except.bind]
    rw [tickAt_column]

/-- **C133 (what is calculated).** If tables of any lengths give in all steps of the building the records that `data` has there, the calculation is that
with `data`: errors, ground, rows of the log and final state. -/
theorem C133_rows (S : Sheets I (Fin m) N) (data : Fin N → Record I (Fin m)) (hourly dMain dRunUp dRunUpBuild : ℤ)
    (hlen : S.nSun = S.nOut ∨ S.nSun = 1 ∨ S.nOut = 1) (hw : ∀ k, S.thetaO k = (data k).thetaO)
    (hrow : ∀ n, (-(dRunUpBuild * hourly * 24) ≤ n ∧ n < 0) ∨ (0 ≤ n ∧ n < dMain * hourly * 24) → S.row n = (pyIndex N n).map data) :
    sheetCalc h hR S hourly dMain dRunUp dRunUpBuild = (coreCalc h hR data hourly dMain dRunUp dRunUpBuild).map withoutParameters := by
  unfold sheetCalc coreCalc
  cases hst : getNStep hourly dMain dRunUp dRunUpBuild with
  | error e => rfl
  | ok st =>
    have est : st = ⟨dMain * hourly * 24, dRunUp * hourly * 24, dRunUpBuild * hourly * 24⟩ := by
      unfold getNStep at hst
      split_ifs at hst
      exact (Except.ok.inj hst).symm
    subst est
    cases hdt : deltaT hourly with
    | error e => rfl
    | ok dt =>
      simp only [makePreCalc]
      cases hi : npInv (h.ax hR) with
      | error e => rfl
      | ok ivs =>
        have hb : broadcast S.nSun S.nOut = .ok () := if_pos hlen
        have hg : sheetGround h hR S = makePreCalcGround (preCalcOf h hR dt data ivs) := by
          unfold sheetGround makePreCalcGround
          have : S.thetaO = fun k => (data k).thetaO := funext hw
          simp only [this]
          rfl
        simp only [bind, Except.bind, hb, hg]
        cases hgr : (pyRange (-(dRunUp * hourly * 24)) (-(dRunUpBuild * hourly * 24))).foldlM
            (groundTick (makePreCalcGround (preCalcOf h hR dt data ivs))) (initialGround (makePreCalcGround (preCalcOf h hR dt data ivs)).nGrounds) with
        | error e => rfl
        | ok gc =>
          simp only
          cases hl : newLogger I (Fin m) (dMain * hourly * 24) with
          | error e => rfl
          | ok log0 =>
            simp only
            rw [show (preCalcOf h hR dt data ivs).isGround = h.isGround from rfl]
            cases hu : updateByGround h.isGround (initialConditions I (Fin m)) gc with
            | error e => rfl
            | ok c0 =>
              simp only
              have e1 : (pyRange (-(dRunUpBuild * hourly * 24)) 0).foldlM (sheetTick h hR dt ivs S true) (c0, log0)
                  = (pyRange (-(dRunUpBuild * hourly * 24)) 0).foldlM
                    (fun s n => runTickLogged n dt (preCalcOf h hR dt data ivs) s.1 s.2 true) (c0, log0) :=
                foldlM_congr_mem _ fun n hn s => by
                  rw [mem_pyRange] at hn
                  exact sheetTick_eq (hrow n (.inl hn)) true s
              rw [e1]
              split
              · rfl
              · rename_i s1 _
                have e2 : (pyRange 0 (dMain * hourly * 24)).foldlM (sheetTick h hR dt ivs S false) s1
                    = (pyRange 0 (dMain * hourly * 24)).foldlM
                      (fun s n => runTickLogged n dt (preCalcOf h hR dt data ivs) s.1 s.2 false) s1 :=
                  foldlM_congr_mem _ fun n hn s => by
                    rw [mem_pyRange] at hn
                    exact sheetTick_eq (hrow n (.inr hn)) false s
                rw [e2]
                generalize (pyRange 0 (dMain * hourly * 24)).foldlM
                      (fun s n => runTickLogged n dt (preCalcOf h hR dt data ivs) s.1 s.2 false) s1 = z
                cases z <;> rfl

/-- **C133 (one length).** With tables of one length the calculation is `coreCalc`. -/
theorem C133_equal (data : Fin N → Record I (Fin m)) (hourly dMain dRunUp dRunUpBuild : ℤ) :
    sheetCalc h hR (equalSheets data) hourly dMain dRunUp dRunUpBuild = (coreCalc h hR data hourly dMain dRunUp dRunUpBuild).map withoutParameters := by
  refine C133_rows _ _ _ _ _ _ (.inl rfl) (fun _ => rfl) fun n _ => ?_
  unfold Sheets.row
  simp only [equalSheets]
  cases pyIndex N n <;> rfl

theorem row_ok {S : Sheets I (Fin m) W} {n : ℤ} {d : Record I (Fin m)} (H : S.row n = .ok d) : AtLeast S (n + 1) ∧ AtLeast S (-n) := by
  have key : ∀ {L : ℕ} {k : Fin L}, pyIndex L n = .ok k → n + 1 ≤ L ∧ -n ≤ L := by
    intro L k hk
    unfold pyIndex at hk
    split_ifs at hk <;> omega
  unfold Sheets.row at H
  simp only [bind_ok_iff] at H
  obtain ⟨a, ha, o, ho, p, hp, q, hq, x, hx, v, hv, s, hs, w, hw, -⟩ := H
  exact ⟨⟨(key hw).1, (key hv).1, (key hq).1, (key hx).1, (key hp).1, (key ha).1, (key hs).1, (key ho).1⟩,
    ⟨(key hw).2, (key hv).2, (key hq).2, (key hx).2, (key hp).2, (key ha).2, (key hs).2, (key ho).2⟩⟩

theorem foldlM_each {σ : Type} {f : σ → ℤ → Except PyErr σ} {ns : List ℤ} {s r : σ} (H : ns.foldlM f s = .ok r) : ∀ n ∈ ns, ∃ s s', f s n = .ok s' := by
  induction ns generalizing s with
  | nil => simp
  | cons n ns ih =>
    rw [List.foldlM_cons] at H
    simp only [bind, Except.bind] at H
    split at H
    · cases H
    rename_i s' hs'
    intro k hk
    rcases List.mem_cons.1 hk with rfl | hk
    · exact ⟨_, _, hs'⟩
    · exact ih H k hk

theorem atLeast_zero (S : Sheets I (Fin m) W) {k : ℤ} (hk : k ≤ 0) : AtLeast S k := by
  constructor <;> omega

/-- **C133 (too short).** A calculation that completes has found in every table at least as many rows as there are steps, and at least as many as there are
steps of the run-up of the building; the weather covers the run-up of the ground. A table with a row missing is refused, if the whole of the table is
calculated. -/
theorem C133_refused (S : Sheets I (Fin m) W) (hourly dMain dRunUp dRunUpBuild : ℤ) {r : SheetResult I m}
    (H : sheetCalc h hR S hourly dMain dRunUp dRunUpBuild = .ok r) :
    AtLeast S (dMain * hourly * 24) ∧ AtLeast S (dRunUpBuild * hourly * 24) ∧ dRunUp * hourly * 24 ≤ W ∧
      (S.nSun = S.nOut ∨ S.nSun = 1 ∨ S.nOut = 1) := by
  unfold sheetCalc at H
  simp only [bind_ok_iff] at H
  obtain ⟨st, hst, dt, hdt, ivs, hi, _, hb, gc, hg, log0, hl, c0, hc, s1, h1, s2, h2, -⟩ := H
  have est : st = ⟨dMain * hourly * 24, dRunUp * hourly * 24, dRunUpBuild * hourly * 24⟩ := by
    unfold getNStep at hst
    split_ifs at hst
    exact (Except.ok.inj hst).symm
  subst est
  have rows : ∀ (b : Bool) (a z : ℤ) (s s' : Cond I (Fin m) × Logger I (Fin m) (dMain * hourly * 24).toNat),
      (pyRange a z).foldlM (sheetTick h hR dt ivs S b) s = .ok s' → ∀ n, a ≤ n → n < z → AtLeast S (n + 1) ∧ AtLeast S (-n) := by
    intro b a z s s' hf n ha hz
    obtain ⟨u, u', hu⟩ := foldlM_each hf n (mem_pyRange.2 ⟨ha, hz⟩)
    unfold sheetTick at hu
    simp only [bind_ok_iff] at hu
    obtain ⟨d, hd, -⟩ := hu
    exact row_ok hd
  refine ⟨?_, ?_, ?_, ?_⟩
  · rcases le_or_gt (dMain * hourly * 24) 0 with h0 | h0
    · exact atLeast_zero S h0
    · have := (rows false _ _ _ _ h2 (dMain * hourly * 24 - 1) (by omega) (by simp only; omega)).1
      rwa [sub_add_cancel] at this
  · rcases le_or_gt (dRunUpBuild * hourly * 24) 0 with h0 | h0
    · exact atLeast_zero S h0
    · have := (rows true _ _ _ _ h1 (-(dRunUpBuild * hourly * 24)) le_rfl (by omega)).2
      rwa [neg_neg] at this
  · rcases le_or_gt (dRunUp * hourly * 24) 0 with h0 | h0
    · omega
    rcases le_or_gt (dRunUp * hourly * 24) (dRunUpBuild * hourly * 24) with h3 | h3
    · have := (rows true _ _ _ _ h1 (-(dRunUpBuild * hourly * 24)) le_rfl (by omega)).2.weather
      omega
    · obtain ⟨u, u', hu⟩ := foldlM_each hg (-(dRunUp * hourly * 24)) (mem_pyRange.2 ⟨le_rfl, by simp only; omega⟩)
      unfold groundTick at hu
      simp only [bind_ok_iff] at hu
      obtain ⟨k, hk, -⟩ := hu
      unfold pyIndex at hk
      split_ifs at hk <;> omega
  · unfold broadcast at hb
    split_ifs at hb with hc
    exact hc

theorem pyIndex_front {L : ℕ} {n : ℤ} (h0 : 0 ≤ n) (h1 : n < L) : pyIndex L n = .ok ⟨n.toNat, by omega⟩ := by
  unfold pyIndex
  rw [dif_pos ⟨h0, h1⟩]

theorem pyIndex_back {L : ℕ} {n : ℤ} (h0 : n < 0) (h1 : -n ≤ L) : pyIndex L n = .ok ⟨((L : ℤ) + n).toNat, by omega⟩ := by
  unfold pyIndex
  rw [dif_neg (by omega), dif_pos ⟨h0, by omega⟩]

theorem row_front {S : Sheets I (Fin m) N} {data : Fin N → Record I (Fin m)} (hS : CutOf S data) {n main : ℤ} (h0 : 0 ≤ n) (h1 : n < main)
    (hm : AtLeast S main) : S.row n = (pyIndex N n).map (shifted S data main) := by
  obtain ⟨m1, m2, m3, m4, m5, m6, m7, m8⟩ := hm
  unfold Sheets.row
  rw [pyIndex_front h0 (by omega : n < S.nDemand), pyIndex_front h0 (by omega : n < S.nOut), pyIndex_front h0 (by omega : n < S.nPeople),
    pyIndex_front h0 (by omega : n < S.nHeat), pyIndex_front h0 (by omega : n < S.nMoist), pyIndex_front h0 (by omega : n < S.nVent),
    pyIndex_front h0 (by omega : n < S.nSun), pyIndex_front h0 (by omega : n < (N : ℤ))]
  have hk : ((n.toNat : ℕ) : ℤ) < main := by omega
  have hN : n.toNat < N := by omega
  simp only [bind, Except.bind, Except.map, shifted, hk, if_true]
  rw [hS.temperature, hS.humidity, hS.vent.2 _ hN, hS.heat.2 _ hN, hS.moisture.2 _ hN, hS.people.2 _ hN, hS.demand.2 _ hN, hS.sun.2 _ hN, hS.outdoors.2 _ hN]

theorem row_back {S : Sheets I (Fin m) N} {data : Fin N → Record I (Fin m)} (hS : CutOf S data) {n main B : ℤ} (h0 : n < 0) (h1 : -B ≤ n)
    (hm : AtLeast S B) (hN : main + B ≤ N) : S.row n = (pyIndex N n).map (shifted S data main) := by
  obtain ⟨m1, m2, m3, m4, m5, m6, m7, m8⟩ := hm
  unfold Sheets.row
  rw [pyIndex_back h0 (by omega : -n ≤ S.nDemand), pyIndex_back h0 (by omega : -n ≤ S.nOut), pyIndex_back h0 (by omega : -n ≤ S.nPeople),
    pyIndex_back h0 (by omega : -n ≤ S.nHeat), pyIndex_back h0 (by omega : -n ≤ S.nMoist), pyIndex_back h0 (by omega : -n ≤ S.nVent),
    pyIndex_back h0 (by omega : -n ≤ S.nSun), pyIndex_back h0 (by omega : -n ≤ (N : ℤ))]
  have hk : ¬ ((((N : ℤ) + n).toNat : ℕ) : ℤ) < main := by omega
  have key : ∀ L : ℕ, B ≤ L → L ≤ N → ∀ h2 : ((L : ℤ) + n).toNat < N, (⟨((L : ℤ) + n).toNat, h2⟩ : Fin N) = fromEnd L ⟨((N : ℤ) + n).toNat, by omega⟩ := by
    intro L hB hL h2
    apply Fin.ext
    simp only [fromEnd]
    omega
  obtain ⟨a1, b1⟩ := hS.vent
  obtain ⟨a2, b2⟩ := hS.heat
  obtain ⟨a3, b3⟩ := hS.moisture
  obtain ⟨a4, b4⟩ := hS.people
  obtain ⟨a5, b5⟩ := hS.demand
  obtain ⟨a6, b6⟩ := hS.sun
  obtain ⟨a7, b7⟩ := hS.outdoors
  simp only [bind, Except.bind, Except.map, shifted, hk, if_false]
  rw [hS.temperature, hS.humidity, b1 _ (by simp only; omega), b2 _ (by simp only; omega), b3 _ (by simp only; omega), b4 _ (by simp only; omega),
    b5 _ (by simp only; omega), b6 _ (by simp only; omega), b7 _ (by simp only; omega), key _ m2 a1, key _ m3 a2, key _ m4 a3, key _ m5 a4, key _ m6 a5,
    key _ m7 a6, key _ m8 a7]

/-- **C133 (cut tables).** A calculation from tables that are cut, but not shorter than the calculated period and the run-up, is that from the complete tables
with the run-up taken from the end of what is left of each table. -/
theorem C133_cut {S : Sheets I (Fin m) N} {data : Fin N → Record I (Fin m)} (hS : CutOf S data) (hourly dMain dRunUp dRunUpBuild : ℤ)
    (hsun : S.nSun = S.nOut) (hm : AtLeast S (dMain * hourly * 24)) (hB : AtLeast S (dRunUpBuild * hourly * 24))
    (hN : dMain * hourly * 24 + dRunUpBuild * hourly * 24 ≤ N) :
    sheetCalc h hR S hourly dMain dRunUp dRunUpBuild
      = (coreCalc h hR (shifted S data (dMain * hourly * 24)) hourly dMain dRunUp dRunUpBuild).map withoutParameters := by
  refine C133_rows _ _ _ _ _ _ (.inl hsun) (fun k => ?_) fun n hn => ?_
  · rw [hS.temperature]
    unfold shifted
    split_ifs <;> rfl
  · rcases hn with ⟨h1, h2⟩ | ⟨h1, h2⟩
    · exact row_back hS h2 h1 hB hN
    · exact row_front hS h1 h2 hm

/-- **C133 (violation).** In a house without radiant systems a calculation from cut tables completes, whichever rows are missing, as long as the tables are not
shorter than the calculated period and the run-up. -/
theorem C133_violated [Nonempty I] {S : Sheets I (Fin m) N} {data : Fin N → Record I (Fin m)} (hS : CutOf S data) (hourly dMain dRunUp dRunUpBuild : ℤ)
    (hw : WellFormed h hR (3600 / (hourly : ℝ))) (hH : ∀ i, h.isRadHeating i = false) (hC : ∀ i, h.isRadCooling i = false)
    (hloc : ∀ k i, 0 ≤ (data k).vLocal i) (h0 : 0 < hourly) (hM : 0 ≤ dMain) (hB0 : 0 ≤ dRunUpBuild) (hd : dRunUpBuild ≤ dRunUp)
    (hsun : S.nSun = S.nOut) (hm : AtLeast S (dMain * hourly * 24)) (hB : AtLeast S (dRunUpBuild * hourly * 24)) (hR' : dRunUp * hourly * 24 ≤ N)
    (hN : dMain * hourly * 24 + dRunUpBuild * hourly * 24 ≤ N) :
    ∃ r, coreCalc h hR (shifted S data (dMain * hourly * 24)) hourly dMain dRunUp dRunUpBuild = .ok r ∧
      sheetCalc h hR S hourly dMain dRunUp dRunUpBuild = .ok (withoutParameters r) := by
  obtain ⟨r, e⟩ := C21_program_partial (data := shifted S data (dMain * hourly * 24)) hw hH hC (fun k i => by
    unfold shifted
    split_ifs
    · exact hloc k i
    · exact hloc _ i) h0 hM hB0 hd hR' hm.weather
  exact ⟨r, e, by rw [C133_cut hS _ _ _ _ hsun hm hB hN, e]; rfl⟩

end

end HLC
