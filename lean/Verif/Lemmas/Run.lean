import Verif.Model.Core
import Verif.Spec.Run
import Verif.Lemmas.Tick

/-!
# From the program's loops to runs
-/

namespace HLC

set_option linter.unusedSectionVars false

open Spec

section
variable {I J : Type} [Fintype I] [DecidableEq I] [Fintype J] [DecidableEq J] {N : ℕ} {ss : PreCalc I J N} {dt : ℝ}

theorem Spec.Run.length_eq {c : Cond I J} {ns : List ℤ} {ts : List (TickVars I J)} (H : Run ss dt c ns ts) : ts.length = ns.length := by
  induction H with
  | nil c => rfl
  | cons _ _ ih => simp [ih]

theorem Spec.Run.append {c : Cond I J} {ns ns' : List ℤ} {ts ts' : List (TickVars I J)} (H : Run ss dt c ns ts)
    (H' : Run ss dt (after c ts) ns' ts') : Run ss dt c (ns ++ ns') (ts ++ ts') := by
  induction H with
  | nil c => exact H'
  | cons h1 _ ih => exact Run.cons h1 (ih H')

theorem after_append (c : Cond I J) (ts ts' : List (TickVars I J)) : after c (ts ++ ts') = after (after c ts) ts' := by
  induction ts generalizing c with
  | nil => rfl
  | cons t ts ih => exact ih t.next

theorem Spec.Run.split {c : Cond I J} {ns ns' : List ℤ} {ts : List (TickVars I J)} (H : Run ss dt c (ns ++ ns') ts) :
    ∃ t1 t2, ts = t1 ++ t2 ∧ Run ss dt c ns t1 ∧ Run ss dt (after c t1) ns' t2 := by
  induction ns generalizing c ts with
  | nil => exact ⟨[], ts, rfl, Run.nil c, H⟩
  | cons n ns ih =>
    cases H with
    | cons h1 h2 =>
      obtain ⟨t1, t2, e, r1, r2⟩ := ih h2
      exact ⟨_ :: t1, t2, by rw [e]; rfl, Run.cons h1 r1, r2⟩

/-- A run is determined by its start and step numbers. -/
theorem Spec.Run.unique {c : Cond I J} {ns : List ℤ} {ts ts' : List (TickVars I J)} (H : Run ss dt c ns ts) (H' : Run ss dt c ns ts') :
    ts = ts' := by
  induction H generalizing ts' with
  | nil c => cases H'; rfl
  | cons h1 _ ih =>
    cases H' with
    | cons h1' h2' =>
      have e := Except.ok.inj (h1.symm.trans h1')
      subst e
      rw [ih h2']

/-- An invariant kept by every executed step holds before and after every step. -/
theorem Spec.Run.invariant {P : Cond I J → Prop} {Q : ℤ → TickVars I J → Prop} {c : Cond I J} {ns : List ℤ} {ts : List (TickVars I J)}
    (H : Run ss dt c ns ts) (h0 : P c)
    (hs : ∀ n ∈ ns, ∀ c t, P c → runTick n dt ss c = .ok t → Q n t → P t.next)
    (hq : ∀ p ∈ ns.zip ts, Q p.1 p.2) : P (after c ts) ∧ ∀ t ∈ ts, P t.next := by
  induction H with
  | nil c => exact ⟨h0, by simp⟩
  | cons h1 _ ih =>
    rename_i n ns t ts _
    have p1 : P t.next := hs n (by simp) _ t h0 h1 (hq (n, t) (by simp))
    obtain ⟨a, b⟩ := ih p1 (fun n hn => hs n (List.mem_cons_of_mem _ hn)) (fun p hp => hq p (by simp [hp]))
    refine ⟨a, ?_⟩
    intro t' ht'
    rcases List.mem_cons.mp ht' with rfl | h
    · exact p1
    · exact b t' h

/-- Every executed step starts from some state of the run. -/
theorem Spec.Run.step_mem {c : Cond I J} {ns : List ℤ} {ts : List (TickVars I J)} (H : Run ss dt c ns ts) {p : ℤ × TickVars I J}
    (hp : p ∈ ns.zip ts) : ∃ c', runTick p.1 dt ss c' = .ok p.2 := by
  induction H with
  | nil c => simp at hp
  | cons h1 _ ih =>
    simp only [List.zip_cons_cons, List.mem_cons] at hp
    rcases hp with rfl | hp
    · exact ⟨_, h1⟩
    · exact ih hp
end

section
variable {I : Type} [Fintype I] [DecidableEq I] {m N : ℕ}

theorem runTickLogged_ok {M : ℕ} {n : ℤ} {dt : ℝ} {ss : PreCalc I (Fin m) N} {c : Cond I (Fin m)} {log : Logger I (Fin m) M}
    {b : Bool} {r : Cond I (Fin m) × Logger I (Fin m) M} (H : runTickLogged n dt ss c log b = .ok r) :
    ∃ t, runTick n dt ss c = .ok t ∧ r.1 = t.next ∧
      (b = true → r.2 = log) ∧ (b = false → ∃ k, pyIndex M n = .ok k ∧ r.2 = Function.update log k (LogRow.ofTick t)) := by
  unfold runTickLogged at H
  simp only [bind, Except.bind] at H
  split at H
  · cases H
  rename_i t ht
  split at H
  · cases H
  rename_i log' hlog
  have e := Except.ok.inj H
  refine ⟨t, ht, by rw [← e], ?_, ?_⟩
  · rintro rfl
    simp only [logUnless, Bool.not_true, Bool.false_eq_true, if_false] at hlog
    rw [← e]; exact (Except.ok.inj hlog).symm
  · rintro rfl
    simp only [logUnless, Bool.not_false, if_true, logWrite, bind, Except.bind] at hlog
    split at hlog
    · cases hlog
    rename_i k hk
    exact ⟨k, hk, by rw [← e]; exact (Except.ok.inj hlog).symm⟩

theorem foldlM_runUp {M : ℕ} {dt : ℝ} {ss : PreCalc I (Fin m) N} {ns : List ℤ} {s r : Cond I (Fin m) × Logger I (Fin m) M}
    (H : ns.foldlM (fun s n => runTickLogged n dt ss s.1 s.2 true) s = .ok r) :
    ∃ ts, Run ss dt s.1 ns ts ∧ r.1 = after s.1 ts ∧ r.2 = s.2 := by
  induction ns generalizing s with
  | nil => rw [List.foldlM_nil] at H; rw [← Except.ok.inj H]; exact ⟨[], Run.nil _, rfl, rfl⟩
  | cons n ns ih =>
    rw [List.foldlM_cons] at H
    simp only [bind, Except.bind] at H
    split at H
    · cases H
    rename_i s' hs'
    obtain ⟨t, h1, h2, h3, -⟩ := runTickLogged_ok hs'
    obtain ⟨ts, g1, g2, g3⟩ := ih H
    rw [h2] at g1 g2
    exact ⟨t :: ts, Run.cons h1 g1, g2, g3.trans (h3 rfl)⟩

theorem foldlM_main {M : ℕ} {dt : ℝ} {ss : PreCalc I (Fin m) N} {ns : List ℤ} {s r : Cond I (Fin m) × Logger I (Fin m) M}
    (H : ns.foldlM (fun s n => runTickLogged n dt ss s.1 s.2 false) s = .ok r) (hnd : ns.Nodup)
    (hr : ∀ n ∈ ns, 0 ≤ n ∧ n < M) :
    ∃ ts, Run ss dt s.1 ns ts ∧ r.1 = after s.1 ts ∧
      (∀ p ∈ ns.zip ts, ∀ k : Fin M, (k : ℤ) = p.1 → r.2 k = LogRow.ofTick p.2) ∧
      (∀ k : Fin M, (k : ℤ) ∉ ns → r.2 k = s.2 k) := by
  induction ns generalizing s with
  | nil => rw [List.foldlM_nil] at H; rw [← Except.ok.inj H]; exact ⟨[], Run.nil _, rfl, by simp, fun _ _ => rfl⟩
  | cons n ns ih =>
    rw [List.foldlM_cons] at H
    simp only [bind, Except.bind] at H
    split at H
    · cases H
    rename_i s' hs'
    obtain ⟨t, h1, h2, -, h3⟩ := runTickLogged_ok hs'
    obtain ⟨k, hk, h4⟩ := h3 rfl
    obtain ⟨hn0, hnM⟩ := hr n (by simp)
    have hkn : (k : ℤ) = n := by
      unfold pyIndex at hk
      rw [dif_pos ⟨hn0, hnM⟩] at hk
      rw [← Except.ok.inj hk]
      simp [hn0]
    rw [List.nodup_cons] at hnd
    obtain ⟨ts, g1, g2, g3, g4⟩ := ih H hnd.2 (fun n hn => hr n (List.mem_cons_of_mem _ hn))
    rw [h2] at g1 g2
    refine ⟨t :: ts, Run.cons h1 g1, g2, ?_, ?_⟩
    · intro p hp k' hk'
      simp only [List.zip_cons_cons, List.mem_cons] at hp
      rcases hp with rfl | hp
      · have e : k' = k := by
          apply Fin.ext
          have : (k' : ℤ) = (k : ℤ) := by rw [hk', hkn]
          exact_mod_cast this
        have hnot : (k' : ℤ) ∉ ns := by rw [hk']; exact hnd.1
        rw [g4 k' hnot, h4, e, Function.update_self]
      · exact g3 p hp k' hk'
    · intro k' hk'
      rw [List.mem_cons, not_or] at hk'
      rw [g4 k' hk'.2, h4, Function.update_of_ne]
      intro e
      apply hk'.1
      rw [e, hkn]

theorem foldlM_ground {ppg : PreCalcGround N} {ns : List ℤ} {g r : List GroundCell}
    (H : ns.foldlM (groundTick ppg) g = .ok r) : ∃ gs, GroundRun ppg g ns gs ∧ r = lastGround g gs := by
  induction ns generalizing g with
  | nil => rw [List.foldlM_nil] at H; rw [← Except.ok.inj H]; exact ⟨[], GroundRun.nil _, rfl⟩
  | cons n ns ih =>
    rw [List.foldlM_cons] at H
    simp only [bind, Except.bind] at H
    split at H
    · cases H
    rename_i g' hg'
    obtain ⟨gs, h1, h2⟩ := ih H
    exact ⟨g' :: gs, GroundRun.cons hg' h1, h2⟩

theorem pyRange_nodup (a b : ℤ) : (pyRange a b).Nodup := by
  unfold pyRange
  apply List.Nodup.map _ List.nodup_range
  intro x y hxy
  simp only at hxy
  omega

theorem mem_pyRange {a b n : ℤ} : n ∈ pyRange a b ↔ a ≤ n ∧ n < b := by
  unfold pyRange
  simp only [List.mem_map, List.mem_range]
  constructor
  · rintro ⟨k, hk, rfl⟩; omega
  · rintro ⟨h1, h2⟩; exact ⟨(n - a).toNat, by omega, by omega⟩

theorem pyRange_length (a b : ℤ) : (pyRange a b).length = (b - a).toNat := by simp [pyRange]

theorem pyRange_getElem (a b : ℤ) (k : ℕ) (hk : k < (pyRange a b).length) : (pyRange a b)[k] = a + k := by simp [pyRange]

theorem pyRange_append {a b c : ℤ} (h1 : a ≤ b) (h2 : b ≤ c) : pyRange a b ++ pyRange b c = pyRange a c := by
  apply List.ext_getElem
  · rw [List.length_append, pyRange_length, pyRange_length, pyRange_length]; omega
  · intro k h3 h4
    rw [pyRange_getElem]
    rw [List.getElem_append]
    split_ifs with h5
    · rw [pyRange_getElem]
    · rw [pyRange_getElem]
      have := pyRange_length a b
      omega

/-- Everything a completed `calc` has done. -/
structure CalcTrace (h : House I (Fin m)) (hR : Fin m → ℝ) (data : Fin N → Record I (Fin m)) (hourly dMain dRunUp dRunUpBuild : ℤ)
    (r : CalcResult I m N) (gs : List (List GroundCell)) (c0 : Cond I (Fin m)) (up mn : List (TickVars I (Fin m))) : Prop where
  days : dRunUpBuild ≤ dRunUp
  hourly_ne : hourly ≠ 0
  nMain_eq : r.nMain = dMain * hourly * 24
  nMain_nonneg : 0 ≤ r.nMain
  pre : makePreCalc h hR (3600 / (hourly : ℝ)) data = .ok r.ss
  ground : GroundRun (makePreCalcGround r.ss) (initialGround (makePreCalcGround r.ss).nGrounds)
    (pyRange (-(dRunUp * hourly * 24)) (-(dRunUpBuild * hourly * 24))) gs
  ground_last : r.ground = lastGround (initialGround (makePreCalcGround r.ss).nGrounds) gs
  start : updateByGround r.ss.isGround (initialConditions I (Fin m)) r.ground = .ok c0
  runUp : Run r.ss (3600 / (hourly : ℝ)) c0 (pyRange (-(dRunUpBuild * hourly * 24)) 0) up
  main : Run r.ss (3600 / (hourly : ℝ)) (after c0 up) (pyRange 0 (dMain * hourly * 24)) mn
  final : r.final = after c0 (up ++ mn)
  logged : ∀ (k : Fin r.nMain.toNat) (hk : (k : ℕ) < mn.length), r.log k = LogRow.ofTick mn[(k : ℕ)]
  mn_length : mn.length = r.nMain.toNat

theorem coreCalc_ok {h : House I (Fin m)} {hR : Fin m → ℝ} {data : Fin N → Record I (Fin m)}
    {hourly dMain dRunUp dRunUpBuild : ℤ} {r : CalcResult I m N}
    (H : coreCalc h hR data hourly dMain dRunUp dRunUpBuild = .ok r) :
    ∃ gs c0 up mn, CalcTrace h hR data hourly dMain dRunUp dRunUpBuild r gs c0 up mn := by
  unfold coreCalc at H
  simp only [bind, Except.bind] at H
  split at H
  · cases H
  rename_i st hst
  unfold getNStep at hst
  split_ifs at hst with hd
  have hst' := Except.ok.inj hst
  subst hst'
  simp only [nStepMain, nStepRunUp, nStepRunUpBuild] at H
  split at H
  · cases H
  rename_i dt hdt
  unfold deltaT at hdt
  split_ifs at hdt with hh
  have hdt' := Except.ok.inj hdt
  subst hdt'
  split at H
  · cases H
  rename_i ss hss
  split at H
  · cases H
  rename_i gc hgc
  split at H
  · cases H
  rename_i log0 hlog0
  split at H
  · cases H
  rename_i c0 hc0
  split at H
  · cases H
  rename_i s1 hs1
  split at H
  · cases H
  rename_i s2 hs2
  have e := Except.ok.inj H
  unfold newLogger at hlog0
  split_ifs at hlog0 with hneg
  obtain ⟨gs, g1, g2⟩ := foldlM_ground hgc
  obtain ⟨up, u1, u2, u3⟩ := foldlM_runUp hs1
  obtain ⟨mn, m1, m2, m3, m4⟩ := foldlM_main hs2 (pyRange_nodup _ _) (fun n hn => by
    rw [mem_pyRange] at hn; exact ⟨hn.1, by omega⟩)
  have hlen : mn.length = (dMain * hourly * 24).toNat := by
    rw [m1.length_eq, pyRange_length]; simp
  have main' : Run ss (3600 / (hourly : ℝ)) (after c0 up) (pyRange 0 (dMain * hourly * 24)) mn := by rw [u2] at m1; exact m1
  subst e
  refine ⟨gs, c0, up, mn, ?_⟩
  refine {
    days := not_lt.mp hd, hourly_ne := hh, nMain_eq := rfl, nMain_nonneg := not_lt.mp hneg, pre := hss, ground := g1, ground_last := g2,
    start := hc0, runUp := u1, main := main', final := ?_, logged := ?_, mn_length := hlen }
  · show s2.1 = _
    rw [after_append, m2, u2]
  · intro k hk
    have hk' : (k : ℕ) < (pyRange 0 (dMain * hourly * 24)).length := by rw [← m1.length_eq]; exact hk
    apply m3 ((pyRange 0 (dMain * hourly * 24))[(k : ℕ)], mn[(k : ℕ)])
    · rw [List.mem_iff_getElem]
      refine ⟨k, by rw [List.length_zip]; omega, by simp⟩
    · simp [pyRange_getElem]

end

end HLC
