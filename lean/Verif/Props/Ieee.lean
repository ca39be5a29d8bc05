import Verif.Model.Ieee
import Verif.Spec.Absorbs
import Verif.Spec.WellFormed
import Verif.Props.Duplex
import Verif.Props.Response

/-!
# C115: rooms without a surface that absorbs the sun
-/

namespace HLC

open Spec

namespace Fl

@[simp] theorem num_add (x y : ℝ) : num x + num y = num (x + y) := rfl
@[simp] theorem num_mul (x y : ℝ) : num x * num y = num (x * y) := rfl

theorem num_div {x y : ℝ} (h : y ≠ 0) : num x / num y = num (x / y) := by simp [div_def, div, h]

@[simp] theorem nan_add (a : Fl) : nan + a = nan := by cases a <;> rfl
@[simp] theorem add_nan (a : Fl) : a + nan = nan := by cases a <;> rfl
@[simp] theorem nan_mul (a : Fl) : nan * a = nan := by cases a <;> rfl
@[simp] theorem mul_nan (a : Fl) : a * nan = nan := by cases a <;> rfl

/-- Something over zero, times zero, is `nan`. -/
theorem zero_mul_div_zero (x : ℝ) : num 0 * (num x / num 0) = nan := by
  by_cases h : x = 0 <;> simp [div_def, div, mul_def, mul, mulInf, h]

theorem sum_num {K : Type} (s : Finset K) (f : K → ℝ) : ∑ k ∈ s, num (f k) = num (∑ k ∈ s, f k) := by
  classical
  induction s using Finset.induction_on with
  | empty => rfl
  | insert a s ha ih => rw [Finset.sum_insert ha, Finset.sum_insert ha, ih]; rfl

theorem sum_nan {K : Type} {s : Finset K} {f : K → Fl} {k : K} (hk : k ∈ s) (h : f k = nan) : ∑ k ∈ s, f k = nan := by
  classical
  rw [← Finset.add_sum_erase s f hk, h, nan_add]

end Fl

section
variable {I J : Type} [Fintype I] [DecidableEq I] [Fintype J] [DecidableEq J] {N : ℕ}

theorem flDot_num {K : Type} [Fintype K] (a v : K → ℝ) : flDot a (fun k => Fl.num (v k)) = Fl.num (∑ k, a k * v k) := by
  simp [flDot, Fl.sum_num]

theorem flDot_nan {K : Type} [Fintype K] (a : K → ℝ) {v : K → Fl} {k : K} (h : v k = .nan) : flDot a v = .nan :=
  Fl.sum_nan (Finset.mem_univ k) (by rw [h, Fl.mul_nan])

theorem flDot_nan_of {K : Type} [Fintype K] {a : K → ℝ} {v : K → Fl} {k : K} (h : Fl.num (a k) * v k = .nan) : flDot a v = .nan :=
  Fl.sum_nan (Finset.mem_univ k) h

omit [Fintype I] [DecidableEq J] in
/-- With surfaces of positive area, the absorbing area of a room is zero exactly if none of its surfaces absorbs the sun. -/
theorem C115_area {h : House I J} (harea : ∀ j, 0 < h.area j) (i : I) : h.aSrfAbs i = 0 ↔ ¬ Absorbs h i := by
  have hnn : ∀ j ∈ Finset.univ, 0 ≤ h.p i j * (h.area j * ind (h.solarAbs j)) := fun j _ => by
    simp only [House.p, Matrix.of_apply, ind]
    split_ifs <;> simp [(harea j).le]
  unfold House.aSrfAbs
  rw [Finset.sum_eq_zero_iff_of_nonneg hnn]
  constructor
  · rintro H ⟨j, hj, ha⟩
    have := H j (Finset.mem_univ j)
    simp [House.p, hj, ind, ha, (harea j).ne'] at this
  · intro H j _
    by_cases hj : h.room j = i
    · have : h.solarAbs j = false := by
        by_contra hc
        exact H ⟨j, hj, by simpa using hc⟩
      simp [ind, this]
    · simp [House.p, hj]

/-- **C115** When every room has a surface that absorbs the sun, the surface temperatures computed with numpy's numbers are those
of the model with real numbers: no `nan` or infinity arises. -/
theorem C115_numbers {h : House I J} {hR : J → ℝ} {dt : ℝ} (harea : ∀ j, 0 < h.area j) (hh : ∀ j, 0 < h.hC j + hR j)
    (habs : ∀ i, Absorbs h i) (ivs : Matrix J J ℝ) (data : Fin N → Record I J) (k : Fin N) (thetaR lr : I → ℝ) (wsv : J → ℝ) (j : J) :
    h.thetaSFl hR ivs (data k) (fun i => .num (thetaR i)) (fun i => .num (lr i)) (fun j => .num (wsv j)) j
      = .num (Tick.thetaS (preCalcOf h hR dt data ivs) k thetaR lr wsv j) := by
  have ha : ∀ i, h.aSrfAbs i ≠ 0 := fun i e => ((C115_area harea i).1 e) (habs i)
  have hq : h.qSolFl (data k) = fun j => .num (h.qSol (data k) j) := by
    funext j
    simp only [House.qSolFl, Fl.num_div (ha _), flDot_num, Fl.num_mul, House.qSol]
  have hc : h.crxFl hR (data k) = fun j => .num (h.crx hR (data k) j) := by
    funext j
    have : h.hI hR j ≠ 0 := (hh j).ne'
    simp only [House.crxFl, hq, Fl.num_div this, flDot_num, Fl.num_mul, Fl.num_add, House.crx, Matrix.mulVec, dotProduct]
  simp only [House.thetaSFl, House.wscFl, hc, flDot_num, Fl.num_add, Tick.thetaS, preCalcOf, Matrix.mulVec, dotProduct]

omit [DecidableEq J] in
/-- **C115, violated for the other rooms** One room without a surface that absorbs the sun makes the absorbed radiation of
*every* surface of the house `nan`, at every hour and whether the sun shines or not. -/
theorem C115_radiation_violated {h : House I J} (harea : ∀ j, 0 < h.area j) {i : I} (hi : ¬ Absorbs h i) (d : Record I J) (j : J) :
    h.qSolFl d j = .nan := by
  have ha := (C115_area harea i).2 hi
  unfold House.qSolFl
  by_cases hj : h.room j = i
  · have hs : h.solarAbs j = false := by
      by_contra hc
      exact hi ⟨j, hj, by simpa using hc⟩
    have hdot : ∀ v : I → Fl, flDot (fun i => h.p i j) v * Fl.num 0 = .nan ∨ ∃ x, flDot (fun i => h.p i j) v = .num x := by
      intro v
      rcases flDot (fun i => h.p i j) v with x | b | _
      · exact .inr ⟨x, rfl⟩
      · left; simp [Fl.mul_def, Fl.mul, Fl.mulInf]
      · left; rfl
    have hs' : ind (h.solarAbs j) = 0 := by simp [ind, hs]
    rw [hs']
    rcases hdot (fun i => Fl.num (d.qTrsSol i) / Fl.num (h.aSrfAbs i)) with e | ⟨x, e⟩
    · rw [e, Fl.nan_mul]
    · exfalso
      have key : flDot (fun i => h.p i j) (fun i => Fl.num (d.qTrsSol i) / Fl.num (h.aSrfAbs i)) ≠ .num x := by
        unfold flDot
        rw [← Finset.add_sum_erase _ _ (Finset.mem_univ i)]
        have : Fl.num (h.p i j) * (Fl.num (d.qTrsSol i) / Fl.num (h.aSrfAbs i)) = .nan
            ∨ ∃ b, Fl.num (h.p i j) * (Fl.num (d.qTrsSol i) / Fl.num (h.aSrfAbs i)) = .inf b := by
          rw [ha]
          by_cases hx : d.qTrsSol i = 0
          · left; simp [Fl.div_def, Fl.div, hx]
          · right
            exact ⟨_, by simp [House.p, hj, Fl.div_def, Fl.div, hx, Fl.mul_def, Fl.mul, Fl.mulInf]; rfl⟩
        rcases this with e | ⟨b, e⟩
        · rw [e, Fl.nan_add]; simp
        · rw [e]
          rcases (∑ x ∈ Finset.univ.erase i, Fl.num (h.p x j) * (Fl.num (d.qTrsSol x) / Fl.num (h.aSrfAbs x))) with y | c | _
          · simp [Fl.add_def, Fl.add]
          · simp only [Fl.add_def, Fl.add]; split_ifs <;> simp
          · simp
      exact key e
  · rw [flDot_nan_of (k := i) (by rw [ha]; simp [House.p, hj, Fl.zero_mul_div_zero])]
    simp

/-- **C115, violated for the other rooms** One room without a surface that absorbs the sun makes the temperature of every surface
and the mean radiant temperature of every room of the house `nan`, in every step and whatever else happens in it. -/
theorem C115_temperatures_violated {h : House I J} {hR : J → ℝ} (harea : ∀ j, 0 < h.area j) {i : I} (hi : ¬ Absorbs h i)
    (ivs : Matrix J J ℝ) (d : Record I J) (thetaR lr : I → Fl) (wsv : J → Fl) (j : J) :
    h.thetaSFl hR ivs d thetaR lr wsv j = .nan ∧ ∀ l, h.thetaMrtFl (h.thetaSFl hR ivs d thetaR lr wsv) l = .nan := by
  have hs : ∀ j, h.thetaSFl hR ivs d thetaR lr wsv j = .nan := by
    intro j
    have hc : h.crxFl hR d j = .nan := by
      unfold House.crxFl
      rw [C115_radiation_violated harea hi d j]
      simp
    have hw : h.wscFl hR ivs d j = .nan := flDot_nan _ hc
    unfold House.thetaSFl
    rw [hw]
    simp
  exact ⟨hs j, fun l => flDot_nan _ (hs j)⟩

omit [DecidableEq J] in
/-- In a well-formed house in which every room has a surface that absorbs the sun, none of the denominators of the coefficients
(`core/pre_calc_parameters.py` 484-526, `core/shape_factor.py` 42) and of the step (`core/sequence.py` 128-238) that depend on the
input is zero: the quotients of the model are those of numpy. -/
theorem C115_denominators {h : House I J} {hR : J → ℝ} {dt : ℝ} (hw : WellFormed h hR dt) (habs : ∀ i, Absorbs h i) :
    (∀ i, h.aSrfAbs i ≠ 0) ∧ (∀ i, ∑ j, h.p i j * (h.area j * hR j) ≠ 0) ∧ (∀ j, h.hI hR j ≠ 0) ∧ (∀ j, h.area j ≠ 0)
      ∧ (∀ i, h.cSh i + h.gSh i * dt ≠ 0) ∧ (∀ i, h.cLh i + dt * h.gLh i ≠ 0) ∧ dt ≠ 0 := by
  refine ⟨fun i e => ((C115_area hw.area_pos i).1 e) (habs i), fun i => ?_, fun j => (add_pos (hw.hC_pos j) (hw.hR_pos j)).ne',
    fun j => (hw.area_pos j).ne', fun i => ?_, fun i => ?_, hw.dt_pos.ne'⟩
  · obtain ⟨j, hj, _⟩ := habs i
    refine (lt_of_lt_of_le (mul_pos (hw.area_pos j) (hw.hR_pos j)) ?_).ne'
    have := Finset.single_le_sum (s := Finset.univ) (f := fun j => h.p i j * (h.area j * hR j)) (fun l _ => by
      simp only [House.p, Matrix.of_apply]
      have := mul_pos (hw.area_pos l) (hw.hR_pos l)
      split_ifs <;> simp [this.le]) (Finset.mem_univ j)
    simpa [House.p, hj] using this
  · have h1 := hw.cSh_nonneg i
    have h2 := hw.gSh_nonneg i
    have h3 := hw.frtSh_pos i
    have hd := hw.dt_pos
    rcases h1.eq_or_lt with e | e
    · rw [← e] at h3 ⊢
      have : 0 < h.gSh i := by linarith
      nlinarith [mul_pos this hd]
    · nlinarith [mul_nonneg h2 hd.le]
  · have h1 := hw.cLh_nonneg i
    have h2 := hw.gLh_nonneg i
    have h3 := hw.frtLh_pos i
    have hd := hw.dt_pos
    rcases h1.eq_or_lt with e | e
    · rw [← e] at h3 ⊢
      have : 0 < h.gLh i := by linarith
      nlinarith [mul_pos this hd]
    · nlinarith [mul_nonneg h2 hd.le]

end

/-- The two rooms of `exDuplex`; the surface of the second room does not absorb the sun. -/
noncomputable def exShaded : House (Fin 2) (Fin 2) := { exDuplex with solarAbs := fun j => decide (j = 0) }

/-- Every room of `exDuplex` absorbs the sun, the second room of `exShaded` does not. -/
example : (∀ i, Absorbs exDuplex i) ∧ Absorbs exShaded 0 ∧ ¬ Absorbs exShaded 1 :=
  ⟨fun i => ⟨i, rfl, rfl⟩, ⟨0, rfl, by simp [exShaded]⟩, fun ⟨j, hj, ha⟩ => by
    have hj : j = 1 := hj
    subst hj
    simp [exShaded] at ha⟩

/-- The surface of the first room of `exShaded` has no temperature, although it absorbs the sun itself. -/
example (hR : Fin 2 → ℝ) (ivs : Matrix (Fin 2) (Fin 2) ℝ) (d : Record (Fin 2) (Fin 2)) :
    exShaded.thetaSFl hR ivs d (fun _ => .num 20) (fun _ => .num 0) (fun _ => .num 0) 0 = .nan :=
  (C115_temperatures_violated (h := exShaded) (i := 1) (fun _ => by norm_num [exShaded, exDuplex]) (fun ⟨j, hj, ha⟩ => by
    have hj : j = 1 := hj
    subst hj
    simp [exShaded] at ha) ivs d _ _ _ 0).1

namespace RF

/-- The matrix of a layer with resistance, entry by entry. -/
theorem layerFl_num {s : ℝ} (hs : 0 < s) {l : Layer} (hr : 0 < l.r) (hc : 0 ≤ l.c) (i j : Fin 2) :
    layerFl s l i j = .num (layerMat s l i j) := by
  unfold layerFl layerMat
  split_ifs with h
  · fin_cases i <;> fin_cases j <;> rfl
  · have hc' : 0 < l.c := by
      rcases hc.eq_or_lt with e | e
      · rw [← e] at h; norm_num at h
      · exact e
    have ht : Real.sqrt (l.r * l.c * s) ≠ 0 := (Real.sqrt_pos.2 (by positivity)).ne'
    fin_cases i <;> fin_cases j <;> simp [Fl.num_div ht, Fl.num_div hr.ne']

theorem wallFl_num {s : ℝ} (hs : 0 < s) : ∀ (ls : List Layer), (∀ l ∈ ls, 0 < l.r ∧ 0 ≤ l.c) →
    ∀ (m : Matrix (Fin 2) (Fin 2) Fl) (m' : Matrix (Fin 2) (Fin 2) ℝ), (∀ i j, m i j = .num (m' i j)) →
    ∀ i j, ls.foldl (fun m l => dotFl m (layerFl s l)) m i j = .num (ls.foldl (fun m l => m * layerMat s l) m' i j)
  | [], _, _, _, hm, i, j => hm i j
  | l :: ls, hl, m, m', hm, i, j => by
    rw [List.foldl_cons, List.foldl_cons]
    refine wallFl_num hs ls (fun l h => hl l (List.mem_cons_of_mem _ h)) _ _ (fun i j => ?_) i j
    obtain ⟨hr, hc⟩ := hl l List.mem_cons_self
    simp [dotFl, hm, layerFl_num hs hr hc, Matrix.mul_apply, Fin.sum_univ_two]

/-- **C115 (walls).** For layers that all have a resistance, the transfer function computed with numpy's numbers is that of the
model with real numbers. -/
theorem C115_wall_numbers {l : Layer} {ls : List Layer} (hw : PhysicalWall (l :: ls)) {s : ℝ} (hs : 0 < s) :
    gAFl l ls s = .num (gA (l :: ls) s) := by
  obtain ⟨hr, hc⟩ := hw.2 l List.mem_cons_self
  have e : ∀ i j, wallFl s l ls i j = .num (wallMat s (l :: ls) i j) :=
    wallFl_num hs ls (fun l h => hw.2 l (List.mem_cons_of_mem _ h)) _ _ (layerFl_num hs hr hc)
  have hd : wallMat s (l :: ls) 1 1 ≠ 0 := by
    have := (wallMat_entries hs (l :: ls) hw.2).1
    linarith
  rw [gAFl, e, e, Fl.num_div hd, Fl.num_add, gA, sub_eq_add_neg]

/-- A matrix with `nan` off the diagonal. -/
def Spoilt (m : Matrix (Fin 2) (Fin 2) Fl) : Prop := m 0 1 = .nan ∧ m 1 0 = .nan

theorem layerFl_spoilt (s : ℝ) {l : Layer} (hr : l.r = 0) (hc : 0.001 ≤ |l.c|) : Spoilt (layerFl s l) := by
  unfold layerFl
  rw [if_neg (not_lt.2 hc)]
  constructor <;> simp [hr, Fl.div_def, Fl.div]

theorem Spoilt.dot_left {m : Matrix (Fin 2) (Fin 2) Fl} (h : Spoilt m) (m' : Matrix (Fin 2) (Fin 2) Fl) : Spoilt (dotFl m m') := by
  constructor <;> simp [dotFl, h.1, h.2]

theorem Spoilt.dot_right {m : Matrix (Fin 2) (Fin 2) Fl} (h : Spoilt m) (m' : Matrix (Fin 2) (Fin 2) Fl) : Spoilt (dotFl m' m) := by
  constructor <;> simp [dotFl, h.1, h.2]

theorem spoilt_foldl (s : ℝ) : ∀ (ls : List Layer) (m : Matrix (Fin 2) (Fin 2) Fl),
    (Spoilt m ∨ ∃ l ∈ ls, l.r = 0 ∧ 0.001 ≤ |l.c|) → Spoilt (ls.foldl (fun m l => dotFl m (layerFl s l)) m)
  | [], _, h => by
    rcases h with h | ⟨l, hl, _⟩
    · exact h
    · cases hl
  | l :: ls, m, h => by
    rw [List.foldl_cons]
    refine spoilt_foldl s ls _ ?_
    rcases h with h | ⟨k, hk, hr, hc⟩
    · exact .inl (h.dot_left _)
    · rcases List.mem_cons.1 hk with rfl | hk
      · exact .inl ((layerFl_spoilt s hr hc).dot_right _)
      · exact .inr ⟨k, hk, hr, hc⟩

/-- **C115 (walls), violated for a layer without resistance.** A layer that stores heat but is entered without resistance, for
instance a thin sheet, makes the transfer function of the whole wall and its first response factor `nan`, whatever the other
layers. -/
theorem C115_wall_violated {n : ℕ} (alp : Fin (n + 1) → ℝ) (inv : Matrix (Fin (n + 1)) (Fin (n + 1)) ℝ) {l k : Layer} {ls : List Layer}
    (hk : k ∈ l :: ls) (hr : k.r = 0) (hc : 0.001 ≤ |k.c|) : (∀ s, gAFl l ls s = .nan) ∧ rfa0Fl alp inv l ls = .nan := by
  have hg : ∀ s, gAFl l ls s = .nan := by
    intro s
    have : Spoilt (wallFl s l ls) := by
      refine spoilt_foldl s ls _ ?_
      rcases List.mem_cons.1 hk with rfl | hk
      · exact .inl (layerFl_spoilt s hr hc)
      · exact .inr ⟨k, hk, hr, hc⟩
    rw [gAFl, this.1]
    have : ∀ a : Fl, Fl.nan / a = .nan := fun a => by cases a <;> rfl
    rw [this, Fl.nan_add]
  refine ⟨hg, ?_⟩
  have hf : fitFl (getLaps alp) alp inv (fun i => gAFl l ls (getLaps alp i)) 0 = .nan :=
    flDot_nan _ (k := 0) (flDot_nan _ (k := ⟨0, by omega⟩) (hg _))
  rw [rfa0Fl, flDot_nan _ hf, Fl.add_nan]

/-- A steel sheet without resistance on a board. -/
example (inv : Matrix (Fin 8) (Fin 8) ℝ) : rfa0Fl alphaWall inv ⟨0.06, 10000⟩ [⟨0, 3600⟩, ⟨0.04, 0⟩] = .nan :=
  (C115_wall_violated alphaWall inv (k := ⟨0, 3600⟩) (by simp) rfl (by norm_num)).2

end RF

end HLC
